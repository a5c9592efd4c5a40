import Verif.SortP.Legacy

/-!
# C06–C09: the particle sort

Specification: `IsStableSort key L L'` says that `L'` is a rearrangement of `L`, ordered by `key`,
in which particles with equal key keep their relative order.  `Locates key n p part v` says that the
particles of voxel `v` are exactly those at indices `part v ≤ i < part (v+1)`.
-/
namespace Verif.SortP
open Verif Verif.Distribute

variable {α : Type}

/-- Spec: stable sort. -/
structure IsStableSort (key : α → ℤ) (L L' : List α) : Prop where
  perm : L'.Perm L
  sorted : L'.Pairwise (fun x y => key x ≤ key y)
  stable : ∀ v, L'.filter (fun x => key x = v) = L.filter (fun x => key x = v)

/-- Spec: the partition table locates voxel `v`. -/
def Locates (key : α → ℤ) (n : ℕ) (p : ℤ → α) (part : ℤ → ℤ) (v : ℤ) : Prop :=
  ∀ i : ℤ, 0 ≤ i → i < n → (key (p i) = v ↔ part v ≤ i ∧ i < part (v + 1))

/-- The specification determines the answer: two stable sorts of the same list are equal. -/
theorem stableSort_unique (key : α → ℤ) (L A B : List α) (hA : IsStableSort key L A)
    (hB : IsStableSort key L B) : A = B := by
  have aux : ∀ (A B : List α), A.Pairwise (fun x y => key x ≤ key y) →
      B.Pairwise (fun x y => key x ≤ key y) →
      (∀ v, A.filter (fun x => key x = v) = B.filter (fun x => key x = v)) → A = B := by
    intro A
    induction A with
    | nil =>
      intro B _ _ h
      cases B with
      | nil => rfl
      | cons y B => have := h (key y); simp at this
    | cons x A ih =>
      intro B hA hB h
      cases B with
      | nil => have := h (key x); simp at this
      | cons y B =>
        rw [List.pairwise_cons] at hA hB
        have hx : x ∈ y :: B := by
          have : x ∈ (y :: B).filter (fun z => key z = key x) := by rw [← h]; simp
          exact (List.mem_filter.mp this).1
        have hy : y ∈ x :: A := by
          have : y ∈ (x :: A).filter (fun z => key z = key y) := by rw [h]; simp
          exact (List.mem_filter.mp this).1
        have e : key x = key y := by
          apply le_antisymm
          · rcases List.mem_cons.mp hy with h | h
            · rw [h]
            · exact hA.1 y h
          · rcases List.mem_cons.mp hx with h | h
            · rw [h]
            · exact hB.1 x h
        have hxy := h (key x)
        rw [List.filter_cons, List.filter_cons] at hxy
        simp only [e, decide_true, if_true, List.cons.injEq] at hxy
        obtain ⟨rfl, -⟩ := hxy
        congr 1
        apply ih B hA.2 hB.2
        intro v
        have hv := h v
        rw [List.filter_cons, List.filter_cons] at hv
        split at hv
        · exact (List.cons.inj hv).2
        · exact hv
  exact aux A B hA.sorted hB.sorted (fun v => (hA.stable v).trans (hB.stable v).symm)

lemma buckets_stable (key : α → ℤ) (a b : ℤ) (L : List α) (h : ∀ x ∈ L, a ≤ key x ∧ key x < b) :
    IsStableSort key L (buckets key a b L) := by
  refine ⟨buckets_perm key L h, ?_, ?_⟩
  · unfold buckets
    rw [List.pairwise_flatMap]
    refine ⟨?_, ?_⟩
    · intro v _
      rw [List.pairwise_filter]
      apply List.pairwise_of_forall
      intro x y hx hy
      simp at hx hy; omega
    · have : (seg a b).Pairwise (· < ·) := by
        unfold seg
        rw [List.pairwise_map]
        exact List.pairwise_lt_range.imp (by intro x y h; omega)
      refine this.imp ?_
      intro u v huv x hx y hy
      rw [List.mem_filter] at hx hy
      have e1 : key x = u := by simpa using hx.2
      have e2 : key y = v := by simpa using hy.2
      omega
  · intro v
    have key2 : ∀ ks : List ℤ, ks.Nodup → (ks.flatMap fun u => L.filter (fun x => key x = u)).filter
        (fun x => key x = v) = if v ∈ ks then L.filter (fun x => key x = v) else [] := by
      intro ks
      induction ks with
      | nil => simp
      | cons k ks ih =>
        intro hn
        rw [List.nodup_cons] at hn
        rw [List.flatMap_cons, List.filter_append, ih hn.2, List.filter_filter]
        by_cases hk : v = k
        · subst hk
          simp [hn.1]
        · have h1 : L.filter (fun x => decide (key x = v) && decide (key x = k)) = [] := by
            rw [List.filter_eq_nil_iff]
            intro x _
            simp; omega
          rw [h1]
          simp [hk]
    unfold buckets
    rw [key2 _ (seg_nodup a b)]
    split
    · rfl
    · rename_i hv
      symm
      rw [List.filter_eq_nil_iff]
      intro x hx
      have := h x hx
      rw [mem_seg] at hv
      simp; omega

lemma locates_of_buckets (key : α → ℤ) (a b : ℤ) (L : List α) (n : ℕ) (p : ℤ → α) (part : ℤ → ℤ)
    (hab : a ≤ b) (hL : ∀ x ∈ L, a ≤ key x ∧ key x < b) (hp : Holds p (buckets key a b L))
    (hn : (buckets key a b L).length = n) (v : ℤ)
    (h1 : part v = (buckets key a v L).length)
    (h2 : part (v + 1) = (buckets key a (v + 1) L).length) : Locates key n p part v := by
  -- index `i` has key below `u` iff it lies in the first block
  have below : ∀ u : ℤ, ∀ i : ℤ, 0 ≤ i → i < n →
      (key (p i) < u ↔ i < (buckets key a u L).length) := by
    intro u i h0 h1
    obtain ⟨k, rfl⟩ := Int.eq_ofNat_of_zero_le h0
    have hk : k < (buckets key a b L).length := by omega
    have hpk : p k = (buckets key a b L)[k] := hp k _ (List.getElem?_eq_getElem hk)
    rcases lt_or_ge u a with hu | hu
    · have hmem : p k ∈ L := by
        rw [hpk]; exact (buckets_perm key L hL).mem_iff.mp (List.getElem_mem hk)
      have := hL _ hmem
      rw [show buckets key a u L = [] by simp [buckets, seg_nil hu.le]]
      simp; omega
    · rcases lt_or_ge b u with hub | hub
      · have hmem : p k ∈ L := by
          rw [hpk]; exact (buckets_perm key L hL).mem_iff.mp (List.getElem_mem hk)
        have := hL _ hmem
        rw [buckets_eq_of_range key (a := a) (b := u) (c := a) (d := b) L le_rfl hub.le hab hL]
        constructor <;> intro _ <;> omega
      · have hsplit := buckets_append key hu hub L
        constructor
        · intro hlt
          by_contra hge
          have hk2 : k - (buckets key a u L).length < (buckets key u b L).length := by
            rw [hsplit, List.length_append] at hk; omega
          have hpk2 : (buckets key a b L)[k]? = (buckets key u b L)[k - (buckets key a u L).length]? := by
            rw [hsplit, List.getElem?_append_right (by omega)]
          rw [List.getElem?_eq_getElem hk, List.getElem?_eq_getElem hk2, Option.some.injEq] at hpk2
          have hm : p k ∈ buckets key u b L := by rw [hpk, hpk2]; exact List.getElem_mem _
          simp only [buckets, List.mem_flatMap, mem_seg, List.mem_filter] at hm
          obtain ⟨w, hw, -, he⟩ := hm
          simp at he; omega
        · intro hlt
          have hk2 : k < (buckets key a u L).length := by omega
          have hpk2 : (buckets key a b L)[k]? = (buckets key a u L)[k]? := by
            rw [hsplit, List.getElem?_append_left hk2]
          rw [List.getElem?_eq_getElem hk, List.getElem?_eq_getElem hk2, Option.some.injEq] at hpk2
          have hm : p k ∈ buckets key a u L := by rw [hpk, hpk2]; exact List.getElem_mem _
          simp only [buckets, List.mem_flatMap, mem_seg, List.mem_filter] at hm
          obtain ⟨w, hw, -, he⟩ := hm
          simp at he; omega
  intro i h0 hi
  have b1 := below v i h0 hi
  have b2 := below (v + 1) i h0 hi
  rw [h1, h2]
  omega

/-! ## The pipeline sort -/

/-- The particles are in the local (non-ghost) part of the mesh: between the first and the last
interior voxel. -/
def InDomain (key : α → ℤ) (nx ny nz : ℤ) (L : List α) : Prop :=
  ∀ x ∈ L, (1 + (nx + 2) * (1 + (ny + 2) * 1)) ≤ key x ∧
    key x ≤ (nx + (nx + 2) * (ny + (ny + 2) * nz))

lemma sortP_spec (R : Rounding) (hR : R.Accurate) (key : α → ℤ) (S : Schedules α) (g : Scratch α)
    (P : ℕ) (hP : 0 < P) (hP2 : P ≤ 256) (nx ny nz : ℤ) (hx : 1 ≤ nx) (hy : 1 ≤ ny) (hz : 1 ≤ nz)
    (np : ℕ) (hn : np < 2 ^ 31) (p : ℤ → α) (part : ℤ → ℤ)
    (hL : InDomain key nx ny nz (contents p np)) :
    ∃ p' part', sortP R key S g P nx ny nz np p part = some (p', part') ∧
      Holds p' (buckets key (1 + (nx + 2) * (1 + (ny + 2) * 1))
        (nx + (nx + 2) * (ny + (ny + 2) * nz) + 1) (contents p np)) ∧
      (∀ j : ℤ, (j < 0 ∨ np ≤ j) → p' j = p j) ∧
      (∀ v : ℤ, 0 ≤ v → v < (nx + 2) * (ny + 2) * (nz + 2) →
        part' v = (buckets key (1 + (nx + 2) * (1 + (ny + 2) * 1)) v (contents p np)).length) ∧
      part' ((nx + 2) * (ny + 2) * (nz + 2)) = part ((nx + 2) * (ny + 2) * (nz + 2)) := by
  have hw : 0 < nx + 2 := by omega
  have hh : 0 < ny + 2 := by omega
  have e1 : (nx + 2) * (1 + (ny + 2) * 1) = (nx + 2) * (ny + 3) := by ring
  have e2 : nx + (nx + 2) * (ny + (ny + 2) * nz) + 2 + (nx + 2) + (nx + 2) * (ny + 2)
      = (nx + 2) * (ny + 2) * (nz + 2) := by ring
  have m1 : 0 < (nx + 2) * (ny + 2) := by positivity
  have m2 : (nx + 2) * (1 + (ny + 2) * 1) ≤ (nx + 2) * (ny + (ny + 2) * nz) := by
    apply mul_le_mul_of_nonneg_left _ hw.le
    have : (ny + 2) * 1 ≤ (ny + 2) * nz := mul_le_mul_of_nonneg_left hz hh.le
    omega
  have m3 : 0 ≤ (nx + 2) * (1 + (ny + 2) * 1) := by positivity
  obtain ⟨p', part', h1, h2, h3, h4, h5⟩ := sortArgs_spec R hR key S g
    { n := np, nPipeline := P, nSubsort := P
      vl := Grid.VOXEL nx ny 1 1 1, vh := Grid.VOXEL nx ny nx ny nz
      nVoxel := (nx + 2) * (ny + 2) * (nz + 2) } p part rfl hP hP2 hn
      (by simp only [Grid.VOXEL]; omega) (by simp only [Grid.VOXEL]; omega)
      (by simp only [Grid.VOXEL]; omega) hL
  refine ⟨p', part', h1, h2, h3, h4, ?_⟩
  rw [if_neg (by simp only [Grid.VOXEL]; omega)] at h5
  exact h5

/-- **C06, C08.** For every rounding, schedule, scratch memory contents, pipeline count up to 256,
mesh and particle list: the sort succeeds without out-of-bounds access or data race, its result is
the stable sort of the particles by voxel, and memory beyond the particle list is untouched. -/
theorem sort_stable (R : Rounding) (hR : R.Accurate) (key : α → ℤ) (S : Schedules α)
    (g : Scratch α) (P : ℕ) (hP : 0 < P) (hP2 : P ≤ 256) (nx ny nz : ℤ) (hx : 1 ≤ nx) (hy : 1 ≤ ny)
    (hz : 1 ≤ nz) (np : ℕ) (hn : np < 2 ^ 31) (p : ℤ → α) (part : ℤ → ℤ)
    (hL : InDomain key nx ny nz (contents p np)) :
    ∃ p' part', sortP R key S g P nx ny nz np p part = some (p', part') ∧
      IsStableSort key (contents p np) (contents p' np) ∧
      (∀ j : ℤ, (j < 0 ∨ np ≤ j) → p' j = p j) := by
  obtain ⟨p', part', h1, h2, h3, -, -⟩ :=
    sortP_spec R hR key S g P hP hP2 nx ny nz hx hy hz np hn p part hL
  refine ⟨p', part', h1, ?_, h3⟩
  have hs := buckets_stable key (1 + (nx + 2) * (1 + (ny + 2) * 1))
    (nx + (nx + 2) * (ny + (ny + 2) * nz) + 1) (contents p np)
    (fun x hx => by have := hL x hx; omega)
  rw [contents_of_holds h2 (by rw [hs.perm.length_eq, length_contents])]
  exact hs

/-- **C07.** After the sort the partition table locates the particles of every voxel `v` of the
mesh (all voxels but the very last ghost voxel, whose end entry is not written, see
`sort_partition_end_untouched`). -/
theorem sort_partition (R : Rounding) (hR : R.Accurate) (key : α → ℤ) (S : Schedules α)
    (g : Scratch α) (P : ℕ) (hP : 0 < P) (hP2 : P ≤ 256) (nx ny nz : ℤ) (hx : 1 ≤ nx) (hy : 1 ≤ ny)
    (hz : 1 ≤ nz) (np : ℕ) (hn : np < 2 ^ 31) (p : ℤ → α) (part : ℤ → ℤ)
    (hL : InDomain key nx ny nz (contents p np)) (p' : ℤ → α) (part' : ℤ → ℤ)
    (hrun : sortP R key S g P nx ny nz np p part = some (p', part')) :
    ∀ v : ℤ, 0 ≤ v → v + 1 < (nx + 2) * (ny + 2) * (nz + 2) → Locates key np p' part' v := by
  obtain ⟨q, qart, h1, h2, -, h4, -⟩ :=
    sortP_spec R hR key S g P hP hP2 nx ny nz hx hy hz np hn p part hL
  obtain ⟨rfl, rfl⟩ : q = p' ∧ qart = part' := by
    rw [h1, Option.some.injEq, Prod.mk.injEq] at hrun; exact hrun
  intro v h0 hv
  have hLL : ∀ x ∈ contents p np, (1 + (nx + 2) * (1 + (ny + 2) * 1)) ≤ key x ∧
    key x < (nx + (nx + 2) * (ny + (ny + 2) * nz)) + 1 := fun x hx => by have := hL x hx; omega
  have m2 : (nx + 2) * (1 + (ny + 2) * 1) ≤ (nx + 2) * (ny + (ny + 2) * nz) := by
    apply mul_le_mul_of_nonneg_left _ (by omega)
    have : (ny + 2) * 1 ≤ (ny + 2) * nz := mul_le_mul_of_nonneg_left hz (by omega)
    omega
  refine locates_of_buckets key _ _ _ np q qart (by omega) hLL h2 ?_ v (h4 v h0 (by omega))
    (h4 (v + 1) (by omega) hv)
  rw [(buckets_perm key _ hLL).length_eq, length_contents]

/-- **C08.** The result does not depend on the pipeline count, the schedule, the rounding or the
contents of the scratch memory. -/
theorem sort_deterministic (R R' : Rounding) (hR : R.Accurate) (hR' : R'.Accurate) (key : α → ℤ)
    (S S' : Schedules α) (g g' : Scratch α) (P P' : ℕ) (hP : 0 < P) (hP2 : P ≤ 256) (hP' : 0 < P')
    (hP2' : P' ≤ 256) (nx ny nz : ℤ) (hx : 1 ≤ nx) (hy : 1 ≤ ny) (hz : 1 ≤ nz) (np : ℕ)
    (hn : np < 2 ^ 31) (p : ℤ → α) (part part0 : ℤ → ℤ)
    (hL : InDomain key nx ny nz (contents p np)) (q q' : ℤ → α) (r r' : ℤ → ℤ)
    (h : sortP R key S g P nx ny nz np p part = some (q, r))
    (h' : sortP R' key S' g' P' nx ny nz np p part0 = some (q', r')) :
    q = q' ∧ ∀ v, 0 ≤ v → v < (nx + 2) * (ny + 2) * (nz + 2) → r v = r' v := by
  obtain ⟨q1, r1, e1, a1, b1, c1, -⟩ :=
    sortP_spec R hR key S g P hP hP2 nx ny nz hx hy hz np hn p part hL
  obtain ⟨q2, r2, e2, a2, b2, c2, -⟩ :=
    sortP_spec R' hR' key S' g' P' hP' hP2' nx ny nz hx hy hz np hn p part0 hL
  obtain ⟨rfl, rfl⟩ : q1 = q ∧ r1 = r := by
    rw [e1, Option.some.injEq, Prod.mk.injEq] at h; exact h
  obtain ⟨rfl, rfl⟩ : q2 = q' ∧ r2 = r' := by
    rw [e2, Option.some.injEq, Prod.mk.injEq] at h'; exact h'
  refine ⟨?_, fun v h0 h1 => by rw [c1 v h0 h1, c2 v h0 h1]⟩
  funext j
  by_cases hj : j < 0 ∨ (np : ℤ) ≤ j
  · rw [b1 j hj, b2 j hj]
  · obtain ⟨k, rfl⟩ := Int.eq_ofNat_of_zero_le (by omega : 0 ≤ j)
    have hlen : (buckets key (1 + (nx + 2) * (1 + (ny + 2) * 1))
        (nx + (nx + 2) * (ny + (ny + 2) * nz) + 1) (contents p np)).length = np := by
      rw [(buckets_perm key _ (fun x hx => by have := hL x hx; omega)).length_eq, length_contents]
    have hk : k < (buckets key (1 + (nx + 2) * (1 + (ny + 2) * 1))
        (nx + (nx + 2) * (ny + (ny + 2) * nz) + 1) (contents p np)).length := by omega
    rw [a1 k _ (List.getElem?_eq_getElem hk), a2 k _ (List.getElem?_eq_getElem hk)]

/-- **C08.** The legacy out-of-place sort gives the same particle order and partition table. -/
theorem sort_agrees_with_legacy (R : Rounding) (hR : R.Accurate) (key : α → ℤ) (S : Schedules α)
    (g : Scratch α) (P : ℕ) (hP : 0 < P) (hP2 : P ≤ 256) (nx ny nz : ℤ) (hx : 1 ≤ nx) (hy : 1 ≤ ny)
    (hz : 1 ≤ nz) (np : ℕ) (hn : np < 2 ^ 31) (hnp : np ≠ 0) (p fresh : ℤ → α) (part : ℤ → ℤ)
    (hL : InDomain key nx ny nz (contents p np)) :
    ∃ p1 part1 p2 part2, sortP R key S g P nx ny nz np p part = some (p1, part1) ∧
      legacyOut key ((nx + 2) * (ny + 2) * (nz + 2)) fresh np p part = some (p2, part2) ∧
      contents p1 np = contents p2 np ∧
      ∀ v, 0 ≤ v → v < (nx + 2) * (ny + 2) * (nz + 2) → part1 v = part2 v := by
  obtain ⟨p1, r1, e1, a1, b1, c1, -⟩ :=
    sortP_spec R hR key S g P hP hP2 nx ny nz hx hy hz np hn p part hL
  have hw : 0 < nx + 2 := by omega
  have hh : 0 < ny + 2 := by omega
  have m1 : 0 < (nx + 2) * (ny + 2) := by positivity
  have m3 : 0 ≤ (nx + 2) * (1 + (ny + 2) * 1) := by positivity
  have m4 : nx + (nx + 2) * (ny + (ny + 2) * nz) + 2 + (nx + 2) + (nx + 2) * (ny + 2)
      = (nx + 2) * (ny + 2) * (nz + 2) := by ring
  have m2 : (nx + 2) * (1 + (ny + 2) * 1) ≤ (nx + 2) * (ny + (ny + 2) * nz) := by
    apply mul_le_mul_of_nonneg_left _ hw.le
    have : (ny + 2) * 1 ≤ (ny + 2) * nz := mul_le_mul_of_nonneg_left hz hh.le
    omega
  have hLL : ∀ x ∈ contents p np, (1 + (nx + 2) * (1 + (ny + 2) * 1)) ≤ key x ∧
    key x < (nx + (nx + 2) * (ny + (ny + 2) * nz)) + 1 := fun x hx => by have := hL x hx; omega
  obtain ⟨p2, r2, e2, a2, c2⟩ := legacyOut_spec key ((nx + 2) * (ny + 2) * (nz + 2)) (by omega)
    fresh np hnp p part (fun x hx => by have := hL x hx; omega)
  refine ⟨p1, r1, p2, r2, e1, e2, ?_, ?_⟩
  · rw [a2, contents_of_holds a1 (by rw [(buckets_perm key _ hLL).length_eq, length_contents])]
    symm
    exact buckets_eq_of_range key _ (by omega) (by omega) (by omega) hLL
  · intro v h0 h1
    rw [c1 v h0 h1, c2 v h0 h1.le]
    by_cases hv : v < 1 + (nx + 2) * (1 + (ny + 2) * 1)
    · rw [show buckets key (1 + (nx + 2) * (1 + (ny + 2) * 1)) v (contents p np) = [] by
        rw [buckets, seg_nil hv.le]; rfl]
      symm
      simp only [List.length_nil, Nat.cast_zero, Nat.cast_eq_zero]
      rw [List.length_eq_zero_iff]
      unfold buckets
      rw [List.flatMap_eq_nil_iff]
      intro u hu
      rw [mem_seg] at hu
      rw [List.filter_eq_nil_iff]
      intro x hx
      have := hL x hx
      simp; omega
    · rw [buckets_append key (a := 0) (b := 1 + (nx + 2) * (1 + (ny + 2) * 1)) (c := v) (by omega)
        (by omega)]
      have : buckets key 0 (1 + (nx + 2) * (1 + (ny + 2) * 1)) (contents p np) = [] := by
        unfold buckets
        rw [List.flatMap_eq_nil_iff]
        intro u hu
        rw [mem_seg] at hu
        rw [List.filter_eq_nil_iff]
        intro x hx
        have := hL x hx
        simp; omega
      rw [this, List.nil_append]

/-- The pipeline sort never writes the last of the `nv+1` entries of the partition table (the end of
the last ghost voxel); the legacy sort does. -/
theorem sort_partition_end_untouched (R : Rounding) (hR : R.Accurate) (key : α → ℤ)
    (S : Schedules α) (g : Scratch α) (P : ℕ) (hP : 0 < P) (hP2 : P ≤ 256) (nx ny nz : ℤ)
    (hx : 1 ≤ nx) (hy : 1 ≤ ny) (hz : 1 ≤ nz) (np : ℕ) (hn : np < 2 ^ 31) (p : ℤ → α)
    (part : ℤ → ℤ) (hL : InDomain key nx ny nz (contents p np)) (p' : ℤ → α) (part' : ℤ → ℤ)
    (hrun : sortP R key S g P nx ny nz np p part = some (p', part')) :
    part' ((nx + 2) * (ny + 2) * (nz + 2)) = part ((nx + 2) * (ny + 2) * (nz + 2)) := by
  obtain ⟨q, qart, h1, -, -, -, h5⟩ :=
    sortP_spec R hR key S g P hP hP2 nx ny nz hx hy hz np hn p part hL
  obtain ⟨rfl, rfl⟩ : q = p' ∧ qart = part' := by
    rw [h1, Option.some.injEq, Prod.mk.injEq] at hrun; exact hrun
  exact h5

/-- With more than 256 pipelines (the library allows 272) the sort stops with an error. -/
theorem sort_fails_above_256 (R : Rounding) (key : α → ℤ) (S : Schedules α) (g : Scratch α) (P : ℕ)
    (hP : 256 < P) (nx ny nz : ℤ) (np : ℕ) (p : ℤ → α) (part : ℤ → ℤ) :
    sortP R key S g P nx ny nz np p part = none := by
  rw [sortP, sortArgs]
  simp only
  rw [if_pos (by omega)]
  have : (List.range P).mapM (coarseCount R key
      { n := np, nPipeline := P, nSubsort := P
        vl := Grid.VOXEL nx ny 1 1 1, vh := Grid.VOXEL nx ny nx ny nz
        nVoxel := (nx + 2) * (ny + 2) * (nz + 2) } p) = none := by
    obtain ⟨k, rfl⟩ : ∃ k, P = k + 1 := ⟨P - 1, by omega⟩
    rw [List.range_succ_eq_map, List.mapM_cons]
    have : coarseCount R key
      { n := np, nPipeline := k + 1, nSubsort := k + 1
        vl := Grid.VOXEL nx ny 1 1 1, vh := Grid.VOXEL nx ny nx ny nz
        nVoxel := (nx + 2) * (ny + 2) * (nz + 2) } p 0 = none := by
      rw [coarseCount]
      rw [if_pos (by simp only; omega)]
    rw [this]; rfl
  rw [this]; rfl

/-! ## The legacy in-place sort -/

/-- **C09.** The in-place cycle sort terminates (after at most `2·np + nc + 2` loop iterations),
never leaves its arrays, and yields a permutation ordered by voxel whose partition table, identical
to that of the out-of-place variant, locates every voxel. -/
theorem inplace_sort (key : α → ℤ) (nc : ℤ) (np : ℕ) (hnp : np ≠ 0) (p fresh : ℤ → α)
    (part : ℤ → ℤ) (hkeys : ∀ x ∈ contents p np, 0 ≤ key x ∧ key x < nc) (fuel : ℕ)
    (hf : 2 * np + nc.toNat + 2 ≤ fuel) :
    ∃ p' part', legacyIn key nc np p part fuel = some (p', part') ∧
      (contents p' np).Perm (contents p np) ∧
      (contents p' np).Pairwise (fun x y => key x ≤ key y) ∧
      (∀ j : ℤ, (j < 0 ∨ np ≤ j) → p' j = p j) ∧
      (∀ v, 0 ≤ v → v < nc → Locates key np p' part' v) ∧
      ∃ q, legacyOut key nc fresh np p part = some (q, part') := by
  have hnc : 0 ≤ nc := by
    by_contra h
    have : p 0 ∈ contents p np := List.mem_map_of_mem (mem_seg.mpr (by omega))
    have := hkeys _ this; omega
  obtain ⟨pt, e, hpt⟩ := legacyPartition_spec key nc hnc (contents p np) hkeys
  have pz := part_zero key nc np pt p hkeys hpt hnc
  have pl := part_last key nc np pt p hkeys hpt hnc
  have pm := part_mono key nc np pt p hkeys hpt
  have hinit : CycInv key nc np pt p ⟨0, none, pt, p⟩ := by
    refine ⟨le_rfl, hnc, fun _ _ _ => le_rfl, fun k h0 h1 => pm k (k + 1) h0 (by omega) (by omega),
      fun k h0 h1 => by simp only at h1; omega, fun k _ _ j h1 h2 => by simp only at h2; omega,
      List.Perm.refl _, fun _ _ => rfl, by simp⟩
  obtain ⟨s, es, hs, hi⟩ := cycRun_spec key nc np pt p hkeys hpt hnc fuel _ hinit (by
    rw [cycMeas_init key nc np pt p hkeys hpt hnc]; omega)
  have hbin : ∀ k, 0 ≤ k → k < nc → ∀ j, pt k ≤ j → j < pt (k + 1) → key (s.p j) = k := by
    intro k h0 h1 j hj1 hj2
    exact hs.placed k h0 h1 j hj1 (by rw [hs.fin k h0 (by omega)]; exact hj2)
  have hfind : ∀ j : ℤ, 0 ≤ j → j < np → ∃ k, 0 ≤ k ∧ k < nc ∧ pt k ≤ j ∧ j < pt (k + 1) := by
    intro j h0 h1
    have hm : s.p j ∈ contents s.p np := List.mem_map_of_mem (mem_seg.mpr ⟨h0, h1⟩)
    by_contra hcon
    push Not at hcon
    have : ∀ m : ℕ, (m : ℤ) ≤ nc → pt m ≤ j := by
      intro m
      induction m with
      | zero => intro _; simp only [Nat.cast_zero, pz]; exact h0
      | succ m ih =>
        intro hm
        push_cast at hm ⊢
        exact hcon m (by omega) (by omega) (ih (by omega))
    have h2 := this nc.toNat (by omega)
    rw [show ((nc.toNat : ℕ) : ℤ) = nc by omega, pl] at h2
    omega
  refine ⟨s.p, fun i => if 0 ≤ i ∧ i < nc + 1 then pt i else part i, ?_, hs.perm, ?_, hs.out, ?_, ?_⟩
  · rw [legacyIn]
    rw [if_neg hnp, show (seg 0 (np : ℤ)).map p = contents p np from rfl, e]
    simp only [Option.bind_eq_bind, Option.bind_some]
    rw [es]
    rfl
  · unfold contents
    rw [List.pairwise_map]
    have hlt : (seg 0 (np : ℤ)).Pairwise (· < ·) := by
      unfold seg
      rw [List.pairwise_map]
      exact List.pairwise_lt_range.imp (by intro x y h; omega)
    refine hlt.imp_of_mem ?_
    intro x y hx hy hxy
    rw [mem_seg] at hx hy
    obtain ⟨k, k0, k1, k2, k3⟩ := hfind x hx.1 hx.2
    obtain ⟨l, l0, l1, l2, l3⟩ := hfind y hy.1 hy.2
    rw [hbin k k0 k1 x k2 k3, hbin l l0 l1 y l2 l3]
    by_contra hlk
    have := pm (l + 1) k (by omega) (by omega) (by omega)
    omega
  · intro v h0 h1 i hi0 hi1
    simp only
    rw [if_pos ⟨h0, by omega⟩, if_pos ⟨by omega, by omega⟩]
    obtain ⟨k, k0, k1, k2, k3⟩ := hfind i hi0 hi1
    rw [hbin k k0 k1 i k2 k3]
    constructor
    · rintro rfl; exact ⟨k2, k3⟩
    · rintro ⟨h2, h3⟩
      by_contra hkv
      rcases lt_or_gt_of_ne hkv with h | h
      · have := pm (k + 1) v (by omega) (by omega) h1.le; omega
      · have := pm (v + 1) k (by omega) (by omega) k1.le; omega
  · obtain ⟨log, e2, -⟩ := scatterLoop_spec key 0 (nc + 1) (contents p np) pt
      (fun x hx => by have := hkeys x hx; omega)
    obtain ⟨q, r, e3, -, -⟩ := legacyOut_spec key nc hnc fresh np hnp p part hkeys
    refine ⟨q, ?_⟩
    rw [e3]
    rw [legacyOut] at e3
    rw [if_neg hnp] at e3
    simp only [show (seg 0 (np : ℤ)).map p = contents p np from rfl, e, Option.bind_eq_bind,
      Option.bind_some] at e3
    rw [e2] at e3
    simp only [Option.bind_some] at e3
    cases hq : applyLog (np : ℤ) log fresh with
    | none => rw [hq] at e3; simp at e3
    | some q' =>
      rw [hq] at e3
      simp only [Option.bind_some, Option.some.injEq, Prod.mk.injEq] at e3
      rw [e3.2]

/-! ## Concrete instances -/

/-- Five particles (voxel, tag) in a 2×1×1 mesh (voxels 17 and 18 of 36), three pipelines. -/
def exP : ℤ → ℤ × ℤ := fun j =>
  if j = 0 then (18, 0) else if j = 1 then (17, 1) else if j = 2 then (18, 2)
  else if j = 3 then (17, 3) else (18, 4)

example : InDomain Prod.fst 2 1 1 (contents exP 5) := by
  intro x hx
  have : contents exP 5 = [(18, 0), (17, 1), (18, 2), (17, 3), (18, 4)] := by decide
  rw [this] at hx
  simp at hx
  rcases hx with h | h | h | h | h <;> subst h <;> norm_num

example : ∃ p' part', sortP doubleRounding Prod.fst
      ⟨Sched.rev _, Sched.seq _, Sched.rev _, Sched.rev _⟩
      ⟨fun _ => (7, 7), fun _ => -5, fun _ => 99⟩ 3 2 1 1 5 exP (fun _ => -1) = some (p', part') ∧
      contents p' 5 = [(17, 1), (17, 3), (18, 0), (18, 2), (18, 4)] := by
  have hc : contents exP 5 = [(18, 0), (17, 1), (18, 2), (17, 3), (18, 4)] := by decide
  obtain ⟨p', part', h1, h2, -⟩ := sort_stable doubleRounding doubleRounding_accurate Prod.fst
    ⟨Sched.rev _, Sched.seq _, Sched.rev _, Sched.rev _⟩
    ⟨fun _ => (7, 7), fun _ => -5, fun _ => 99⟩ 3 (by norm_num) (by norm_num) 2 1 1 (by norm_num)
    (by norm_num) (by norm_num) 5 (by norm_num) exP (fun _ => -1) (by
      intro x hx
      rw [hc] at hx
      simp at hx
      rcases hx with h | h | h | h | h <;> subst h <;> norm_num)
  refine ⟨p', part', h1, ?_⟩
  apply stableSort_unique Prod.fst _ _ _ h2
  rw [hc]
  have := buckets_stable (Prod.fst : ℤ × ℤ → ℤ) 17 19
    [(18, 0), (17, 1), (18, 2), (17, 3), (18, 4)] (by
      intro x hx
      simp at hx
      rcases hx with h | h | h | h | h <;> subst h <;> norm_num)
  have e : buckets (Prod.fst : ℤ × ℤ → ℤ) 17 19 [(18, 0), (17, 1), (18, 2), (17, 3), (18, 4)]
      = [(17, 1), (17, 3), (18, 0), (18, 2), (18, 4)] := by decide
  rw [e] at this
  exact this

/-- The in-place sort is not stable: voxels 1,0,0 come out as 0,0,1 with the two zeros exchanged. -/
example : (legacyIn Prod.fst 2 3 (fun j => if j = 0 then ((1 : ℤ), 0) else if j = 1 then (0, 1) else
    ((0 : ℤ), (2 : ℤ))) (fun _ => 0) 20).map (fun r => contents r.1 3)
    = some [(0, 2), (0, 1), (1, 0)] := by decide

end Verif.SortP
