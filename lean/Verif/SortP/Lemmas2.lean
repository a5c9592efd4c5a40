import Verif.SortP.Lemmas

/-! # The pipeline sort refines bucket concatenation. -/
namespace Verif.SortP
open Verif Verif.Distribute

variable {α : Type}

/-- Buckets in voxel order. -/
def buckets (key : α → ℤ) (a b : ℤ) (L : List α) : List α :=
  (seg a b).flatMap fun v => L.filter (fun x => key x = v)

lemma buckets_append (key : α → ℤ) {a b c : ℤ} (h1 : a ≤ b) (h2 : b ≤ c) (L : List α) :
    buckets key a c L = buckets key a b L ++ buckets key b c L := by
  unfold buckets
  rw [← seg_append h1 h2, List.flatMap_append]

lemma buckets_perm (key : α → ℤ) {a b : ℤ} (L : List α) (h : ∀ x ∈ L, a ≤ key x ∧ key x < b) :
    (buckets key a b L).Perm L :=
  bucket_perm key (seg a b) (seg_nodup a b) L (fun x hx => mem_seg.mpr (h x hx))

lemma buckets_filter (key : α → ℤ) (a b : ℤ) (L : List α) (q : α → Bool)
    (hq : ∀ x, a ≤ key x ∧ key x < b → q x = true) :
    buckets key a b (L.filter q) = buckets key a b L := by
  unfold buckets
  apply List.flatMap_congr
  intro v hv
  rw [mem_seg] at hv
  rw [List.filter_filter]
  apply List.filter_congr
  intro x _
  by_cases hx : key x = v
  · simp [hx, hq x (by omega)]
  · simp [hx]

/-- Everything the fine sort needs to know about its input. -/
lemma subsortOne_spec (key : α → ℤ) (a : Args) (src : ℤ → α) (cp next0 : ℤ → ℤ) (s : ℕ)
    (i0 v0 v1 : ℤ) (B : List α) (hi0 : cp s = i0) (hi1 : cp (s + 1) = i0 + B.length)
    (h0 : 0 ≤ i0) (hn : i0 + B.length ≤ a.n)
    (hv0 : P2V s a.nSubsort a.vl a.vh = v0) (hv1 : P2V (s + 1) a.nSubsort a.vl a.vh = v1)
    (hv : v0 ≤ v1)
    (hread : (seg i0 (i0 + B.length)).map src = B)
    (hB : ∀ x ∈ B, v0 ≤ key x ∧ key x < v1) :
    ∃ dlog plog, subsortOne key a src cp next0 s = some (dlog, plog) ∧
      (∀ j x, (j, x) ∈ dlog ↔ (j, x) ∈ blockLog i0 (buckets key v0 v1 B)) ∧
      (∀ v x, (v, x) ∈ plog ↔ v0 ≤ v ∧ v ≤ v1 ∧ x = i0 + (buckets key v0 v B).length) := by
  have hr : readSeg (a.n : ℤ) src i0 (i0 + B.length) = some B := by
    rw [readSeg, if_neg (by omega), hread]
  set cleared : ℤ → ℤ := fun v => if v0 ≤ v ∧ v < v1 then 0 else next0 v with hcl
  obtain ⟨cnt, ec, hc⟩ := countLoop_spec key v0 v1 B cleared hB
  have hpre := prefixLoop_spec (seg v0 v1) id (fun v => B.filter (fun x => key x = v)) i0 cnt
    (by rw [List.map_id]; exact seg_nodup _ _) (by
      intro v hv
      rw [mem_seg] at hv
      rw [id, hc, hcl]
      simp [hv])
  rw [List.map_id] at hpre
  obtain ⟨p1, p2, p3, p4⟩ := hpre
  obtain ⟨dlog, ed, hd⟩ := scatterLoop_spec key v0 v1 B (prefixLoop (seg v0 v1) i0 cnt).1 hB
  refine ⟨dlog, (seg v0 v1).map (fun v => (v, (prefixLoop (seg v0 v1) i0 cnt).1 v))
    ++ [(v1, (prefixLoop (seg v0 v1) i0 cnt).2)], ?_, ?_, ?_⟩
  · rw [subsortOne]
    simp only [hi0, hi1, hv0, hv1, hr, Option.bind_eq_bind, Option.bind_some]
    rw [← hcl, ec]
    simp only [Option.bind_some]
    rw [ed]
    simp only [Option.bind_some]
  · intro j x
    rw [hd, show buckets key v0 v1 B = (seg v0 v1).flatMap
      (fun v => B.filter (fun x => key x = v)) from rfl, p3]
    constructor
    · rintro ⟨k, hk⟩
      refine ⟨k, ?_, hk⟩
      rw [mem_blockLog] at hk
      obtain ⟨i, -, hi⟩ := hk
      have hx := List.mem_of_getElem? hi
      rw [List.mem_filter] at hx
      have := hB x hx.1
      have e : key x = k := by simpa using hx.2
      rw [mem_seg]; omega
    · rintro ⟨k, -, hk⟩; exact ⟨k, hk⟩
  · intro v x
    rw [List.mem_append, List.mem_map]
    have hat : ∀ u, v0 ≤ u → u < v1 →
        (prefixLoop (seg v0 v1) i0 cnt).1 u = i0 + (buckets key v0 u B).length := by
      intro u hu1 hu2
      refine p4 (seg v0 u) u (seg (u + 1) v1) ?_
      rw [← seg_append hu1 hu2.le, seg_cons hu2]
    constructor
    · rintro (⟨u, hu, he⟩ | he)
      · rw [mem_seg] at hu
        rw [Prod.mk.injEq] at he
        obtain ⟨rfl, rfl⟩ := he
        exact ⟨hu.1, hu.2.le, hat u hu.1 hu.2⟩
      · rw [List.mem_singleton, Prod.mk.injEq] at he
        obtain ⟨rfl, rfl⟩ := he
        exact ⟨hv, le_rfl, p1⟩
    · rintro ⟨h1, h2, rfl⟩
      rcases lt_or_eq_of_le h2 with h | h
      · exact Or.inl ⟨v, mem_seg.mpr ⟨h1, h⟩, by rw [hat v h1 h]⟩
      · right
        subst h
        rw [List.mem_singleton, Prod.mk.injEq]
        exact ⟨rfl, p1.symm⟩

/-- Fine sort phase: all subsorts of all pipelines. -/
lemma subsort_phase (key : α → ℤ) (a : Args) (src : ℤ → α) (cp next0 : ℤ → ℤ) (L : List α)
    (hn : L.length = a.n) (hP : 0 < a.nPipeline) (hS : 0 < a.nSubsort) (hvv : a.vl ≤ a.vh)
    (hL : ∀ x ∈ L, a.vl ≤ key x ∧ key x ≤ a.vh)
    (hsrc : Holds src ((List.range a.nSubsort).flatMap fun (s : ℕ) =>
      L.filter (fun x => V2P (key x) a.nSubsort a.vl a.vh = (s : ℤ))))
    (hcp : ∀ s : ℕ, s ≤ a.nSubsort → cp s = ((List.range s).flatMap fun (s : ℕ) =>
      L.filter (fun x => V2P (key x) a.nSubsort a.vl a.vh = (s : ℤ))).length) :
    ∃ logs, (List.range a.nPipeline).mapM (subsort key a src cp next0) = some logs ∧
      (∀ j x, (∃ w ∈ logs, (j, x) ∈ w.1) ↔ (j, x) ∈ blockLog 0 (buckets key a.vl (a.vh + 1) L)) ∧
      (∀ v x, (∃ w ∈ logs, (v, x) ∈ w.2) ↔
        a.vl ≤ v ∧ v ≤ a.vh + 1 ∧ x = (buckets key a.vl v L).length) := by
  set S : ℤ := ((a.nSubsort : ℕ) : ℤ) with hSdef
  have hS' : 0 < S := by omega
  set F : ℕ → List α := fun s => L.filter (fun x => V2P (key x) S a.vl a.vh = s) with hF
  set V : ℕ → ℤ := fun s => P2V s S a.vl a.vh with hV
  have hVmono : ∀ s t : ℕ, s ≤ t → V s ≤ V t := fun s t h =>
    P2V_mono (by omega) (by omega) hS' hvv
  have hV0 : V 0 = a.vl := by simp only [hV, Nat.cast_zero]; exact P2V_zero hS' hvv
  have hVS : V a.nSubsort = a.vh + 1 := P2V_last hS' hvv
  -- the coarse bucket holds the particles of its voxels
  have hFkey : ∀ s : ℕ, ∀ x ∈ F s, V s ≤ key x ∧ key x < V (s + 1) := by
    intro s x hx
    rw [hF, List.mem_filter] at hx
    have := hL x hx.1
    have h2 := (V2P_iff (by omega : (0:ℤ) ≤ s) hS' this.1 this.2).mp (by simpa using hx.2)
    simpa [hV] using h2
  have hFb : ∀ s : ℕ, ∀ u w, V s ≤ u → w ≤ V (s + 1) →
      buckets key u w (F s) = buckets key u w L := by
    intro s u w hu hw
    have e : F s = (L.filter (fun x => decide (a.vl ≤ key x ∧ key x ≤ a.vh))).filter
        (fun x => decide (V s ≤ key x ∧ key x < V (s + 1))) := by
      rw [List.filter_filter]
      apply List.filter_congr
      intro x hx
      have := hL x hx
      have h2 := V2P_iff (by omega : (0:ℤ) ≤ s) hS' this.1 this.2
      simp only [hV, Nat.cast_add, Nat.cast_one, ← h2]
      simp [this]
    have eL : L.filter (fun x => decide (a.vl ≤ key x ∧ key x ≤ a.vh)) = L := by
      rw [List.filter_eq_self]
      intro x hx; simpa using hL x hx
    rw [e, eL]
    apply buckets_filter
    intro x hx
    simp; omega
  -- lengths of buckets of a coarse range
  have hlen : ∀ s : ℕ, ((List.range s).flatMap F).length = (buckets key a.vl (V s) L).length := by
    intro s
    induction s with
    | zero => simp [hV0, buckets, seg_nil]
    | succ s ih =>
      rw [List.range_succ, List.flatMap_append, List.length_append, ih,
        buckets_append key (a := a.vl) (b := V s) (c := V (s + 1)) (by rw [← hV0]; exact hVmono _ _ (by omega))
          (hVmono _ _ (by omega)), List.length_append]
      congr 1
      simp only [List.flatMap_cons, List.flatMap_nil, List.append_nil]
      rw [← hFb s _ _ le_rfl le_rfl]
      exact (buckets_perm key (F s) (hFkey s)).length_eq.symm
  have hone : ∀ s : ℕ, s < a.nSubsort → ∃ dlog plog,
      subsortOne key a src cp next0 s = some (dlog, plog) ∧
      (∀ j x, (j, x) ∈ dlog ↔ (j, x) ∈ blockLog (buckets key a.vl (V s) L).length
        (buckets key (V s) (V (s + 1)) L)) ∧
      (∀ v x, (v, x) ∈ plog ↔ V s ≤ v ∧ v ≤ V (s + 1) ∧ x = (buckets key a.vl v L).length) := by
    intro s hs
    have split : (List.range a.nSubsort).flatMap F
        = (List.range s).flatMap F ++ F s ++
          ((List.range (a.nSubsort - (s + 1))).map (s + 1 + ·)).flatMap F := by
      have : a.nSubsort = (s + 1) + (a.nSubsort - (s + 1)) := by omega
      conv_lhs => rw [this, List.range_add, List.range_succ]
      simp [List.flatMap_append]
    have hle : ((List.range s).flatMap F).length + (F s).length ≤ L.length := by
      have hp : ((List.range a.nSubsort).flatMap F).Perm L := by
        have := bucket_perm (fun x => (V2P (key x) S a.vl a.vh).toNat) (List.range a.nSubsort)
          List.nodup_range L (by
            intro x hx
            have := V2P_range hS' (hL x hx).1 (hL x hx).2
            rw [List.mem_range]; omega)
        refine List.Perm.trans (List.Perm.of_eq ?_) this
        apply List.flatMap_congr
        intro k _
        apply List.filter_congr
        intro x hx
        have := V2P_range hS' (hL x hx).1 (hL x hx).2
        simp only [decide_eq_decide]
        omega
      have := hp.length_eq
      rw [split] at this
      simp only [List.length_append] at this
      omega
    have hi1 : cp ((s : ℤ) + 1) = ((List.range s).flatMap F).length + ((F s).length : ℤ) := by
      have := hcp (s + 1) hs
      push_cast at this
      rw [this, List.range_succ, List.flatMap_append, List.length_append]
      simp [hF]
    obtain ⟨dlog, plog, e, h1, h2⟩ := subsortOne_spec key a src cp next0 s
      ((List.range s).flatMap F).length (V s) (V (s + 1)) (F s) (hcp s hs.le) hi1
      (by omega) (by omega) rfl (by simp [hV, hSdef]) (hVmono _ _ (by omega))
      (by rw [split] at hsrc; exact hsrc.read rfl rfl) (hFkey s)
    refine ⟨dlog, plog, e, ?_, ?_⟩
    · intro j x
      rw [h1, hFb s _ _ le_rfl le_rfl, hlen]
    · intro v x
      rw [h2]
      constructor
      · rintro ⟨a1, a2, rfl⟩
        refine ⟨a1, a2, ?_⟩
        rw [hFb s _ _ le_rfl a2, hlen, buckets_append key (a := a.vl) (b := V s) (c := v)
          (by rw [← hV0]; exact hVmono _ _ (by omega)) a1, List.length_append]
        push_cast; ring
      · rintro ⟨a1, a2, rfl⟩
        refine ⟨a1, a2, ?_⟩
        rw [hFb s _ _ le_rfl a2, hlen, buckets_append key (a := a.vl) (b := V s) (c := v)
          (by rw [← hV0]; exact hVmono _ _ (by omega)) a1, List.length_append]
        push_cast; ring
  -- choose logs
  choose! D Q hDQ hD hQ using hone
  have hsub : ∀ p ∈ List.range a.nPipeline, subsort key a src cp next0 p
      = some (((strided p a.nSubsort a.nPipeline).map D).flatten,
              ((strided p a.nSubsort a.nPipeline).map Q).flatten) := by
    intro p _
    rw [subsort, mapM_some _ _ (fun s => (D s, Q s))]
    · simp [List.map_map, Function.comp_def]
    · intro s hs
      rw [mem_strided hP] at hs
      exact hDQ s hs.2.1
  refine ⟨_, mapM_some _ _ _ hsub, ?_, ?_⟩
  · intro j x
    have e : blockLog 0 (buckets key a.vl (a.vh + 1) L)
        = blockLog 0 ((List.range a.nSubsort).flatMap
          fun s => buckets key (V s) (V (s + 1)) L) := by
      congr 1
      have : ∀ n : ℕ, (List.range n).flatMap (fun s => buckets key (V s) (V (s + 1)) L)
          = buckets key a.vl (V n) L := by
        intro n
        induction n with
        | zero => simp [hV0, buckets, seg_nil]
        | succ n ih =>
          rw [List.range_succ, List.flatMap_append, ih,
            buckets_append key (a := a.vl) (b := V n) (c := V (n + 1)) (by rw [← hV0]; exact hVmono _ _ (by omega))
              (hVmono n (n + 1) (by omega))]
          simp
      rw [this, hVS]
    rw [e, mem_blockLog_range]
    have hl2 : ∀ k : ℕ, ((List.range k).flatMap
        fun s => buckets key (V s) (V (s + 1)) L).length = (buckets key a.vl (V k) L).length := by
      intro n
      induction n with
      | zero => simp [hV0, buckets, seg_nil]
      | succ n ih =>
        rw [List.range_succ, List.flatMap_append, List.length_append, ih,
          buckets_append key (a := a.vl) (b := V n) (c := V (n + 1)) (by rw [← hV0]; exact hVmono _ _ (by omega))
            (hVmono n (n + 1) (by omega)), List.length_append]
        simp
    constructor
    · rintro ⟨w, hw, hx⟩
      rw [List.mem_map] at hw
      obtain ⟨p, hp, rfl⟩ := hw
      simp only [List.mem_flatten, List.mem_map] at hx
      obtain ⟨_, ⟨s, hs, rfl⟩, hx⟩ := hx
      rw [mem_strided hP] at hs
      refine ⟨s, hs.2.1, ?_⟩
      rw [hl2, zero_add]
      exact (hD s hs.2.1 j x).mp hx
    · rintro ⟨s, hs, hx⟩
      rw [hl2, zero_add, ← hD s hs] at hx
      refine ⟨_, List.mem_map_of_mem (List.mem_range.mpr (Nat.mod_lt s hP)), ?_⟩
      simp only [List.mem_flatten, List.mem_map]
      refine ⟨_, ⟨s, ?_, rfl⟩, hx⟩
      rw [mem_strided hP]
      refine ⟨Nat.mod_le _ _, hs, ?_⟩
      exact Nat.sub_mod_eq_zero_of_mod_eq (Nat.mod_mod s a.nPipeline).symm
  · intro v x
    constructor
    · rintro ⟨w, hw, hx⟩
      rw [List.mem_map] at hw
      obtain ⟨p, hp, rfl⟩ := hw
      simp only [List.mem_flatten, List.mem_map] at hx
      obtain ⟨_, ⟨s, hs, rfl⟩, hx⟩ := hx
      rw [mem_strided hP] at hs
      obtain ⟨b1, b2, b3⟩ := (hQ s hs.2.1 v x).mp hx
      have c1 := hVmono 0 s (by omega)
      have c2 := hVmono (s + 1) a.nSubsort (by omega)
      exact ⟨by omega, by omega, b3⟩
    · rintro ⟨h1, h2, rfl⟩
      obtain ⟨s, hs, hsv⟩ : ∃ s < a.nSubsort, V s ≤ v ∧ v ≤ V (s + 1) := by
        by_contra hcon
        push Not at hcon
        have : ∀ s ≤ a.nSubsort, V s ≤ v := by
          intro s hs
          induction s with
          | zero => omega
          | succ s ih => exact (hcon s (by omega) (ih (by omega))).le
        have h3 := this a.nSubsort le_rfl
        have h4 := hcon (a.nSubsort - 1) (by omega) (this _ (by omega))
        rw [Nat.sub_add_cancel hS] at h4
        omega
      refine ⟨_, List.mem_map_of_mem (List.mem_range.mpr (Nat.mod_lt s hP)), ?_⟩
      simp only [List.mem_flatten, List.mem_map]
      refine ⟨_, ⟨s, ?_, rfl⟩, (hQ s hs v _).mpr ⟨hsv.1, hsv.2, rfl⟩⟩
      rw [mem_strided hP]
      refine ⟨Nat.mod_le _ _, hs, ?_⟩
      exact Nat.sub_mod_eq_zero_of_mod_eq (Nat.mod_mod s a.nPipeline).symm

end Verif.SortP
