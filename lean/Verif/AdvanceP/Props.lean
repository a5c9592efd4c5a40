import Verif.AdvanceP.Lemmas

/-!
# C10 and charge conservation of a whole `advance_p`
-/
namespace Verif.AdvanceP

open MoveP Boris Grid Distribute Deposit SfInterface

variable {K : Type} [Field K] [LinearOrder K] [IsStrictOrderedRing K]

/-! ## Specification -/

/-- Spec: the push of the particle (on its own, into empty accumulators) ends with `p'`, and with the
remaining displacement `left` if it could not be completed. -/
def PushEnds (A : Args K) (p p' : MoveP.Part K) (left : Option (Fin 3 → K)) : Prop :=
  ∃ a', pushOne A p (fun _ _ => 0) = some (p', a', left)

/-- Spec: the push of a particle cannot be completed. -/
def Unfinished (A : Args K) (p : MoveP.Part K) : Prop := ∃ p' disp, PushEnds A p p' (some disp)

/-- Spec: a push of the particle does not access memory outside of the arrays, and terminates. -/
def PushOk (A : Args K) (p : MoveP.Part K) : Prop := ∃ p' left, PushEnds A p p' left

/-- Spec: the first `nm` movers of the array. -/
def moverList (pm : ℤ → Mover K) (nm : ℕ) : List (Mover K) :=
  (List.range nm).map fun k : ℕ => pm k

/-! ## Assembly -/

lemma accStride_ge (g : LGrid) : nvox g ≤ accStride g := by unfold accStride; omega

lemma footprints_disjoint (R : Rounding) (hR : R.Accurate) (A : Args K) (P : ℕ) (hP : 0 < P)
    (hP2 : P ≤ 2 ^ 16) (hN : A.np < 2 ^ 31) (hM : A.max_nm < 2 ^ 31) (hv : 0 ≤ nvox A.g) :
    (List.range (P + 1)).Pairwise fun r r' => ∀ x,
      Foot A.g (itemsOf R A P r) (accBase A.g P r) (firstMover R A P r) (nMover R A P r) r x →
      ¬ Foot A.g (itemsOf R A P r') (accBase A.g P r') (firstMover R A P r') (nMover R A P r') r'
        x := by
  have hs := moverSegs R hR A P hP hP2 hM
  have hnd : ((List.range (P + 1)).map (itemsOf R A P)).flatten.Nodup := by
    rw [items_flatten R hR A P hP hP2 hN]
    unfold upTo
    exact List.Nodup.map (fun a b h => by simpa using h) List.nodup_range
  rw [List.nodup_flatten, List.pairwise_map] at hnd
  have hlt := List.pairwise_lt_range (n := P + 1)
  have hmem : ∀ r ∈ List.range (P + 1), r ≤ P := fun r hr => by
    have := List.mem_range.mp hr; omega
  refine (hnd.2.and hlt).imp_of_mem ?_
  rintro r r' hr hr' ⟨hdisj, hlt⟩ x hx hx'
  have hr := hmem r hr
  have hr' := hmem r' hr'
  cases x with
  | p i => exact hdisj hx hx'
  | a j =>
    simp only [Foot, accBase, if_pos (by omega : r ≠ P)] at hx hx'
    have hS := accStride_ge A.g
    have h1 : accStride A.g ≤ (1 + (r : ℤ)) * accStride A.g := by nlinarith
    by_cases hrP : r' = P
    · simp only [hrP, ne_eq, not_true_eq_false, if_false] at hx'
      omega
    · simp only [ne_eq, hrP, not_false_eq_true, if_true] at hx'
      have h2 : (1 + (r : ℤ)) * accStride A.g + accStride A.g ≤ (1 + (r' : ℤ)) * accStride A.g := by
        have : (r : ℤ) + 1 ≤ r' := by omega
        nlinarith
      omega
  | pm k =>
    have := hs.mono hlt hr'
    simp only [Foot] at hx hx'
    omega
  | seg q => simp only [Foot] at hx hx'; omega

lemma thread_eq (R : Rounding) (A : Args K) (P r : ℕ) (hP : 0 < P) (hr : r ≤ P)
    (hs : MoverSegs R A P) : thread R A P r = some (initStep r ::
      (itemsOf R A P r).map (pushStep A (accBase A.g P r) (firstMover R A P r) (nMover R A P r) r)) := by
  simp only [thread, items_eq R A P r hP, hs.share r hr]

/-- What the pipelines have done when they are all finished, whatever the interleaving. -/
lemma advance_run (R : Rounding) (hR : R.Accurate) (A : Args K) (P : ℕ) (hP : 0 < P)
    (hP2 : P ≤ 2 ^ 16) (hN : A.np < 2 ^ 31) (hM : A.max_nm < 2 ^ 31) (hv : 0 ≤ nvox A.g)
    (m m' : Mem K) (p' : ℤ → MoveP.Part K) (da : ℤ → Accum K) (left : ℤ → Option (Fin 3 → K))
    (hp : ∀ i : ℤ, 0 ≤ i → i < A.np → pushOne A (m.part i) (fun _ _ => 0) = some (p' i, da i, left i))
    (ts : List (List (Mem K → Mem K))) (hts : (List.range (P + 1)).mapM (thread R A P) = some ts)
    (h : Runs ts m m') :
    (∀ r ≤ P,
      let l := itemsOf R A P r
      let u := unf left l
      let cap := nMover R A P r
      m'.segm r = ⟨min u.length cap, u.length - cap, true⟩ ∧
      (∀ i ∈ l, m'.part i =
        if i ∈ u.drop cap then { p' i with i := (p' i).i / 8 } else p' i) ∧
      (∀ v, 0 ≤ v → v < nvox A.g → ∀ k, m'.acc (accBase A.g P r + v) k =
        m.acc (accBase A.g P r + v) k + sumAcc da l v k) ∧
      (∀ (k : ℕ) (i : ℤ), (u.take cap)[k]? = some i →
        ∃ disp, left i = some disp ∧ m'.mover (firstMover R A P r + k) = ⟨disp, i⟩)) ∧
    (∀ i : ℤ, i < 0 ∨ A.np ≤ i → m'.part i = m.part i) := by
  have hs := moverSegs R hR A P hP hP2 hM
  have hmem : ∀ r ∈ List.range (P + 1), r ≤ P := fun r hr => by
    have := List.mem_range.mp hr; omega
  rw [mapM_some _ _ _ (fun r hr => thread_eq R A P r hP (hmem r hr) hs), Option.some.injEq] at hts
  subst hts
  have hitems : ∀ i, (∃ r ≤ P, i ∈ itemsOf R A P r) ↔ 0 ≤ i ∧ i < A.np := by
    intro i
    have := items_flatten R hR A P hP hP2 hN
    have h2 : i ∈ ((List.range (P + 1)).map (itemsOf R A P)).flatten ↔ i ∈ upTo A.np := by rw [this]
    simp only [List.mem_flatten, List.mem_map, List.mem_range, upTo] at h2
    constructor
    · rintro ⟨r, hr, hi⟩
      obtain ⟨a, ha, rfl⟩ := h2.mp ⟨_, ⟨r, by omega, rfl⟩, hi⟩
      omega
    · rintro ⟨h0, h1⟩
      obtain ⟨l, ⟨r, hr, rfl⟩, hi⟩ := h2.mpr ⟨i.toNat, by omega, by omega⟩
      exact ⟨r, by omega, hi⟩
  obtain ⟨f1, f2⟩ := runs_footprint (List.range (P + 1))
    (fun r => Foot A.g (itemsOf R A P r) (accBase A.g P r) (firstMover R A P r) (nMover R A P r) r)
    (fun _ => False) _ (by
      intro r hr f hf
      rcases List.mem_cons.mp hf with rfl | hf
      · exact initStep_local _ _ _ _ _ _
      · obtain ⟨i, hi, rfl⟩ := List.mem_map.mp hf
        exact pushStep_local A _ _ _ _ r i hi)
    (footprints_disjoint R hR A P hP hP2 hN hM hv) (fun _ _ _ h => h.elim) m m' h
  constructor
  · intro r hr l u cap
    have hnd : l.Nodup := iota_nodup _ _
    have hp1 : Pushed A (initStep r m) l p' da left := by
      constructor
      intro i hi
      have := (hitems i).mp ⟨r, hr, hi⟩
      exact hp i this.1 this.2
    have hseg0 : (initStep r m).segm r = ⟨0, 0, true⟩ := by simp [initStep]
    obtain ⟨i1, i2, i3, i4, i5⟩ := run_push A (accBase A.g P r) (firstMover R A P r) cap r p' da left l
      hnd (initStep r m) 0 0 (Nat.zero_le _) hseg0 hp1
    have fr := f1 r (List.mem_range.mpr (by omega))
    refine ⟨?_, ?_, ?_, ?_⟩
    · have : m'.segm r = _ := fr (.seg r) rfl
      rw [this, runSeq_cons]
      refine i1.trans ?_
      simp [u, cap]
    · intro i hi
      have : m'.part i = _ := fr (.p i) hi
      rw [this, runSeq_cons]
      refine (i2 i).trans ?_
      rw [if_pos hi]; simp only [Nat.sub_zero, u, cap]
    · intro v h0 h1 k
      have : m'.acc (accBase A.g P r + v) = _ :=
        fr (.a (accBase A.g P r + v)) ⟨by omega, by omega⟩
      rw [this, runSeq_cons]
      exact i3 v h0 h1 k
    · intro k i hk
      obtain ⟨disp, h1, h2⟩ := i5 k i (by simpa using hk)
      refine ⟨disp, h1, ?_⟩
      have hlen : k < cap := by
        have := (List.getElem?_eq_some_iff.mp hk).1
        rw [List.length_take] at this
        omega
      have : m'.mover (firstMover R A P r + k) = _ :=
        fr (.pm (firstMover R A P r + k)) ⟨by omega, by omega⟩
      rw [this, runSeq_cons, ← h2]
      simp only [Nat.cast_zero, add_zero]
      rfl
  · intro i hi
    refine f2 (.p i) fun r hr hF => ?_
    have := (hitems i).mp ⟨r, hmem r hr, hF⟩
    omega

lemma items_iff (R : Rounding) (hR : R.Accurate) (A : Args K) (P : ℕ) (hP : 0 < P)
    (hP2 : P ≤ 2 ^ 16) (hN : A.np < 2 ^ 31) (i : ℤ) :
    (∃ r ≤ P, i ∈ itemsOf R A P r) ↔ 0 ≤ i ∧ i < A.np := by
  have := items_flatten R hR A P hP hP2 hN
  have h2 : i ∈ ((List.range (P + 1)).map (itemsOf R A P)).flatten ↔ i ∈ upTo A.np := by rw [this]
  simp only [List.mem_flatten, List.mem_map, List.mem_range, upTo] at h2
  constructor
  · rintro ⟨r, hr, hi⟩
    obtain ⟨a, ha, rfl⟩ := h2.mp ⟨_, ⟨r, by omega, rfl⟩, hi⟩
    omega
  · rintro ⟨h0, h1⟩
    obtain ⟨l, ⟨r, hr, rfl⟩, hi⟩ := h2.mpr ⟨i.toNat, by omega, by omega⟩
    exact ⟨r, by omega, hi⟩

lemma items_unique (R : Rounding) (hR : R.Accurate) (A : Args K) (P : ℕ) (hP : 0 < P)
    (hP2 : P ≤ 2 ^ 16) (hN : A.np < 2 ^ 31) (i : ℤ) (r r' : ℕ) (hr : r ≤ P) (hr' : r' ≤ P)
    (h : i ∈ itemsOf R A P r) (h' : i ∈ itemsOf R A P r') : r = r' := by
  have hnd : ((List.range (P + 1)).map (itemsOf R A P)).flatten.Nodup := by
    rw [items_flatten R hR A P hP hP2 hN]
    unfold upTo
    exact List.Nodup.map (fun a b h => by simpa using h) List.nodup_range
  rw [List.nodup_flatten, List.pairwise_map] at hnd
  have hd := List.pairwise_iff_getElem.mp hnd.2
  simp only [List.length_range, List.getElem_range] at hd
  rcases Nat.lt_trichotomy r r' with hlt | he | hlt
  · exact (hd r r' (by omega) (by omega) hlt h h').elim
  · exact he
  · exact (hd r' r (by omega) (by omega) hlt h' h).elim

lemma flatten_sublist {α β : Type*} (rs : List α) (f g : α → List β)
    (h : ∀ r ∈ rs, (f r).Sublist (g r)) : (rs.map f).flatten.Sublist (rs.map g).flatten := by
  induction rs with
  | nil => simp
  | cons r rs ih =>
    simp only [List.map_cons, List.flatten_cons]
    exact (h r (by simp)).append (ih fun r hr => h r (by simp [hr]))

lemma upTo_pairwise (n : ℕ) : (upTo n).Pairwise (· < ·) := by
  unfold upTo
  rw [List.pairwise_map]
  exact List.pairwise_lt_range.imp fun h => by exact_mod_cast h

/-! ## C10 -/

/-- The movers after compaction: of each pipeline, the unfinished particles in order, up to its
capacity. -/
lemma advance_movers (R : Rounding) (hR : R.Accurate) (A : Args K) (P : ℕ) (hP : 0 < P)
    (hP2 : P ≤ 2 ^ 16) (hN : A.np < 2 ^ 31) (hM : A.max_nm < 2 ^ 31) (hv : 0 ≤ nvox A.g)
    (m m' : Mem K) (p' : ℤ → MoveP.Part K) (da : ℤ → Accum K) (left : ℤ → Option (Fin 3 → K))
    (hp : ∀ i : ℤ, 0 ≤ i → i < A.np → pushOne A (m.part i) (fun _ _ => 0) = some (p' i, da i, left i))
    (res : Option ((ℤ → Mover K) × ℕ)) (h : Advance R A P m m' res) :
    ∃ pm nm, res = some (pm, nm) ∧ nm ≤ A.max_nm ∧
      (moverList pm nm).map (fun mv => (mv.i, some mv.disp)) =
        ((List.range (P + 1)).map fun r =>
          ((unf left (itemsOf R A P r)).take (nMover R A P r))).flatten.map fun i => (i, left i) := by
  obtain ⟨ts, h1, h2, h3⟩ := h
  have hs := moverSegs R hR A P hP hP2 hM
  obtain ⟨hr, -⟩ := advance_run R hR A P hP hP2 hN hM hv m m' p' da left hp ts h1 h2
  obtain ⟨pm, nm, e1, e2, e3⟩ := compact_spec R A P hs m'.segm (fun r h => by
    rw [(hr r h).1]; exact min_le_right _ _) m'.mover (P + 1) 0 (by omega) m'.mover 0
    (fun _ => by rw [hs.zero]; simp) (Nat.zero_le _) (fun _ _ _ => rfl)
  rw [← List.range_eq_range'] at e1 e3
  refine ⟨pm, nm, by rw [h3, e1], e2, ?_⟩
  unfold moverList
  rw [e3]
  simp only [List.range_zero, List.map_nil, List.nil_append, List.map_flatten, List.map_map]
  congr 1
  apply List.map_congr_left
  intro r hmr
  have hrP : r ≤ P := by have := List.mem_range.mp hmr; omega
  obtain ⟨g1, -, -, g4⟩ := hr r hrP
  apply List.ext_getElem?
  intro k
  simp only [Function.comp_apply, List.getElem?_map]
  rw [g1]
  by_cases hk : k < min (unf left (itemsOf R A P r)).length (nMover R A P r)
  · have hlen : k < ((unf left (itemsOf R A P r)).take (nMover R A P r)).length := by
      rw [List.length_take]; omega
    rw [List.getElem?_eq_getElem hlen]
    obtain ⟨disp, d1, d2⟩ := g4 k _ (List.getElem?_eq_getElem hlen)
    rw [List.getElem?_range hk]
    simp only [Option.map_some, d2, d1]
  · rw [List.getElem?_eq_none (by rw [List.length_range]; exact not_lt.mp hk), List.getElem?_eq_none (by
      rw [List.length_take]; omega)]
    rfl

/-- **C10.** For every species, pipeline count, mover capacity and interleaving, if every push stays
inside of the arrays: `advance_p` leaves a mover list with strictly increasing particle indices below
`np` and at most `max_nm` entries; each entry is a particle whose push could not be completed, with
its remaining displacement; every particle whose push could not be completed is in the list, or is
one of those counted as ignored. -/
theorem advance_p_movers (R : Rounding) (hR : R.Accurate) (A : Args K) (P : ℕ) (hP : 0 < P)
    (hP2 : P ≤ 2 ^ 16) (hN : A.np < 2 ^ 31) (hM : A.max_nm < 2 ^ 31) (hv : 0 ≤ nvox A.g)
    (m m' : Mem K) (hok : ∀ i : ℤ, 0 ≤ i → i < A.np → PushOk A (m.part i))
    (res : Option ((ℤ → Mover K) × ℕ)) (h : Advance R A P m m' res) :
    ∃ pm nm, res = some (pm, nm) ∧ nm ≤ A.max_nm ∧
      ((moverList pm nm).map Mover.i).Pairwise (· < ·) ∧
      (∀ mv ∈ moverList pm nm, 0 ≤ mv.i ∧ mv.i < A.np ∧
        ∃ p', PushEnds A (m.part mv.i) p' (some mv.disp) ∧ m'.part mv.i = p') ∧
      (∃ ignored : List ℤ, ignored.Nodup ∧
        ignored.length = ((List.range (P + 1)).map fun r => (m'.segm r).ign).sum ∧
        (∀ i ∈ ignored, 0 ≤ i ∧ i < A.np ∧ ∃ p' disp, PushEnds A (m.part i) p' (some disp) ∧
          m'.part i = { p' with i := p'.i / 8 }) ∧
        (∀ i : ℤ, 0 ≤ i → i < A.np → Unfinished A (m.part i) →
          (i ∈ (moverList pm nm).map Mover.i ∧ i ∉ ignored) ∨
          (i ∉ (moverList pm nm).map Mover.i ∧ i ∈ ignored))) ∧
      (∀ i : ℤ, 0 ≤ i → i < A.np → ¬ Unfinished A (m.part i) →
        PushEnds A (m.part i) (m'.part i) none) := by
  classical
  have hx : ∀ i : ℤ, ∃ x : MoveP.Part K × Accum K × Option (Fin 3 → K), 0 ≤ i → i < A.np →
      pushOne A (m.part i) (fun _ _ => 0) = some x := by
    intro i
    by_cases hi : 0 ≤ i ∧ i < A.np
    · obtain ⟨p', left, a', h⟩ := hok i hi.1 hi.2
      exact ⟨_, fun _ _ => h⟩
    · exact ⟨⟨m.part i, fun _ _ => 0, none⟩, fun h0 h1 => absurd ⟨h0, h1⟩ hi⟩
  choose x hx using hx
  have hp : ∀ i : ℤ, 0 ≤ i → i < A.np → pushOne A (m.part i) (fun _ _ => 0) =
    some ((fun i => (x i).1) i, (fun i => (x i).2.1) i, (fun i => (x i).2.2) i) := hx
  set p' : ℤ → MoveP.Part K := fun i => (x i).1
  set da : ℤ → Accum K := fun i => (x i).2.1
  set left : ℤ → Option (Fin 3 → K) := fun i => (x i).2.2 with hleft
  obtain ⟨pm, nm, e1, e2, e3⟩ := advance_movers R hR A P hP hP2 hN hM hv m m' p' da left hp res h
  obtain ⟨ts, h1, h2, -⟩ := h
  obtain ⟨hr, -⟩ := advance_run R hR A P hP hP2 hN hM hv m m' p' da left hp ts h1 h2
  have hmem : ∀ r ∈ List.range (P + 1), r ≤ P := fun r hr => by
    have := List.mem_range.mp hr; omega
  set u : ℕ → List ℤ := fun r => unf left (itemsOf R A P r) with hu
  set T : List ℤ := ((List.range (P + 1)).map fun r => (u r).take (nMover R A P r)).flatten with hT
  set D : List ℤ := ((List.range (P + 1)).map fun r => (u r).drop (nMover R A P r)).flatten with hD
  have hui : ∀ r, (u r).Sublist (itemsOf R A P r) := fun r => List.filter_sublist
  have hnd : ∀ r, (u r).Nodup := fun r => (hui r).nodup (iota_nodup _ _)
  have hTs : T.Sublist (upTo A.np) := by
    rw [← items_flatten R hR A P hP hP2 hN]
    exact flatten_sublist _ _ _ fun r _ => (List.take_sublist _ _).trans (hui r)
  have hDs : D.Sublist (upTo A.np) := by
    rw [← items_flatten R hR A P hP hP2 hN]
    exact flatten_sublist _ _ _ fun r _ => (List.drop_sublist _ _).trans (hui r)
  have hTm : ∀ i, i ∈ T ↔ ∃ r ≤ P, i ∈ (u r).take (nMover R A P r) := by
    intro i
    simp only [hT, List.mem_flatten, List.mem_map, List.mem_range]
    constructor
    · rintro ⟨_, ⟨r, hr, rfl⟩, hi⟩; exact ⟨r, by omega, hi⟩
    · rintro ⟨r, hr, hi⟩; exact ⟨_, ⟨r, by omega, rfl⟩, hi⟩
  have hDm : ∀ i, i ∈ D ↔ ∃ r ≤ P, i ∈ (u r).drop (nMover R A P r) := by
    intro i
    simp only [hD, List.mem_flatten, List.mem_map, List.mem_range]
    constructor
    · rintro ⟨_, ⟨r, hr, rfl⟩, hi⟩; exact ⟨r, by omega, hi⟩
    · rintro ⟨r, hr, hi⟩; exact ⟨_, ⟨r, by omega, rfl⟩, hi⟩
  have hTD : ∀ i, i ∈ T → i ∉ D := by
    intro i h1 h2
    obtain ⟨r, hr1, hi1⟩ := (hTm i).mp h1
    obtain ⟨r', hr2, hi2⟩ := (hDm i).mp h2
    have := items_unique R hR A P hP hP2 hN i r r' hr1 hr2
      ((hui r).subset (List.mem_of_mem_take hi1)) ((hui r').subset (List.mem_of_mem_drop hi2))
    subst this
    have hd := hnd r
    rw [← List.take_append_drop (nMover R A P r) (u r), List.nodup_append] at hd
    exact hd.2.2 i hi1 i hi2 rfl
  have hidx : (moverList pm nm).map Mover.i = T := by
    have := congrArg (List.map Prod.fst) e3
    simp only [List.map_map] at this
    have e4 : (Prod.fst ∘ fun i => (i, left i)) = (id : ℤ → ℤ) := rfl
    rw [e4, List.map_id] at this
    exact this
  have hmv : ∀ mv ∈ moverList pm nm, left mv.i = some mv.disp := by
    intro mv hmv
    have : (mv.i, some mv.disp) ∈ (moverList pm nm).map (fun mv => (mv.i, some mv.disp)) :=
      List.mem_map.mpr ⟨mv, hmv, rfl⟩
    rw [e3] at this
    obtain ⟨i, -, hi⟩ := List.mem_map.mp this
    simp only [Prod.mk.injEq] at hi
    obtain ⟨rfl, hi⟩ := hi
    exact hi
  have hrange : ∀ i, i ∈ upTo A.np ↔ 0 ≤ i ∧ i < A.np := by
    intro i
    simp only [upTo, List.mem_map, List.mem_range]
    constructor
    · rintro ⟨a, ha, rfl⟩; omega
    · rintro ⟨h0, h1⟩; exact ⟨i.toNat, by omega, by omega⟩
  have hends : ∀ i : ℤ, 0 ≤ i → i < A.np → PushEnds A (m.part i) (p' i) (left i) :=
    fun i h0 h1 => ⟨da i, hp i h0 h1⟩
  refine ⟨pm, nm, e1, e2, ?_, ?_, ⟨D, ?_, ?_, ?_, ?_⟩, ?_⟩
  · rw [hidx]; exact (upTo_pairwise _).sublist hTs
  · intro mv hm
    have hiT : mv.i ∈ T := by rw [← hidx]; exact List.mem_map.mpr ⟨mv, hm, rfl⟩
    have hi := (hrange _).mp (hTs.subset hiT)
    refine ⟨hi.1, hi.2, p' mv.i, ?_, ?_⟩
    · have := hends mv.i hi.1 hi.2; rwa [hmv mv hm] at this
    · obtain ⟨r, hrP, hr1⟩ := (hTm _).mp hiT
      have := (hr r hrP).2.1 mv.i ((hui r).subset (List.mem_of_mem_take hr1))
      rw [this, if_neg]
      intro hdr
      exact hTD _ hiT ((hDm _).mpr ⟨r, hrP, hdr⟩)
  · exact hDs.nodup (by
      unfold upTo; exact List.Nodup.map (fun a b h => by simpa using h) List.nodup_range)
  · rw [hD, List.length_flatten, List.map_map]
    congr 1
    apply List.map_congr_left
    intro r hrm
    rw [(hr r (hmem r hrm)).1]
    simp [hu]
  · intro i hiD
    have hi := (hrange _).mp (hDs.subset hiD)
    obtain ⟨r, hrP, hr1⟩ := (hDm _).mp hiD
    have hl : (left i).isSome = true := by
      have := List.mem_of_mem_drop hr1
      simp only [hu, unf, List.mem_filter] at this
      exact this.2
    obtain ⟨disp, hdisp⟩ := Option.isSome_iff_exists.mp hl
    refine ⟨hi.1, hi.2, p' i, disp, ?_, ?_⟩
    · have := hends i hi.1 hi.2; rwa [hdisp] at this
    · have := (hr r hrP).2.1 i ((hui r).subset (List.mem_of_mem_drop hr1))
      rw [this, if_pos hr1]
  · intro i h0 h1 hun
    have hl : (left i).isSome = true := by
      obtain ⟨q, disp, a', hq⟩ := hun
      have := hp i h0 h1
      rw [hq] at this
      simp only [Option.some.injEq, Prod.mk.injEq] at this
      rw [← this.2.2]; rfl
    obtain ⟨r, hrP, hir⟩ := (items_iff R hR A P hP hP2 hN i).mpr ⟨h0, h1⟩
    have hiu : i ∈ u r := List.mem_filter.mpr ⟨hir, hl⟩
    rw [hidx]
    rw [← List.take_append_drop (nMover R A P r) (u r), List.mem_append] at hiu
    rcases hiu with hiu | hiu
    · have : i ∈ T := (hTm i).mpr ⟨r, hrP, hiu⟩
      exact Or.inl ⟨this, hTD i this⟩
    · have : i ∈ D := (hDm i).mpr ⟨r, hrP, hiu⟩
      exact Or.inr ⟨fun h => hTD i h this, this⟩
  · intro i h0 h1 hun
    have hl : left i = none := by
      cases hli : left i with
      | none => rfl
      | some disp => exact absurd ⟨p' i, disp, by have := hends i h0 h1; rwa [hli] at this⟩ hun
    obtain ⟨r, hrP, hir⟩ := (items_iff R hR A P hP hP2 hN i).mpr ⟨h0, h1⟩
    have := (hr r hrP).2.1 i hir
    rw [this, if_neg]
    · have := hends i h0 h1; rwa [hl] at this
    · intro hd
      have := List.mem_of_mem_drop hd
      simp only [unf, List.mem_filter, hl] at this
      simp at this

end Verif.AdvanceP
