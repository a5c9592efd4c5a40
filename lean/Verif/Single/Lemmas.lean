import Verif.Single.Model
import Verif.Distribute.Props

/-! Helper lemmas for the one-particle collision operators. -/
namespace Verif.Single

open Verif.Distribute

variable {K S : Type}

/-- Specification: treat the particles of a list one after the other with one generator. -/
def treatAll (treat : MoveP.Part K → S → MoveP.Part K × S) : List (MoveP.Part K) → S → List (MoveP.Part K) × S
  | [], s => ([], s)
  | p :: ps, s =>
    ((treat p s).1 :: (treatAll treat ps (treat p s).2).1, (treatAll treat ps (treat p s).2).2)

/-- What pipeline `r` owns. -/
def foot (R : Rounding) (np P r : ℕ) : Addr → Prop
  | .part i => i ∈ unaryItems R np P r
  | .gen s => s = r

lemma unaryItems_eq (R : Rounding) (np P r : ℕ) :
    unaryItems R np P r = iota (cut R np P r) (cut R np P (r + 1) - cut R np P r).toNat := rfl

lemma unaryItems_nodup (R : Rounding) (np P r : ℕ) : (unaryItems R np P r).Nodup :=
  iota_nodup _ _

lemma mem_unaryItems (R : Rounding) (np P r : ℕ) (i : ℤ) :
    i ∈ unaryItems R np P r ↔ cut R np P r ≤ i ∧ i < cut R np P (r + 1) := by
  rw [unaryItems_eq, iota_mem]
  constructor <;> rintro ⟨h1, h2⟩ <;> constructor <;> omega

lemma cut_mono_le (R : Rounding) (hR : R.Accurate) (np P : ℕ) (hN : np < 2 ^ 31) (hP : 0 < P)
    (hP2 : P ≤ 2 ^ 16) (a b : ℕ) (hab : a ≤ b) (hb : b ≤ P) : cut R np P a ≤ cut R np P b := by
  induction b, hab using Nat.le_induction with
  | base => exact le_rfl
  | succ b hab ih => exact (ih (by omega)).trans (cut_mono R hR np P b hP (by omega) hN hP2)

lemma treatAt_local (R : Rounding) (np P : ℕ) (treat : MoveP.Part K → S → MoveP.Part K × S) (r : ℕ) (i : ℤ)
    (hi : i ∈ unaryItems R np P r) :
    Local (V := Val K S) (foot R np P r) (fun _ => False) (treatAt treat r i) := by
  constructor
  · intro m x hx
    cases x with
    | part j =>
      have : j ≠ i := fun e => hx (by simpa [foot, e] using hi)
      simp [treatAt, this]
    | gen s =>
      have : s ≠ r := fun e => hx (by simp [foot, e])
      simp [treatAt, this]
  · intro m m' h x hx
    have h1 : m (.part i) = m' (.part i) := h (.part i) (Or.inl hi)
    have h2 : m (.gen r) = m' (.gen r) := h (.gen r) (Or.inl rfl)
    have h3 := h x (Or.inl hx)
    cases x with
    | part j => simp only [treatAt, h1, h2]; split_ifs <;> first | rfl | exact h3
    | gen s => simp only [treatAt, h1, h2]; split_ifs <;> first | rfl | exact h3

lemma startAt_local (R : Rounding) (np P : ℕ) (start : S → S) (r : ℕ) :
    Local (V := Val K S) (foot R np P r) (fun _ => False) (startAt start r) := by
  constructor
  · intro m x hx
    cases x with
    | part j => rfl
    | gen s =>
      have : s ≠ r := fun e => hx (by simp [foot, e])
      simp [startAt, this]
  · intro m m' h x hx
    have h2 : m (.gen r) = m' (.gen r) := h (.gen r) (Or.inl rfl)
    have h3 := h x (Or.inl hx)
    cases x with
    | part j => exact h3
    | gen s => simp only [startAt, h2]; split_ifs <;> first | rfl | exact h3

lemma runSeq_treat (treat : MoveP.Part K → S → MoveP.Part K × S) (r : ℕ) (l : List ℤ) (hl : l.Nodup)
    (m : Mem K S) :
    (l.map fun i => runSeq (l.map (treatAt treat r)) m (.part i))
      = (treatAll treat (l.map fun i => m (.part i)) (m (.gen r))).1 ∧
    runSeq (l.map (treatAt treat r)) m (.gen r)
      = (treatAll treat (l.map fun i => m (.part i)) (m (.gen r))).2 ∧
    ∀ i, i ∉ l → runSeq (l.map (treatAt treat r)) m (.part i) = m (.part i) := by
  induction l generalizing m with
  | nil => simp [treatAll]
  | cons a l ih =>
    rw [List.nodup_cons] at hl
    obtain ⟨h1, h2, h3⟩ := ih hl.2 (treatAt treat r a m)
    have hp : (l.map fun i => treatAt treat r a m (.part i)) = l.map fun i => m (.part i) := by
      apply List.map_congr_left
      intro i hi
      have : i ≠ a := fun e => hl.1 (e ▸ hi)
      simp [treatAt, this]
    have hg : treatAt treat r a m (.gen r) = (treat (m (.part a)) (m (.gen r))).2 := by
      simp [treatAt]
    have ha : treatAt treat r a m (.part a) = (treat (m (.part a)) (m (.gen r))).1 := by
      simp [treatAt]
    rw [hp, hg] at h1 h2
    simp only [List.map_cons, runSeq_cons, treatAll]
    refine ⟨?_, h2, ?_⟩
    · rw [h1, h3 a hl.1, ha]
    · intro i hi
      simp only [List.mem_cons, not_or] at hi
      rw [h3 i hi.2]
      simp [treatAt, hi.1]

/-- The result of any interleaving, share by share. -/
lemma exec_shares (R : Rounding) (hR : R.Accurate) (np P : ℕ) (hN : np < 2 ^ 31) (hP : 0 < P)
    (hP2 : P ≤ 2 ^ 16) (start : S → S) (treat : MoveP.Part K → S → MoveP.Part K × S) (m m' : Mem K S)
    (h : Exec R np P start treat m m') :
    (∀ r < P,
      ((unaryItems R np P r).map fun i => m' (.part i))
        = (treatAll treat ((unaryItems R np P r).map fun i => m (.part i)) (start (m (.gen r)))).1 ∧
      m' (.gen r)
        = (treatAll treat ((unaryItems R np P r).map fun i => m (.part i)) (start (m (.gen r)))).2) ∧
    (∀ i : ℤ, i < 0 ∨ (np : ℤ) ≤ i → m' (.part i) = m (.part i)) ∧
    ∀ r, P ≤ r → m' (.gen r) = m (.gen r) := by
  have key := runs_footprint (V := Val K S) (List.range P) (foot R np P) (fun _ => False)
    (pipeline R np P start treat) (by
      intro r hr f hf
      rcases List.mem_cons.mp hf with rfl | hf
      · exact startAt_local R np P start r
      · obtain ⟨i, hi, rfl⟩ := List.mem_map.mp hf
        exact treatAt_local R np P treat r i hi) (by
      refine List.Pairwise.imp_of_mem ?_ (List.pairwise_lt_range (n := P))
      intro r r' hr hr' hlt x hx hx'
      rw [List.mem_range] at hr hr'
      cases x with
      | part i =>
        have h1 := (mem_unaryItems R np P r i).mp hx
        have h2 := (mem_unaryItems R np P r' i).mp hx'
        have := cut_mono_le R hR np P hN hP hP2 (r + 1) r' hlt hr'.le
        omega
      | gen s =>
        have h1 : s = r := hx
        have h2 : s = r' := hx'
        omega) (by simp) m m' h
  have h0 := cut_zero R hR np P hP hN
  have h1 := cut_last R hR np P hP hN
  refine ⟨?_, ?_, ?_⟩
  · intro r hr
    have kr := key.1 r (List.mem_range.mpr hr)
    obtain ⟨a, b, _⟩ := runSeq_treat treat r (unaryItems R np P r) (unaryItems_nodup R np P r)
      (startAt start r m)
    have e1 : ∀ x, runSeq (pipeline R np P start treat r) m x
        = runSeq ((unaryItems R np P r).map (treatAt treat r)) (startAt start r m) x := fun _ => rfl
    have e2 : startAt start r m (.gen r) = start (m (.gen r)) := by simp [startAt]
    have e3 : ((unaryItems R np P r).map fun i => startAt start r m (.part i))
        = (unaryItems R np P r).map fun i => m (.part i) := rfl
    rw [e2, e3] at a b
    refine ⟨?_, ?_⟩
    · rw [← a]
      apply List.map_congr_left
      intro i hi
      rw [kr (.part i) hi, e1]
    · rw [kr (.gen r) rfl, e1, b]
  · intro i hi
    refine key.2 (.part i) ?_
    intro r hr hx
    rw [List.mem_range] at hr
    have := (mem_unaryItems R np P r i).mp hx
    have a1 := cut_mono_le R hR np P hN hP hP2 0 r (by omega) hr.le
    have a2 := cut_mono_le R hR np P hN hP hP2 (r + 1) P hr le_rfl
    omega
  · intro r hr
    refine key.2 (.gen r) ?_
    intro s hs hx
    rw [List.mem_range] at hs
    have : r = s := hx
    omega

/-- Every particle is in exactly one share. -/
lemma exists_share (R : Rounding) (hR : R.Accurate) (np P : ℕ) (hN : np < 2 ^ 31) (hP : 0 < P)
    (hP2 : P ≤ 2 ^ 16) (i : ℤ) (h0 : 0 ≤ i) (h1 : i < np) :
    ∃ r < P, i ∈ unaryItems R np P r := by
  have := unary_split_exact R hR np P hN hP hP2
  have hi : i ∈ ((List.range P).map (unaryItems R np P)).flatten := by
    rw [this]
    simp only [upTo, List.mem_map, List.mem_range]
    exact ⟨i.toNat, by omega, by omega⟩
  obtain ⟨l, hl, hil⟩ := List.mem_flatten.mp hi
  obtain ⟨r, hr, rfl⟩ := List.mem_map.mp hl
  exact ⟨r, List.mem_range.mp hr, hil⟩

lemma treatAll_length (treat : MoveP.Part K → S → MoveP.Part K × S) (l : List (MoveP.Part K)) (s : S) :
    (treatAll treat l s).1.length = l.length := by
  induction l generalizing s with
  | nil => rfl
  | cons p l ih => simp [treatAll, ih]

/-- The `j`-th particle of a share is treated with some state of the generator. -/
lemma treatAll_get (treat : MoveP.Part K → S → MoveP.Part K × S) (l : List (MoveP.Part K)) (s : S) (j : ℕ)
    (p : MoveP.Part K) (hj : l[j]? = some p) : ∃ s', (treatAll treat l s).1[j]? = some (treat p s').1 := by
  induction l generalizing s j with
  | nil => simp at hj
  | cons q l ih =>
    cases j with
    | zero => simp only [List.getElem?_cons_zero, Option.some.injEq] at hj; subst hj; exact ⟨s, rfl⟩
    | succ j => simp only [List.getElem?_cons_succ] at hj; simpa [treatAll] using ih _ j hj

/-- Every particle is treated once, with some state of a generator. -/
lemma exec_each (R : Rounding) (hR : R.Accurate) (np P : ℕ) (hN : np < 2 ^ 31) (hP : 0 < P)
    (hP2 : P ≤ 2 ^ 16) (start : S → S) (treat : MoveP.Part K → S → MoveP.Part K × S) (m m' : Mem K S)
    (h : Exec R np P start treat m m') (i : ℤ) (h0 : 0 ≤ i) (h1 : i < np) :
    ∃ s, m' (.part i) = (treat (m (.part i)) s).1 := by
  obtain ⟨r, hr, hi⟩ := exists_share R hR np P hN hP hP2 i h0 h1
  obtain ⟨a, _⟩ := (exec_shares R hR np P hN hP hP2 start treat m m' h).1 r hr
  obtain ⟨j, hj⟩ := List.getElem?_of_mem hi
  have hp : ((unaryItems R np P r).map fun i => m (.part i))[j]? = some (m (.part i)) := by
    simp [hj]
  obtain ⟨s, hs⟩ := treatAll_get treat _ (start (m (.gen r))) j _ hp
  rw [← a] at hs
  simp only [List.getElem?_map, hj, Option.map_some, Option.some.injEq] at hs
  exact ⟨s, hs⟩

end Verif.Single
