import Verif.Step.Model
import Mathlib.Algebra.BigOperators.Group.List.Basic
import Mathlib.Algebra.Field.Rat
import Mathlib.Data.Int.Interval
import Mathlib.Order.Interval.Finset.Basic
import Mathlib.Tactic.Ring
import Mathlib.Tactic.Linarith
import Mathlib.Tactic.FinCases

/-!
# The time step: properties (C63)
-/
namespace Verif.Step

/-- Spec: the interval asks for the task at this step. -/
def On (interval step : ℤ) : Prop := 0 < interval ∧ interval ∣ step

instance (i s : ℤ) : Decidable (On i s) := by unfold On; infer_instance

lemma due_iff (i s : ℤ) : due i s = true ↔ On i s := by
  simp [due, On, Int.dvd_iff_tmod_eq_zero]

/-- **C63.** A call performs a step exactly when `num_step` is not positive or has not been
reached; it then returns true and increases the step by one; otherwise it does nothing at all. -/
theorem advance_result (c : Cfg) (s : ℤ) :
    ((c.numStep ≤ 0 ∨ s < c.numStep) →
      (advance c s).ret = true ∧ (advance c s).step = s + 1) ∧
    (¬ (c.numStep ≤ 0 ∨ s < c.numStep) →
      (advance c s).ret = false ∧ (advance c s).step = s ∧ (advance c s).log = []) := by
  unfold advance
  constructor
  · intro h
    rw [if_neg (by omega)]
    simp
  · intro h
    rw [if_pos (by omega)]
    simp

lemma count_forSpecies_none (c : Cfg) (f : ℕ → ℤ → List Task) (t : Task)
    (h : ∀ sp iv, (f sp iv).count t = 0) : (forSpecies c f).count t = 0 := by
  unfold forSpecies
  rw [List.count_flatten]
  apply List.sum_eq_zero
  intro x hx
  simp only [List.mem_map, List.map_map, Function.comp] at hx
  obtain ⟨q, -, rfl⟩ := hx
  exact h _ _

lemma count_zipIdx (l : List ℤ) (k sp : ℕ) (g : ℤ → ℕ) (hk : k ≤ sp) :
    ((l.zipIdx k).map fun q => if q.2 = sp then g q.1 else 0).sum
      = if h : sp - k < l.length then g l[sp - k] else 0 := by
  induction l generalizing k with
  | nil => simp
  | cons a l ih =>
    simp only [List.zipIdx_cons, List.map_cons, List.sum_cons, List.length_cons]
    by_cases hks : k = sp
    · subst hks
      have : ((l.zipIdx (k + 1)).map fun q => if q.2 = k then g q.1 else 0).sum = 0 := by
        apply List.sum_eq_zero
        intro x hx
        simp only [List.mem_map] at hx
        obtain ⟨q, hq, rfl⟩ := hx
        have := List.le_snd_of_mem_zipIdx hq
        rw [if_neg (by omega)]
      simp [this]
    · rw [if_neg hks, ih (k + 1) (by omega), zero_add]
      have e : sp - k = (sp - (k + 1)) + 1 := by omega
      by_cases h : sp - (k + 1) < l.length
      · rw [dif_pos h, dif_pos (by omega)]
        congr 1
        simp [e]
      · rw [dif_neg h, dif_neg (by omega)]

lemma count_forSpecies (c : Cfg) (f : ℕ → ℤ → List Task) (t : Task) (sp : ℕ) (g : ℤ → ℕ)
    (h : ∀ q iv, (f q iv).count t = if q = sp then g iv else 0) :
    (forSpecies c f).count t = if h : sp < c.sorts.length then g c.sorts[sp] else 0 := by
  unfold forSpecies
  rw [List.count_flatten]
  have := count_zipIdx c.sorts 0 sp g (Nat.zero_le _)
  simp only [Nat.sub_zero] at this
  rw [← this, List.map_map]
  congr 1
  apply List.map_congr_left
  intro q _
  exact h _ _

lemma count_rounds_clean (n : ℤ) (a b d : Task) (hab : a ≠ d) (hbd : b ≠ d) :
    (rounds n a b d).count d = n.toNat := by
  unfold rounds
  rw [List.count_flatten, List.map_map]
  have : (List.map (List.count d ∘ fun (r : ℕ) =>
      a :: ((if r = 0 ∨ (r : ℤ) = n - 1 then [b] else []) ++ [d])) (List.range n.toNat))
      = List.replicate n.toNat 1 := by
    rw [List.eq_replicate_iff]
    refine ⟨by simp, ?_⟩
    intro x hx
    simp only [List.mem_map, Function.comp] at hx
    obtain ⟨r, -, rfl⟩ := hx
    split <;> simp [List.count_cons, hab, hbd]
  rw [this]; simp

lemma count_rounds_rms (n : ℤ) (a b d : Task) (hab : a ≠ b) (hbd : d ≠ b) :
    (rounds n a b d).count b = min n.toNat 2 := by
  unfold rounds
  rw [List.count_flatten, List.map_map]
  have : (List.map (List.count b ∘ fun (r : ℕ) =>
      a :: ((if r = 0 ∨ (r : ℤ) = n - 1 then [b] else []) ++ [d])) (List.range n.toNat))
      = (List.range n.toNat).map fun r => if r = 0 ∨ r + 1 = n.toNat then 1 else 0 := by
    apply List.map_congr_left
    intro r hr
    have hr := List.mem_range.1 hr
    have e : ((r : ℤ) = n - 1) ↔ r + 1 = n.toNat := by omega
    simp only [Function.comp, e]
    split <;> simp [List.count_cons, hab, hbd]
  rw [this]
  generalize n.toNat = m
  rcases m with _ | _ | m
  · simp
  · simp
  · rw [List.range_succ_eq_map, List.map_cons, List.map_map, List.sum_cons, List.range_succ,
      List.map_append, List.sum_append]
    have h0 : (List.map ((fun r => if r = 0 ∨ r + 1 = m + 1 + 1 then 1 else 0) ∘ Nat.succ)
        (List.range m)).sum = 0 := by
      apply List.sum_eq_zero
      intro x hx
      simp only [List.mem_map, Function.comp, List.mem_range] at hx
      obtain ⟨r, hr, rfl⟩ := hx
      rw [if_neg (by omega)]
    rw [h0]
    simp

lemma count_rounds_other (n : ℤ) (a b d t : Task) (ha : a ≠ t) (hb : b ≠ t) (hd : d ≠ t) :
    (rounds n a b d).count t = 0 := by
  unfold rounds
  rw [List.count_flatten, List.map_map]
  apply List.sum_eq_zero
  intro x hx
  simp only [List.mem_map, Function.comp] at hx
  obtain ⟨r, -, rfl⟩ := hx
  split <;> simp [List.count_cons, ha, hb, hd]

lemma count_ite (P : Prop) [Decidable P] (l : List Task) (t : Task) :
    (if P then l else []).count t = if P then l.count t else 0 := by
  split <;> simp

/-- Spec: the call performs a step. -/
def Active (c : Cfg) (s : ℤ) : Prop := c.numStep ≤ 0 ∨ s < c.numStep

instance (c : Cfg) (s : ℤ) : Decidable (Active c s) := by unfold Active; infer_instance

lemma log_active (c : Cfg) (s : ℤ) (h : Active c s) :
    (advance c s).log = body c s ++ (if due c.statusInterval (s + 1) then [.status (s + 1)] else [])
      ++ [.userDiagnostics] := by
  unfold Active at h
  unfold advance
  rw [if_neg (by omega)]

/-- **C63.** In a performed step species number `sp` is sorted once if its sort interval is positive
and divides the step, and not at all otherwise. -/
theorem sort_count (c : Cfg) (s : ℤ) (h : Active c s) (sp : ℕ) (hsp : sp < c.sorts.length) :
    (advance c s).log.count (.sort sp) = if On c.sorts[sp] s then 1 else 0 := by
  rw [log_active c s h]
  have h1 := count_forSpecies c (fun sp iv => if due iv s then [Task.sort sp] else []) (.sort sp) sp
    (fun iv => if On iv s then 1 else 0) (by
      intro q iv
      by_cases hq : q = sp <;> by_cases hd : On iv s <;>
        simp [hq, hd, (due_iff iv s), List.count_cons])
  rw [dif_pos hsp] at h1
  have h2 := count_forSpecies_none c (fun sp _ => [Task.advanceP sp]) (.sort sp) (by simp)
  have h3 := count_forSpecies_none c (fun sp _ => [Task.dropMovers sp]) (.sort sp) (by simp)
  have h4 := count_forSpecies_none c (fun sp _ => [Task.accumulateRho sp]) (.sort sp) (by simp)
  have h5 := count_rounds_other c.numDivERound .computeDivE .rmsDivE .cleanDivE (.sort sp)
    (by simp) (by simp) (by simp)
  have h6 := count_rounds_other c.numDivBRound .computeDivB .rmsDivB .cleanDivB (.sort sp)
    (by simp) (by simp) (by simp)
  unfold body
  simp only [List.count_append, h1, h2, h3, List.count_replicate, count_ite, h4, h5, h6]
  simp_all [List.count_append, List.count_cons, count_ite]

/-- **C63.** Divergence cleaning of the electric field: `num_div_e_round` passes on the multiples of
its interval, with the error measured in the first and in the last pass, and nothing on other
steps. -/
theorem clean_e_count (c : Cfg) (s : ℤ) (h : Active c s) :
    (advance c s).log.count .cleanDivE
      = (if On c.cleanDivEInterval s then c.numDivERound.toNat else 0) ∧
    (advance c s).log.count .rmsDivE
      = (if On c.cleanDivEInterval s then min c.numDivERound.toNat 2 else 0) := by
  rw [log_active c s h]
  have hd := due_iff c.cleanDivEInterval s
  constructor
  all_goals
    unfold body
    simp only [List.count_append, List.count_replicate, count_ite]
    rw [count_forSpecies_none c _ _ (by intro sp iv; split <;> simp),
      count_forSpecies_none c (fun sp _ => [Task.advanceP sp]) _ (by simp),
      count_forSpecies_none c (fun sp _ => [Task.dropMovers sp]) _ (by simp)]
  · have h6 := count_rounds_other c.numDivBRound .computeDivB .rmsDivB .cleanDivB .cleanDivE
      (by simp) (by simp) (by simp)
    have h7 := count_rounds_clean c.numDivERound .computeDivE .rmsDivE .cleanDivE (by simp)
      (by simp)
    have h4 := count_forSpecies_none c (fun sp _ => [Task.accumulateRho sp]) .cleanDivE (by simp)
    simp_all [List.count_append, List.count_cons, count_ite]
  · have h6 := count_rounds_other c.numDivBRound .computeDivB .rmsDivB .cleanDivB .rmsDivE
      (by simp) (by simp) (by simp)
    have h7 := count_rounds_rms c.numDivERound .computeDivE .rmsDivE .cleanDivE (by simp)
      (by simp)
    have h4 := count_forSpecies_none c (fun sp _ => [Task.accumulateRho sp]) .rmsDivE (by simp)
    simp_all [List.count_append, List.count_cons, count_ite]

/-- **C63.** The same for the magnetic field. -/
theorem clean_b_count (c : Cfg) (s : ℤ) (h : Active c s) :
    (advance c s).log.count .cleanDivB
      = (if On c.cleanDivBInterval s then c.numDivBRound.toNat else 0) ∧
    (advance c s).log.count .rmsDivB
      = (if On c.cleanDivBInterval s then min c.numDivBRound.toNat 2 else 0) := by
  rw [log_active c s h]
  have hd := due_iff c.cleanDivBInterval s
  constructor
  all_goals
    unfold body
    simp only [List.count_append, List.count_replicate, count_ite]
    rw [count_forSpecies_none c _ _ (by intro sp iv; split <;> simp),
      count_forSpecies_none c (fun sp _ => [Task.advanceP sp]) _ (by simp),
      count_forSpecies_none c (fun sp _ => [Task.dropMovers sp]) _ (by simp)]
  · have h6 := count_rounds_other c.numDivERound .computeDivE .rmsDivE .cleanDivE .cleanDivB
      (by simp) (by simp) (by simp)
    have h7 := count_rounds_clean c.numDivBRound .computeDivB .rmsDivB .cleanDivB (by simp)
      (by simp)
    have h4 := count_forSpecies_none c (fun sp _ => [Task.accumulateRho sp]) .cleanDivB (by simp)
    simp_all [List.count_append, List.count_cons, count_ite]
  · have h6 := count_rounds_other c.numDivERound .computeDivE .rmsDivE .cleanDivE .rmsDivB
      (by simp) (by simp) (by simp)
    have h7 := count_rounds_rms c.numDivBRound .computeDivB .rmsDivB .cleanDivB (by simp)
      (by simp)
    have h4 := count_forSpecies_none c (fun sp _ => [Task.accumulateRho sp]) .rmsDivB (by simp)
    simp_all [List.count_append, List.count_cons, count_ite]

/-- **C63.** Shared faces are synchronised exactly on multiples of the interval; the status line is
printed exactly when the number of completed steps is a multiple of its interval. -/
theorem sync_status_count (c : Cfg) (s : ℤ) (h : Active c s) :
    (advance c s).log.count .syncShared = (if On c.syncSharedInterval s then 1 else 0) ∧
    ∀ k, (advance c s).log.count (.status k)
      = (if k = s + 1 ∧ On c.statusInterval k then 1 else 0) := by
  rw [log_active c s h]
  constructor
  · have hd := due_iff c.syncSharedInterval s
    unfold body
    simp only [List.count_append, List.count_replicate, count_ite]
    rw [count_forSpecies_none c _ _ (by intro sp iv; split <;> simp),
      count_forSpecies_none c (fun sp _ => [Task.advanceP sp]) _ (by simp),
      count_forSpecies_none c (fun sp _ => [Task.dropMovers sp]) _ (by simp)]
    have h6 := count_rounds_other c.numDivERound .computeDivE .rmsDivE .cleanDivE .syncShared
      (by simp) (by simp) (by simp)
    have h7 := count_rounds_other c.numDivBRound .computeDivB .rmsDivB .cleanDivB .syncShared
      (by simp) (by simp) (by simp)
    have h4 := count_forSpecies_none c (fun sp _ => [Task.accumulateRho sp]) .syncShared (by simp)
    simp_all [List.count_append, List.count_cons, count_ite]
  · intro k
    have hd := due_iff c.statusInterval (s + 1)
    unfold body
    simp only [List.count_append, List.count_replicate, count_ite]
    rw [count_forSpecies_none c _ _ (by intro sp iv; split <;> simp),
      count_forSpecies_none c (fun sp _ => [Task.advanceP sp]) _ (by simp),
      count_forSpecies_none c (fun sp _ => [Task.dropMovers sp]) _ (by simp)]
    have h6 := count_rounds_other c.numDivERound .computeDivE .rmsDivE .cleanDivE (.status k)
      (by simp) (by simp) (by simp)
    have h7 := count_rounds_other c.numDivBRound .computeDivB .rmsDivB .cleanDivB (.status k)
      (by simp) (by simp) (by simp)
    have h4 := count_forSpecies_none c (fun sp _ => [Task.accumulateRho sp]) (.status k) (by simp)
    by_cases hk : k = s + 1
    · subst hk
      simp_all [List.count_append, List.count_cons, count_ite]
    · have hk' : ¬ s + 1 = k := fun e => hk e.symm
      simp_all [List.count_append, List.count_cons, count_ite]

/-- Every species is pushed once per step. -/
theorem push_once (c : Cfg) (s : ℤ) (h : Active c s) (sp : ℕ) :
    (advance c s).log.count (.advanceP sp) = if sp < c.sorts.length then 1 else 0 := by
  rw [log_active c s h]
  have h1 := count_forSpecies c (fun sp _ => [Task.advanceP sp]) (.advanceP sp) sp
    (fun _ => 1) (by
      intro q iv
      by_cases hq : q = sp <;> simp [hq, List.count_cons])
  have h2 := count_forSpecies_none c (fun sp iv => if due iv s then [Task.sort sp] else [])
    (.advanceP sp) (by intro sp iv; split <;> simp)
  have h3 := count_forSpecies_none c (fun sp _ => [Task.dropMovers sp]) (.advanceP sp) (by simp)
  have h4 := count_forSpecies_none c (fun sp _ => [Task.accumulateRho sp]) (.advanceP sp) (by simp)
  have h5 := count_rounds_other c.numDivERound .computeDivE .rmsDivE .cleanDivE (.advanceP sp)
    (by simp) (by simp) (by simp)
  have h6 := count_rounds_other c.numDivBRound .computeDivB .rmsDivB .cleanDivB (.advanceP sp)
    (by simp) (by simp) (by simp)
  unfold body
  simp only [List.count_append, h1, h2, h3, List.count_replicate, count_ite, h4, h5, h6]
  simp_all [List.count_append, List.count_cons, count_ite]

end Verif.Step
