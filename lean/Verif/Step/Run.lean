import Verif.Step.Props
import Mathlib.Algebra.BigOperators.Group.Finset.Basic
import Mathlib.Algebra.Order.Ring.Int
import Mathlib.Data.Int.Range
import Mathlib.Algebra.BigOperators.Group.Finset.Piecewise

/-!
# Whole runs (C63)
-/
namespace Verif.Step

/-! ## Order of the kernels within a step -/

/-- Spec: the place of a kernel in a step.  Charge conservation needs: accumulators cleared before
any particle moves; particles moved by pushes, emission and injection before the accumulators are
reduced; boundary handling and removal of left-over movers after that and before the currents are
unloaded; fields advanced with the synchronised currents; interpolators loaded from the final
fields. -/
def phase : Task → ℕ
  | .sort _ => 0
  | .clearAcc => 1
  | .collisions => 2
  | .userCollisions => 3
  | .advanceP _ => 4
  | .emitters => 5
  | .userInjection => 6
  | .reduceAcc => 7
  | .boundaryP => 8
  | .dropMovers _ => 9
  | .clearJf => 10
  | .unload => 11
  | .syncJf => 12
  | .userCurrent => 13
  | .advanceB _ | .advanceE _ | .userField => 14
  | .clearRhof => 15
  | .accumulateRho _ => 16
  | .syncRho => 17
  | .computeDivE | .rmsDivE | .cleanDivE => 18
  | .computeDivB | .rmsDivB | .cleanDivB => 19
  | .syncShared => 20
  | .loadInterp => 21
  | .status _ => 22
  | .userDiagnostics => 23

/-- All tasks of the list lie in phases `a .. b-1` and the phases do not decrease. -/
def Seg (a b : ℕ) (l : List Task) : Prop :=
  l.Pairwise (fun x y => phase x ≤ phase y) ∧ ∀ x ∈ l, a ≤ phase x ∧ phase x < b

lemma Seg.append {a b c : ℕ} {l l' : List Task} (h : Seg a b l) (h' : Seg b c l') (hab : a ≤ b)
    (hbc : b ≤ c) : Seg a c (l ++ l') := by
  refine ⟨List.pairwise_append.2 ⟨h.1, h'.1, ?_⟩, ?_⟩
  · intro x hx y hy
    have := h.2 x hx
    have := h'.2 y hy
    omega
  · intro x hx
    rcases List.mem_append.1 hx with hx | hx
    · have := h.2 x hx; omega
    · have := h'.2 x hx; omega

lemma seg_const {a : ℕ} {l : List Task} (h : ∀ x ∈ l, phase x = a) : Seg a (a + 1) l := by
  refine ⟨List.pairwise_iff_forall_sublist.2 ?_, fun x hx => by have := h x hx; omega⟩
  intro x y hxy
  have h1 := h x (hxy.subset (by simp))
  have h2 := h y (hxy.subset (by simp))
  omega

lemma seg_ite {a b : ℕ} (P : Prop) [Decidable P] {l : List Task} (h : Seg a b l) :
    Seg a b (if P then l else []) := by
  split
  · exact h
  · exact ⟨by simp, by simp⟩

lemma seg_species (c : Cfg) (a : ℕ) (f : ℕ → ℤ → List Task)
    (h : ∀ sp iv, ∀ x ∈ f sp iv, phase x = a) : Seg a (a + 1) (forSpecies c f) := by
  apply seg_const
  intro x hx
  simp only [forSpecies, List.mem_flatten, List.mem_map] at hx
  obtain ⟨l, ⟨q, -, rfl⟩, hx⟩ := hx
  exact h _ _ _ hx

lemma seg_rounds (n : ℤ) (k : ℕ) (a b d : Task) (ha : phase a = k) (hb : phase b = k)
    (hd : phase d = k) : Seg k (k + 1) (rounds n a b d) := by
  apply seg_const
  intro x hx
  simp only [rounds, List.mem_flatten, List.mem_map] at hx
  obtain ⟨l, ⟨q, -, rfl⟩, hx⟩ := hx
  split at hx <;> simp at hx <;> aesop

/-- **C63.** Within a step the kernels run in the order of their phases. -/
theorem step_order (c : Cfg) (s : ℤ) :
    (advance c s).log.Pairwise (fun x y => phase x ≤ phase y) := by
  by_cases h : Active c s
  swap
  · rw [((advance_result c s).2 h).2.2]; exact List.Pairwise.nil
  rw [log_active c s h]
  unfold body
  have one : ∀ t, Seg (phase t) (phase t + 1) [t] := fun t => seg_const (by simp [phase])
  have e : Seg 12 15 [Task.syncJf, .userCurrent, .advanceB (1 / 2), .advanceE 1, .userField,
      .advanceB (1 / 2)] := by
    refine ⟨by simp [phase], by simp [phase]⟩
  have cl : Seg 15 19 ([Task.clearRhof] ++ forSpecies c (fun sp _ => [.accumulateRho sp])
      ++ [.syncRho] ++ rounds c.numDivERound .computeDivE .rmsDivE .cleanDivE) :=
    (((one .clearRhof).append (seg_species c 16 _ (by simp [phase])) (by simp [phase])
      (by simp [phase])).append (one .syncRho) (by simp [phase]) (by simp [phase])).append
      (seg_rounds _ 18 _ _ _ rfl rfl rfl) (by simp [phase]) (by simp [phase])
  have s0 := seg_species c 0 (fun sp iv => if due iv s then [.sort sp] else []) (by
    intro sp iv x hx
    split at hx <;> simp at hx
    subst hx; rfl)
  have s1 := s0.append (seg_ite (c.sorts ≠ []) (one .clearAcc)) (by simp [phase]) (by simp [phase])
  have s2 := s1.append (seg_ite (c.hasCollisions = true) (one .collisions)) (by simp [phase])
    (by simp [phase])
  have s3 := s2.append (one .userCollisions) (by simp [phase]) (by simp [phase])
  have s4 := s3.append (seg_species c 4 (fun sp _ => [.advanceP sp]) (by simp [phase])) (by simp [phase])
    (by simp [phase])
  have s5 := s4.append (seg_ite (c.hasEmitters = true) (one .emitters)) (by simp [phase]) (by simp [phase])
  have s6 := s5.append (one .userInjection) (by simp [phase]) (by simp [phase])
  have s7 := s6.append (seg_ite (c.sorts ≠ []) (one .reduceAcc)) (by simp [phase]) (by simp [phase])
  have s8 := s7.append (seg_const (a := 8) (l := List.replicate c.numCommRound.toNat .boundaryP)
    (by intro x hx; rw [List.eq_of_mem_replicate hx]; rfl)) (by simp [phase]) (by simp [phase])
  have s9 := s8.append (seg_species c 9 (fun sp _ => [.dropMovers sp]) (by simp [phase])) (by simp [phase])
    (by simp [phase])
  have s10 := s9.append (one .clearJf) (by simp [phase]) (by simp [phase])
  have s11 := s10.append (seg_ite (c.sorts ≠ []) (one .unload)) (by simp [phase]) (by simp [phase])
  have s12 := s11.append e (by simp [phase]) (by simp [phase])
  have s13 := s12.append (seg_ite (due c.cleanDivEInterval s = true) cl) (by simp [phase]) (by simp [phase])
  have s14 := s13.append (seg_ite (due c.cleanDivBInterval s = true)
    (seg_rounds c.numDivBRound 19 .computeDivB .rmsDivB .cleanDivB rfl rfl rfl)) (by simp [phase]) (by simp [phase])
  have s15 := s14.append (seg_ite (due c.syncSharedInterval s = true) (one .syncShared)) (by simp [phase])
    (by simp [phase])
  have s16 := s15.append (seg_ite (c.sorts ≠ []) (one .loadInterp)) (by simp [phase]) (by simp [phase])
  have s17 := s16.append (seg_ite (due c.statusInterval (s + 1) = true) (one (.status (s + 1))))
    (by simp [phase]) (by simp [phase])
  have s18 := s17.append (one .userDiagnostics) (by simp [phase]) (by simp [phase])
  exact s18.1

/-- Spec: how far a kernel advances the magnetic (`true`) or electric (`false`) field, in units of
the time step. -/
def fieldPush : Task → Option (Bool × ℚ)
  | .advanceB x => some (true, x)
  | .advanceE x => some (false, x)
  | _ => none

lemma fieldPush_species (c : Cfg) (f : ℕ → ℤ → List Task)
    (h : ∀ sp iv, (f sp iv).filterMap fieldPush = []) :
    (forSpecies c f).filterMap fieldPush = [] := by
  unfold forSpecies
  rw [List.filterMap_flatten, List.flatten_eq_nil_iff]
  intro l hl
  simp only [List.mem_map, List.map_map, Function.comp] at hl
  obtain ⟨q, -, rfl⟩ := hl
  exact h _ _

lemma fieldPush_rounds (n : ℤ) (a b d : Task) (ha : fieldPush a = none) (hb : fieldPush b = none)
    (hd : fieldPush d = none) : (rounds n a b d).filterMap fieldPush = [] := by
  unfold rounds
  rw [List.filterMap_flatten, List.flatten_eq_nil_iff]
  intro l hl
  simp only [List.mem_map, List.map_map, Function.comp] at hl
  obtain ⟨q, -, rfl⟩ := hl
  split <;> simp [ha, hb, hd]

lemma fieldPush_ite (P : Prop) [Decidable P] (l : List Task) (h : l.filterMap fieldPush = []) :
    (if P then l else []).filterMap fieldPush = [] := by
  split
  · exact h
  · rfl

/-- **C63.** Each performed step advances the fields by half a step of B, one step of E and half a
step of B, in that order and with nothing else touching the field time. -/
theorem leapfrog (c : Cfg) (s : ℤ) (h : Active c s) :
    (advance c s).log.filterMap fieldPush = [(true, 1 / 2), (false, 1), (true, 1 / 2)] := by
  rw [log_active c s h]
  unfold body
  simp only [List.filterMap_append]
  rw [fieldPush_species c _ (by intro sp iv; split <;> simp [fieldPush]),
    fieldPush_species c (fun sp _ => [Task.advanceP sp]) (by simp [fieldPush]),
    fieldPush_species c (fun sp _ => [Task.dropMovers sp]) (by simp [fieldPush]),
    fieldPush_ite _ _ (by simp [fieldPush]), fieldPush_ite _ _ (by simp [fieldPush]),
    fieldPush_ite _ _ (by simp [fieldPush]), fieldPush_ite _ _ (by simp [fieldPush]),
    fieldPush_ite _ _ (by simp [fieldPush]),
    fieldPush_ite _ _ (by
      simp only [List.filterMap_append]
      rw [fieldPush_species c _ (by simp [fieldPush]), fieldPush_rounds _ _ _ _ rfl rfl rfl]
      simp [fieldPush]),
    fieldPush_ite _ _ (fieldPush_rounds _ _ _ _ rfl rfl rfl),
    fieldPush_ite _ _ (by simp [fieldPush]),
    fieldPush_ite _ _ (by simp [fieldPush]), fieldPush_ite _ _ (by simp [fieldPush])]
  have : (List.replicate c.numCommRound.toNat Task.boundaryP).filterMap fieldPush = [] := by
    rw [List.filterMap_eq_nil_iff]
    intro x hx
    rw [List.eq_of_mem_replicate hx]; rfl
  rw [this]
  rfl

/-! ## The main loop -/

/-- Spec: the tasks of `n` consecutive steps from `s`. -/
def runLog (c : Cfg) (n : ℕ) (s : ℤ) : List Task :=
  ((List.range n).map fun (k : ℕ) => (advance c (s + k)).log).flatten

lemma runLog_succ (c : Cfg) (n : ℕ) (s : ℤ) :
    runLog c (n + 1) s = (advance c s).log ++ runLog c n (s + 1) := by
  unfold runLog
  rw [List.range_succ_eq_map, List.map_cons, List.flatten_cons, List.map_map]
  simp only [Nat.cast_zero, add_zero]
  congr 2
  apply List.map_congr_left
  intro k _
  simp only [Function.comp, Nat.succ_eq_add_one, Nat.cast_add, Nat.cast_one]
  congr 2
  ring

/-- **C63.** With a positive `num_step` the main loop ends after exactly the missing steps, whatever
the step it starts from (a fresh run or any restart point); a run that starts at or beyond
`num_step` does nothing. -/
theorem main_loop (c : Cfg) (hN : 0 < c.numStep) (n : ℕ) (s : ℤ) (hs : s + n = c.numStep)
    (fuel : ℕ) (hf : n < fuel) :
    mainLoop c fuel s = some (runLog c n s, c.numStep) := by
  induction n generalizing s fuel with
  | zero =>
    obtain ⟨fuel, rfl⟩ : ∃ f, fuel = f + 1 := ⟨fuel - 1, by omega⟩
    have h := (advance_result c s).2 (by push Not; omega)
    simp only [mainLoop, h.1, h.2.1, h.2.2, runLog]
    simp; omega
  | succ n ih =>
    obtain ⟨fuel, rfl⟩ : ∃ f, fuel = f + 1 := ⟨fuel - 1, by omega⟩
    have h := (advance_result c s).1 (by push_cast at hs; omega)
    simp only [mainLoop, h.1, h.2, if_true]
    rw [ih (s + 1) (by push_cast at hs ⊢; omega) fuel (by omega), runLog_succ]
    simp

theorem main_loop_late (c : Cfg) (hN : 0 < c.numStep) (s : ℤ) (hs : c.numStep ≤ s) (fuel : ℕ)
    (hf : 0 < fuel) : mainLoop c fuel s = some ([], s) := by
  obtain ⟨fuel, rfl⟩ : ∃ f, fuel = f + 1 := ⟨fuel - 1, by omega⟩
  have h := (advance_result c s).2 (by push Not; omega)
  simp [mainLoop, h.1, h.2.1, h.2.2]

/-- **C63.** Without a positive `num_step` the loop never ends. -/
theorem main_loop_forever (c : Cfg) (hN : c.numStep ≤ 0) (fuel : ℕ) (s : ℤ) :
    mainLoop c fuel s = none := by
  induction fuel generalizing s with
  | zero => rfl
  | succ fuel ih =>
    have h := (advance_result c s).1 (Or.inl hN)
    simp [mainLoop, h.1, h.2, ih]

/-- What `advance` does in a performed step does not depend on `num_step`. -/
theorem advance_numStep (c : Cfg) (m s : ℤ) (h : Active c s) (h' : Active { c with numStep := m } s) :
    (advance { c with numStep := m } s).log = (advance c s).log := by
  rw [log_active c s h, log_active _ s h']
  rfl

/-- **C63.** Stopping at step `m` and restarting with the full `num_step` performs the same tasks as
the uninterrupted run. -/
theorem restart_same (c : Cfg) (n k : ℕ) (s : ℤ) (hm : 0 < s + n) (hs : s + n + k = c.numStep)
    (fuel : ℕ) (hf : n + k < fuel) :
    ∃ l₁ l₂, mainLoop { c with numStep := s + n } fuel s = some (l₁, s + n) ∧
      mainLoop c fuel (s + n) = some (l₂, c.numStep) ∧
      mainLoop c fuel s = some (l₁ ++ l₂, c.numStep) := by
  refine ⟨_, _, main_loop { c with numStep := s + n } hm n s rfl fuel (by omega),
    main_loop c (by omega) k (s + n) (by omega) fuel (by omega), ?_⟩
  rw [main_loop c (by omega) (n + k) s (by push_cast; omega) fuel hf]
  congr 2
  unfold runLog
  rw [List.range_add, List.map_append, List.flatten_append, List.map_map]
  congr 2
  · apply List.map_congr_left
    intro j hj
    have hj := List.mem_range.1 hj
    rw [advance_numStep c (s + n)]
    · right; omega
    · right; show s + j < s + n; omega
  · apply List.map_congr_left
    intro j _
    simp only [Function.comp]
    congr 2
    push_cast; ring

lemma count_runLog (c : Cfg) (n : ℕ) (s : ℤ) (t : Task) :
    (runLog c n s).count t = ∑ k ∈ Finset.range n, (advance c (s + k)).log.count t := by
  unfold runLog
  rw [List.count_flatten, List.map_map]
  rfl

/-- **C63.** Over a run from step `s` to `num_step` species `sp` is sorted once for every multiple of
its interval among the steps `s, …, num_step-1`, never if the interval is not positive. -/
theorem run_sort_count (c : Cfg) (n : ℕ) (s : ℤ) (hs : s + n = c.numStep) (sp : ℕ)
    (hsp : sp < c.sorts.length) :
    (runLog c n s).count (.sort sp)
      = ((Finset.range n).filter fun (k : ℕ) => 0 < c.sorts[sp] ∧ c.sorts[sp] ∣ s + k).card := by
  rw [count_runLog, Finset.card_filter]
  apply Finset.sum_congr rfl
  intro k hk
  have hk := Finset.mem_range.1 hk
  rw [sort_count c _ (Or.inr (by omega)) sp hsp]
  rfl

/-- A concrete run: 10 steps, one species sorted every 4 steps, cleaning of E every 5 steps with 3
passes: sorted at 0, 4, 8; 6 passes of cleaning. -/
theorem run_example :
    let c : Cfg := ⟨10, [4], false, false, 2, 5, 3, 0, 2, 0, 100⟩
    (mainLoop c 11 0).map (fun r => (r.1.count (.sort 0), r.1.count .cleanDivE, r.2))
      = some (3, 6, 10) := by decide

end Verif.Step
