import Verif.Profile.Lemmas

/-!
# C120: the calls that the blocks of a time step stand for
-/
namespace Verif.Profile
open Step (Task Cfg due)
variable {K : Type} [Field K] [LinearOrder K] [FloorRing K]

/-- The calls of a list of events without clock readings. -/
def callsOf (l : List Shape) (i : Timer) : ℤ :=
  (l.map fun e => match e with
    | .block j n => if j = i then n else 0
    | .update _ => 0).sum

lemma calls_shape (h : List (Ev K)) (i : Timer) : calls h i = callsOf (h.map shape) i := by
  unfold calls callsOf
  rw [List.map_map]
  congr 1
  apply List.map_congr_left
  intro e _
  cases e <;> rfl

lemma callsOf_append (a b : List Shape) (i : Timer) : callsOf (a ++ b) i = callsOf a i + callsOf b i := by
  simp [callsOf]

lemma done_append (a b : List Task) (i : Timer) : done (a ++ b) i = done a i + done b i := by
  simp [done]

/-- The blocks count the tasks of a timer. -/
def Counts (i : Timer) (l : List Shape) (log : List Task) : Prop := callsOf l i = done log i

lemma Counts.append {i : Timer} {a b : List Shape} {x y : List Task} (h : Counts i a x) (h' : Counts i b y) :
    Counts i (a ++ b) (x ++ y) := by
  unfold Counts at *
  rw [callsOf_append, done_append, h, h']

lemma Counts.nil (i : Timer) : Counts i [] [] := rfl

lemma Counts.one (i j : Timer) (t : Task) (h : timerOf t = some j) : Counts i [.block j 1] [t] := by
  unfold Counts callsOf done
  by_cases hij : j = i
  · simp [h, hij]
  · simp [h, hij]

lemma Counts.skip (i : Timer) (t : Task) (h : timerOf t = none) : Counts i [] [t] := by
  simp [Counts, callsOf, done, h]

lemma Counts.flatten {α β : Type} (i : Timer) (la : List α) (lb : List β) (f : α → List Shape) (g : β → List Task)
    (h : List.Forall₂ (fun a b => Counts i (f a) (g b)) la lb) : Counts i (la.map f).flatten (lb.map g).flatten := by
  induction h with
  | nil => exact Counts.nil i
  | cons h _ ih => exact h.append ih

lemma Counts.ite {i : Timer} {a : List Shape} {x : List Task} (p : Prop) [Decidable p] (h : Counts i a x) :
    Counts i (if p then a else []) (if p then x else []) := by
  split_ifs
  · exact h
  · exact Counts.nil i

lemma zip_same (l : List ℤ) (k : ℕ) : List.Forall₂ (fun a b => b.1 = a) l (l.zipIdx k) := by
  induction l generalizing k with
  | nil => exact List.Forall₂.nil
  | cons a l ih => exact List.Forall₂.cons rfl (ih (k + 1))

lemma Counts.species (i : Timer) (c : Cfg) (f : ℤ → List Shape) (g : ℕ → ℤ → List Task)
    (h : ∀ sp iv, Counts i (f iv) (g sp iv)) : Counts i (c.sorts.map f).flatten (Step.forSpecies c g) :=
  Counts.flatten i _ _ f _ ((zip_same c.sorts 0).imp fun a b hb => hb ▸ h b.2 b.1)

lemma Counts.rounds (i : Timer) (n : ℤ) (a b d : Timer) (x y z : Task) (ha : timerOf x = some a) (hb : timerOf y = some b)
    (hd : timerOf z = some d) : Counts i (roundBlocks n a b d) (Step.rounds n x y z) := by
  unfold roundBlocks Step.rounds
  apply Counts.flatten
  rw [List.forall₂_same]
  intro r _
  exact (Counts.one i a x ha).append ((Counts.ite _ (Counts.one i b y hb)).append (Counts.one i d z hd))

lemma map_singleton_flatten {α β : Type} (l : List α) (f : α → β) : (l.map fun a => [f a]).flatten = l.map f := by
  induction l <;> simp_all

/-- The calls of `accumulate_rho_p` that a step makes but does not count. -/
def missed (c : Cfg) (step : ℤ) : ℤ :=
  if (c.numStep ≤ 0 ∨ step < c.numStep) ∧ (0 < c.cleanDivEInterval ∧ c.cleanDivEInterval ∣ step) ∧ c.sorts ≠ [] then 1 else 0

lemma boundary_counts (i : Timer) (n : ℤ) (hn : 0 ≤ n) :
    Counts i [.block .boundary_p n] (List.replicate n.toNat .boundaryP) := by
  unfold Counts callsOf done
  by_cases h : Timer.boundary_p = i
  · subst h
    simp [timerOf, List.countP_replicate, hn]
  · simp [timerOf, List.countP_replicate, h]

/-- Adds to the blocks the calls of `accumulate_rho_p` that the code does not count. -/
lemma rho_counts (i : Timer) (c : Cfg) (step : ℤ) :
    callsOf (if c.sorts ≠ [] then [.block .accumulate_rho_p ((c.sorts.length : ℤ) - 1)] else []) i
      + (if i = .accumulate_rho_p ∧ c.sorts ≠ [] then 1 else 0) =
    done (Step.forSpecies c (fun sp _ => [.accumulateRho sp])) i := by
  have h1 : Counts i (c.sorts.map fun _ => [Shape.block .accumulate_rho_p 1]).flatten
      (Step.forSpecies c (fun sp _ => [.accumulateRho sp])) :=
    Counts.species i c _ _ fun sp iv => Counts.one i _ _ rfl
  rw [← h1, map_singleton_flatten]
  by_cases hi : i = .accumulate_rho_p
  · subst hi
    by_cases hs : c.sorts = []
    · simp [hs, callsOf]
    · simp [hs, callsOf]
  · have : ¬ Timer.accumulate_rho_p = i := fun e => hi e.symm
    by_cases hs : c.sorts = [] <;> simp [hs, hi, this, callsOf]

lemma due_iff (interval step : ℤ) : due interval step = true ↔ 0 < interval ∧ interval ∣ step := by
  simp only [due, Bool.and_eq_true, decide_eq_true_eq]
  refine and_congr_right fun h => ?_
  exact ⟨fun h => Int.dvd_of_tmod_eq_zero h, fun h => Int.tmod_eq_zero_of_dvd h⟩

lemma step_counts (i : Timer) (c : Cfg) (hc : 0 ≤ c.numCommRound) (rank0 : Bool) (step : ℤ) :
    callsOf (stepBlocks c rank0 step) i + (if i = .accumulate_rho_p then missed c step else 0) =
      done (Step.advance c step).log i := by
  unfold stepBlocks Step.advance
  by_cases hend : c.numStep > 0 ∧ step ≥ c.numStep
  · rw [if_pos hend, if_pos hend]
    have : missed c step = 0 := by
      unfold missed
      rw [if_neg]
      rintro ⟨h, -⟩
      omega
    simp [this, callsOf, done]
  · rw [if_neg hend, if_neg hend]
    simp only [Step.body]
    -- the segment with the missed calls
    have hE : callsOf (if due c.cleanDivEInterval step then
          [.block .clear_rhof 1]
          ++ (if c.sorts ≠ [] then [.block .accumulate_rho_p ((c.sorts.length : ℤ) - 1)] else [])
          ++ [.block .synchronize_rho 1]
          ++ roundBlocks c.numDivERound .compute_div_e_err .compute_rms_div_e_err .clean_div_e
        else []) i + (if i = .accumulate_rho_p then missed c step else 0) =
        done (if due c.cleanDivEInterval step then
          [.clearRhof] ++ Step.forSpecies c (fun sp _ => [.accumulateRho sp]) ++ [.syncRho]
          ++ Step.rounds c.numDivERound .computeDivE .rmsDivE .cleanDivE
        else []) i := by
      by_cases hd : due c.cleanDivEInterval step = true
      · rw [if_pos hd, if_pos hd]
        have hm : (if i = .accumulate_rho_p then missed c step else 0) =
            (if i = .accumulate_rho_p ∧ c.sorts ≠ [] then (1 : ℤ) else 0) := by
          have hd' := (due_iff _ _).mp hd
          have : c.numStep ≤ 0 ∨ step < c.numStep := by omega
          unfold missed
          by_cases hi : i = .accumulate_rho_p <;> by_cases hs : c.sorts = [] <;> simp [hi, hs, this, hd'.1, hd'.2]
        have h1 := Counts.one i _ .clearRhof rfl
        have h2 := Counts.one i _ .syncRho rfl
        have h3 := Counts.rounds i c.numDivERound _ _ _ .computeDivE .rmsDivE .cleanDivE rfl rfl rfl
        have h4 := rho_counts i c step
        unfold Counts at h1 h2 h3
        simp only [callsOf_append, done_append]
        rw [← h1, ← h2, ← h3, ← h4, hm]
        ring
      · rw [if_neg hd, if_neg hd]
        have : missed c step = 0 := by
          unfold missed
          rw [if_neg]
          rintro ⟨-, h, -⟩
          exact hd ((due_iff _ _).mpr h)
        simp [this, callsOf, done]
    have a1 := Counts.species i c (fun iv => if due iv step then [Shape.block .sort_p 1] else [])
      (fun sp iv => if due iv step then [.sort sp] else []) (fun sp iv => Counts.ite _ (Counts.one i _ _ rfl))
    have a2 := Counts.ite (i := i) (c.sorts ≠ []) (Counts.one i _ .clearAcc rfl)
    have a3 := Counts.ite (i := i) (c.hasCollisions = true) (Counts.one i _ .collisions rfl)
    have a4 := Counts.one i _ .userCollisions rfl
    have a5 := Counts.species i c (fun _ => [Shape.block .advance_p 1]) (fun sp _ => [.advanceP sp])
      (fun sp iv => Counts.one i _ _ rfl)
    rw [map_singleton_flatten] at a5
    have a6 := Counts.ite (i := i) (c.hasEmitters = true) (Counts.one i _ .emitters rfl)
    have a7 := Counts.one i _ .userInjection rfl
    have a8 := Counts.ite (i := i) (c.sorts ≠ []) (Counts.one i _ .reduceAcc rfl)
    have a9 := boundary_counts i c.numCommRound hc
    have a10 : Counts i [] (Step.forSpecies c (fun sp _ => [.dropMovers sp])) := by
      have := Counts.species i c (fun _ => []) (fun sp _ => [.dropMovers sp]) (fun sp iv => Counts.skip i _ rfl)
      have e : (c.sorts.map fun _ => ([] : List Shape)).flatten = [] := by simp
      rwa [e] at this
    have a11 := Counts.one i _ .clearJf rfl
    have a12 := Counts.ite (i := i) (c.sorts ≠ []) (Counts.one i _ .unload rfl)
    have a13 : Counts i [.block .synchronize_jf 1, .block .user_current_injection 1, .block .advance_b 1, .block .advance_e 1,
        .block .user_field_injection 1, .block .advance_b 1]
        [.syncJf, .userCurrent, .advanceB (1 / 2), .advanceE 1, .userField, .advanceB (1 / 2)] :=
      (Counts.one i _ .syncJf rfl).append ((Counts.one i _ .userCurrent rfl).append ((Counts.one i _ (.advanceB (1 / 2)) rfl).append
        ((Counts.one i _ (.advanceE 1) rfl).append ((Counts.one i _ .userField rfl).append
          (Counts.one i _ (.advanceB (1 / 2)) rfl)))))
    have a14 := Counts.ite (i := i) (due c.cleanDivBInterval step = true)
      (Counts.rounds i c.numDivBRound _ _ _ .computeDivB .rmsDivB .cleanDivB rfl rfl rfl)
    have a15 := Counts.ite (i := i) (due c.syncSharedInterval step = true) (Counts.one i _ .syncShared rfl)
    have a16 := Counts.ite (i := i) (c.sorts ≠ []) (Counts.one i _ .loadInterp rfl)
    have a17 : Counts i (if due c.statusInterval (step + 1) then [.update rank0] else [])
        (if due c.statusInterval (step + 1) then [.status (step + 1)] else []) := by
      apply Counts.ite
      simp [Counts, callsOf, done, timerOf]
    have a18 := Counts.one i _ .userDiagnostics rfl
    unfold Counts at a1 a2 a3 a4 a5 a6 a7 a8 a9 a10 a11 a12 a13 a14 a15 a16 a17 a18
    have e10 : callsOf [] i = 0 := rfl
    simp only [callsOf_append, done_append]
    rw [e10] at a10
    linarith

/-- **C120, the calls.** After any number of steps, with the clock readings whatever they are, the calls that a table shows are,
for every timer but that of `accumulate_rho_p`, the number of times the steps did its operation (rounds of communication for
`boundary_p`). -/
theorem calls_counted_partial (c : Cfg) (hc : 0 ≤ c.numCommRound) (rank0 : Bool) (step : ℤ) (n : ℕ) (h : List (Ev K))
    (hh : h.map shape = stepsBlocks c rank0 step n) (i : Timer) (hi : i ≠ .accumulate_rho_p) :
    calls h i = done (Step.runLog c n step) i := by
  rw [calls_shape, hh]
  unfold stepsBlocks Step.runLog
  refine Counts.flatten i _ _ _ _ ?_
  rw [List.forall₂_same]
  intro k _
  have := step_counts i c hc rank0 (step + k)
  rw [if_neg hi, add_zero] at this
  exact this

lemma rho_sum (c : Cfg) (hc : 0 ≤ c.numCommRound) (rank0 : Bool) (step : ℤ) (n : ℕ) :
    callsOf (stepsBlocks c rank0 step n) .accumulate_rho_p + ((List.range n).map fun (k : ℕ) => missed c (step + k)).sum =
      done (Step.runLog c n step) .accumulate_rho_p := by
  unfold stepsBlocks Step.runLog
  induction n with
  | zero => rfl
  | succ n ih =>
    simp only [List.range_succ, List.map_append, List.flatten_append, List.map_cons, List.map_nil, List.flatten_cons,
      List.flatten_nil, List.append_nil, callsOf_append, done_append, List.sum_append, List.sum_cons, List.sum_nil, add_zero]
    have := step_counts .accumulate_rho_p c hc rank0 (step + n)
    rw [if_pos rfl] at this
    linarith

/-- **C120 is false of the code.** `accumulate_rho_p` is counted once too little in every step that cleans the electric field,
so the calls shown are the number of species less one for each. -/
theorem rho_miscounted (c : Cfg) (hc : 0 ≤ c.numCommRound) (rank0 : Bool) (step : ℤ) (n : ℕ) (h : List (Ev K))
    (hh : h.map shape = stepsBlocks c rank0 step n) :
    calls h .accumulate_rho_p + ((List.range n).map fun (k : ℕ) => missed c (step + k)).sum =
      done (Step.runLog c n step) .accumulate_rho_p := by
  rw [calls_shape, hh]
  exact rho_sum c hc rank0 step n

/-- With one species the blocks of `accumulate_rho_p` stand for no calls. -/
lemma rho_zero (c : Cfg) (hs : c.sorts.length = 1) (rank0 : Bool) (step n : ℤ)
    (h : Shape.block .accumulate_rho_p n ∈ stepBlocks c rank0 step) : n = 0 := by
  unfold stepBlocks at h
  split_ifs at h <;>
  simp [roundBlocks, hs] at h <;>
  first
    | exact h
    | (rcases h with ⟨_, _, h⟩ | h
       · split_ifs at h <;> simp at h
       · exact h)
    | (exfalso; rcases h with ⟨_, _, h⟩; split_ifs at h <;> simp at h)
    | skip

/-- **C120 is false of the code.** In a run with one species that was started from a checkpoint, no table has a row for
`accumulate_rho_p`, whatever time it took. -/
theorem rho_row_missing (c : Cfg) (hs : c.sorts.length = 1) (rank0 : Bool) (step : ℤ) (n : ℕ) (h : List (Ev K))
    (hh : h.map shape = stepsBlocks c rank0 step n) : .accumulate_rho_p ∉ shown h := by
  have h0 : ∀ a b m, Ev.block .accumulate_rho_p a b m ∈ h → m = 0 := by
    intro a b m hm
    have h1 : shape (Ev.block .accumulate_rho_p a b m) ∈ stepsBlocks c rank0 step n := hh ▸ List.mem_map_of_mem hm
    unfold stepsBlocks at h1
    rw [List.mem_flatten] at h1
    obtain ⟨l, hl, h1⟩ := h1
    obtain ⟨k, -, rfl⟩ := List.mem_map.mp hl
    exact rho_zero c hs rank0 _ m h1
  have h1 : ∀ l : List (Ev K), (∀ e ∈ l, e ∈ h) → calls l .accumulate_rho_p = 0 := by
    intro l hl
    unfold calls
    apply List.sum_eq_zero
    intro x hx
    obtain ⟨e, he, rfl⟩ := List.mem_map.mp hx
    cases e with
    | block j a b m =>
      simp only
      split_ifs with hj
      · subst hj
        exact h0 a b m (hl _ he)
      · rfl
    | update d => rfl
  unfold shown
  rw [List.mem_filter]
  rintro ⟨-, h2⟩
  have h3 := h1 (recent h) fun e he => (List.rtakeWhile_suffix _ h).subset he
  have h4 := h1 h fun e he => he
  simp [h3, h4] at h2

end Verif.Profile
