import Verif.Profile.Spec
import Verif.Step.Run
import Mathlib.Algebra.Order.Floor.Ring
import Mathlib.Algebra.BigOperators.Group.Finset.Basic
import Mathlib.Tactic.Ring
import Mathlib.Tactic.Linarith
import Mathlib.Tactic.FieldSimp

/-!
# Lemmas for C120
-/
namespace Verif.Profile
open Step (Task Cfg due)
variable {K : Type} [Field K] [LinearOrder K] [FloorRing K]

lemma time_append (a b : List (Ev K)) (i : Timer) : time (a ++ b) i = time a i + time b i := by
  simp [time]

lemma calls_append (a b : List (Ev K)) (i : Timer) : calls (a ++ b) i = calls a i + calls b i := by
  simp [calls]

lemma run_append (s : Timer → Entry K) (a b : List (Ev K)) :
    run s (a ++ b) = (run s a).bind fun q => (run q.1 b).map fun q' => (q'.1, q.2 ++ q'.2) := by
  induction a generalizing s with
  | nil => simp [run]
  | cons e a ih =>
    simp only [List.cons_append, run]
    cases hev : ev s e with
    | none => simp
    | some q =>
      obtain ⟨s1, r⟩ := q
      simp only [ih]
      cases run s1 a with
      | none => simp
      | some q => cases run q.1 b <;> simp [Function.comp_def]

/-- The numbers of a timer after a history. -/
def after (h : List (Ev K)) (i : Timer) : Entry K :=
  ⟨time (recent h) i, time h i - time (recent h) i, calls (recent h) i, calls h i - calls (recent h) i⟩

lemma recent_block (h : List (Ev K)) (i : Timer) (a b : K) (n : ℤ) :
    recent (h ++ [.block i a b n]) = recent h ++ [.block i a b n] := by
  unfold recent; rw [List.rtakeWhile_concat_pos]; rfl

lemma recent_update (h : List (Ev K)) (d : Bool) : recent (h ++ [.update d]) = [] := by
  unfold recent; rw [List.rtakeWhile_concat_neg]; simp

lemma after_block (h : List (Ev K)) (i : Timer) (a b : K) (n : ℤ) :
    after (h ++ [.block i a b n]) =
      fun j => if j = i then { after h i with t := (after h i).t + (b - a), n := (after h i).n + n } else after h j := by
  funext j
  unfold after
  rw [recent_block]
  simp only [time_append, calls_append]
  by_cases hj : j = i
  · subst hj
    simp [time, calls]
  · have : ¬ i = j := fun e => hj e.symm
    simp [time, calls, hj, this]

lemma after_update (h : List (Ev K)) (d : Bool) :
    after (h ++ [.update d]) =
      fun i => ⟨0, (after h i).tTotal + (after h i).t, 0, (after h i).nTotal + (after h i).n⟩ := by
  funext j
  unfold after
  rw [recent_update]
  simp [time_append, calls_append, time, calls]

lemma update_state (s s' : Timer → Entry K) (d : Bool) (r : List (List (Row K))) (h : update s d = some (s', r)) :
    s' = fun i => ⟨0, (s i).tTotal + (s i).t, 0, (s i).nTotal + (s i).n⟩ := by
  unfold update at h
  by_cases hi : ∀ i ∈ timers, IsInt ((s i).nTotal + (s i).n)
  · rw [if_pos hi] at h
    cases d
    · simp only [Bool.false_eq_true, if_false, Option.some.injEq, Prod.mk.injEq] at h
      exact h.1.symm
    · simp only [if_true, Option.map_eq_some_iff, Prod.mk.injEq] at h
      obtain ⟨_, _, h, _⟩ := h
      exact h.symm
  · rw [if_neg hi] at h
    simp at h

/-- After a history each timer holds the time and the calls since the last update, and the totals up to it. -/
lemma run_state (h : List (Ev K)) (s : Timer → Entry K) (r : List (List (Row K))) (hr : run start h = some (s, r)) :
    s = after h := by
  induction h using List.reverseRecOn generalizing s r with
  | nil =>
    simp only [run, Option.some.injEq, Prod.mk.injEq] at hr
    rw [← hr.1]
    funext i
    simp [start, after, recent, time, calls]
  | append_singleton h e ih =>
    rw [run_append] at hr
    cases hh : run start h with
    | none => rw [hh] at hr; simp at hr
    | some q =>
      obtain ⟨s1, r1⟩ := q
      rw [hh] at hr
      have h1 := ih s1 r1 hh
      subst h1
      simp only [Option.bind_some, run, Option.map_eq_some_iff] at hr
      obtain ⟨⟨s2, r2⟩, hr, h2⟩ := hr
      simp only [Prod.mk.injEq] at h2
      obtain ⟨rfl, -⟩ := h2
      cases hev : ev (after h) e with
      | none => rw [hev] at hr; simp at hr
      | some q =>
        obtain ⟨s3, r3⟩ := q
        rw [hev] at hr
        simp only [Option.map_some, Option.some.injEq, Prod.mk.injEq] at hr
        obtain ⟨rfl, -⟩ := hr
        cases e with
        | block i a b n =>
          rw [after_block]
          simp only [ev, block] at hev
          by_cases hi : IsInt ((after h i).n + n)
          · rw [if_pos hi] at hev
            simp only [Option.map_some, Option.some.injEq, Prod.mk.injEq] at hev
            exact hev.1.symm
          · rw [if_neg hi] at hev
            simp at hev
        | update d =>
          rw [after_update]
          exact update_state _ _ _ _ hev

lemma rows_spec (s : Timer → Entry K) (a b : K) (l : List Timer) (out : List (Row K)) (h : rows s a b l = some out) :
    List.Forall₂ (fun i r => row (s i) i a b = some r)
      (l.filter fun i => decide ((s i).n ≠ 0 ∨ (s i).nTotal ≠ 0)) out := by
  induction l generalizing out with
  | nil =>
    simp only [rows, Option.some.injEq] at h
    subst h
    simp
  | cons i l ih =>
    simp only [rows] at h
    by_cases hi : (s i).n = 0 ∧ (s i).nTotal = 0
    · rw [if_pos hi] at h
      rw [List.filter_cons_of_neg (by simp [hi.1, hi.2])]
      exact ih out h
    · rw [if_neg hi] at h
      rw [List.filter_cons_of_pos (by simp only [decide_eq_true_eq]; tauto)]
      cases h1 : row (s i) i a b with
      | none => rw [h1] at h; simp at h
      | some r =>
        cases h2 : rows s a b l with
        | none => rw [h1, h2] at h; simp at h
        | some rs =>
          rw [h1, h2] at h
          simp only [Option.some.injEq] at h
          subst h
          exact List.Forall₂.cons h1 (ih rs h2)

lemma rows_some (s : Timer → Entry K) (a b : K) (l : List Timer)
    (h : ∀ i ∈ l, ¬ ((s i).n = 0 ∧ (s i).nTotal = 0) → ∃ r, row (s i) i a b = some r) : ∃ out, rows s a b l = some out := by
  induction l with
  | nil => exact ⟨[], rfl⟩
  | cons i l ih =>
    obtain ⟨rs, hrs⟩ := ih fun j hj => h j (List.mem_cons_of_mem _ hj)
    simp only [rows]
    by_cases hi : (s i).n = 0 ∧ (s i).nTotal = 0
    · exact ⟨rs, by rw [if_pos hi, hrs]⟩
    · obtain ⟨r, hr⟩ := h i List.mem_cons_self hi
      exact ⟨r :: rs, by rw [if_neg hi, hr, hrs]⟩

lemma timers_sum (f : Timer → K) : (timers.map f).sum = ∑ i, f i := by
  rfl

end Verif.Profile
