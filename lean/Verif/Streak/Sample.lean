import Verif.Streak.Props

/-!
# Streaks with rounding: concrete cases
-/
namespace Verif.Streak
open Verif.Place

/-- A particle that crosses one face. -/
def one : St where
  x := ![1 / 2, 0, -1]
  d := ![1 / 2, 3 / 8, 1 / 4]

/-- It meets the hypotheses of the theorems. -/
example : Floats one ∧ Inside one ∧ Slow one := by
  refine ⟨by unfold Floats; decide +kernel, by unfold Inside; decide +kernel, by unfold Slow; decide +kernel⟩

/-- Half way it crosses the upper x face ... -/
example : choose one = (1, some 0) := by decide +kernel

/-- ... and the second streak is the last one. -/
example : choose ⟨![-1, 3 / 8, -3 / 4], ![1 / 4, 3 / 16, 1 / 8]⟩ = (2, none) := by decide +kernel

/-- The diagonal particle: the next streak goes back by one unit, to the y face. -/
example : choose ⟨![-1, 1 + 1 / 2 ^ 23, 0], ![10387007 / 2 ^ 25, 10387007 / 2 ^ 25, 0]⟩ =
    (rnd32 (-(1 / 2 ^ 23) / (10387007 / 2 ^ 25)), some 1) := by decide +kernel

end Verif.Streak
