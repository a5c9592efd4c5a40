import Verif.Place.Props

/-!
# Placement with rounding: a concrete case
-/
namespace Verif.Place
open Verif.Uniform

lemma s_lo : rnd64 (-1) = -1 := by exact_mod_cast rnd64_int (-1) (by norm_num)
lemma s_hi : rnd64 2 = 2 := by exact_mod_cast rnd64_int 2 (by norm_num)
lemma s_lo' : rnd32 (-1) = -1 := rnd32_neg_one
lemma s_hi' : rnd32 2 = 2 := by exact_mod_cast rnd32_int 2 (by norm_num)

/-- The box from -1 to 2 on 7 ranks: its inner bounds are rounded. -/
example : edge (-1) 2 7 3 ≠ -1 + 3 * (3 / 7) := by decide +kernel

/-- The hypotheses of the theorem are met. -/
example : ∃! p, p < 7 ∧ takes true (-1) 2 7 p (1 / 3) :=
  (one_rank_partial s_lo s_hi s_lo' s_hi' (by norm_num) (Or.inl ⟨by norm_num, by norm_num⟩) (n := 10) (by norm_num)
    (by norm_num)).1 true _
    (by norm_num) (by norm_num)

/-- A box that does not contain the origin on a million ranks. -/
example : Regular 100 101 (10 ^ 6) := Or.inr (by norm_num)

/-- Ten cells between 0 and 1: one third is in cell 4, where exact arithmetic gives the offset -1/3. -/
example : (place 10 (rnd64 (1 / 3)) 0 1).1 = 4 ∧ stored 10 (rnd64 (1 / 3)) 0 1 = -11184811 / 2 ^ 25 := by decide +kernel

/-- A particle just below the upper end is in the last cell, and its offset is rounded to 1. -/
example : (place 10 (1 - 1 / 2 ^ 53) 0 1).1 = 10 ∧ (place 10 (1 - 1 / 2 ^ 53) 0 1).2 < 1 ∧ stored 10 (1 - 1 / 2 ^ 53) 0 1 = 1 := by
  decide +kernel

/-- The far wall. -/
example : place 10 1 0 1 = (10, 1) := by decide +kernel

end Verif.Place
