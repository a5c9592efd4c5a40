import Verif.Uniform.Closed

/-!
# Samples for C121
-/
namespace Verif.Uniform
open Rng (convDrand)

-- Rounding gives the known numbers of double precision: 0.1, 1/3, and ties to the even neighbour.
example : rnd64 (1 / 10) = 7205759403792794 / 2 ^ 56 ∧ rnd64 (1 / 3) = 6004799503160661 / 2 ^ 54 ∧
    rnd64 (2 ^ 53 + 1) = 2 ^ 53 ∧ rnd64 (2 ^ 53 + 3) = 2 ^ 53 + 4 ∧ rnd64 (-(1 / 10)) = -7205759403792794 / 2 ^ 56 := by
  decide +kernel

-- The hypotheses of `uniform_closed_partial` are met by the interval of `uniform_ends`, where both bounds occur.
example (u : ℕ) (hu : u < 2 ^ 64) :
    1 ≤ uniform rnd64 (convDrand double u) 1 2 ∧ uniform rnd64 (convDrand double u) 1 2 ≤ 2 :=
  uniform_closed_partial u hu 1 2 (by norm_num) (by decide +kernel) (by decide +kernel)

-- Those of `uniform_inside_partial` by a symmetric interval; with the largest raw number it gives the largest number below 1.
example (u : ℕ) (hu : u < 2 ^ 64) :
    -1 < uniform rnd64 (convDrand double u) (-1) 1 ∧ uniform rnd64 (convDrand double u) (-1) 1 < 1 :=
  uniform_inside_partial u hu (-1) 1 (by norm_num) (by norm_num) (by norm_num)

example : uniform rnd64 (convDrand double (2 ^ 64 - 1)) (-1) 1 = 1 - 1 / 2 ^ 52 ∧
    uniform rnd64 (convDrand double (2 ^ 63)) (-1) 1 = 1 / 2 ^ 52 := by
  decide +kernel

end Verif.Uniform
