import Verif.Rng.Model
import Mathlib.Data.Int.Log
import Mathlib.Data.Rat.Floor

/-!
# Random numbers in an interval

Model of `vpic_simulation::uniform`, /repo/src/vpic/vpic.h:596-602, with every operation rounded.
-/
namespace Verif.Uniform

/-- `uniform( rng, low, high )`, vpic.h:599-602, where `rnd` is the rounding of the exact result of an operation and `dx` the
number that `drand( rng )` returns. -/
def uniform (rnd : ℚ → ℚ) (dx low high : ℚ) : ℚ :=
  rnd (rnd (low * rnd (1 - dx)) + rnd (high * dx))

/-! ## Double precision -/

/-- The integer nearest to a number, the even one of two. -/
def nearest (y : ℚ) : ℤ :=
  if y - ⌊y⌋ < 1 / 2 then ⌊y⌋
  else if 1 / 2 < y - ⌊y⌋ then ⌊y⌋ + 1
  else if ⌊y⌋ % 2 = 0 then ⌊y⌋ else ⌊y⌋ + 1

/-- The distance of neighbouring numbers with 53 bits at `x`. -/
def unit (x : ℚ) : ℚ := 2 ^ (Int.log 2 |x| - 52)

/-- Rounding to the nearest number with 53 bits, as in IEEE 754 (binary64, the default mode) while the exponent is in range:
overflow and underflow are left out. -/
def rnd64 (x : ℚ) : ℚ := if x = 0 then 0 else nearest (x / unit x) * unit x

end Verif.Uniform
