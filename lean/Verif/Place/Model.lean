import Verif.Uniform.Model
import Verif.Inject.Model

/-!
# Where a particle is injected, with rounding

Model of the placement of `vpic_simulation::inject_particle`, /repo/src/vpic/misc.cc:26-78, and of the bounds of the domain of each
rank, /repo/src/grid/partition.cc:72-78, with the result of every operation rounded.
-/
namespace Verif.Place
open Verif.Uniform (nearest rnd64)

/-- The distance of neighbouring numbers with `b + 1` bits at `x`. -/
def unitB (b : ℕ) (x : ℚ) : ℚ := 2 ^ (Int.log 2 |x| - (b : ℤ))

/-- Rounding to the nearest number with `b + 1` bits; overflow and underflow are left out. -/
def rndB (b : ℕ) (x : ℚ) : ℚ := if x = 0 then 0 else nearest (x / unitB b x) * unitB b x

/-- The conversion to `float`: 24 bits. -/
def rnd32 (x : ℚ) : ℚ := rndB 23 x

/-- `g->x0` of the rank at position `p` of `gp` along an axis, partition.cc:72, and `g->x1` of the rank at `p - 1`,
partition.cc:76: computed in `double` and stored in a `float` (grid.h:84-85). -/
def edge (lo hi : ℚ) (gp p : ℕ) : ℚ :=
  let f := rnd64 ((p : ℚ) / gp)
  rnd32 (rnd64 (rnd64 (lo * rnd64 (1 - f)) + rnd64 (hi * f)))

/-- `grid->bc` of the far wall of the rank at `p`: a rank (written 0), partition.cc:80-85, or a boundary condition (-1) if the
wall is one of the box and the box is not periodic in this direction, partition.cc:109-127 and 160-181. -/
def farBc (periodic : Bool) (gp p : ℕ) : ℤ := if p + 1 < gp ∨ periodic then 0 else -1

/-- The rank at `p` does not return at misc.cc:35 (36, 37): it injects the particle, as far as this axis goes. -/
def takes (periodic : Bool) (lo hi : ℚ) (gp p : ℕ) (x : ℚ) : Prop :=
  ¬ Inject.skip x (edge lo hi gp p) (edge lo hi gp (p + 1)) (farBc periodic gp p)

/-- The cell and the offset in it, misc.cc:50-56 (58-64, 66-72). The offset is the `double`, before the conversion of line 75. -/
def place (n : ℤ) (x x0 x1 : ℚ) : ℤ × ℚ :=
  let X := rnd64 (n * rnd64 (rnd64 (x - x0) / rnd64 (x1 - x0)))
  let i := Inject.trunc X
  let f := rnd64 (X - i)
  let o := rnd64 (rnd64 (f + f) - 1)
  if i = n then (n - 1 + 1, 1) else (i + 1, o)

/-- The offset that is stored, misc.cc:75 (76, 77). -/
def stored (n : ℤ) (x x0 x1 : ℚ) : ℚ := rnd32 (place n x x0 x1).2

end Verif.Place
