import Verif.Streak.Push

/-!
# The current of a streak, with rounding to single precision

Model of `ACCUMULATE_J` of `advance_p_pipeline_scalar`, /repo/src/species_advance/standard/pipeline/advance_p_pipeline.cc:178-209, and of
`accumulate_j` of the portable `move_p`, /repo/src/species_advance/standard/move_p.cc:277-303.  Every operation is rounded to nearest
(`FLT_EVAL_METHOD` 0); overflow and underflow are left out.
-/
namespace Verif.Flow
open Verif.Place Verif.Streak

/-- `v5` of the pusher, advance_p_pipeline.cc:182; `one_third` is the float next to 1/3, :41. -/
def corrPush (q : ℚ) (u : Fin 3 → ℚ) : ℚ := rnd32 (rnd32 (rnd32 (rnd32 (q * u 0) * u 1) * u 2) * rnd32 (1 / 3))

/-- `v5` of `move_p`, move_p.cc:277: the last product is one of double precision. -/
def corrMove (q : ℚ) (u : Fin 3 → ℚ) : ℚ :=
  rnd32 (rndB 52 (rnd32 (rnd32 (rnd32 (q * u 0) * u 1) * u 2) * rndB 52 (1 / 3)))

/-- What `ACCUMULATE_J(X,Y,Z,·)` adds to the four accumulators of a direction, advance_p_pipeline.cc:187-199 and
move_p.cc:282-295: `u` is the displacement along X, `y` and `z` the offsets of the midpoint of the streak along Y and Z, `v5` the
correction. -/
def shares (q u y z v5 : ℚ) : Fin 4 → ℚ :=
  let v4 := rnd32 (q * u)
  let v1 := rnd32 (v4 * y)
  let v0 := rnd32 (v4 - v1)
  let v1 := rnd32 (v1 + v4)
  let v4 := rnd32 (1 + z)
  let v2 := rnd32 (v0 * v4)
  let v3 := rnd32 (v1 * v4)
  let v4 := rnd32 (1 - z)
  let v0 := rnd32 (v0 * v4)
  let v1 := rnd32 (v1 * v4)
  ![rnd32 (v0 + v5), rnd32 (v1 - v5), rnd32 (v2 - v5), rnd32 (v3 + v5)]

/-- The three calls `ACCUMULATE_J(x,y,z,0)`, `(y,z,x,4)`, `(z,x,y,8)`, advance_p_pipeline.cc:205-207 and move_p.cc:301-303, with the
addition to the accumulators, :200-203 and :296-299. -/
def deposit (v5 q : ℚ) (u mid : Fin 3 → ℚ) (a : Fin 3 → Fin 4 → ℚ) : Fin 3 → Fin 4 → ℚ := fun k i =>
  rnd32 (a k i + shares q (u k) (mid (k + 1)) (mid (k + 2)) v5 i)

/-- The accumulators of a particle of the pusher that stays in its voxel: the midpoint is the first sum of the new position,
advance_p_pipeline.cc:156-158 and 178-180. -/
def pushDeposit (rt : ℚ → ℚ) (c x u : Fin 3 → ℚ) (q : ℚ) (a : Fin 3 → Fin 4 → ℚ) : Fin 3 → Fin 4 → ℚ :=
  deposit (corrPush q (disp rt c u)) q (disp rt c u) (fun k => rnd32 (x k + disp rt c u k)) a

end Verif.Flow
