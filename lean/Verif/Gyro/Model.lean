import Verif.Streak.Speed
import Verif.Flow.Lemmas

/-!
# The magnetic rotation of the pusher, with rounding to single precision

Model of the rotation in `advance_p_pipeline_scalar`, /repo/src/species_advance/standard/pipeline/advance_p_pipeline.cc:120-135.  Every
operation is rounded to nearest; overflow and underflow are left out.
-/
namespace Verif.Gyro
open Verif.Place Verif.Streak Verif.Flow

/-- `v1`, the square of the magnetic field, advance_p_pipeline.cc:123. -/
def fieldSq (b : Fin 3 → ℚ) : ℚ := rnd32 (rnd32 (b 0 * b 0) + rnd32 (rnd32 (b 1 * b 1) + rnd32 (b 2 * b 2)))

/-- `v0`, half of the step per mass over the energy, advance_p_pipeline.cc:120; `rt` is `sqrtf`. -/
def slow (rt : ℚ → ℚ) (qdt : ℚ) (u : Fin 3 → ℚ) : ℚ :=
  rnd32 (qdt / rt (rnd32 (1 + rnd32 (rnd32 (u 0 * u 0) + rnd32 (rnd32 (u 1 * u 1) + rnd32 (u 2 * u 2))))))

/-- `v2` and `v3`, the tangent of half of the angle per field, advance_p_pipeline.cc:124-125. -/
def tanOf (v0 : ℚ) (b : Fin 3 → ℚ) : ℚ :=
  let v2 := rnd32 (rnd32 (v0 * v0) * fieldSq b)
  rnd32 (v0 * rnd32 (1 + rnd32 (v2 * rnd32 (rnd32 (1 / 3) + rnd32 (v2 * rnd32 (2 / 15))))))

/-- `v3`, advance_p_pipeline.cc:120-125. -/
def tangent (rt : ℚ → ℚ) (qdt : ℚ) (b u : Fin 3 → ℚ) : ℚ := tanOf (slow rt qdt u) b

/-- `v4`, advance_p_pipeline.cc:126-127. -/
def coef (tau : ℚ) (b : Fin 3 → ℚ) : ℚ :=
  let v4 := rnd32 (tau / rnd32 (1 + rnd32 (fieldSq b * rnd32 (tau * tau))))
  rnd32 (v4 + v4)

/-- `a + c*( w cross b )`, the form of advance_p_pipeline.cc:129-135. -/
def crossAdd (c : ℚ) (a w b : Fin 3 → ℚ) (k : Fin 3) : ℚ :=
  rnd32 (a k + rnd32 (c * rnd32 (rnd32 (w (k + 1) * b (k + 2)) - rnd32 (w (k + 2) * b (k + 1)))))

/-- The rotation, advance_p_pipeline.cc:126-135: `v0`, `v1`, `v2` and then the momentum. -/
def rotate (tau : ℚ) (b u : Fin 3 → ℚ) : Fin 3 → ℚ := crossAdd (coef tau b) u (crossAdd tau u u b) b

/-- The rotation of a particle, advance_p_pipeline.cc:120-135. -/
def boris (rt : ℚ → ℚ) (qdt : ℚ) (b u : Fin 3 → ℚ) : Fin 3 → ℚ := rotate (tangent rt qdt b u) b u

end Verif.Gyro
