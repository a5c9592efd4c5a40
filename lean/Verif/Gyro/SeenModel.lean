import Verif.Gyro.Angle
import Verif.Drift.Model

/-!
# The fields a particle sees and the momentum after a step, with rounding to single precision

Model of `load_interpolator_pipeline_scalar`, /repo/src/sf_interface/pipeline/interpolator_array_pipeline.cc:21-136, and of the
interpolation and the advance of the momentum in `advance_p_pipeline_scalar`,
/repo/src/species_advance/standard/pipeline/advance_p_pipeline.cc:91-139.  Fields are functions of all integer coordinates, as in
`Drift`.  Every operation is rounded to nearest; overflow and underflow are left out.
-/
namespace Verif.Gyro
open Verif.Place Verif.Streak Verif.Flow Verif.Drift

/-- `ex`, `ey`, `ez` of the interpolator, interpolator_array_pipeline.cc:75, 86, 97. -/
def c0 (w : Fin 4 → ℚ) : ℚ := rnd32 (1 / 4 * rnd32 (rnd32 (w 3 + w 0) + rnd32 (w 1 + w 2)))

/-- `dexdy`, `deydz`, `dezdx`, interpolator_array_pipeline.cc:76, 87, 98. -/
def c1 (w : Fin 4 → ℚ) : ℚ := rnd32 (1 / 4 * rnd32 (rnd32 (w 3 - w 0) + rnd32 (w 1 - w 2)))

/-- `dexdz`, `deydx`, `dezdy`, interpolator_array_pipeline.cc:77, 88, 99. -/
def c2 (w : Fin 4 → ℚ) : ℚ := rnd32 (1 / 4 * rnd32 (rnd32 (w 3 - w 0) - rnd32 (w 1 - w 2)))

/-- `d2exdydz`, `d2eydzdx`, `d2ezdxdy`, interpolator_array_pipeline.cc:78, 89, 100. -/
def c3 (w : Fin 4 → ℚ) : ℚ := rnd32 (1 / 4 * rnd32 (rnd32 (w 3 + w 0) - rnd32 (w 1 + w 2)))

/-- A component of the electric field at a particle, the bracket of advance_p_pipeline.cc:98-105. -/
def seenE (w : Fin 4 → ℚ) (s t : ℚ) : ℚ := rnd32 (rnd32 (c0 w + rnd32 (s * c1 w)) + rnd32 (t * rnd32 (c2 w + rnd32 (s * c3 w))))

/-- A component of the magnetic field at a particle, interpolator_array_pipeline.cc:102-121 and advance_p_pipeline.cc:107-109. -/
def seenB (w0 w1 s : ℚ) : ℚ := rnd32 (rnd32 (1 / 2 * rnd32 (w1 + w0)) + rnd32 (s * rnd32 (1 / 2 * rnd32 (w1 - w0))))

/-- The electric field at offset `d` in voxel `i j k`, with the stencils of interpolator_array_pipeline.cc:52-59, 66-100. -/
def eAt (e : El) (i j k : ℤ) (d : Fin 3 → ℚ) : Fin 3 → ℚ :=
  ![seenE ![e.x i j k, e.x i (j + 1) k, e.x i j (k + 1), e.x i (j + 1) (k + 1)] (d 1) (d 2),
    seenE ![e.y i j k, e.y i j (k + 1), e.y (i + 1) j k, e.y (i + 1) j (k + 1)] (d 2) (d 0),
    seenE ![e.z i j k, e.z (i + 1) j k, e.z i (j + 1) k, e.z (i + 1) (j + 1) k] (d 0) (d 1)]

/-- The magnetic field at offset `d` in voxel `i j k`. -/
def bAt (b : Mag) (i j k : ℤ) (d : Fin 3 → ℚ) : Fin 3 → ℚ :=
  ![seenB (b.x i j k) (b.x (i + 1) j k) (d 0), seenB (b.y i j k) (b.y i (j + 1) k) (d 1), seenB (b.z i j k) (b.z i j (k + 1)) (d 2)]

/-- The momentum after half an advance by the electric field, advance_p_pipeline.cc:98-118. -/
def kicked (qdt : ℚ) (e u : Fin 3 → ℚ) (k : Fin 3) : ℚ := rnd32 (u k + rnd32 (qdt * e k))

/-- The momentum after a step, advance_p_pipeline.cc:98-139. -/
def advU (rt : ℚ → ℚ) (qdt : ℚ) (e b u : Fin 3 → ℚ) : Fin 3 → ℚ := kicked qdt e (boris rt qdt b (kicked qdt e u))

end Verif.Gyro
