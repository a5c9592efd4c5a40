import Verif.Gyro.Energy

/-!
# The energy of the fields, with rounding to single and double precision

Model of `REDUCE_EN`, /repo/src/field_advance/standard/pipeline/vacuum_energy_f_pipeline.h:57-75, of `vacuum_energy_f_pipeline_scalar`
and of the sum over the pipelines, /repo/src/field_advance/standard/pipeline/vacuum_energy_f_pipeline.cc:12-83.  Which voxels belong to
which pipeline is left open: the voxels are given as the list of the lists of the pipelines.  The code adds the sums of the other
pipelines to that of the first, the model adds all to 0, which is the same.  Every operation is rounded to nearest; overflow, underflow,
`mp_allsum_d` and the last factor are left out.
-/
namespace Verif.Gyro
open Verif.Place Verif.Streak Verif.Flow Verif.Drift

/-- `qeps*( a*a + b*b + c*c + d*d )`, vacuum_energy_f_pipeline.h:58-69. -/
def four (qeps a b c d : ℚ) : ℚ :=
  rnd32 (qeps * rnd32 (rnd32 (rnd32 (rnd32 (a * a) + rnd32 (b * b)) + rnd32 (c * c)) + rnd32 (d * d)))

/-- `hrmu*( a*a + b*b )`, vacuum_energy_f_pipeline.h:70-75. -/
def two (hrmu a b : ℚ) : ℚ := rnd32 (hrmu * rnd32 (rnd32 (a * a) + rnd32 (b * b)))

/-- `qepsx`, `qepsy`, `qepsz`, `hrmux`, `hrmuy`, `hrmuz`, vacuum_energy_f_pipeline.h:24-29. -/
structure Weights where
  qeps : Fin 3 → ℚ
  hrmu : Fin 3 → ℚ

/-- What a voxel adds to each of the six energies, vacuum_energy_f_pipeline.h:57-75. -/
def voxelEn (c : Weights) (e : El) (b : Mag) (v : ℤ × ℤ × ℤ) : Fin 6 → ℚ :=
  let i := v.1; let j := v.2.1; let k := v.2.2
  ![four (c.qeps 0) (e.x i j k) (e.x i (j + 1) k) (e.x i j (k + 1)) (e.x i (j + 1) (k + 1)),
    four (c.qeps 1) (e.y i j k) (e.y i j (k + 1)) (e.y (i + 1) j k) (e.y (i + 1) j (k + 1)),
    four (c.qeps 2) (e.z i j k) (e.z (i + 1) j k) (e.z i (j + 1) k) (e.z (i + 1) (j + 1) k),
    two (c.hrmu 0) (b.x i j k) (b.x (i + 1) j k),
    two (c.hrmu 1) (b.y i j k) (b.y i (j + 1) k),
    two (c.hrmu 2) (b.z i j k) (b.z i j (k + 1))]

/-- The six energies after the sum over the pipelines. -/
def fieldEn (c : Weights) (e : El) (b : Mag) (ls : List (List (ℤ × ℤ × ℤ))) (s : Fin 6) : ℚ :=
  addUp (ls.map fun l => addUp (l.map fun v => voxelEn c e b v s))

end Verif.Gyro
