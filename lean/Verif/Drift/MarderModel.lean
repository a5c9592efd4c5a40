import Verif.Drift.Quiet
import Verif.Flow.Sum

/-!
# The errors of the divergences and their cleaning, with rounding to single precision

Model of `compute_div_b_err_pipeline_scalar`, /repo/src/field_advance/standard/pipeline/compute_div_b_err_pipeline.cc:10-65, of
`MARDER_CBX`, `MARDER_CBY`, `MARDER_CBZ`, /repo/src/field_advance/standard/pipeline/clean_div_b_pipeline.h:18-20, and of `UPDATE_DERR_E`,
/repo/src/field_advance/standard/pipeline/vacuum_compute_div_e_err_pipeline.h:50-53.  Simplifications as in `Drift.Model`: every voxel and
node is updated, walls and ghosts are not part of this model; the factors of the axes are given.  Every operation is rounded to nearest;
overflow and underflow are left out.
-/
namespace Verif.Drift
open Verif.Place Verif.Streak Verif.Flow

/-- `p*( a - b )`. -/
def slope (p a b : ℚ) : ℚ := rnd32 (p * rnd32 (a - b))

/-- `div_b_err`, compute_div_b_err_pipeline.cc:45-47. -/
def divBErr (p : Ratio) (b : Mag) : Comp := fun i j k =>
  rnd32 (rnd32 (slope p.x (b.x (i + 1) j k) (b.x i j k) + slope p.y (b.y i (j + 1) k) (b.y i j k)) + slope p.z (b.z i j (k + 1)) (b.z i j k))

/-- `cbx`, `cby`, `cbz` after `clean_div_b`, clean_div_b_pipeline.h:18-20; `p` is the factor with `alphadt`, `d` is `div_b_err`. -/
def cleanB (p : Ratio) (d : Comp) (b : Mag) : Mag where
  x := fun i j k => rnd32 (b.x i j k + slope p.x (d i j k) (d (i - 1) j k))
  y := fun i j k => rnd32 (b.y i j k + slope p.y (d i j k) (d i (j - 1) k))
  z := fun i j k => rnd32 (b.z i j k + slope p.z (d i j k) (d i j (k - 1)))

/-- `ex`, `ey`, `ez` after `clean_div_e`, /repo/src/field_advance/standard/pipeline/vacuum_clean_div_e_pipeline.h:52-54; `p` is the factor
with `alphadt` and the drive of the material, `d` is `div_e_err`. -/
def cleanE (p : Ratio) (d : Comp) (e : El) : El where
  x := fun i j k => rnd32 (e.x i j k + slope p.x (d (i + 1) j k) (d i j k))
  y := fun i j k => rnd32 (e.y i j k + slope p.y (d i (j + 1) k) (d i j k))
  z := fun i j k => rnd32 (e.z i j k + slope p.z (d i j (k + 1)) (d i j k))

/-- `div_e_err`, vacuum_compute_div_e_err_pipeline.h:50-53. -/
def divEErr (nc cj : ℚ) (p : Ratio) (e : El) (rhof rhob : Comp) : Comp := fun i j k =>
  rnd32 (nc * rnd32 (rnd32 (rnd32 (slope p.x (e.x i j k) (e.x (i - 1) j k) + slope p.y (e.y i j k) (e.y i (j - 1) k)) +
    slope p.z (e.z i j k) (e.z i j (k - 1))) - rnd32 (cj * rnd32 (rhof i j k + rhob i j k))))

end Verif.Drift
