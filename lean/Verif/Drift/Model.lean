import Verif.Flow.Lemmas

/-!
# The magnetic field of a step, with rounding to single precision

Model of `UPDATE_CBX`, `UPDATE_CBY`, `UPDATE_CBZ`, /repo/src/field_advance/standard/pipeline/advance_b_pipeline.h:56-58, and of
`advance_b_pipeline`, /repo/src/field_advance/standard/pipeline/advance_b_pipeline.cc:18-125, on the faces of the voxels of a domain.
Simplifications: fields are functions of all integer coordinates, and every face is updated; the code updates the faces of the voxels from
1 to nx, ny, nz, and the conditions at the walls (`local_adjust`) are not part of this model.  Every operation is rounded to nearest;
overflow and underflow are left out.
-/
namespace Verif.Drift
open Verif.Place Verif.Streak Verif.Flow

/-- A component of a field. -/
abbrev Comp := ℤ → ℤ → ℤ → ℚ

/-- `cbx`, `cby`, `cbz`. -/
structure Mag where
  x : Comp
  y : Comp
  z : Comp

/-- `ex`, `ey`, `ez`. -/
structure El where
  x : Comp
  y : Comp
  z : Comp

/-- `px`, `py`, `pz`, advance_b_pipeline.h:27-29. -/
structure Ratio where
  x : ℚ
  y : ℚ
  z : ℚ

/-- `b -= ( p*( a1-a0 ) - q*( c1-c0 ) )`. -/
def upd (b p a1 a0 q c1 c0 : ℚ) : ℚ := rnd32 (b - rnd32 (rnd32 (p * rnd32 (a1 - a0)) - rnd32 (q * rnd32 (c1 - c0))))

/-- `advance_b`, the three updates of advance_b_pipeline.h:56-58. -/
def advanceB (p : Ratio) (e : El) (b : Mag) : Mag where
  x := fun i j k => upd (b.x i j k) p.y (e.z i (j + 1) k) (e.z i j k) p.z (e.y i j (k + 1)) (e.y i j k)
  y := fun i j k => upd (b.y i j k) p.z (e.x i j (k + 1)) (e.x i j k) p.x (e.z (i + 1) j k) (e.z i j k)
  z := fun i j k => upd (b.z i j k) p.x (e.y (i + 1) j k) (e.y i j k) p.y (e.x i (j + 1) k) (e.x i j k)

/-- A history: the electric field that each of the half steps sees. -/
def run (p : Ratio) (b : Mag) (es : List El) : Mag := es.foldl (fun b e => advanceB p e b) b

end Verif.Drift
