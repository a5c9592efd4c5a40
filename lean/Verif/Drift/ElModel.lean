import Verif.Drift.Props

/-!
# The electric field of a step, with rounding to single precision

Model of `UPDATE_EX`, `UPDATE_EY`, `UPDATE_EZ`, /repo/src/field_advance/standard/pipeline/vacuum_advance_e_pipeline.h:56-69, and of
`vacuum_advance_e_pipeline_scalar`, /repo/src/field_advance/standard/pipeline/vacuum_advance_e_pipeline.cc:19-42.  Simplifications as in
`Drift.Model`: every edge is updated, walls and ghosts are not part of this model; the material has the same permeability in all
directions, so that there is one ratio for each axis.  Every operation is rounded to nearest; overflow and underflow are left out.
-/
namespace Verif.Drift
open Verif.Place Verif.Streak Verif.Flow

/-- `decayx`, `decayy`, `decayz`, `drivex`, `drivey`, `drivez`, `damp`, `cj` and the ratios, vacuum_advance_e_pipeline.h:23-35. -/
structure Medium where
  p : Ratio
  decay : Fin 3 → ℚ
  drive : Fin 3 → ℚ
  damp : ℚ
  cj : ℚ

/-- `( p*( a1-a0 ) - q*( c1-c0 ) ) - damp*t`: the new `tca`, vacuum_advance_e_pipeline.h:57-58. -/
def newT (damp t p a1 a0 q c1 c0 : ℚ) : ℚ :=
  rnd32 (rnd32 (rnd32 (p * rnd32 (a1 - a0)) - rnd32 (q * rnd32 (c1 - c0))) - rnd32 (damp * t))

/-- `decay*e + drive*( tca - cj*j )`, vacuum_advance_e_pipeline.h:59. -/
def newE (decay drive cj e t j : ℚ) : ℚ := rnd32 (rnd32 (decay * e) + rnd32 (drive * rnd32 (t - rnd32 (cj * j))))

/-- The new `tcax`, `tcay`, `tcaz`, vacuum_advance_e_pipeline.h:57-58, 62-63, 67-68. -/
def advanceT (m : Medium) (b : Mag) (t : El) : El where
  x := fun i j k => newT m.damp (t.x i j k) m.p.y (b.z i j k) (b.z i (j - 1) k) m.p.z (b.y i j k) (b.y i j (k - 1))
  y := fun i j k => newT m.damp (t.y i j k) m.p.z (b.x i j k) (b.x i j (k - 1)) m.p.x (b.z i j k) (b.z (i - 1) j k)
  z := fun i j k => newT m.damp (t.z i j k) m.p.x (b.y i j k) (b.y (i - 1) j k) m.p.y (b.x i j k) (b.x i (j - 1) k)

/-- `vacuum_advance_e`: the new `ex`, `ey`, `ez`, vacuum_advance_e_pipeline.h:59, 64, 69; `c` is the current. -/
def advanceE (m : Medium) (b : Mag) (c t e : El) : El where
  x := fun i j k => newE (m.decay 0) (m.drive 0) m.cj (e.x i j k) ((advanceT m b t).x i j k) (c.x i j k)
  y := fun i j k => newE (m.decay 1) (m.drive 1) m.cj (e.y i j k) ((advanceT m b t).y i j k) (c.y i j k)
  z := fun i j k => newE (m.decay 2) (m.drive 2) m.cj (e.z i j k) ((advanceT m b t).z i j k) (c.z i j k)

/-- A history: the magnetic field and the current of each step; the state is `tca` and the electric field. -/
def runE (m : Medium) (s : El × El) (l : List (Mag × El)) : El × El :=
  l.foldl (fun s bc => (advanceT m bc.1 s.1, advanceE m bc.1 bc.2 s.1 s.2)) s

end Verif.Drift
