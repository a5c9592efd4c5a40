import Verif.Place.Model
import Mathlib.Data.Fin.VecNotation

/-!
# The streaks of a moving particle, with rounding

Model of the offsets and displacements in `move_p`, /repo/src/species_advance/standard/move_p.cc:216-378 (the portable version), with
the result of every operation rounded to `float`. The current and the voxel are left out: see `Verif.MoveP` for them.
-/
namespace Verif.Streak
open Verif.Place (rnd32)

/-- Offsets in the voxel, `p->dx`, `p->dy`, `p->dz`, and the displacement left, `pm->dispx`, `pm->dispy`, `pm->dispz`. -/
structure St where
  x : Fin 3 → ℚ
  d : Fin 3 → ℚ

/-- `s_dir`, move_p.cc:243-245. -/
def dir (d : ℚ) : ℚ := if d > 0 then 1 else -1

/-- Twice the fraction of the displacement up to the face, move_p.cc:249-251; `none` stands for 3.4e38. -/
def reach (x d : ℚ) : Option ℚ := if d = 0 then none else some (rnd32 (rnd32 (dir d - x) / d))

/-- One of the tests of move_p.cc:260-262. -/
def closer (s : St) (c : ℚ × Option (Fin 3)) (k : Fin 3) : ℚ × Option (Fin 3) :=
  match reach (s.x k) (s.d k) with
  | some v => if v < c.1 then (v, some k) else c
  | none => c

/-- The length and the axis of the streak, move_p.cc:259-262; `none` stands for axis 3, the end of the track. -/
def choose (s : St) : ℚ × Option (Fin 3) := [0, 1, 2].foldl (closer s) (2, none)

/-- The part of the displacement done in this streak, move_p.cc:263-268. -/
def part (d v : ℚ) : ℚ := rnd32 (d * rnd32 (v * (1 / 2)))

/-- Displacement and offset after the streak, move_p.cc:308-315. -/
def advance (s : St) (v : ℚ) : St where
  x := fun k => rnd32 (s.x k + rnd32 (part (s.d k) v + part (s.d k) v))
  d := fun k => rnd32 (s.d k - part (s.d k) v)

/-- What is behind the face, move_p.cc:333-374. -/
inductive Face | voxel | reflect | other

/-- How a streak ends. -/
inductive Out
  /-- move_p.cc:321-324. -/
  | done (s : St)
  /-- move_p.cc:347-356 and 370-374: another streak follows. -/
  | more (s : St)
  /-- move_p.cc:358-368: left to `boundary_p`. -/
  | exit (s : St)

/-- One pass of the loop. -/
def streak (face : Face) (s : St) : Out :=
  let c := choose s
  let s' := advance s c.1
  match c.2 with
  | none => .done s'
  | some k =>
    let v0 := dir (s.d k)
    match face with
    | .voxel => .more { s' with x := Function.update s'.x k (-v0) }
    | .reflect => .more { x := Function.update s'.x k v0, d := Function.update s'.d k (-s'.d k) }
    | .other => .exit { s' with x := Function.update s'.x k v0 }

end Verif.Streak
