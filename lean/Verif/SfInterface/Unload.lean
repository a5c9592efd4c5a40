import Verif.MoveP.Model

/-!
# Unloading the accumulators

Model of the stencil of `unload_accumulator_array`
(/repo/src/sf_interface/pipeline/unload_accumulator_pipeline.cc).
-/
namespace Verif.SfInterface

open Grid (LGrid)
open MoveP (Accum)

variable {K : Type*} [Field K]

/-- The float members of `grid_t` used here (/repo/src/grid/grid.h:78-93). -/
structure Scales (K : Type*) where
  dt : K
  rd : Fin 3 → K   -- rdx, rdy, rdz
  r8V : K

/-- `cx, cy, cz`, /repo/src/sf_interface/pipeline/unload_accumulator_pipeline.cc:137-139. -/
def unloadC (m : Scales K) : Fin 3 → K :=
  ![(1 / 4) * m.rd 1 * m.rd 2 / m.dt, (1 / 4) * m.rd 2 * m.rd 0 / m.dt,
    (1 / 4) * m.rd 0 * m.rd 1 / m.dt]

/-- The amounts added to `jfx, jfy, jfz` of voxel `n`,
/repo/src/sf_interface/pipeline/unload_accumulator_pipeline.cc:51-67: the neighbours
`a(x-1,y,z)`, `a(x,y-1,z)`, `a(x,y,z-1)`, … are at index offsets `-1`, `-(nx+2)`,
`-(nx+2)(ny+2)`, …. -/
def unloadAt (g : LGrid) (c : Fin 3 → K) (a : Accum K) (n : ℤ) : Fin 3 → K :=
  let sy := g.nx + 2
  let sz := (g.ny + 2) * sy
  let a0 := a n
  let ax := a (n - 1)
  let ay := a (n - sy)
  let az := a (n - sz)
  let ayz := a (n - sy - sz)
  let azx := a (n - sz - 1)
  let axy := a (n - 1 - sy)
  ![c 0 * (a0 0 + ay 1 + az 2 + ayz 3),
    c 1 * (a0 4 + az 5 + ax 6 + azx 7),
    c 2 * (a0 8 + ax 9 + ay 10 + axy 11)]

end Verif.SfInterface
