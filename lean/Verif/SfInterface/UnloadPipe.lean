import Verif.SfInterface.Unload
import Verif.Field.Basic

/-!
# Unloading the accumulators: the pipelines

Model of `unload_accumulator_array` with its pipelines
(/repo/src/sf_interface/pipeline/unload_accumulator_pipeline.cc), exact arithmetic.
-/
namespace Verif.SfInterface

open Grid Field
open MoveP (Accum)

variable {K : Type*} [Field K]

/-- The pointers of the loop, as voxel indices: `f0`, `a0`, `ax`, `ay`, `az`, `ayz`, `azx`, `axy` (lines 25-29). -/
structure UStencil where
  f0 : ℤ
  a0 : ℤ
  ax : ℤ
  ay : ℤ
  az : ℤ
  ayz : ℤ
  azx : ℤ
  axy : ℤ

/-- `LOAD_STENCIL()`, lines 51-59. -/
def uLoad (g : LGrid) (x y z : ℤ) : UStencil where
  f0 := VOXEL g.nx g.ny x y z
  a0 := VOXEL g.nx g.ny x y z
  ax := VOXEL g.nx g.ny (x - 1) y z
  ay := VOXEL g.nx g.ny x (y - 1) z
  az := VOXEL g.nx g.ny x y (z - 1)
  ayz := VOXEL g.nx g.ny x (y - 1) (z - 1)
  azx := VOXEL g.nx g.ny (x - 1) y (z - 1)
  axy := VOXEL g.nx g.ny (x - 1) (y - 1) z

/-- `f0++; a0++; …`, line 69. -/
def UStencil.next (s : UStencil) : UStencil :=
  ⟨s.f0 + 1, s.a0 + 1, s.ax + 1, s.ay + 1, s.az + 1, s.ayz + 1, s.azx + 1, s.axy + 1⟩

/-- The loop over `n_voxel` voxels from `x`, `y`, `z` with the pointers `s`: the pointers of every pass, lines 63-78. -/
def uStencils (g : LGrid) : ℕ → UStencil → ℤ → ℤ → ℤ → List UStencil
  | 0, _, _, _, _ => []
  | n + 1, s, x, y, z => s ::
      if x + 1 > g.nx + 1 then
        let y' := if y + 1 > g.ny + 1 then 1 else y + 1
        let z' := if y + 1 > g.ny + 1 then z + 1 else z
        uStencils g n (uLoad g 1 y' z') 1 y' z'
      else uStencils g n s.next (x + 1) y z

/-- Body of the loop, lines 65-67: `jfx`, `jfy`, `jfz` of `f0` grow by these amounts. -/
def uAdds (c : Fin 3 → K) (a : Accum K) (s : UStencil) : Fin 3 → K :=
  ![c 0 * (a s.a0 0 + a s.ay 1 + a s.az 2 + a s.ayz 3),
    c 1 * (a s.a0 4 + a s.az 5 + a s.ax 6 + a s.azx 7),
    c 2 * (a s.a0 8 + a s.ax 9 + a s.ay 10 + a s.axy 11)]

/-- One pass of the loop. -/
def uOne (c : Fin 3 → K) (a : Accum K) (s : UStencil) : FMem K → FMem K := fun m q =>
  if q.1 = s.f0 then
    match q.2 with
    | .jf k => m q + uAdds c a s k
    | _ => m q
  else m q

/-- What pipeline `p` does, lines 17-80; pipeline `P` (the calling thread) returns at line 45. -/
def uPipeline (R : Distribute.Rounding) (g : LGrid) (P p : ℕ) : Option (List UStencil) :=
  if p = P then some [] else
    (Distribute.distributeVoxels R ⟨1, g.nx + 1, 1, g.ny + 1, 1, g.nz + 1⟩ 1 p P).map fun ((x, y, z), n) =>
      uStencils g n.toNat (uLoad g x y z) x y z

/-- `unload_accumulator_array`, lines 90-146: any interleaving of the pipelines and the calling thread takes the
fields from `m` to `m'`; `a` is the first accumulator array. -/
def UnloadAccumulator (R : Distribute.Rounding) (g : LGrid) (P : ℕ) (sc : Scales K) (a : Accum K) (m m' : FMem K) :
    Prop :=
  ∃ ls, (List.range (P + 1)).mapM (uPipeline R g P) = some ls ∧
    Runs (ls.map fun l => l.map (uOne (unloadC sc) a)) m m'

end Verif.SfInterface
