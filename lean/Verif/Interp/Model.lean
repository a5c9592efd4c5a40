import Verif.Field.Basic
import Verif.Boris.Model

/-!
# Loading the interpolators

Model of /repo/src/sf_interface/pipeline/interpolator_array_pipeline.cc (scalar version), exact arithmetic.
-/
namespace Verif.Interp

open Grid Field Boris

variable {K : Type*} [Field K]

/-- The pointers of the loop, as voxel indices: `pi`, `pf0`, `pfx`, `pfy`, `pfz`, `pfyz`, `pfzx`, `pfxy`
(lines 28-32). -/
structure Stencil where
  pi : ℤ
  pf0 : ℤ
  pfx : ℤ
  pfy : ℤ
  pfz : ℤ
  pfyz : ℤ
  pfzx : ℤ
  pfxy : ℤ

/-- `LOAD_STENCIL()`, lines 52-60. -/
def loadStencil (g : LGrid) (x y z : ℤ) : Stencil where
  pi := VOXEL g.nx g.ny x y z
  pf0 := VOXEL g.nx g.ny x y z
  pfx := VOXEL g.nx g.ny (x + 1) y z
  pfy := VOXEL g.nx g.ny x (y + 1) z
  pfz := VOXEL g.nx g.ny x y (z + 1)
  pfyz := VOXEL g.nx g.ny x (y + 1) (z + 1)
  pfzx := VOXEL g.nx g.ny (x + 1) y (z + 1)
  pfxy := VOXEL g.nx g.ny (x + 1) (y + 1) z

/-- `pi++; pf0++; …`, line 122. -/
def Stencil.next (s : Stencil) : Stencil :=
  ⟨s.pi + 1, s.pf0 + 1, s.pfx + 1, s.pfy + 1, s.pfz + 1, s.pfyz + 1, s.pfzx + 1, s.pfxy + 1⟩

/-- The loop over `n_voxel` voxels from `x`, `y`, `z` with the pointers `s`: the pointers of every pass, lines 64-131. -/
def stencils (g : LGrid) : ℕ → Stencil → ℤ → ℤ → ℤ → List Stencil
  | 0, _, _, _, _ => []
  | n + 1, s, x, y, z => s ::
      if x + 1 > g.nx then
        let y' := if y + 1 > g.ny then 1 else y + 1
        let z' := if y + 1 > g.ny then z + 1 else z
        stencils g n (loadStencil g 1 y' z') 1 y' z'
      else stencils g n s.next (x + 1) y z

/-- Body of the loop, lines 66-120: the coefficients stored at `pi`. -/
def coefficients (f : FMem K) (s : Stencil) : Interp K :=
  let v4 (w3 w0 w1 w2 : K) : K := 1 / 4 * ((w3 + w0) + (w1 + w2))
  let d1 (w3 w0 w1 w2 : K) : K := 1 / 4 * ((w3 - w0) + (w1 - w2))
  let d2 (w3 w0 w1 w2 : K) : K := 1 / 4 * ((w3 - w0) - (w1 - w2))
  let dd (w3 w0 w1 w2 : K) : K := 1 / 4 * ((w3 + w0) - (w1 + w2))
  let e (v : ℤ) (a : Fin 3) : K := f (v, .e a)
  let b (v : ℤ) (a : Fin 3) : K := f (v, .cb a)
  { ex := v4 (e s.pfyz 0) (e s.pf0 0) (e s.pfy 0) (e s.pfz 0)
    dexdy := d1 (e s.pfyz 0) (e s.pf0 0) (e s.pfy 0) (e s.pfz 0)
    dexdz := d2 (e s.pfyz 0) (e s.pf0 0) (e s.pfy 0) (e s.pfz 0)
    d2exdydz := dd (e s.pfyz 0) (e s.pf0 0) (e s.pfy 0) (e s.pfz 0)
    ey := v4 (e s.pfzx 1) (e s.pf0 1) (e s.pfz 1) (e s.pfx 1)
    deydz := d1 (e s.pfzx 1) (e s.pf0 1) (e s.pfz 1) (e s.pfx 1)
    deydx := d2 (e s.pfzx 1) (e s.pf0 1) (e s.pfz 1) (e s.pfx 1)
    d2eydzdx := dd (e s.pfzx 1) (e s.pf0 1) (e s.pfz 1) (e s.pfx 1)
    ez := v4 (e s.pfxy 2) (e s.pf0 2) (e s.pfx 2) (e s.pfy 2)
    dezdx := d1 (e s.pfxy 2) (e s.pf0 2) (e s.pfx 2) (e s.pfy 2)
    dezdy := d2 (e s.pfxy 2) (e s.pf0 2) (e s.pfx 2) (e s.pfy 2)
    d2ezdxdy := dd (e s.pfxy 2) (e s.pf0 2) (e s.pfx 2) (e s.pfy 2)
    cbx := 1 / 2 * (b s.pfx 0 + b s.pf0 0)
    dcbxdx := 1 / 2 * (b s.pfx 0 - b s.pf0 0)
    cby := 1 / 2 * (b s.pfy 1 + b s.pf0 1)
    dcbydy := 1 / 2 * (b s.pfy 1 - b s.pf0 1)
    cbz := 1 / 2 * (b s.pfz 2 + b s.pf0 2)
    dcbzdz := 1 / 2 * (b s.pfz 2 - b s.pf0 2) }

/-- The interpolators of all voxels. -/
abbrev IMem (K : Type*) := Memory (fun _ : ℤ => Interp K)

/-- One pass of the loop. -/
def loadOne (f : FMem K) (s : Stencil) : IMem K → IMem K := fun m => Function.update m s.pi (coefficients f s)

/-- What pipeline `p` does, lines 20-135; pipeline `P` (the calling thread) returns at line 46. -/
def loadPipeline (R : Distribute.Rounding) (g : LGrid) (P p : ℕ) : Option (List Stencil) :=
  if p = P then some [] else
    (Distribute.distributeVoxels R ⟨1, g.nx, 1, g.ny, 1, g.nz⟩ 1 p P).map fun ((x, y, z), n) =>
      stencils g n.toNat (loadStencil g x y z) x y z

/-- `load_interpolator_array`: any interleaving of the pipelines and the calling thread takes the interpolators from
`m` to `m'`. -/
def LoadInterpolator (R : Distribute.Rounding) (g : LGrid) (P : ℕ) (f : FMem K) (m m' : IMem K) : Prop :=
  ∃ ls, (List.range (P + 1)).mapM (loadPipeline R g P) = some ls ∧
    Runs (ls.map fun l => l.map (loadOne f)) m m'

end Verif.Interp
