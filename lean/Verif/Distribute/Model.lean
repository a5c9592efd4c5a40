import Mathlib.Data.Rat.Floor
import Mathlib.Tactic.Linarith
import Mathlib.Tactic.Ring
import Mathlib.Tactic.NormNum
import Mathlib.Tactic.Positivity

/-!
# Work distribution over pipelines

Model of `DISTRIBUTE` (/repo/src/util/util_base.h:191-197), of `DISTRIBUTE_VOXELS`
(/repo/src/grid/grid.h:318-333), of `NEXT_VOXEL` (/repo/src/grid/grid.h:154-162) and of the
particle split used by /repo/src/collision/pipeline/unary_pipeline.cc:33-36 and
/repo/src/collision/pipeline/langevin_pipeline.cc:26-36.
-/
namespace Verif.Distribute

/-- Rounding performed by the three double operations of the macros: `fd` the division, `fm` the
multiplication, `fa` the addition of one half.  They may differ, so that a fused multiply-add
(`fm = id`) is covered too.  C `double`s holding integers below 2^53 are exact, so the casts
`(double)_p` need no rounding. -/
structure Rounding where
  fd : ℚ → ℚ
  fm : ℚ → ℚ
  fa : ℚ → ℚ

/-- The C cast `(int)x` of a double: truncation towards zero. -/
def cInt (x : ℚ) : ℤ := if 0 ≤ x then ⌊x⌋ else ⌈x⌉

/-- `(int)( _t*(double)_p + 0.5 )` with `_t = (double)K/(double)_P`
(/repo/src/util/util_base.h:193-195, /repo/src/grid/grid.h:321-323). -/
def cut (R : Rounding) (K P p : ℕ) : ℤ :=
  cInt (R.fa (R.fm (R.fd ((K : ℚ) / (P : ℚ)) * (p : ℚ)) + 1 / 2))

/-- `DISTRIBUTE( N, b, p, P, i, n )`: first item and number of items of pipeline `p`
(`p = P` is the host).  /repo/src/util/util_base.h:191-197.  `none` stands for the undefined
division by zero when `b = 0` or `P = 0` (an integer division by zero, resp. an infinite/NaN
double cast to int). -/
def distribute (R : Rounding) (N b p P : ℕ) : Option (ℤ × ℤ) :=
  if b = 0 ∨ P = 0 then none else
    let i : ℤ := b * cut R (N / b) P p
    let n : ℤ := if p = P then ((N % b : ℕ) : ℤ) else b * cut R (N / b) P (p + 1) - i
    some (i, n)

/-- Items processed by pipeline `p`: `for( ; n; n-- ) use(i++)`.  (All users of `DISTRIBUTE` walk
`n` items from `i`, e.g. /repo/src/species_advance/standard/pipeline/advance_p_pipeline.cc:60-110.
A non-positive count means no items.) -/
def items (r : Option (ℤ × ℤ)) : Option (List ℤ) :=
  r.map fun (i, n) => (List.range n.toNat).map fun (k : ℕ) => i + (k : ℤ)

/-- Items of pipelines `0 .. P-1` and then of the host `P`, in that order
(`EXEC_PIPELINES`, /repo/src/util/pipelines/pipelines_exec.h). -/
def allItems (R : Rounding) (N b P : ℕ) : Option (List ℤ) :=
  ((List.range (P + 1)).mapM fun p => items (distribute R N b p P)).map List.flatten

/-- The split of `np` particles of the unary and Langevin collision operators: pipeline `p`
(`p < P`, the host returns immediately) gets `i .. i1-1`.
/repo/src/collision/pipeline/unary_pipeline.cc:33-36. -/
def unaryItems (R : Rounding) (np P p : ℕ) : List ℤ :=
  let i := cut R np P p
  let i1 := cut R np P (p + 1)
  (List.range (i1 - i).toNat).map fun (k : ℕ) => i + (k : ℤ)

/-- A position `(x,y,z)` in the mesh together with the voxel index kept alongside it. -/
structure VPos where
  v : ℤ
  x : ℤ
  y : ℤ
  z : ℤ
deriving DecidableEq, Repr

/-- `VOXEL(x,y,z,nx,ny,nz)`, /repo/src/grid/grid.h:136. -/
def voxel (nx ny : ℤ) (x y z : ℤ) : ℤ := x + (nx + 2) * (y + (ny + 2) * z)

/-- A box `[xl,xh]×[yl,yh]×[zl,zh]` of voxels. -/
structure Box where
  xl : ℤ
  xh : ℤ
  yl : ℤ
  yh : ℤ
  zl : ℤ
  zh : ℤ

/-- `DISTRIBUTE_VOXELS`, /repo/src/grid/grid.h:318-333: the first voxel of pipeline `p` and its
voxel count.  `none` for `b = 0`/`P = 0` (division by zero) and for a negative voxel count (a box
with a negative extent; no caller does that and C would truncate towards zero).  C `/` on the
non-negative operands met here is Lean's `/`. -/
def distributeVoxels (R : Rounding) (B : Box) (b p P : ℕ) : Option ((ℤ × ℤ × ℤ) × ℤ) :=
  let nx := B.xh - B.xl + 1
  let ny := B.yh - B.yl + 1
  let nv0 := nx * ny * (B.zh - B.zl + 1)
  if b = 0 ∨ P = 0 ∨ nx < 0 ∨ ny < 0 ∨ nv0 < 0 then none else
    let K := nv0.toNat / b
    let x := b * cut R K P p
    let nv := (if p < P then b * cut R K P (p + 1) else nv0) - x
    let y := if nx ≠ 0 then x / nx else 0
    let z := if ny ≠ 0 then y / ny else 0
    some ((x - y * nx + B.xl, y - z * ny + B.yl, z + B.zl), nv)

/-- `NEXT_VOXEL(v,x,y,z, xl,xh, yl,yh, zl,zh, nx,ny,nz)`, /repo/src/grid/grid.h:154-162. -/
def nextVoxel (nx ny : ℤ) (B : Box) (s : VPos) : VPos :=
  let v := s.v + 1
  let x := s.x + 1
  let v := if x > B.xh then v + (nx - B.xh + B.xl + 1) else v
  let y := if x > B.xh then s.y + 1 else s.y
  let x := if x > B.xh then B.xl else x
  let v := if y > B.yh then v + (ny - B.yh + B.yl + 1) * (nx + 2) else v
  let z := if y > B.yh then s.z + 1 else s.z
  let y := if y > B.yh then B.yl else y
  { v, x, y, z }

/-- The walk of a pipeline: `n` voxels from `s` (the `while(n_voxel--)`/`for( ; n_voxel; n_voxel-- )`
loops of the field kernels, e.g.
/repo/src/sf_interface/pipeline/unload_accumulator_pipeline.cc:60-80). -/
def walk (nx ny : ℤ) (B : Box) : ℕ → VPos → List VPos
  | 0, _ => []
  | n + 1, s => s :: walk nx ny B n (nextVoxel nx ny B s)

/-- What pipeline `p` visits: starts at the distributed voxel with `v = VOXEL(x,y,z)`. -/
def visits (R : Rounding) (nx ny : ℤ) (B : Box) (b p P : ℕ) : Option (List VPos) :=
  (distributeVoxels R B b p P).map fun ((x, y, z), n) =>
    walk nx ny B n.toNat { v := voxel nx ny x y z, x, y, z }

/-- Everything visited by pipelines `0..P-1` and the host `P`. -/
def allVisits (R : Rounding) (nx ny : ℤ) (B : Box) (b P : ℕ) : Option (List VPos) :=
  ((List.range (P + 1)).mapM fun p => visits R nx ny B b p P).map List.flatten

end Verif.Distribute
