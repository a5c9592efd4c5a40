import Mathlib.Tactic.Linarith
import Mathlib.Tactic.Ring
import Mathlib.Data.List.Nodup
import Mathlib.Data.List.Range
import Mathlib.Tactic.FinCases

/-!
# Grid construction

Model of /repo/src/grid/ops.cc, /repo/src/grid/partition.cc, /repo/src/grid/grid_comm.cc and of the
index macros of /repo/src/grid/grid.h.  C `int`/`int64_t` values are mathematical integers (the
code documents the size limits at /repo/src/grid/grid.h:103-107); `none` is a failed `ERROR(( ))`.
Float fields of the grid (cell sizes, corners) are not part of this model.
-/
namespace Verif.Grid

/-- `VOXEL(x,y,z,nx,ny,nz)`, /repo/src/grid/grid.h:136. -/
def VOXEL (nx ny x y z : ℤ) : ℤ := x + (nx + 2) * (y + (ny + 2) * z)

/-- `BOUNDARY(i,j,k)`, /repo/src/grid/grid.h:16. -/
def BOUNDARY (i j k : ℤ) : ℤ := 13 + i + 3 * j + 9 * k

/-- A voxel of a local mesh. -/
structure Cell where
  x : ℤ
  y : ℤ
  z : ℤ
deriving DecidableEq, Repr

/-- The integers `a … b` in increasing order: `for( i=a; i<=b; i++ )`. -/
def fromTo (a b : ℤ) : List ℤ := (List.range (b - a + 1).toNat).map fun (k : ℕ) => a + (k : ℤ)

/-- `for( z=z0; z<=z1; z++ ) for( y=y0; ... ) for( x=x0; ... )`. -/
def cellsOf (x0 x1 y0 y1 z0 z1 : ℤ) : List Cell :=
  (fromTo z0 z1).flatMap fun z => (fromTo y0 y1).flatMap fun y => (fromTo x0 x1).map fun x =>
    { x, y, z }

/-- One array store `t[i] = v`. -/
def store (t : ℤ → ℤ) (i v : ℤ) : ℤ → ℤ := fun j => if j = i then v else t j

/-- A loop of stores, in order. -/
def stores (t : ℤ → ℤ) (w : List (ℤ × ℤ)) : ℤ → ℤ := w.foldl (fun t iv => store t iv.1 iv.2) t

/-- The part of `grid_t` modelled (/repo/src/grid/grid.h:73-131). -/
structure LGrid where
  nx : ℤ
  ny : ℤ
  nz : ℤ
  bc : ℤ → ℤ        -- bc[27]
  range : ℤ → ℤ     -- range[0:nproc]
  rangel : ℤ
  rangeh : ℤ
  neighbor : ℤ → ℤ  -- flat array, entry 6*voxel+face

/-- `reflect_particles`, /repo/src/grid/grid.h:29. -/
def reflectParticles : ℤ := -1
/-- `pec_fields` = `anti_symmetric_fields`, `symmetric_fields`, `pmc_fields`, `absorb_fields`,
/repo/src/grid/grid.h:21-26. -/
def antiSymmetricFields : ℤ := -1
@[inherit_doc antiSymmetricFields] def symmetricFields : ℤ := -2
@[inherit_doc antiSymmetricFields] def pmcFields : ℤ := -3
@[inherit_doc antiSymmetricFields] def absorbFields : ℤ := -4

/-- Exclusive prefix sum of the gathered voxel counts, /repo/src/grid/ops.cc:43-51. -/
def rangeOf (nvs : ℕ → ℤ) : ℕ → ℤ
  | 0 => 0
  | i + 1 => rangeOf nvs i + nvs i

/-- The six stores of /repo/src/grid/ops.cc:61-85 for one cell; within one iteration later
assignments override earlier ones, so the stored value is given by the conditions in reverse
order. -/
def sizeStores (rangel lnx lny lnz : ℤ) (c : Cell) : List (ℤ × ℤ) :=
  let i := 6 * VOXEL lnx lny c.x c.y c.z
  let ghost : Bool := c.x = 0 ∨ c.x = lnx + 1 ∨ c.y = 0 ∨ c.y = lny + 1 ∨ c.z = 0 ∨ c.z = lnz + 1
  let val (atWall : Bool) (nbr : ℤ) : ℤ :=
    if ghost then reflectParticles else if atWall then reflectParticles else rangel + nbr
  [ (i + 0, val (c.x = 1) (VOXEL lnx lny (c.x - 1) c.y c.z)),
    (i + 1, val (c.y = 1) (VOXEL lnx lny c.x (c.y - 1) c.z)),
    (i + 2, val (c.z = 1) (VOXEL lnx lny c.x c.y (c.z - 1))),
    (i + 3, val (c.x = lnx) (VOXEL lnx lny (c.x + 1) c.y c.z)),
    (i + 4, val (c.y = lny) (VOXEL lnx lny c.x (c.y + 1) c.z)),
    (i + 5, val (c.z = lnz) (VOXEL lnx lny c.x c.y (c.z + 1))) ]

/-- `size_grid`, /repo/src/grid/ops.cc:18-116 (the `#if 0` space filling curve is dead code).
`nvs r` is the voxel count rank `r` contributes to `mp_allgather_i64`. `t0` is the uninitialised
content of the freshly allocated neighbour array. -/
def sizeGrid (nvs : ℕ → ℤ) (rank : ℕ) (t0 : ℤ → ℤ) (lnx lny lnz : ℤ) : Option LGrid :=
  if lnx < 1 ∨ lny < 1 ∨ lnz < 1 then none else
    let rangel := rangeOf nvs rank
    some {
      nx := lnx, ny := lny, nz := lnz
      bc := fun p => if p = BOUNDARY 0 0 0 then (rank : ℤ) else antiSymmetricFields
      range := fun i => rangeOf nvs i.toNat
      rangel := rangel
      rangeh := rangeOf nvs (rank + 1) - 1
      neighbor := stores t0
        ((cellsOf 0 (lnx + 1) 0 (lny + 1) 0 (lnz + 1)).flatMap (sizeStores rangel lnx lny lnz)) }

/-- One `GLUE_FACE`, /repo/src/grid/ops.cc:136-155, for the axis `X = x` (tags 0 and 3),
`X = y` (tags 1 and 4) or `X = z` (tags 2 and 5).  `lo` tells `(i+j+k)<0`. -/
def glueX (g : LGrid) (rank : ℕ) (lo : Bool) : Option LGrid :=
  let rnc := g.range (rank + 1) - g.range rank
  let area := (g.ny + 2) * (g.nz + 2)
  if rnc % area ≠ 0 then none else
    let rnx := rnc / area - 2
    let tag := if lo then 0 else 3
    let lx := if lo then 1 else g.nx
    let rx := if lo then rnx else 1
    let w := (fromTo 1 g.nz).flatMap fun lz => (fromTo 1 g.ny).map fun ly =>
      (6 * VOXEL g.nx g.ny lx ly lz + tag, g.range rank + VOXEL rnx g.ny rx ly lz)
    some { g with neighbor := stores g.neighbor w }

@[inherit_doc glueX]
def glueY (g : LGrid) (rank : ℕ) (lo : Bool) : Option LGrid :=
  let rnc := g.range (rank + 1) - g.range rank
  let area := (g.nz + 2) * (g.nx + 2)
  if rnc % area ≠ 0 then none else
    let rny := rnc / area - 2
    let tag := if lo then 1 else 4
    let ly := if lo then 1 else g.ny
    let ry := if lo then rny else 1
    let w := (fromTo 1 g.nx).flatMap fun lx => (fromTo 1 g.nz).map fun lz =>
      (6 * VOXEL g.nx g.ny lx ly lz + tag, g.range rank + VOXEL g.nx rny lx ry lz)
    some { g with neighbor := stores g.neighbor w }

@[inherit_doc glueX]
def glueZ (g : LGrid) (rank : ℕ) (lo : Bool) : Option LGrid :=
  let rnc := g.range (rank + 1) - g.range rank
  let area := (g.nx + 2) * (g.ny + 2)
  if rnc % area ≠ 0 then none else
    let rnz := rnc / area - 2
    let tag := if lo then 2 else 5
    let lz := if lo then 1 else g.nz
    let rz := if lo then rnz else 1
    let w := (fromTo 1 g.ny).flatMap fun ly => (fromTo 1 g.nx).map fun lx =>
          (6 * VOXEL g.nx g.ny lx ly lz + tag, g.range rank + VOXEL g.nx g.ny lx ly rz)
    some { g with neighbor := stores g.neighbor w }

/-- `join_grid`, /repo/src/grid/ops.cc:118-165.  `g.range` is the whole table (its indices above
`world_size` are never used because `rank < world_size`). -/
def joinGrid (worldSize : ℕ) (g : LGrid) (boundary : ℤ) (rank : ℤ) : Option LGrid :=
  if boundary < 0 ∨ boundary ≥ 27 ∨ boundary = BOUNDARY 0 0 0 ∨ rank < 0 ∨ rank ≥ worldSize then none
  else
    let g := { g with bc := store g.bc boundary rank }
    let r := rank.toNat
    if boundary = BOUNDARY (-1) 0 0 then glueX g r true
    else if boundary = BOUNDARY 0 (-1) 0 then glueY g r true
    else if boundary = BOUNDARY 0 0 (-1) then glueZ g r true
    else if boundary = BOUNDARY 1 0 0 then glueX g r false
    else if boundary = BOUNDARY 0 1 0 then glueY g r false
    else if boundary = BOUNDARY 0 0 1 then glueZ g r false
    else some g

/-- `set_fbc`, /repo/src/grid/ops.cc:167-178. -/
def setFbc (g : LGrid) (boundary fbc : ℤ) : Option LGrid :=
  if boundary < 0 ∨ boundary ≥ 27 ∨ boundary = BOUNDARY 0 0 0 ∨
      (fbc ≠ antiSymmetricFields ∧ fbc ≠ symmetricFields ∧ fbc ≠ pmcFields ∧ fbc ≠ absorbFields)
  then none else some { g with bc := store g.bc boundary fbc }

/-- `set_pbc`, /repo/src/grid/ops.cc:180-211. -/
def setPbc (g : LGrid) (boundary pbc : ℤ) : Option LGrid :=
  if boundary < 0 ∨ boundary ≥ 27 ∨ boundary = BOUNDARY 0 0 0 ∨ pbc ≥ 0 then none
  else
    let X (lx tag : ℤ) : Option LGrid :=
      let w := (fromTo 1 g.nz).flatMap fun lz => (fromTo 1 g.ny).map fun ly =>
          (6 * VOXEL g.nx g.ny lx ly lz + tag, pbc)
      some { g with neighbor := stores g.neighbor w }
    let Y (ly tag : ℤ) : Option LGrid :=
      let w := (fromTo 1 g.nx).flatMap fun lx => (fromTo 1 g.nz).map fun lz =>
          (6 * VOXEL g.nx g.ny lx ly lz + tag, pbc)
      some { g with neighbor := stores g.neighbor w }
    let Z (lz tag : ℤ) : Option LGrid :=
      let w := (fromTo 1 g.ny).flatMap fun ly => (fromTo 1 g.nx).map fun lx =>
          (6 * VOXEL g.nx g.ny lx ly lz + tag, pbc)
      some { g with neighbor := stores g.neighbor w }
    if boundary = BOUNDARY (-1) 0 0 then X 1 0
    else if boundary = BOUNDARY 0 (-1) 0 then Y 1 1
    else if boundary = BOUNDARY 0 0 (-1) then Z 1 2
    else if boundary = BOUNDARY 1 0 0 then X g.nx 3
    else if boundary = BOUNDARY 0 1 0 then Y g.ny 4
    else if boundary = BOUNDARY 0 0 1 then Z g.nz 5
    else some g

/-- `while(_i>=gp) _i-=gp;`, /repo/src/grid/partition.cc:28.  (Does not terminate in C when
`gp <= 0`, excluded by the argument check.) -/
def wrapDown (gp i : ℤ) : ℤ :=
  if _h : 0 < gp ∧ gp ≤ i then wrapDown gp (i - gp) else i
termination_by i.toNat
decreasing_by omega

/-- `while(_i<0) _i+=gp;`, /repo/src/grid/partition.cc:28. -/
def wrapUp (gp i : ℤ) : ℤ :=
  if _h : 0 < gp ∧ i < 0 then wrapUp gp (i + gp) else i
termination_by (-i).toNat
decreasing_by omega

/-- `RANK_TO_INDEX`, /repo/src/grid/partition.cc:13-23. -/
def rankToIndex (gpx gpy : ℤ) (rank : ℤ) : ℤ × ℤ × ℤ :=
  let ix := rank
  let iy := ix / gpx
  let ix := ix - iy * gpx
  let iz := iy / gpy
  let iy := iy - iz * gpy
  (ix, iy, iz)

/-- `INDEX_TO_RANK`, /repo/src/grid/partition.cc:25-33. -/
def indexToRank (gpx gpy gpz : ℤ) (ix iy iz : ℤ) : ℤ :=
  let ix := wrapUp gpx (wrapDown gpx ix)
  let iy := wrapUp gpy (wrapDown gpy iy)
  let iz := wrapUp gpz (wrapDown gpz iz)
  ix + gpx * (iy + gpy * iz)

/-- Arguments of the box partitioners (resolution and decomposition). -/
structure Decomp where
  gnx : ℤ
  gny : ℤ
  gnz : ℤ
  gpx : ℤ
  gpy : ℤ
  gpz : ℤ

/-- The argument checks, /repo/src/grid/partition.cc:48-53 (C `%` agrees with Lean's on the
non-negative operands reached). -/
def Decomp.ok (D : Decomp) (worldSize : ℕ) : Bool :=
  !(decide (D.gpx < 1) || decide (D.gpy < 1) || decide (D.gpz < 1) ||
    decide (D.gpx * D.gpy * D.gpz ≠ worldSize)) &&
  !(decide (D.gnx < 1) || decide (D.gny < 1) || decide (D.gnz < 1) ||
    decide (D.gnx % D.gpx ≠ 0) || decide (D.gny % D.gpy ≠ 0) || decide (D.gnz % D.gpz ≠ 0))

/-- `partition_periodic_box`, /repo/src/grid/partition.cc:35-90, on rank `rank`. -/
def partitionPeriodic (worldSize : ℕ) (nvs : ℕ → ℤ) (t0 : ℤ → ℤ) (D : Decomp) (rank : ℕ) :
    Option LGrid :=
  if D.ok worldSize then do
    let (px, py, pz) := rankToIndex D.gpx D.gpy rank
    let g ← sizeGrid nvs rank t0 (D.gnx / D.gpx) (D.gny / D.gpy) (D.gnz / D.gpz)
    let R := indexToRank D.gpx D.gpy D.gpz
    let g ← joinGrid worldSize g (BOUNDARY (-1) 0 0) (R (px - 1) py pz)
    let g ← joinGrid worldSize g (BOUNDARY 0 (-1) 0) (R px (py - 1) pz)
    let g ← joinGrid worldSize g (BOUNDARY 0 0 (-1)) (R px py (pz - 1))
    let g ← joinGrid worldSize g (BOUNDARY 1 0 0) (R (px + 1) py pz)
    let g ← joinGrid worldSize g (BOUNDARY 0 1 0) (R px (py + 1) pz)
    joinGrid worldSize g (BOUNDARY 0 0 1) (R px py (pz + 1))
  else none

/-- `set_fbc(...); set_pbc(...)` under the condition `cond`. -/
def overrideFace (cond : Bool) (fbc pbc boundary : ℤ) (g : LGrid) : Option LGrid :=
  if cond then do
    let g ← setFbc g boundary fbc
    setPbc g boundary pbc
  else some g

/-- The common shape of `partition_absorbing_box` (/repo/src/grid/partition.cc:92-140, field code
`absorb_fields`, particle code `pbc`) and `partition_metal_box` (:145-192, `anti_symmetric_fields`,
`reflect_particles`). -/
def partitionWalled (fbc pbc : ℤ) (worldSize : ℕ) (nvs : ℕ → ℤ) (t0 : ℤ → ℤ) (D : Decomp)
    (rank : ℕ) : Option LGrid := do
  let g ← partitionPeriodic worldSize nvs t0 D rank
  let (px, py, pz) := rankToIndex D.gpx D.gpy rank
  let g ← overrideFace (px = 0 ∧ D.gnx > 1) fbc pbc (BOUNDARY (-1) 0 0) g
  let g ← overrideFace (px = D.gpx - 1 ∧ D.gnx > 1) fbc pbc (BOUNDARY 1 0 0) g
  let g ← overrideFace (py = 0 ∧ D.gny > 1) fbc pbc (BOUNDARY 0 (-1) 0) g
  let g ← overrideFace (py = D.gpy - 1 ∧ D.gny > 1) fbc pbc (BOUNDARY 0 1 0) g
  let g ← overrideFace (pz = 0 ∧ D.gnz > 1) fbc pbc (BOUNDARY 0 0 (-1)) g
  overrideFace (pz = D.gpz - 1 ∧ D.gnz > 1) fbc pbc (BOUNDARY 0 0 1) g

/-- `partition_absorbing_box`, /repo/src/grid/partition.cc:92-140. -/
def partitionAbsorbing (pbc : ℤ) := partitionWalled absorbFields pbc
/-- `partition_metal_box`, /repo/src/grid/partition.cc:145-192. -/
def partitionMetal := partitionWalled antiSymmetricFields reflectParticles

/-- A point-to-point operation: peer rank and message tag. -/
structure Msg where
  peer : ℤ
  tag : ℤ
deriving DecidableEq, Repr

/-- `begin_recv_port(i,j,k)`, /repo/src/grid/grid_comm.cc:16-24: source and tag of the receive
posted, if any. -/
def recvPort (worldSize : ℕ) (g : LGrid) (i j k : ℤ) : Option Msg :=
  let src := g.bc (BOUNDARY (-i) (-j) (-k))
  if src < 0 ∨ src ≥ worldSize then none else some ⟨src, BOUNDARY i j k⟩

/-- `begin_send_port(i,j,k)`, /repo/src/grid/grid_comm.cc:45-52: destination and tag of the message
sent, if any. -/
def sendPort (worldSize : ℕ) (g : LGrid) (i j k : ℤ) : Option Msg :=
  let port := BOUNDARY i j k
  let dst := g.bc port
  if dst < 0 ∨ dst ≥ worldSize then none else some ⟨dst, port⟩

end Verif.Grid
