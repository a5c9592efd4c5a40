import Verif.Inject.Model
import Verif.Field.Basic

/-!
# Regions of an input deck

Model of the macros of /repo/deck/wrapper.h with which an input deck sets materials, fields, particle boundary conditions and
emitters on regions of space.  `double` is a field `K` (exact arithmetic).  A region `rgn` and the equations are functions of
the position; in the code they are expressions in `x`, `y`, `z`, evaluated where the macro mentions them.
-/
namespace Verif.Region

open Grid (LGrid VOXEL BOUNDARY store)
open Field (Pos FC FMem)
open Inject (Geom)

/-- `for( i=…; … ) { body; f += stride; }`: `n` iterations, from index `i` and pointer `f`. -/
def row {σ : Type*} (stride : ℤ) (body : ℤ → ℤ → σ → σ) : ℕ → ℤ → ℤ → σ → σ
  | 0, _, _, s => s
  | n + 1, i, f, s => row stride body n (i + 1) (f + stride) (body i f s)

/-- `for( i=lo; i<hi; i++ ) body`. -/
def count {σ : Type*} (body : ℤ → σ → σ) : ℕ → ℤ → σ → σ
  | 0, _, s => s
  | n + 1, i, s => count body n (i + 1) (body i s)

/-- The loops over all voxels, ghosts included: `for( _k=0; _k<_nz+2; _k++ ) for( _j=0; _j<_ny+2; _j++ ) { _f = &field(0,_j,_k);
for( _i=0; _i<_nx+2; _i++ ) { …; _f++; } }`, e.g. /repo/deck/wrapper.h:135-147. -/
def sweepAll {σ : Type*} (g : LGrid) (body : ℤ → ℤ → ℤ → ℤ → σ → σ) (s : σ) : σ :=
  count (fun k => count (fun j => row 1 (fun i f => body i j k f) (g.nx + 2).toNat 0 (VOXEL g.nx g.ny 0 j k)) (g.ny + 2).toNat 0)
    (g.nz + 2).toNat 0 s

/-- The loops over the cells with a pointer to six entries per cell: `for( _k=1; _k<_nz+1; _k++ ) for( _j=1; _j<_ny+1; _j++ )
{ _n = _n0 + 6*voxel(1,_j,_k); for( _i=1; _i<_nx+1; _i++ ) { …; _n += 6; } }`, /repo/deck/wrapper.h:265-302. -/
def sweepSix {σ : Type*} (g : LGrid) (body : ℤ → ℤ → ℤ → ℤ → σ → σ) (s : σ) : σ :=
  count (fun k => count (fun j => row 6 (fun i n => body i j k n) g.nx.toNat 1 (6 * VOXEL g.nx g.ny 1 j k)) g.ny.toNat 1)
    g.nz.toNat 1 s

/-- The loops over the cells, /repo/deck/wrapper.h:318-321, 325-332. -/
def sweepCells {σ : Type*} (g : LGrid) (body : ℤ → ℤ → ℤ → σ → σ) (s : σ) : σ :=
  count (fun k => count (fun j => count (fun i => body i j k) g.nx.toNat 1) g.ny.toNat 1) g.nz.toNat 1 s

/-- The material members of `field_t`, /repo/src/field_advance/field_advance.h:158-159: `e 0` is `ematx`, `f 0` is `fmatx`. -/
inductive MatC
  | e (a : Fin 3)
  | f (a : Fin 3)
  | n
  | c
deriving DecidableEq

/-- The material members of the field array. -/
abbrev MMem := ℤ × MatC → ℤ

/-- `get_material_id`, /repo/src/material/material.cc:72-75; `none` is `NULL` (`leave_unchanged`). -/
def getMaterialId : Option ℕ → ℤ
  | none => -1
  | some id => id

/-- `if( b ) memory[x] = v`. -/
def setIf {A V : Type*} [DecidableEq A] (b : Bool) (x : A) (v : V) (m : A → V) : A → V := if b then Function.update m x v else m

variable {K : Type*} [Field K]

/-- `_z0 + _dz*(_k-s)`; `_k+0.5` is `s = -1/2`, `_k` is `s = 0`. -/
def axisAt (G : Geom K) (a : Fin 3) (i : ℤ) (s : K) : K := G.x0 a + G.d a * ((i : K) - s)

/-- The body of the loops of `set_point_region_material`, /repo/deck/wrapper.h:135-146; `id` is the material. -/
def pointMaterialAt (G : Geom K) (rgn : (Fin 3 → K) → Bool) (id : ℤ) (i j k f : ℤ) (m : MMem) : MMem :=
  let zn := axisAt G 2 k 1
  let zc := axisAt G 2 k (1 / 2)
  let yn := axisAt G 1 j 1
  let yc := axisAt G 1 j (1 / 2)
  let xn := axisAt G 0 i 1
  let xc := axisAt G 0 i (1 / 2)
  let x := xn; let y := yn; let z := zn
  let m := setIf (rgn ![x, y, z]) (f, .n) id m
  let x := xc
  let m := setIf (rgn ![x, y, z]) (f, .e 0) id m
  let y := yc
  let m := setIf (rgn ![x, y, z]) (f, .f 2) id m
  let z := zc
  let m := setIf (rgn ![x, y, z]) (f, .c) id m
  let y := yn
  let m := setIf (rgn ![x, y, z]) (f, .f 1) id m
  let x := xn
  let m := setIf (rgn ![x, y, z]) (f, .e 2) id m
  let y := yc
  let m := setIf (rgn ![x, y, z]) (f, .f 0) id m
  let z := zn
  setIf (rgn ![x, y, z]) (f, .e 1) id m

/-- `set_point_region_material`, /repo/deck/wrapper.h:129-148. -/
def setPointRegionMaterial (g : LGrid) (G : Geom K) (rgn : (Fin 3 → K) → Bool) (rmat : Option ℕ) (m : MMem) : MMem :=
  let id := getMaterialId rmat
  if id = -1 then m else sweepAll g (pointMaterialAt G rgn id) m

/-- The body of the loops of `set_point_region_field`, /repo/deck/wrapper.h:198-209; `eqE a` and `eqB a` are the equations of the
six components. -/
def pointFieldAt (G : Geom K) (cvac : K) (rgn : (Fin 3 → K) → Bool) (eqE eqB : Fin 3 → (Fin 3 → K) → K) (i j k f : ℤ)
    (m : FMem K) : FMem K :=
  let zn := axisAt G 2 k 1
  let zc := axisAt G 2 k (1 / 2)
  let yn := axisAt G 1 j 1
  let yc := axisAt G 1 j (1 / 2)
  let xn := axisAt G 0 i 1
  let xc := axisAt G 0 i (1 / 2)
  let y := yn; let z := zn
  let x := xc
  let m := setIf (rgn ![x, y, z]) (f, .e 0) (eqE 0 ![x, y, z]) m
  let y := yc
  let m := setIf (rgn ![x, y, z]) (f, .cb 2) (cvac * eqB 2 ![x, y, z]) m
  let z := zc
  let y := yn
  let m := setIf (rgn ![x, y, z]) (f, .cb 1) (cvac * eqB 1 ![x, y, z]) m
  let x := xn
  let m := setIf (rgn ![x, y, z]) (f, .e 2) (eqE 2 ![x, y, z]) m
  let y := yc
  let m := setIf (rgn ![x, y, z]) (f, .cb 0) (cvac * eqB 0 ![x, y, z]) m
  let z := zn
  setIf (rgn ![x, y, z]) (f, .e 1) (eqE 1 ![x, y, z]) m

/-- `set_point_region_field`, /repo/deck/wrapper.h:191-211. -/
def setPointRegionField (g : LGrid) (G : Geom K) (cvac : K) (rgn : (Fin 3 → K) → Bool) (eqE eqB : Fin 3 → (Fin 3 → K) → K)
    (m : FMem K) : FMem K := sweepAll g (pointFieldAt G cvac rgn eqE eqB) m

/-- The body of the loops of `set_region_material`, /repo/deck/wrapper.h:220-253. -/
def regionMaterialAt (G : Geom K) (rgn : (Fin 3 → K) → Bool) (v s : ℤ) (i j k f : ℤ) (m : MMem) : MMem :=
  let zl := axisAt G 2 k (3 / 2)
  let zc := axisAt G 2 k (1 / 2)
  let yl := axisAt G 1 j (3 / 2)
  let yc := axisAt G 1 j (1 / 2)
  let xl := axisAt G 0 i (3 / 2)
  let xc := axisAt G 0 i (1 / 2)
  let rccc := rgn ![xc, yc, zc]
  let rlcc := rgn ![xl, yc, zc]
  let rclc := rgn ![xc, yl, zc]
  let rllc := rgn ![xl, yl, zc]
  let rccl := rgn ![xc, yc, zl]
  let rlcl := rgn ![xl, yc, zl]
  let rcll := rgn ![xc, yl, zl]
  let rlll := rgn ![xl, yl, zl]
  let m := if s ≠ -1 then
      let m := setIf (rccc || rclc || rccl || rcll) (f, .e 0) s m
      let m := setIf (rccc || rccl || rlcc || rlcl) (f, .e 1) s m
      let m := setIf (rccc || rlcc || rclc || rllc) (f, .e 2) s m
      let m := setIf (rccc || rlcc) (f, .f 0) s m
      let m := setIf (rccc || rclc) (f, .f 1) s m
      let m := setIf (rccc || rccl) (f, .f 2) s m
      setIf (rccc || rlcc || rclc || rllc || rccl || rlcl || rcll || rlll) (f, .n) s m
    else m
  if v ≠ -1 then
    let m := setIf (rccc && rclc && rccl && rcll) (f, .e 0) v m
    let m := setIf (rccc && rccl && rlcc && rlcl) (f, .e 1) v m
    let m := setIf (rccc && rlcc && rclc && rllc) (f, .e 2) v m
    let m := setIf (rccc && rlcc) (f, .f 0) v m
    let m := setIf (rccc && rclc) (f, .f 1) v m
    let m := setIf (rccc && rccl) (f, .f 2) v m
    let m := setIf (rccc && rlcc && rclc && rllc && rccl && rlcl && rcll && rlll) (f, .n) v m
    setIf rccc (f, .c) v m
  else m

/-- `set_region_material`, /repo/deck/wrapper.h:213-255. -/
def setRegionMaterial (g : LGrid) (G : Geom K) (rgn : (Fin 3 → K) → Bool) (vmat smat : Option ℕ) (m : MMem) : MMem :=
  let v := getMaterialId vmat
  let s := getMaterialId smat
  if v = -1 ∧ s = -1 then m else sweepAll g (regionMaterialAt G rgn v s) m

/-- The body of the loops of `set_region_field`, /repo/deck/wrapper.h:396-413. -/
def regionFieldAt (G : Geom K) (cvac : K) (rgn : (Fin 3 → K) → Bool) (eqE eqB : Fin 3 → (Fin 3 → K) → K) (i j k f : ℤ)
    (m : FMem K) : FMem K :=
  let zl := axisAt G 2 k (3 / 2)
  let ze := axisAt G 2 k 0
  let zc := axisAt G 2 k (1 / 2)
  let yl := axisAt G 1 j (3 / 2)
  let ye := axisAt G 1 j 0
  let yc := axisAt G 1 j (1 / 2)
  let xl := axisAt G 0 i (3 / 2)
  let xe := axisAt G 0 i 0
  let xc := axisAt G 0 i (1 / 2)
  let rccc := rgn ![xc, yc, zc]
  let rlcc := rgn ![xl, yc, zc]
  let rclc := rgn ![xc, yl, zc]
  let rllc := rgn ![xl, yl, zc]
  let rccl := rgn ![xc, yc, zl]
  let rlcl := rgn ![xl, yc, zl]
  let rcll := rgn ![xc, yl, zl]
  let m := setIf (rccc || rclc || rccl || rcll) (f, .e 0) (eqE 0 ![xc, ye, ze]) m
  let m := setIf (rccc || rccl || rlcc || rlcl) (f, .e 1) (eqE 1 ![xe, yc, ze]) m
  let m := setIf (rccc || rlcc || rclc || rllc) (f, .e 2) (eqE 2 ![xe, ye, zc]) m
  let m := setIf (rccc || rlcc) (f, .cb 0) (cvac * eqB 0 ![xe, yc, zc]) m
  let m := setIf (rccc || rclc) (f, .cb 1) (cvac * eqB 1 ![xc, ye, zc]) m
  setIf (rccc || rccl) (f, .cb 2) (cvac * eqB 2 ![xc, yc, ze]) m

/-- `set_region_field`, /repo/deck/wrapper.h:389-415. -/
def setRegionField (g : LGrid) (G : Geom K) (cvac : K) (rgn : (Fin 3 → K) → Bool) (eqE eqB : Fin 3 → (Fin 3 → K) → K)
    (m : FMem K) : FMem K := sweepAll g (regionFieldAt G cvac rgn eqE eqB) m

/-- A `particle_bc_t *` of an input deck: `NULL` (`leave_unchanged`), the constants `reflect_particles` and `absorb_particles`
cast to a pointer, or a boundary condition made with `define_particle_bc`, with its `id`. -/
inductive Pbc
  | unchanged
  | reflect
  | absorb
  | custom (id : ℤ)
deriving DecidableEq

/-- `get_particle_bc_id`, /repo/src/boundary/boundary.cc:78-84, with `reflect_particles` = -1 and `absorb_particles` = -2
(/repo/src/grid/grid.h:29-30). -/
def getParticleBcId : Pbc → ℤ
  | .unchanged => 0
  | .reflect => -1
  | .absorb => -2
  | .custom id => id

/-- The seven evaluations of the region of /repo/deck/wrapper.h:270-276, 350-356, 371-377: at the centre of a cell and of its six
neighbours. -/
def sevenOf (G : Geom K) (rgn : (Fin 3 → K) → Bool) (i j k : ℤ) : Bool × (Fin 6 → Bool) :=
  let zl := axisAt G 2 k (3 / 2)
  let zc := axisAt G 2 k (1 / 2)
  let zh := axisAt G 2 k (-(1 / 2))
  let yl := axisAt G 1 j (3 / 2)
  let yc := axisAt G 1 j (1 / 2)
  let yh := axisAt G 1 j (-(1 / 2))
  let xl := axisAt G 0 i (3 / 2)
  let xc := axisAt G 0 i (1 / 2)
  let xh := axisAt G 0 i (-(1 / 2))
  (rgn ![xc, yc, zc], ![rgn ![xl, yc, zc], rgn ![xc, yl, zc], rgn ![xc, yc, zl], rgn ![xh, yc, zc], rgn ![xc, yh, zc],
    rgn ![xc, yc, zh]])

/-- `if( b ) n[0] = v;` … `n[5]`, with `b` for each of the six. -/
def setSix (b : Fin 6 → Bool) (n v : ℤ) (t : ℤ → ℤ) : ℤ → ℤ :=
  let t := setIf (b 0) (n + 0) v t
  let t := setIf (b 1) (n + 1) v t
  let t := setIf (b 2) (n + 2) v t
  let t := setIf (b 3) (n + 3) v t
  let t := setIf (b 4) (n + 4) v t
  setIf (b 5) (n + 5) v t

/-- `set_region_bc`, /repo/deck/wrapper.h:257-303, on `grid->neighbor`. -/
def setRegionBc (g : LGrid) (G : Geom K) (rgn : (Fin 3 → K) → Bool) (vpbc ipbc epbc : Pbc) (t : ℤ → ℤ) : ℤ → ℤ :=
  let v := getParticleBcId vpbc
  let ib := getParticleBcId ipbc
  let eb := getParticleBcId epbc
  if v = 0 ∧ ib = 0 ∧ eb = 0 then t else
    sweepSix g (fun i j k n t =>
      let r := sevenOf G rgn i j k
      let t := if v ≠ 0 then setSix (fun f => r.1 && r.2 f) n v t else t
      let t := if ib ≠ 0 then setSix (fun f => r.1 && !r.2 f) n ib t else t
      if eb ≠ 0 then setSix (fun f => !r.1 && r.2 f) n eb t else t) t

/-- `COMPONENT_ID( local_cell, component_type )`, /repo/src/emitter/emitter.h:27-28.  Simplification: no overflow of the 32 bit
integer. -/
def componentId (cell type : ℤ) : ℤ := 32 * cell + type

/-- `if( b ) nc++`. -/
def countIf (b : Bool) (n : ℕ) : ℕ := if b then n + 1 else n

/-- An array of `size` elements being filled from its start; `none` is a store past its end. -/
structure Filling where
  size : ℕ
  l : List ℤ

/-- `if( b ) c[nc++] = v`. -/
def pushIf (b : Bool) (v : ℤ) (s : Option Filling) : Option Filling :=
  if b then s.bind fun s => if s.l.length < s.size then some { s with l := s.l ++ [v] } else none else s

/-- An emitter: `n_component` and the components, /repo/src/emitter/emitter_private.h:17-24. -/
structure Emitter where
  nComponent : ℕ
  component : List ℤ

/-- `size_emitter` with the storage filled by the macro, /repo/src/emitter/emitter.cc:91-98. -/
def sized (s : Option Filling) : Option Emitter := s.map fun s => ⟨s.size, s.l⟩

/-- `define_volume_emitter`, /repo/deck/wrapper.h:312-333; `none` is a store past the end of the array. -/
def defineVolumeEmitter (g : LGrid) (G : Geom K) (rgn : (Fin 3 → K) → Bool) : Option Emitter :=
  let inside := fun i j k => rgn ![axisAt G 0 i (1 / 2), axisAt G 1 j (1 / 2), axisAt G 2 k (1 / 2)]
  let nc := sweepCells g (fun i j k n => countIf (inside i j k) n) 0
  sized (sweepCells g (fun i j k s => pushIf (inside i j k) (componentId (VOXEL g.nx g.ny i j k) (BOUNDARY 0 0 0)) s) (some ⟨nc, []⟩))

/-- `define_surface_emitter`, /repo/deck/wrapper.h:340-385; `none` is a store past the end of the array. -/
def defineSurfaceEmitter (g : LGrid) (G : Geom K) (rgn : (Fin 3 → K) → Bool) : Option Emitter :=
  let nf := sweepCells g (fun i j k n =>
    let r := sevenOf G rgn i j k
    let n := countIf (!r.1 && r.2 0) n
    let n := countIf (!r.1 && r.2 1) n
    let n := countIf (!r.1 && r.2 2) n
    let n := countIf (!r.1 && r.2 3) n
    let n := countIf (!r.1 && r.2 4) n
    countIf (!r.1 && r.2 5) n) 0
  sized (sweepCells g (fun i j k s =>
    let r := sevenOf G rgn i j k
    let v := VOXEL g.nx g.ny i j k
    let s := pushIf (!r.1 && r.2 0) (componentId v (BOUNDARY (-1) 0 0)) s
    let s := pushIf (!r.1 && r.2 1) (componentId v (BOUNDARY 0 (-1) 0)) s
    let s := pushIf (!r.1 && r.2 2) (componentId v (BOUNDARY 0 0 (-1))) s
    let s := pushIf (!r.1 && r.2 3) (componentId v (BOUNDARY 1 0 0)) s
    let s := pushIf (!r.1 && r.2 4) (componentId v (BOUNDARY 0 1 0)) s
    pushIf (!r.1 && r.2 5) (componentId v (BOUNDARY 0 0 1)) s) (some ⟨nf, []⟩))

end Verif.Region
