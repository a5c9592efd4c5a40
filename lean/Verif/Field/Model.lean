import Verif.Field.Basic
import Mathlib.Algebra.Order.Field.Basic

/-!
# Field kernels

The elementary updates of the standard field solver (/repo/src/field_advance/standard) and the loops over
the local mesh in which they are applied.  Arithmetic is exact; an elementary update is one atomic step.
-/
namespace Verif.Field

open Grid

variable {K : Type*} [Field K]

/-- `material_coefficient_t`, /repo/src/field_advance/standard/sfa_private.h:14-23. -/
structure MC (K : Type*) where
  decay : Fin 3 → K
  drive : Fin 3 → K
  rmu : Fin 3 → K
  nonconductive : K
  eps : Fin 3 → K

/-- What the solver reads besides the fields: the grid (`rdx`, … in `rd`, `dx`, … in `d`), the number of
ranks, the damping, the material table and the material indices of edges, faces and nodes
(/repo/src/field_advance/field_advance.h:147-164, standard/sfa_private.h:25-30).  Simplification: the material
table is total, so an index past its end is not represented. -/
structure Env (K : Type*) where
  g : LGrid
  ws : ℤ
  cvac : K
  dt : K
  eps0 : K
  d : Fin 3 → K
  rd : Fin 3 → K
  dV : K
  damp : K
  mc : ℕ → MC K
  emat : Fin 3 → ℤ → ℕ
  fmat : Fin 3 → ℤ → ℕ
  nmat : ℤ → ℕ

/-- A step of a thread. -/
abbrev Step (K : Type*) := FMem K → FMem K

/-- `f->member = expression`. -/
def setAt (x : Addr) (val : FMem K → K) : Step K := fun m => Function.update m x (val m)

/-- `(nx>1) ? s*g->rdx : 0`, e.g. advance_b_pipeline.h:24. -/
def Env.p (E : Env K) (s : K) (a : Fin 3) : K := if 1 < dims E.g a then s * E.rd a else 0

/-- Right hand side of `UPDATE_CBX`, `UPDATE_CBY`, `UPDATE_CBZ`, pipeline/advance_b_pipeline.h:24-57. -/
def cbVal (E : Env K) (frac : K) (a : Fin 3) (c : Pos) (m : FMem K) : K :=
  let p := E.p (frac * E.cvac * E.dt)
  let f0 := fun k => m (vox E.g c, k)
  let fx := fun k => m (vox E.g (up 0 c), k)
  let fy := fun k => m (vox E.g (up 1 c), k)
  let fz := fun k => m (vox E.g (up 2 c), k)
  match a with
  | 0 => f0 (.cb 0) - (p 1 * (fy (.e 2) - f0 (.e 2)) - p 2 * (fz (.e 1) - f0 (.e 1)))
  | 1 => f0 (.cb 1) - (p 2 * (fz (.e 0) - f0 (.e 0)) - p 0 * (fx (.e 2) - f0 (.e 2)))
  | 2 => f0 (.cb 2) - (p 0 * (fx (.e 1) - f0 (.e 1)) - p 1 * (fy (.e 0) - f0 (.e 0)))

/-- `UPDATE_CBX`, … at position `c`. -/
def updateCB (E : Env K) (frac : K) (o : Fin 3 × Pos) : Step K :=
  setAt (vox E.g o.2, .cb o.1) (cbVal E frac o.1 o.2)

/-- The curl in `UPDATE_EX`, `UPDATE_EY`, `UPDATE_EZ`, pipeline/advance_e_pipeline.h:27-79 and
pipeline/compute_curl_b_pipeline.h:22-66, for coefficient `s` of `rdx`, `rdy`, `rdz`. -/
def curlB (E : Env K) (s : K) (a : Fin 3) (c : Pos) (m : FMem K) : K :=
  let p := E.p s
  let v0 := vox E.g c
  let vx := vox E.g (dn 0 c)
  let vy := vox E.g (dn 1 c)
  let vz := vox E.g (dn 2 c)
  let h := fun (b : Fin 3) v => m (v, .cb b) * (E.mc (E.fmat b v)).rmu b
  match a with
  | 0 => p 1 * (h 2 v0 - h 2 vy) - p 2 * (h 1 v0 - h 1 vz)
  | 1 => p 2 * (h 0 v0 - h 0 vz) - p 0 * (h 2 v0 - h 2 vx)
  | 2 => p 0 * (h 1 v0 - h 1 vx) - p 1 * (h 0 v0 - h 0 vy)

/-- The curl of the single-material kernels, pipeline/vacuum_advance_e_pipeline.h:27-74 and
pipeline/vacuum_compute_curl_b_pipeline.h:22-57. -/
def curlBVacuum (E : Env K) (s : K) (a : Fin 3) (c : Pos) (m : FMem K) : K :=
  let p := E.p s
  let mu := (E.mc 0).rmu
  let v0 := vox E.g c
  let vx := vox E.g (dn 0 c)
  let vy := vox E.g (dn 1 c)
  let vz := vox E.g (dn 2 c)
  match a with
  | 0 => p 1 * mu 2 * (m (v0, .cb 2) - m (vy, .cb 2)) - p 2 * mu 1 * (m (v0, .cb 1) - m (vz, .cb 1))
  | 1 => p 2 * mu 0 * (m (v0, .cb 0) - m (vz, .cb 0)) - p 0 * mu 2 * (m (v0, .cb 2) - m (vx, .cb 2))
  | 2 => p 0 * mu 1 * (m (v0, .cb 1) - m (vx, .cb 1)) - p 1 * mu 0 * (m (v0, .cb 0) - m (vy, .cb 0))

/-- `UPDATE_EX`, … at position `c` in terms of the curl: pipeline/advance_e_pipeline.h:54-79. -/
def stepE (E : Env K) (mat : Fin 3 → ℤ → ℕ) (curl : Fin 3 → Pos → FMem K → K) (o : Fin 3 × Pos) :
    Step K := fun m =>
  let v := vox E.g o.2
  let m1 := setAt (v, .tca o.1) (fun m => curl o.1 o.2 m - E.damp * m (v, .tca o.1)) m
  setAt (v, .e o.1) (fun m => (E.mc (mat o.1 v)).decay o.1 * m (v, .e o.1) +
    (E.mc (mat o.1 v)).drive o.1 * (m (v, .tca o.1) - E.dt / E.eps0 * m (v, .jf o.1))) m1

/-- `UPDATE_EX`, … of `advance_e`, pipeline/advance_e_pipeline.h:27-79. -/
def updateE (E : Env K) : Fin 3 × Pos → Step K :=
  stepE E E.emat (curlB E ((1 + E.damp) * E.cvac * E.dt))

/-- `UPDATE_EX`, … of `vacuum_advance_e`, pipeline/vacuum_advance_e_pipeline.h:27-74. -/
def updateEVacuum (E : Env K) : Fin 3 × Pos → Step K :=
  stepE E (fun _ _ => 0) (curlBVacuum E ((1 + E.damp) * E.cvac * E.dt))

/-- `UPDATE_EX`, … of `compute_curl_b`, pipeline/compute_curl_b_pipeline.h:22-66. -/
def updateCurl (E : Env K) (o : Fin 3 × Pos) : Step K :=
  setAt (vox E.g o.2, .tca o.1) (curlB E (E.cvac * E.dt) o.1 o.2)

/-- `UPDATE_EX`, … of `vacuum_compute_curl_b`, pipeline/vacuum_compute_curl_b_pipeline.h:22-57. -/
def updateCurlVacuum (E : Env K) (o : Fin 3 × Pos) : Step K :=
  setAt (vox E.g o.2, .tca o.1) (curlBVacuum E (E.cvac * E.dt) o.1 o.2)

/-- `px*( m[f0->ematx].epsx*f0->ex - m[fx->ematx].epsx*fx->ex ) + …`,
pipeline/compute_div_e_err_pipeline.h:46-50. -/
def divEps (E : Env K) (s : K) (c : Pos) (m : FMem K) : K :=
  let p := E.p s
  let v0 := vox E.g c
  let vx := vox E.g (dn 0 c)
  let vy := vox E.g (dn 1 c)
  let vz := vox E.g (dn 2 c)
  p 0 * ((E.mc (E.emat 0 v0)).eps 0 * m (v0, .e 0) - (E.mc (E.emat 0 vx)).eps 0 * m (vx, .e 0)) +
  p 1 * ((E.mc (E.emat 1 v0)).eps 1 * m (v0, .e 1) - (E.mc (E.emat 1 vy)).eps 1 * m (vy, .e 1)) +
  p 2 * ((E.mc (E.emat 2 v0)).eps 2 * m (v0, .e 2) - (E.mc (E.emat 2 vz)).eps 2 * m (vz, .e 2))

/-- `px * ( f0->ex - fx->ex ) + …` with `px` times `epsx` of the only material,
pipeline/vacuum_compute_div_e_err_pipeline.h:23-27. -/
def divEpsVacuum (E : Env K) (s : K) (c : Pos) (m : FMem K) : K :=
  let p := fun a => E.p s a * (E.mc 0).eps a
  let v0 := vox E.g c
  let vx := vox E.g (dn 0 c)
  let vy := vox E.g (dn 1 c)
  let vz := vox E.g (dn 2 c)
  p 0 * (m (v0, .e 0) - m (vx, .e 0)) + p 1 * (m (v0, .e 1) - m (vy, .e 1)) +
  p 2 * (m (v0, .e 2) - m (vz, .e 2))

/-- `UPDATE_DERR_E` of `compute_div_e_err`, pipeline/compute_div_e_err_pipeline.h:46-50. -/
def updateDivE (E : Env K) (c : Pos) : Step K :=
  setAt (vox E.g c, .divE) fun m => (E.mc (E.nmat (vox E.g c))).nonconductive *
    (divEps E 1 c m - 1 / E.eps0 * (m (vox E.g c, .rhof) + m (vox E.g c, .rhob)))

/-- `UPDATE_DERR_E` of `vacuum_compute_div_e_err`, pipeline/vacuum_compute_div_e_err_pipeline.h. -/
def updateDivEVacuum (E : Env K) (c : Pos) : Step K :=
  setAt (vox E.g c, .divE) fun m => (E.mc 0).nonconductive *
    (divEpsVacuum E 1 c m - 1 / E.eps0 * (m (vox E.g c, .rhof) + m (vox E.g c, .rhob)))

/-- `UPDATE_DERR_E` of `compute_rhob`, pipeline/compute_rhob_pipeline.h:45-49. -/
def updateRhob (E : Env K) (c : Pos) : Step K :=
  setAt (vox E.g c, .rhob) fun m => (E.mc (E.nmat (vox E.g c))).nonconductive *
    (divEps E E.eps0 c m - m (vox E.g c, .rhof))

/-- `UPDATE_DERR_E` of `vacuum_compute_rhob`, pipeline/vacuum_compute_rhob_pipeline.h:47-49. -/
def updateRhobVacuum (E : Env K) (c : Pos) : Step K :=
  setAt (vox E.g c, .rhob) fun m => (E.mc 0).nonconductive *
    (divEpsVacuum E E.eps0 c m - m (vox E.g c, .rhof))

/-- `f0->div_b_err = px*( fx->cbx - f0->cbx ) + …`, pipeline/compute_div_b_err_pipeline.cc:25-47. -/
def divBVal (E : Env K) (c : Pos) (m : FMem K) : K :=
  let p := E.p 1
  let v0 := vox E.g c
  p 0 * (m (vox E.g (up 0 c), .cb 0) - m (v0, .cb 0)) +
  p 1 * (m (vox E.g (up 1 c), .cb 1) - m (v0, .cb 1)) +
  p 2 * (m (vox E.g (up 2 c), .cb 2) - m (v0, .cb 2))

@[inherit_doc divBVal]
def updateDivB (E : Env K) (c : Pos) : Step K := setAt (vox E.g c, .divB) (divBVal E c)

/-- `alphadt = 0.3888889/( px*px + py*py + pz*pz )`, pipeline/clean_div_b_pipeline.cc:35-43. -/
def alphadt (E : Env K) : K :=
  3888889 / 10000000 / (E.p 1 0 * E.p 1 0 + E.p 1 1 * E.p 1 1 + E.p 1 2 * E.p 1 2)

/-- `MARDER_CBX`, `MARDER_CBY`, `MARDER_CBZ`, pipeline/clean_div_b_pipeline.h:18-20. -/
def marderB (E : Env K) (o : Fin 3 × Pos) : Step K :=
  setAt (vox E.g o.2, .cb o.1) fun m =>
    match o.1 with
    | 0 => m (vox E.g o.2, .cb 0) + E.p 1 0 * alphadt E *
        (m (vox E.g o.2, .divB) - m (vox E.g (dn 0 o.2), .divB))
    | 1 => m (vox E.g o.2, .cb 1) + E.p 1 1 * alphadt E *
        (m (vox E.g o.2, .divB) - m (vox E.g (dn 1 o.2), .divB))
    | 2 => m (vox E.g o.2, .cb 2) + E.p 1 2 * alphadt E *
        (m (vox E.g o.2, .divB) - m (vox E.g (dn 2 o.2), .divB))

/-- `MARDER_EX`, `MARDER_EY`, `MARDER_EZ`, pipeline/clean_div_e_pipeline.h:17-56. -/
def marderE (E : Env K) (o : Fin 3 × Pos) : Step K :=
  let v := vox E.g o.2
  setAt (v, .e o.1) fun m =>
    match o.1 with
    | 0 => m (v, .e 0) + (E.mc (E.emat 0 v)).drive 0 * (alphadt E * E.p 1 0) *
        (m (vox E.g (up 0 o.2), .divE) - m (v, .divE))
    | 1 => m (v, .e 1) + (E.mc (E.emat 1 v)).drive 1 * (alphadt E * E.p 1 1) *
        (m (vox E.g (up 1 o.2), .divE) - m (v, .divE))
    | 2 => m (v, .e 2) + (E.mc (E.emat 2 v)).drive 2 * (alphadt E * E.p 1 2) *
        (m (vox E.g (up 2 o.2), .divE) - m (v, .divE))

/-- `MARDER_EX`, … of `vacuum_clean_div_e`, pipeline/vacuum_clean_div_e_pipeline.h:17-54. -/
def marderEVacuum (E : Env K) (o : Fin 3 × Pos) : Step K :=
  let v := vox E.g o.2
  setAt (v, .e o.1) fun m =>
    match o.1 with
    | 0 => m (v, .e 0) + alphadt E * E.p 1 0 * (E.mc 0).drive 0 *
        (m (vox E.g (up 0 o.2), .divE) - m (v, .divE))
    | 1 => m (v, .e 1) + alphadt E * E.p 1 1 * (E.mc 0).drive 1 *
        (m (vox E.g (up 1 o.2), .divE) - m (v, .divE))
    | 2 => m (v, .e 2) + alphadt E * E.p 1 2 * (E.mc 0).drive 2 *
        (m (vox E.g (up 2 o.2), .divE) - m (v, .divE))

/-! ### Loops -/

/-- The three components at one voxel. -/
def xyz (c : Pos) : List (Fin 3 × Pos) := [(0, c), (1, c), (2, c)]

/-- Component `a` over the box `lo … hi`. -/
def comp (a : Fin 3) (lo hi : Pos) : List (Fin 3 × Pos) := (box lo hi).map fun c => (a, c)

/-- Components left to the host by `advance_b`, pipeline/advance_b_pipeline.cc:69-120. -/
def hostFaces (g : LGrid) : List (Fin 3 × Pos) :=
  comp 0 ![g.nx + 1, 1, 1] ![g.nx + 1, g.ny, g.nz] ++
  comp 1 ![1, g.ny + 1, 1] ![g.nx, g.ny + 1, g.nz] ++
  comp 2 ![1, 1, g.nz + 1] ![g.nx, g.ny, g.nz + 1]

/-- Interior components left to the host by `advance_e`, pipeline/advance_e_pipeline.cc:93-136. -/
def innerEdges (g : LGrid) : List (Fin 3 × Pos) :=
  comp 0 ![1, 2, 2] ![1, g.ny, g.nz] ++
  comp 1 ![2, 1, 2] ![g.nx, 1, g.nz] ++
  comp 2 ![2, 2, 1] ![g.nx, g.ny, 1]

/-- Exterior components of `advance_e`, pipeline/advance_e_pipeline.cc:151-327. -/
def outerEdges (g : LGrid) : List (Fin 3 × Pos) :=
  comp 0 ![1, 1, 1] ![g.nx, g.ny + 1, 1] ++
  comp 0 ![1, 1, g.nz + 1] ![g.nx, g.ny + 1, g.nz + 1] ++
  comp 0 ![1, 1, 2] ![g.nx, 1, g.nz] ++
  comp 0 ![1, g.ny + 1, 2] ![g.nx, g.ny + 1, g.nz] ++
  comp 1 ![1, 1, 1] ![1, g.ny, g.nz + 1] ++
  comp 1 ![g.nx + 1, 1, 1] ![g.nx + 1, g.ny, g.nz + 1] ++
  comp 1 ![2, 1, 1] ![g.nx, g.ny, 1] ++
  comp 1 ![2, 1, g.nz + 1] ![g.nx, g.ny, g.nz + 1] ++
  comp 2 ![1, 1, 1] ![g.nx + 1, 1, g.nz] ++
  comp 2 ![1, g.ny + 1, 1] ![g.nx + 1, g.ny + 1, g.nz] ++
  comp 2 ![1, 2, 1] ![1, g.ny, g.nz] ++
  comp 2 ![g.nx + 1, 2, 1] ![g.nx + 1, g.ny, g.nz]

/-- Nodes left to the host by `compute_div_e_err`, pipeline/compute_div_e_err_pipeline.cc:74-164. -/
def outerNodes (g : LGrid) : List Pos :=
  box ![1, 1, 1] ![g.nx + 1, g.ny + 1, 1] ++
  box ![1, 1, g.nz + 1] ![g.nx + 1, g.ny + 1, g.nz + 1] ++
  box ![1, 1, 2] ![g.nx + 1, 1, g.nz] ++
  box ![1, g.ny + 1, 2] ![g.nx + 1, g.ny + 1, g.nz] ++
  (box ![1, 2, 2] ![1, g.ny, g.nz]).flatMap fun c => [c, ![g.nx + 1, c 1, c 2]]

/-- Interior components left to the host by `clean_div_b`, pipeline/clean_div_b_pipeline.cc:156-232. -/
def innerFaces (g : LGrid) : List (Fin 3 × Pos) :=
  comp 0 ![2, 1, 1] ![g.nx, g.ny, 1] ++
  comp 0 ![2, 1, 2] ![g.nx, 1, g.nz] ++
  comp 1 ![1, 2, 1] ![1, g.ny, g.nz] ++
  comp 1 ![2, 2, 1] ![g.nx, g.ny, 1] ++
  comp 2 ![1, 1, 2] ![g.nx, 1, g.nz] ++
  comp 2 ![1, 2, 2] ![1, g.ny, g.nz]

/-- Exterior components of `clean_div_b`, pipeline/clean_div_b_pipeline.cc:238-320. -/
def outerFaces (g : LGrid) : List (Fin 3 × Pos) :=
  comp 0 ![1, 1, 1] ![1, g.ny, g.nz] ++
  comp 0 ![g.nx + 1, 1, 1] ![g.nx + 1, g.ny, g.nz] ++
  comp 1 ![1, 1, 1] ![g.nx, 1, g.nz] ++
  comp 1 ![1, g.ny + 1, 1] ![g.nx, g.ny + 1, g.nz] ++
  comp 2 ![1, 1, 1] ![g.nx, g.ny, 1] ++
  comp 2 ![1, 1, g.nz + 1] ![g.nx, g.ny, g.nz + 1]

/-- Components left to the host by `clean_div_e`, pipeline/clean_div_e_pipeline.cc:56-110. -/
def hostEdges (g : LGrid) : List (Fin 3 × Pos) :=
  comp 0 ![1, 1, g.nz + 1] ![g.nx, g.ny + 1, g.nz + 1] ++
  comp 0 ![1, g.ny + 1, 1] ![g.nx, g.ny + 1, g.nz] ++
  comp 1 ![g.nx + 1, 1, 1] ![g.nx + 1, g.ny, g.nz + 1] ++
  comp 1 ![1, 1, g.nz + 1] ![g.nx, g.ny, g.nz + 1] ++
  comp 2 ![1, g.ny + 1, 1] ![g.nx + 1, g.ny + 1, g.nz] ++
  comp 2 ![g.nx + 1, 1, 1] ![g.nx + 1, g.ny, g.nz]

end Verif.Field
