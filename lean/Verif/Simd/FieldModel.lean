import Verif.Simd.Model
import Verif.Field.Advance

/-!
# Vector builds: the field kernels

Model of the vector pipelines of `advance_b`, `advance_e`, `compute_curl_b`, `vacuum_advance_e`,
`vacuum_compute_curl_b` and `clean_div_b`
(/repo/src/field_advance/standard/pipeline/*_pipeline_v4.cc, *_v8.cc, *_v16.cc).  One pass of a vector
loop (a block of 4, 8 or 16 voxels) is one atomic step: all its loads come before all its stores, and
no other thread writes what it reads or writes (the members written back unchanged, `div_e_err`,
`rhob` and `div_b_err` of its own voxels, are not written by anybody else in these loops).
-/
namespace Verif.Simd

open Field Grid

variable {K : Type*} [Field K] {w : ℕ}

/-- `for( ; n_voxel>w-1; n_voxel-=w )` with `f00 = f0; …; NEXT_STENCIL(); f01 = f0; …`: the voxels of a
share, `w` at a time, `n` times; a remainder is left out.  advance_b_pipeline_v4.cc:48-53 (_v8.cc:52-61,
_v16.cc:60-77). -/
def blocksN {α : Type*} (w : ℕ) : ℕ → List α → List (Fin w → α)
  | 0, _ => []
  | n + 1, l => if h : w ≤ l.length then
      (fun k => l[k.1]'(lt_of_lt_of_le k.2 h)) :: blocksN w n (l.drop w)
    else []

@[inherit_doc blocksN]
def blocksOf {α : Type*} (w : ℕ) (l : List α) : List (Fin w → α) := blocksN w (l.length / w) l

/-- Component `k` of the voxels of a block (or of its neighbours): `load_4x2_tr`, `load_4x3_tr`,
`load_4x4_tr`, /repo/src/util/v4/v4_portable.h:284-355, v8/v8_portable.h, v16/v16_portable.h. -/
def ld (g : LGrid) (m : FMem K) (cs : Fin w → Pos) (k : FC) : Vec w K := fun l => m (vox g (cs l), k)

/-- `store_4x3_tr`, `store_4x4_tr`: the members `vals` of the voxels of a block, lane after lane,
/repo/src/util/v4/v4_portable.h:391-447. -/
def storeTr (g : LGrid) (cs : Fin w → Pos) (vals : List (FC × Vec w K)) : Step K := fun m =>
  ((List.finRange w).flatMap fun l => vals.map fun kv => ((vox g (cs l), kv.1), kv.2 l)).foldl
    (fun m u => Function.update m u.1 u.2) m

/-- `advance_b_pipeline_v4.cc:55-75` (_v8.cc:63-89, _v16.cc:79-117). -/
def blockB (E : Env K) (frac : K) (cs : Fin w → Pos) : Step K := fun m =>
  let p := E.p (frac * E.cvac * E.dt)
  let f0 := ld E.g m cs
  let fx := ld E.g m (up 0 ∘ cs)
  let fy := ld E.g m (up 1 ∘ cs)
  let fz := ld E.g m (up 2 ∘ cs)
  let cbx := f0 (.cb 0) + fnms (splat (p 1)) (fy (.e 2) - f0 (.e 2)) (splat (p 2) * (fz (.e 1) - f0 (.e 1)))
  let cby := f0 (.cb 1) + fnms (splat (p 2)) (fz (.e 0) - f0 (.e 0)) (splat (p 0) * (fx (.e 2) - f0 (.e 2)))
  let cbz := f0 (.cb 2) + fnms (splat (p 0)) (fx (.e 1) - f0 (.e 1)) (splat (p 1) * (fy (.e 0) - f0 (.e 0)))
  storeTr E.g cs [(.cb 0, cbx), (.cb 1, cby), (.cb 2, cbz)] m

/-- `LOAD_RMU(V,D)`, advance_e_pipeline_v4.cc:94-102. -/
def ldRmu (E : Env K) (cs : Fin w → Pos) (a : Fin 3) : Vec w K := fun l =>
  (E.mc (E.fmat a (vox E.g (cs l)))).rmu a

/-- The curl part of the vector loops with materials: `fms( vpy, fnms( fy_cbz, m_fy_rmuz, f0_cbz_rmuz ),
vpz * fnms( fz_cby, m_fz_rmuy, f0_cby_rmuy ) )`, …, advance_e_pipeline_v4.cc:76-138,
compute_curl_b_pipeline_v4.cc:68-107. -/
def curlV (E : Env K) (s : K) (m : FMem K) (cs : Fin w → Pos) : Fin 3 → Vec w K :=
  let p := E.p s
  let cx := dn 0 ∘ cs
  let cy := dn 1 ∘ cs
  let cz := dn 2 ∘ cs
  let x0 := ld E.g m cs (.cb 0) * ldRmu E cs 0
  let y0 := ld E.g m cs (.cb 1) * ldRmu E cs 1
  let z0 := ld E.g m cs (.cb 2) * ldRmu E cs 2
  ![fms (splat (p 1)) (fnms (ld E.g m cy (.cb 2)) (ldRmu E cy 2) z0)
      (splat (p 2) * fnms (ld E.g m cz (.cb 1)) (ldRmu E cz 1) y0),
    fms (splat (p 2)) (fnms (ld E.g m cz (.cb 0)) (ldRmu E cz 0) x0)
      (splat (p 0) * fnms (ld E.g m cx (.cb 2)) (ldRmu E cx 2) z0),
    fms (splat (p 0)) (fnms (ld E.g m cx (.cb 1)) (ldRmu E cx 1) y0)
      (splat (p 1) * fnms (ld E.g m cy (.cb 0)) (ldRmu E cy 0) x0)]

/-- The curl part of the vector loops with one material: `fms( vpy_muz, ( f0_cbz - fy_cbz ), vpz_muy *
( f0_cby - fz_cby ) )`, …, vacuum_advance_e_pipeline_v4.cc:72-104,
vacuum_compute_curl_b_pipeline_v4.cc:60-78; `py_muz` is `py * m->rmuz` (vacuum_advance_e_pipeline.h:27-46). -/
def curlVacV (E : Env K) (s : K) (m : FMem K) (cs : Fin w → Pos) : Fin 3 → Vec w K :=
  let p := E.p s
  let mu := (E.mc 0).rmu
  let f0 := ld E.g m cs
  let fx := ld E.g m (dn 0 ∘ cs)
  let fy := ld E.g m (dn 1 ∘ cs)
  let fz := ld E.g m (dn 2 ∘ cs)
  ![fms (splat (p 1 * mu 2)) (f0 (.cb 2) - fy (.cb 2)) (splat (p 2 * mu 1) * (f0 (.cb 1) - fz (.cb 1))),
    fms (splat (p 2 * mu 0)) (f0 (.cb 0) - fz (.cb 0)) (splat (p 0 * mu 2) * (f0 (.cb 2) - fx (.cb 2))),
    fms (splat (p 0 * mu 1)) (f0 (.cb 1) - fx (.cb 1)) (splat (p 1 * mu 0) * (f0 (.cb 0) - fy (.cb 0)))]

/-- The rest of a block of `advance_e`: new `tca`, new `e`, and the stores with the fourth members
`div_e_err` and `rhob` written back, advance_e_pipeline_v4.cc:122-155; `decay` and `drive` per lane. -/
def finishE (E : Env K) (m : FMem K) (cs : Fin w → Pos) (curl decay drive : Fin 3 → Vec w K) : Step K :=
  let f0 := ld E.g m cs
  let tca : Fin 3 → Vec w K := fun a => fnms (splat E.damp) (f0 (.tca a)) (curl a)
  let e : Fin 3 → Vec w K := fun a => fma (decay a) (f0 (.e a))
    (drive a * fnms (splat (E.dt / E.eps0)) (f0 (.jf a)) (tca a))
  fun m' => storeTr E.g cs [(.tca 0, tca 0), (.tca 1, tca 1), (.tca 2, tca 2), (.rhob, f0 .rhob)]
    (storeTr E.g cs [(.e 0, e 0), (.e 1, e 1), (.e 2, e 2), (.divE, f0 .divE)] m')

/-- A block of `advance_e`, advance_e_pipeline_v4.cc:64-156 (_v8.cc:68-183, _v16.cc:76-237). -/
def blockE (E : Env K) (cs : Fin w → Pos) : Step K := fun m =>
  finishE E m cs (curlV E ((1 + E.damp) * E.cvac * E.dt) m cs)
    (fun a l => (E.mc (E.emat a (vox E.g (cs l)))).decay a)
    (fun a l => (E.mc (E.emat a (vox E.g (cs l)))).drive a) m

/-- A block of `vacuum_advance_e`, vacuum_advance_e_pipeline_v4.cc:58-124 (_v8.cc:62-141,
_v16.cc:70-175). -/
def blockEVacuum (E : Env K) (cs : Fin w → Pos) : Step K := fun m =>
  finishE E m cs (curlVacV E ((1 + E.damp) * E.cvac * E.dt) m cs)
    (fun a => splat ((E.mc 0).decay a)) (fun a => splat ((E.mc 0).drive a)) m

/-- A block of `compute_curl_b`, compute_curl_b_pipeline_v4.cc:57-118 (_v8.cc:61-136, _v16.cc:69-172). -/
def blockCurl (E : Env K) (cs : Fin w → Pos) : Step K := fun m =>
  let t := curlV E (E.cvac * E.dt) m cs
  storeTr E.g cs [(.tca 0, t 0), (.tca 1, t 1), (.tca 2, t 2), (.rhob, ld E.g m cs .rhob)] m

/-- A block of `vacuum_compute_curl_b`, vacuum_compute_curl_b_pipeline_v4.cc:51-90 (_v8.cc:55-104,
_v16.cc:63-132). -/
def blockCurlVacuum (E : Env K) (cs : Fin w → Pos) : Step K := fun m =>
  let t := curlVacV E (E.cvac * E.dt) m cs
  storeTr E.g cs [(.tca 0, t 0), (.tca 1, t 1), (.tca 2, t 2), (.rhob, ld E.g m cs .rhob)] m

/-- A block of `clean_div_b`, clean_div_b_pipeline_v4.cc:89-109 (_v8.cc:93-122, _v16.cc:101-148). -/
def blockMarder (E : Env K) (cs : Fin w → Pos) : Step K := fun m =>
  let p : Fin 3 → K := fun a => E.p 1 a * alphadt E
  let f0 := ld E.g m cs
  let fx := ld E.g m (dn 0 ∘ cs)
  let fy := ld E.g m (dn 1 ∘ cs)
  let fz := ld E.g m (dn 2 ∘ cs)
  let cbx := fma (f0 .divB - fx .divB) (splat (p 0)) (f0 (.cb 0))
  let cby := fma (f0 .divB - fy .divB) (splat (p 1)) (f0 (.cb 1))
  let cbz := fma (f0 .divB - fz .divB) (splat (p 2)) (f0 (.cb 2))
  storeTr E.g cs [(.cb 0, cbx), (.cb 1, cby), (.cb 2, cbz), (.divB, f0 .divB)] m

/-- The blocks of pipeline `p`: `DISTRIBUTE_VOXELS( …, 16, … )`, then the vector loop,
advance_b_pipeline_v4.cc:21-23, 46-53. -/
def shareV (W : Width) (R : Distribute.Rounding) (g : LGrid) (lo hi : Pos) (P p : ℕ) :
    Option (List (Fin W.lanes → Pos)) :=
  (Distribute.visits R g.nx g.ny (boxOf lo hi) 16 p P).map fun l =>
    blocksOf W.lanes (l.map fun s => (![s.x, s.y, s.z] : Pos))

/-- `EXEC_PIPELINES` in a vector build, followed by work `host` of the calling thread: the pipelines
`0 … P-1` run the vector function, the calling thread the scalar one on its own share
(/repo/src/util/pipelines/pipelines_exec_pth.h). -/
def PhaseV {O M : Type*} (W : Width) (R : Distribute.Rounding) (g : LGrid) (lo hi : Pos) (P : ℕ)
    (block : (Fin W.lanes → Pos) → M → M) (ops : Pos → List O) (step : O → M → M)
    (host : List (M → M)) (m m' : M) : Prop :=
  ∃ pre last, (List.range P).mapM (shareV W R g lo hi P) = some pre ∧
    share R g lo hi P ops P = some last ∧
    Runs (pre.map (fun l => l.map block) ++ [last.map step ++ host]) m m'

/-- `advance_b` of a vector build, pipeline/advance_b_pipeline.cc:51-125. -/
def AdvanceBV (W : Width) (E : Env K) (R : Distribute.Rounding) (P : ℕ) (frac : K) (m m' : FMem K) :
    Prop :=
  ∃ adj m1, localAdjustNormB E = some adj ∧
    PhaseV W R E.g (fun _ => 1) (dims E.g) P (blockB E frac) xyz (updateCB E frac)
      ((hostFaces E.g).map (updateCB E frac)) m m1 ∧ m' = runSeq adj m1

/-- `advance_e`, `vacuum_advance_e`, `compute_curl_b` and `vacuum_compute_curl_b` of a vector build,
pipeline/advance_e_pipeline.cc:50-331. -/
def EdgeKernelV (W : Width) (E : Env K) (R : Distribute.Rounding) (P : ℕ)
    (block : (Fin W.lanes → Pos) → Step K) (k : Fin 3 × Pos → Step K)
    (recv : Fin 3 × Bool → Option (List K)) (m m' : FMem K) : Prop :=
  ∃ adj lg rs m1, localAdjustTangE E = some adj ∧ localGhostTangB E = some lg ∧
    endRemote E slotsTangB recv = some rs ∧
    PhaseV W R E.g (fun _ => 2) (dims E.g) P block xyz k ((innerEdges E.g).map k) (runSeq lg m) m1 ∧
    m' = runSeq adj (runSeq ((outerEdges E.g).map k) (runSeq rs m1))

/-- `clean_div_b` of a vector build, pipeline/clean_div_b_pipeline.cc:124-328. -/
def CleanDivBV (W : Width) (E : Env K) (R : Distribute.Rounding) (P : ℕ)
    (recv : Fin 3 × Bool → Option (List K)) (m m' : FMem K) : Prop :=
  ∃ adj lg rs m1, localAdjustNormB E = some adj ∧ localGhostDivB E = some lg ∧
    endRemote E slotsDivB recv = some rs ∧
    PhaseV W R E.g (fun _ => 2) (dims E.g) P (blockMarder E) xyz (marderB E)
      ((innerFaces E.g).map (marderB E) ++ rs ++ (outerFaces E.g).map (marderB E)) (runSeq lg m) m1 ∧
    m' = runSeq adj m1

end Verif.Simd
