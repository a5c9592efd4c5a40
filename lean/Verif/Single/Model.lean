import Verif.Distribute.Model
import Verif.MoveP.Model
import Verif.Common.Interleave
import Mathlib.Analysis.SpecialFunctions.Exp
import Mathlib.Analysis.SpecialFunctions.Sqrt

/-!
# Collision operators that treat one particle at a time

`unary_collision_model` and `langevin`, /repo/src/collision/unary.cc, /repo/src/collision/langevin.cc
and their pipelines.
-/
namespace Verif.Single


/-- What the pipelines of these operators read and write: the particles of one species and, for every
pipeline, its generator together with its counter. -/
inductive Addr
  | part (i : ℤ)
  | gen (r : ℕ)

/-- The values at the addresses. -/
abbrev Val (K S : Type) : Addr → Type
  | .part _ => MoveP.Part K
  | .gen _ => S

variable {K S : Type}

/-- The particle array and the generators. -/
abbrev Mem (K S : Type) := Memory (Val K S)

/-- One trip of the loop over particles in pipeline `r`: particle `i` is replaced, the generator of
the pipeline advances.  (One trip is one atomic step.  It touches nothing that another pipeline
touches, so that a finer grain gives the same results.) -/
def treatAt (treat : MoveP.Part K → S → MoveP.Part K × S) (r : ℕ) (i : ℤ) (m : Mem K S) : Mem K S
  | .part j => if j = i then (treat (m (.part i)) (m (.gen r))).1 else m (.part j)
  | .gen s => if s = r then (treat (m (.part i)) (m (.gen r))).2 else m (.gen s)

/-- What a pipeline does before its loop. -/
def startAt (start : S → S) (r : ℕ) (m : Mem K S) : Mem K S
  | .part j => m (.part j)
  | .gen s => if s = r then start (m (.gen r)) else m (.gen s)

/-- Pipeline `r` of `P`: /repo/src/collision/pipeline/unary_pipeline.cc:14-62,
/repo/src/collision/pipeline/langevin_pipeline.cc:12-37.  The host (`pipeline_rank == n_pipeline`)
returns at once. -/
def pipeline (R : Distribute.Rounding) (np P : ℕ) (start : S → S) (treat : MoveP.Part K → S → MoveP.Part K × S)
    (r : ℕ) : List (Mem K S → Mem K S) :=
  startAt start r :: (Distribute.unaryItems R np P r).map (treatAt treat r)

/-- `EXEC_PIPELINES` … `WAIT_PIPELINES`: any interleaving. -/
def Exec (R : Distribute.Rounding) (np P : ℕ) (start : S → S) (treat : MoveP.Part K → S → MoveP.Part K × S)
    (m m' : Mem K S) : Prop :=
  Runs ((List.range P).map (pipeline R np P start treat)) m m'

/-- `if( interval<1 || (step % interval) ) return;`
/repo/src/collision/pipeline/unary_pipeline.cc:69-73, langevin_pipeline.cc:48-52 (`%` truncates). -/
def skips (interval step : ℤ) : Bool := decide (interval < 1) || decide (step.tmod interval ≠ 0)

/-! ## Unary collisions -/

/-- A unary collision model as the user gives it, /repo/src/collision/collision.h:90-175:
the rate constant and the collision function, which may draw numbers. -/
structure Unary (K G : Type) where
  rate : MoveP.Part K → K
  collision : MoveP.Part K → G → MoveP.Part K × G

/-- The body of the loop, /repo/src/collision/pipeline/unary_pipeline.cc:44-59.
`c0` is `frand_c0`; the state of a pipeline is its generator and `n_large_pr`. -/
def unaryTreat {G : Type} [Mul K] [One K] [LT K] [DecidableLT K] (cm : Unary K G) (c0 : G → K × G)
    (dt : K) (p : MoveP.Part K) (s : G × ℕ) : MoveP.Part K × (G × ℕ) :=
  let pr_coll := dt * cm.rate p
  let n_large := if 1 < pr_coll then s.2 + 1 else s.2
  let (c, g) := c0 s.1
  if c < pr_coll then
    let (p', g') := cm.collision p g
    (p', (g', n_large))
  else (p, (g, n_large))

/-- `int n_large_pr = 0;` before the loop (line 39).  (The code keeps the count in a local variable
and stores it in `cm->n_large_pr[pipeline_rank]` after the loop, line 61.) -/
def unaryStart {G : Type} (s : G × ℕ) : G × ℕ := (s.1, 0)

/-- The checks of `unary_collision_model`, /repo/src/collision/unary.cc:82-100, on the size of the
generator pool: `ERROR` unless there is a generator for every pipeline. -/
def unaryPoolAccepted (n_rng N_PIPELINE : ℕ) : Bool := decide (¬ n_rng < N_PIPELINE)

/-- `apply_unary_collision_model_pipeline`, /repo/src/collision/pipeline/unary_pipeline.cc:64-95.
`warn` is the number in the warning (0: none is printed). -/
def ApplyUnary {G : Type} [Mul K] [One K] [LT K] [DecidableLT K] (R : Distribute.Rounding)
    (np P : ℕ) (cm : Unary K G) (c0 : G → K × G) (gdt : K) (ofInt : ℤ → K) (interval step : ℤ)
    (m m' : Mem K (G × ℕ)) (warn : ℕ) : Prop :=
  if skips interval step then m' = m ∧ warn = 0
  else Exec R np P unaryStart (unaryTreat cm c0 (gdt * ofInt interval)) m m' ∧
    warn = ((List.range P).map fun r => (m' (.gen r)).2).sum

/-! ## The Langevin operator -/

/-- The body of the loop, /repo/src/collision/pipeline/langevin_pipeline.cc:32-36; `nrm` is
`frandn`. -/
def langevinTreat {G : Type} [Mul K] [Add K] (nrm : G → K × G) (decay drive : K) (p : MoveP.Part K)
    (g : G) : MoveP.Part K × G :=
  let (zx, g1) := nrm g
  let (zy, g2) := nrm g1
  let (zz, g3) := nrm g2
  ({ p with u := ![decay * p.u 0 + drive * zx, decay * p.u 1 + drive * zy,
                   decay * p.u 2 + drive * zz] }, g3)

/-- `args->decay`, line 105. -/
noncomputable def decay (nudt : ℝ) : ℝ := Real.exp (-nudt)

/-- `args->drive`, line 106: `sqrt( ( -expm1( -2*nudt )*kT ) / ( m*cvac ) )`. -/
noncomputable def drive (kT m cvac nudt : ℝ) : ℝ :=
  Real.sqrt ((-(Real.exp (-2 * nudt) - 1) * kT) / (m * cvac))

/-- `apply_langevin_pipeline`, /repo/src/collision/pipeline/langevin_pipeline.cc:45-114.  `none`: the
copy of `N_PIPELINE` generator pointers (line 103) reads past the end of the pool, which has `n_rng`. -/
noncomputable def langevinPasses {G : Type} (P n_rng : ℕ) (nrm : G → ℝ × G)
    (kT nu m cvac dt : ℝ) (interval step : ℤ) : Option (Option (MoveP.Part ℝ → G → MoveP.Part ℝ × G)) :=
  if skips interval step then some none
  else
    let nudt := nu * (interval : ℝ) * dt
    if n_rng < P then none
    else some (some (langevinTreat nrm (decay nudt) (drive kT m cvac nudt)))

/-- `apply_langevin` as a relation between memories: `none` is undefined behaviour. -/
noncomputable def ApplyLangevin {G : Type} (R : Distribute.Rounding) (np P n_rng : ℕ) (nrm : G → ℝ × G)
    (kT nu m cvac dt : ℝ) (interval step : ℤ) (mem : Mem ℝ G) : Option (Mem ℝ G → Prop) :=
  (langevinPasses P n_rng nrm kT nu m cvac dt interval step).map fun
    | none => fun mem' => mem' = mem
    | some treat => fun mem' => Exec R np P id treat mem mem'

/-- The checks of `langevin`, /repo/src/collision/langevin.cc:67-73 (the pointers are not null). -/
noncomputable def langevinAccepted (kT nu : ℝ) (_n_rng _N_PIPELINE : ℕ) : Prop := ¬ (kT < 0 ∨ nu < 0)

end Verif.Single
