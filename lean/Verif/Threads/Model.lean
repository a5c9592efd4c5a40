import Verif.Torus.Run
import Verif.Interp.Model
import Verif.SortP.Props
import Verif.Threads.Push

/-!
# A whole run with any boundaries and the number of pipelines in view (C87)

`vpic_simulation::initialize` and `advance` on all ranks, with sorting, the push in the fields the run itself computes, the
exchange of particles at faces of any kind, the removal of what is left over, cleaning and synchronisation.

Not part of the model: collisions and emitters (each pipeline has its own random numbers there), the functions of the input
deck, and what is printed besides the errors.
-/
namespace Verif.Threads

open Grid MoveP Charge Torus
open Boundary (Rank Species Env ids finishSpecies)
open Field (Pos FC FMem World SynchronizeTangENormB)
open Distribute (Rounding)
open AdvanceP (Args Mem Advance)
open SfInterface (Clear Reduce accArgs)

section
variable {K : Type} {S : Type*} [Field K] [LinearOrder K] [IsStrictOrderedRing K]

/-- What the particles need besides the grid: the square root, `q dt/(2 m c)` of each species, `c dt/dx, …`, and the
`sort_interval` of each species, /repo/src/species_advance/species_advance_aos.h:55-97. -/
structure Drive (K : Type) where
  rt : K → K
  qdt_2mc : ℕ → K
  cdt_d : Fin 3 → K
  sort_interval : ℕ → ℤ

/-- What `advance_p` takes, with the interpolators `fi`. -/
def Drive.par (V : Drive K) (fi : ℤ → Boris.Interp K) : PushPar K := ⟨V.rt, fi, V.qdt_2mc, V.cdt_d⟩

/-- All that changes in a run: particles, accumulators, fields, interpolators. -/
structure Machine (K : Type) (S : Type*) (n : ℕ) extends State K S n where
  fi : Fin n → ℤ → Boris.Interp K

/-- `sort_p` of one species with `P` pipelines under any schedule and with any contents of the scratch memory,
/repo/src/species_advance/standard/pipeline/sort_p_pipeline.cc:220-371; `sp->partition` is not kept. -/
def SortSpecies (Rd : Rounding) (P : ℕ) (g : LGrid) (s s' : Species K) : Prop :=
  ∃ (Q : SortP.Schedules (MoveP.Part K)) (aux : SortP.Scratch (MoveP.Part K)) (part part' : ℤ → ℤ) (p' : ℤ → MoveP.Part K),
    SortP.sortP Rd MoveP.Part.i Q aux P g.nx g.ny g.nz s.np s.p part = some (p', part') ∧ s' = { s with p := p' }

/-- The sorting at the beginning of `advance` on one rank, /repo/src/vpic/advance.cc:25-29. -/
def SortAll (Rd : Rounding) (P nsp : ℕ) (g : LGrid) (interval : ℕ → ℤ) (step : ℤ) (sp sp' : ℕ → Species K) : Prop :=
  ∀ id, (id < nsp ∧ due (interval id) step → SortSpecies Rd P g (sp id) (sp' id)) ∧
    (¬ (id < nsp ∧ due (interval id) step) → sp' id = sp id)

/-- `advance_p` of all species with `P` pipelines as in `Charge.Pushes`, none of the calls printing the warning about ignored
movers, /repo/src/vpic/advance.cc:49-50 and
/repo/src/species_advance/standard/pipeline/advance_p_pipeline.cc:317-321. -/
inductive QuietPushes (Rd : Rounding) (g : LGrid) (fuel : ℕ) (X : PushPar K) (P : ℕ) :
    List ℕ → (ℕ → Species K) → (ℤ → Fin 12 → K) → (ℕ → Species K) → (ℤ → Fin 12 → K) → Prop
  | nil (sp acc) : QuietPushes Rd g fuel X P [] sp acc sp acc
  | cons (id : ℕ) (l : List ℕ) (sp : ℕ → Species K) (m m' : Mem K) (pm : ℤ → Mover K) (nm : ℕ) (sp' acc') :
      m.part = (sp id).p → m.mover = (sp id).pm →
      Advance Rd (pushArgs g fuel X id (sp id)) P m m' (some (pm, nm)) → Quiet P m' →
      QuietPushes Rd g fuel X P l (Function.update sp id { sp id with p := m'.part, pm := pm, nm := nm }) m'.acc sp' acc' →
      QuietPushes Rd g fuel X P (id :: l) sp m.acc sp' acc'

/-- `clear_accumulator_array`, `advance_p` for all species, `reduce_accumulator_array` on one rank,
/repo/src/vpic/advance.cc:36-66. -/
def QuietPhase (Rd : Rounding) (g : LGrid) (fuel : ℕ) (X : PushPar K) (P nf : ℕ) (l : List ℕ) (sp : ℕ → Species K)
    (st : ℤ → K) (sp' : ℕ → Species K) (st' : ℤ → K) : Prop :=
  ∃ st1 st2, Clear Rd (accArgs g.nx g.ny g.nz nf P) P st st1 ∧
    QuietPushes Rd g fuel X P l sp (accOf nf st1) sp' (accOf nf st2) ∧
    Reduce Rd (accArgs g.nx g.ny g.nz nf P) P st2 st'

/-- The removal of unfinished particles of all species, /repo/src/vpic/advance.cc:78-101. -/
def finishAll (g : LGrid) (r8V : K) : List ℕ → (ℕ → Species K) → (ℤ → K) → Option ((ℕ → Species K) × (ℤ → K))
  | [], sp, rhob => some (sp, rhob)
  | id :: l, sp, rhob => (finishSpecies g r8V (sp id) rhob).bind fun x => finishAll g r8V l (Function.update sp id x.1) x.2

/-- The same on a rank. -/
def finishRank (E : Env K S) (R : Rank K S) : Option (Rank K S) :=
  (finishAll E.g E.r8V (ids E.nsp) R.sp R.rhob).map fun x => { R with sp := x.1, rhob := x.2 }

/-- The field array with the bound charge `ρ`, which `boundary_p` and `advance` change through `field_array->f`. -/
def withRhob (m : FMem K) (ρ : ℤ → K) : FMem K := fun q =>
  match q.2 with
  | .rhob => ρ q.1
  | _ => m q

/-- What `boundary_p` is called with: the species, the first copy of the accumulators, the bound charge of the field array. -/
def entering (R : Rank K S) (sp : ℕ → Species K) (a : Accum K) (m : FMem K) : Rank K S :=
  { R with sp := sp, a := a, rhob := fun v => m (v, .rhob) }

/-- The part of `advance` that moves the particles, /repo/src/vpic/advance.cc:25-101, from `μ` to particles `R'` and storage
of the accumulators `st'`. -/
structure Moved {n : ℕ} (Z : Setup K S n) (V : Drive K) (step : ℤ) (μ : Machine K S n) (R' : Fin n → Rank K S)
    (st' : Fin n → ℤ → K) : Prop where
  run : ∃ (sp1 sp2 : Fin n → ℕ → Species K) (st1 : Fin n → ℤ → K) (R2 : Fin n → Rank K S),
    (∀ r, SortAll Z.Rd Z.P (Z.B r).nsp (Z.B r).g V.sort_interval step (μ.R r).sp (sp1 r)) ∧
    (∀ r, QuietPhase Z.Rd (Z.B r).g (Z.B r).fuel (V.par (μ.fi r)) Z.P Z.nf (ids (Z.B r).nsp) (sp1 r) (μ.st r) (sp2 r)
      (st1 r)) ∧
    Rounds Z.B Z.N (fun r => entering (μ.R r) (sp2 r) (hostAcc (Z.B r).g Z.nf (st1 r)) (μ.m r)) R2 ∧
    (∀ r, finishRank (Z.B r) (R2 r) = some (R' r)) ∧
    ∀ r j k, accOf Z.nf (st' r) j k = if 0 ≤ j ∧ j < nvox (Z.B r).g then (R' r).a j k else accOf Z.nf (st1 r) j k

/-- `load_interpolator_array` on all ranks, /repo/src/sf_interface/pipeline/interpolator_array_pipeline.cc. -/
def LoadAll {n : ℕ} (Z : Setup K S n) (m : Fin n → FMem K) (fi fi' : Fin n → ℤ → Boris.Interp K) : Prop :=
  ∀ r, Interp.LoadInterpolator Z.Rd (Z.F r).g Z.P (m r) (fi r) (fi' r)

/-- One call of `advance` that returns 1 and prints no warning about ignored movers, /repo/src/vpic/advance.cc:15-207. -/
structure Cycle {n : ℕ} (Z : Setup K S n) (V : Drive K) (A : Settings) (step : ℤ) (μ μ' : Machine K S n)
    (l : List (Msg K)) : Prop where
  go : ¬ (0 < A.num_step ∧ A.num_step ≤ step)
  moved : Moved Z V step μ μ'.R μ'.st
  run : ∃ (m1 m2 m3 m4 m5 m6 : Fin n → FMem K) (l1 l2 l3 : List (Msg K)),
    CurrentPhase Z.F Z.Rd Z.P Z.sc (fun r => (μ'.R r).a) (fun r => withRhob (μ.m r) (μ'.R r).rhob) m1 ∧
    RanksB Z.F (1 / 2) m1 m2 ∧ RanksE Z.F m2 m3 ∧ RanksB Z.F (1 / 2) m3 m4 ∧
    PartE Z V.rt A step μ'.R m4 m5 l1 ∧ PartB Z V.rt A step m5 m6 l2 ∧ PartSync Z A step m6 μ'.m l3 ∧
    LoadAll Z μ'.m μ.fi μ'.fi ∧ l = l1 ++ l2 ++ l3

/-- Any number of calls of `advance`, from step counter `i` to `j`. -/
inductive Cycles {n : ℕ} (Z : Setup K S n) (V : Drive K) (A : Settings) :
    ℤ → Machine K S n → ℤ → Machine K S n → List (Msg K) → Prop
  | refl (i μ) : Cycles Z V A i μ i μ []
  | step {i μ j μ1 μ2 l l'} : Cycles Z V A i μ j μ1 l → Cycle Z V A j μ1 μ2 l' → Cycles Z V A i μ (j + 1) μ2 (l ++ l')

/-- `vpic_simulation::initialize` after `user_initialization`, /repo/src/vpic/initialize.cc:14-54. -/
structure Begin {n : ℕ} (Z : Setup K S n) (V : Drive K) (μ μ' : Machine K S n) (l : List (Msg K)) : Prop where
  run : ∃ (m1 m2 m3 m4 m5 m6 m7 m8 : Fin n → FMem K) (e1 e2 e3 e4 : K),
    SynchronizeTangENormB Z.F μ.m m1 e1 ∧
    RanksDivB Z m1 m2 ∧ RmsB Z V.rt m2 e2 ∧ RanksCleanB Z m2 m3 ∧
    RanksCurl Z m3 m4 ∧
    MeasureRho Z.F Z.sc.r8V Z.nsp (fun r => (μ.R r).sp) m4 m5 ∧ RanksRhob Z m5 m6 ∧
    RanksDivE Z.F m6 m7 ∧ RmsE Z V.rt m7 e3 ∧ RanksCleanE Z m7 m8 ∧
    SynchronizeTangENormB Z.F m8 μ'.m e4 ∧
    LoadAll Z μ'.m μ.fi μ'.fi ∧
    l = [.sync e1, .divB e2, .divE e3, .sync e4]
  st : μ'.st = μ.st
  ranks : ∀ r, ∃ sp', μ'.R r = { μ.R r with sp := sp' } ∧ ∀ id, (id < (Z.B r).nsp → ∃ p',
      Boris.UncenterP V.rt (V.qdt_2mc id) (μ'.fi r) Z.Rd ((μ.R r).sp id).np Z.P ((μ.R r).sp id).p p' ∧
      sp' id = { (μ.R r).sp id with p := p' }) ∧ (¬ id < (Z.B r).nsp → sp' id = (μ.R r).sp id)

/-! ### Specification -/

/-- Spec: what must fit together for a run with any boundaries: domains joined by faces, handlers that keep their contract,
sizes that fit, a true square root and a time step of at most one cell at the speed of light along each axis. -/
structure Sane {n : ℕ} (Z : Setup K S n) (V : Drive K) : Prop where
  joined : Boundary.Joined Z.B
  handlers : ∀ r, Boundary.Conforming (Z.B r)
  grid : ∀ r, (Z.B r).g = (Z.F r).g
  mesh : ∀ r, Field.Mesh (Z.F r).g
  fuel : ∀ r, 3 < (Z.B r).fuel
  rounding : Z.Rd.Accurate
  threads : 0 < Z.P ∧ Z.P ≤ 2 ^ 16
  nf : 12 ≤ Z.nf
  acc : ∀ r, (SfInterface.accArgs (Z.B r).g.nx (Z.B r).g.ny (Z.B r).g.nz Z.nf Z.P).n < 2 ^ 31
  acc' : ∀ r, (Z.P : ℤ) * (SfInterface.pow2Ceil2 (SfInterface.nvOf (Z.B r).g.nx (Z.B r).g.ny (Z.B r).g.nz) * Z.nf) < 2 ^ 31
  root : ∀ x, 0 ≤ x → 0 ≤ V.rt x ∧ V.rt x * V.rt x = x
  cfl : ∀ k, |V.cdt_d k| ≤ 1

/-- Spec: particles inside their domains, storage of representable sizes, accumulators clean where nobody writes. -/
structure Fit {n : ℕ} (Z : Setup K S n) (μ : Machine K S n) : Prop where
  particles : ∀ r, ∀ id < (Z.B r).nsp, Settled (Z.B r).g ((μ.R r).sp id)
  sized : ∀ r, ∀ id < (Z.B r).nsp, Sized ((μ.R r).sp id)
  tidy : ∀ r, TidyAll (Z.B r).g Z.P (accOf Z.nf (μ.st r))

end

end Verif.Threads
