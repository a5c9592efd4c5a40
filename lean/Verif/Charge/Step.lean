import Verif.Charge.Currents

/-!
# The particle half of a time step on all ranks

Model of /repo/src/vpic/advance.cc:34-112: clear the accumulators, push all species, reduce, exchange particles, unload and
synchronise the currents; and of the measurement of the free charge density, lines 144-146.  Left out: collisions (they
change momenta only), emitters and the functions of the input deck (their effect on the charge is up to them), and particles
dropped after the last round.
-/
namespace Verif.Charge

open Grid Deposit SfInterface MoveP
open Boundary (Env Rank Species live ids)
open Distribute (Rounding)
open Field (FMem FC World SynchronizeJf SynchronizeRho)

section Model
variable {K : Type} {S : Type*} [Field K] [LinearOrder K]

/-- `clear_jf`, /repo/src/field_advance/standard/sfa.cc:231-237. -/
def clearJf (g : LGrid) (m : FMem K) : FMem K := fun q =>
  match q.2 with
  | .jf _ => if 0 ≤ q.1 ∧ q.1 < nvox g then 0 else m q
  | _ => m q

/-- `clear_rhof`, /repo/src/field_advance/standard/sfa.cc:239-255. -/
def clearRhof (g : LGrid) (m : FMem K) : FMem K := fun q =>
  match q.2 with
  | .rhof => if 0 ≤ q.1 ∧ q.1 < nvox g then 0 else m q
  | _ => m q

/-- `LIST_FOR_EACH( sp, species_list ) accumulate_rho_p( field_array, sp )`, /repo/src/vpic/advance.cc:145, on the array of
`rhof`. -/
def rhoAll (g : LGrid) (r8V : K) (sp : ℕ → Species K) : List ℕ → (ℤ → K) → Option (ℤ → K)
  | [], ρ => some ρ
  | id :: l, ρ => (accumulateRhoP g r8V (sp id).q (live (sp id).p (sp id).np) ρ).bind (rhoAll g r8V sp l)

/-- `clear_rhof`, `accumulate_rho_p` for all species, `synchronize_rho` on all ranks, /repo/src/vpic/advance.cc:144-146. -/
def MeasureRho {n : ℕ} (F : World K n) (r8V : K) (nsp : ℕ) (sp : Fin n → ℕ → Species K) (m m' : Fin n → FMem K) : Prop :=
  ∃ ρ : Fin n → ℤ → K,
    (∀ r, rhoAll (F r).g r8V (sp r) (ids nsp) (fun v => clearRhof (F r).g (m r) (v, .rhof)) = some (ρ r)) ∧
    SynchronizeRho F (fun r q => match q.2 with | .rhof => ρ r q.1 | _ => m r q) m'

/-- `clear_accumulator_array`, `advance_p` for all species, `reduce_accumulator_array` on one rank,
/repo/src/vpic/advance.cc:36-66, with `P` pipelines and accumulators of `nf` numbers each.  `st` is the storage of the
accumulators. -/
def PushPhase (Rd : Rounding) (g : LGrid) (fuel : ℕ) (X : PushPar K) (P nf : ℕ) (l : List ℕ) (sp : ℕ → Species K)
    (st : ℤ → K) (sp' : ℕ → Species K) (st' : ℤ → K) : Prop :=
  ∃ st1 st2, Clear Rd (accArgs g.nx g.ny g.nz nf P) P st st1 ∧
    Pushes Rd g fuel X P l sp (accOf nf st1) sp' (accOf nf st2) ∧
    Reduce Rd (accArgs g.nx g.ny g.nz nf P) P st2 st'

/-- The lines above on all ranks and `num_comm_round = N` calls of `boundary_p`, /repo/src/vpic/advance.cc:36-77.  The calls
use the first copy of the accumulators, which is part of the storage. -/
def ParticlePhase {n : ℕ} (B : Fin n → Env K S) (Rd : Rounding) (X : Fin n → PushPar K) (P nf N : ℕ)
    (R : Fin n → Rank K S) (st : Fin n → ℤ → K) (R' : Fin n → Rank K S) (st' : Fin n → ℤ → K) : Prop :=
  ∃ sp1 : Fin n → ℕ → Species K, ∃ st1 : Fin n → ℤ → K,
    (∀ r, PushPhase Rd (B r).g (B r).fuel (X r) P nf (ids (B r).nsp) (R r).sp (st r) (sp1 r) (st1 r)) ∧
    Rounds B N (fun r => { R r with sp := sp1 r, a := hostAcc (B r).g nf (st1 r) }) R' ∧
    ∀ r j k, accOf nf (st' r) j k =
      if 0 ≤ j ∧ j < nvox (B r).g then (R' r).a j k else accOf nf (st1 r) j k

/-- `clear_jf`, `unload_accumulator_array`, `synchronize_jf` on all ranks, /repo/src/vpic/advance.cc:107-111. -/
def CurrentPhase {n : ℕ} (F : World K n) (Rd : Rounding) (P : ℕ) (sc : Scales K) (A : Fin n → Accum K)
    (m m' : Fin n → FMem K) : Prop :=
  ∃ m1 : Fin n → FMem K, (∀ r, UnloadAccumulator Rd (F r).g P sc (A r) (clearJf (F r).g (m r)) (m1 r)) ∧
    SynchronizeJf F m1 m'

end Model

end Verif.Charge
