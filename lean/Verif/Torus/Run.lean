import Verif.Torus.GaussProps
import Verif.Field.Diagnostics

/-!
# A whole run: `initialize` and any number of calls of `advance` (C82, C83)

Not part of the model: the functions of the input deck (`user_initialization` is whatever made the first state; the others do
nothing here), emitters, and what is printed besides the errors.
-/
namespace Verif.Torus

open Grid Charge
open Field (Pos FC FMem World NodeOn vox slotsNormE slotsTangB slotsDivB ComputeDivB CleanDivB CleanDivE EdgeKernel ComputeRhob
  updateCurl updateRhob marderE rmsDivELocal rmsDivBLocal rmsFinal SynchronizeTangENormB)
open Boundary (Rank Species live)

section
variable {K : Type} {S : Type*} [Field K]

/-! ### The other kernels on all ranks -/

/-- `compute_div_b_err` on every rank, /repo/src/field_advance/standard/pipeline/compute_div_b_err_pipeline.cc. -/
def RanksDivB {n : ℕ} (Z : Setup K S n) (m m' : Fin n → FMem K) : Prop :=
  ∀ r, ComputeDivB (Z.F r) Z.Rd Z.P (m r) (m' r)

/-- `clean_div_b` on every rank, the ghosts coming from the neighbours,
/repo/src/field_advance/standard/pipeline/clean_div_b_pipeline.cc. -/
def RanksCleanB {n : ℕ} (Z : Setup K S n) (m m' : Fin n → FMem K) : Prop :=
  ∀ r, CleanDivB (Z.F r) Z.Rd Z.P (Z.F.ghostMail slotsDivB m r) (m r) (m' r)

/-- `clean_div_e` on every rank, /repo/src/field_advance/standard/pipeline/clean_div_e_pipeline.cc. -/
def RanksCleanE {n : ℕ} (Z : Setup K S n) (m m' : Fin n → FMem K) : Prop :=
  ∀ r, CleanDivE (Z.F r) Z.Rd Z.P (marderE (Z.F r)) (m r) (m' r)

/-- `compute_curl_b` on every rank, /repo/src/field_advance/standard/pipeline/compute_curl_b_pipeline.cc. -/
def RanksCurl {n : ℕ} (Z : Setup K S n) (m m' : Fin n → FMem K) : Prop :=
  ∀ r, EdgeKernel (Z.F r) Z.Rd Z.P (updateCurl (Z.F r)) (Z.F.ghostMail slotsTangB m r) (m r) (m' r)

/-- `compute_rhob` on every rank, /repo/src/field_advance/standard/pipeline/compute_rhob_pipeline.cc. -/
def RanksRhob {n : ℕ} (Z : Setup K S n) (m m' : Fin n → FMem K) : Prop :=
  ∀ r, ComputeRhob (Z.F r) Z.Rd Z.P (updateRhob (Z.F r)) (Z.F.ghostMail slotsNormE m r) (m r) (m' r)

/-- `compute_rms_div_e_err`: the same value on every rank (`rt` stands for `sqrt`),
/repo/src/field_advance/standard/pipeline/compute_rms_div_e_err_pipeline.cc. -/
def RmsE {n : ℕ} (Z : Setup K S n) (rt : K → K) (m : Fin n → FMem K) (err : K) : Prop :=
  ∃ l : Fin n → K × K, (∀ r, rmsDivELocal (Z.F r) Z.Rd Z.P (m r) = some (l r)) ∧
    err = rmsFinal rt Z.C.eps0 (List.ofFn l)

/-- `compute_rms_div_b_err`, /repo/src/field_advance/standard/pipeline/compute_rms_div_b_err_pipeline.cc. -/
def RmsB {n : ℕ} (Z : Setup K S n) (rt : K → K) (m : Fin n → FMem K) (err : K) : Prop :=
  ∃ l : Fin n → K × K, (∀ r, rmsDivBLocal (Z.F r) Z.Rd Z.P (m r) = some (l r)) ∧
    err = rmsFinal rt Z.C.eps0 (List.ofFn l)

/-- The errors printed: by `synchronize_tang_e_norm_b`, `compute_rms_div_e_err`, `compute_rms_div_b_err`. -/
inductive Msg (K : Type)
  | sync (err : K)
  | divE (err : K)
  | divB (err : K)

/-- The loop of divergence cleaning of E from round `i` on, `num_div_e_round = N`; the error is printed in the first and the
last round, /repo/src/vpic/advance.cc:148-155. -/
inductive RoundsE {n : ℕ} (Z : Setup K S n) (rt : K → K) (N : ℤ) : ℤ → (m m' : Fin n → FMem K) → List (Msg K) → Prop
  | done {i m} : ¬ i < N → RoundsE Z rt N i m m []
  | loud {i m m1 m2 m' err l} : i < N → RanksDivE Z.F m m1 → (i = 0 ∨ i = N - 1) → RmsE Z rt m1 err → RanksCleanE Z m1 m2 →
      RoundsE Z rt N (i + 1) m2 m' l → RoundsE Z rt N i m m' (.divE err :: l)
  | quiet {i m m1 m2 m' l} : i < N → RanksDivE Z.F m m1 → ¬ (i = 0 ∨ i = N - 1) → RanksCleanE Z m1 m2 →
      RoundsE Z rt N (i + 1) m2 m' l → RoundsE Z rt N i m m' l

/-- The loop of divergence cleaning of B, /repo/src/vpic/advance.cc:163-170. -/
inductive RoundsB {n : ℕ} (Z : Setup K S n) (rt : K → K) (N : ℤ) : ℤ → (m m' : Fin n → FMem K) → List (Msg K) → Prop
  | done {i m} : ¬ i < N → RoundsB Z rt N i m m []
  | loud {i m m1 m2 m' err l} : i < N → RanksDivB Z m m1 → (i = 0 ∨ i = N - 1) → RmsB Z rt m1 err → RanksCleanB Z m1 m2 →
      RoundsB Z rt N (i + 1) m2 m' l → RoundsB Z rt N i m m' (.divB err :: l)
  | quiet {i m m1 m2 m' l} : i < N → RanksDivB Z m m1 → ¬ (i = 0 ∨ i = N - 1) → RanksCleanB Z m1 m2 →
      RoundsB Z rt N (i + 1) m2 m' l → RoundsB Z rt N i m m' l

/-- The numbers an input deck may set, /repo/src/vpic/vpic.h:134-141. -/
structure Settings where
  num_step : ℤ
  num_div_e_round : ℤ
  clean_div_e_interval : ℤ
  num_div_b_round : ℤ
  clean_div_b_interval : ℤ
  sync_shared_interval : ℤ

/-- `(interval>0) && ((step() % interval)==0)` (`step()` is never negative). -/
def due (interval step : ℤ) : Prop := 0 < interval ∧ step % interval = 0

variable [LinearOrder K] [IsStrictOrderedRing K]

/-- Divergence cleaning of E when it is due, /repo/src/vpic/advance.cc:141-156. -/
def PartE {n : ℕ} (Z : Setup K S n) (rt : K → K) (A : Settings) (step : ℤ) (R : Fin n → Rank K S) (m m' : Fin n → FMem K)
    (l : List (Msg K)) : Prop :=
  (due A.clean_div_e_interval step ∧ ∃ m1, MeasureRho Z.F Z.sc.r8V Z.nsp (fun r => (R r).sp) m m1 ∧
    RoundsE Z rt A.num_div_e_round 0 m1 m' l) ∨ (¬ due A.clean_div_e_interval step ∧ m' = m ∧ l = [])

/-- Divergence cleaning of B when it is due, /repo/src/vpic/advance.cc:160-171. -/
def PartB {n : ℕ} (Z : Setup K S n) (rt : K → K) (A : Settings) (step : ℤ) (m m' : Fin n → FMem K) (l : List (Msg K)) : Prop :=
  (due A.clean_div_b_interval step ∧ RoundsB Z rt A.num_div_b_round 0 m m' l) ∨
    (¬ due A.clean_div_b_interval step ∧ m' = m ∧ l = [])

/-- Synchronisation of shared faces when it is due, /repo/src/vpic/advance.cc:175-179. -/
def PartSync {n : ℕ} (Z : Setup K S n) (A : Settings) (step : ℤ) (m m' : Fin n → FMem K) (l : List (Msg K)) : Prop :=
  (due A.sync_shared_interval step ∧ ∃ err, SynchronizeTangENormB Z.F m m' err ∧ l = [.sync err]) ∨
    (¬ due A.sync_shared_interval step ∧ m' = m ∧ l = [])

/-- One call of `advance` that returns 1, /repo/src/vpic/advance.cc:15-207: sorting and collisions, the step, cleaning,
synchronisation, the step counter.  `load_interpolator_array` writes what `FullStep` leaves open. -/
structure Advance {n : ℕ} (Z : Setup K S n) (rt : K → K) (A : Settings) (step : ℤ) (σ σ' : State K S n) (l : List (Msg K)) :
    Prop where
  go : ¬ (0 < A.num_step ∧ A.num_step ≤ step)
  run : ∃ (σ1 σ2 : State K S n) (m1 m2 : Fin n → FMem K) (l1 l2 l3 : List (Msg K)), Shuffle Z σ σ1 ∧ FullStep Z σ1 σ2 ∧
    PartE Z rt A step σ2.R σ2.m m1 l1 ∧ PartB Z rt A step m1 m2 l2 ∧ PartSync Z A step m2 σ'.m l3 ∧
    σ'.R = σ2.R ∧ σ'.st = σ2.st ∧ l = l1 ++ l2 ++ l3

/-- Any number of calls of `advance`, from step counter `i` to `j`. -/
inductive Runs {n : ℕ} (Z : Setup K S n) (rt : K → K) (A : Settings) :
    ℤ → State K S n → ℤ → State K S n → List (Msg K) → Prop
  | refl (i σ) : Runs Z rt A i σ i σ []
  | step {i σ j σ1 σ2 l l'} : Runs Z rt A i σ j σ1 l → Advance Z rt A j σ1 σ2 l' → Runs Z rt A i σ (j + 1) σ2 (l ++ l')

/-- `vpic_simulation::initialize` after `user_initialization`, /repo/src/vpic/initialize.cc:14-54; `uncenter_p` changes momenta
only. -/
structure Initialize {n : ℕ} (Z : Setup K S n) (rt : K → K) (σ σ' : State K S n) (l : List (Msg K)) : Prop where
  run : ∃ (m1 m2 m3 m4 m5 m6 m7 m8 m9 : Fin n → FMem K) (e1 e2 e3 e4 : K),
    SynchronizeTangENormB Z.F σ.m m1 e1 ∧
    RanksDivB Z m1 m2 ∧ RmsB Z rt m2 e2 ∧ RanksCleanB Z m2 m3 ∧
    RanksCurl Z m3 m4 ∧
    MeasureRho Z.F Z.sc.r8V Z.nsp (fun r => (σ.R r).sp) m4 m5 ∧ RanksRhob Z m5 m6 ∧
    RanksDivE Z.F m6 m7 ∧ RmsE Z rt m7 e3 ∧ RanksCleanE Z m7 m8 ∧
    SynchronizeTangENormB Z.F m8 m9 e4 ∧
    Shuffle Z ⟨σ.R, σ.st, m9⟩ σ' ∧
    l = [.sync e1, .divB e2, .divE e3, .sync e4]

/-! ### Specification -/

/-- Spec: what an input deck must have set up before `initialize`: particles inside their ranks, arrays of sensible sizes, the
same charges on all ranks, accumulators as they are allocated.  Nothing is asked of the fields. -/
structure Placed {n : ℕ} (Z : Setup K S n) (σ : State K S n) : Prop where
  particles : ∀ r, ∀ id < Z.nsp, Settled (Z.F r).g ((σ.R r).sp id)
  sized : ∀ r, ∀ id < Z.nsp, Sized ((σ.R r).sp id)
  charges : ∀ r s, ∀ id < Z.nsp, ((σ.R r).sp id).q = ((σ.R s).sp id).q
  tidy : ∀ r, TidyAll (Z.F r).g Z.P (accOf Z.nf (σ.st r))

/-- Spec: the nodes are inside a conductor or not, and `eps0` is not zero. -/
structure Setup.Physical {n : ℕ} (Z : Setup K S n) : Prop where
  nodes : ∀ s, (Z.M.node s).nonconductive = 0 ∨ (Z.M.node s).nonconductive = 1
  eps0 : Z.C.eps0 ≠ 0

/-- Spec: the errors printed about E and about copies are zero. -/
def Silent (l : List (Msg K)) : Prop := ∀ e, (Msg.sync e ∈ l → e = 0) ∧ (Msg.divE e ∈ l → e = 0)

/-- Spec: the errors printed about B never grow. -/
def Falling (l : List (Msg K)) : Prop := l.Pairwise fun a b => ∀ x y, a = .divB x → b = .divB y → y ≤ x

end

end Verif.Torus
