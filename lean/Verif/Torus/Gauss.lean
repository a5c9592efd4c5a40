import Verif.Torus.Props
import Verif.Charge.Sizes

/-!
# Gauss's law over any number of steps (C72)
-/
namespace Verif.Torus

open Grid Charge
open SfInterface (Scales)
open Boundary (Env Rank Species live ids)
open Distribute (Rounding)
open Field (Pos FC FMem World MC EntOn fieldExt InArray vox ranksOf coordOf SameCells dims up dn EdgeOn FaceOn NodeOn copies)

section
variable {K : Type} {S : Type*} [Field K] [LinearOrder K] [IsStrictOrderedRing K]

/-! ### The machine -/

/-- All that does not change during a run. -/
structure Setup (K : Type) (S : Type*) (n : ℕ) where
  D : Decomp
  t0 : ℕ → ℤ → ℤ
  F : World K n
  B : Fin n → Env K S
  Rd : Rounding
  P : ℕ
  nf : ℕ
  N : ℕ
  nsp : ℕ
  sc : Scales K
  C : Consts K
  M : Medium K

/-- All that changes: particles, storage of the accumulators, fields. -/
structure State (K : Type) (S : Type*) (n : ℕ) where
  R : Fin n → Rank K S
  st : Fin n → ℤ → K
  m : Fin n → FMem K

/-- The particle part and the field part of a step, /repo/src/vpic/advance.cc:34-131, without collisions, injection and the
functions of the input deck.  The fields seen by the particles (`X`) may be any. -/
structure FullStep {n : ℕ} (Z : Setup K S n) (σ σ' : State K S n) : Prop where
  run : ∃ (X : Fin n → PushPar K) (m3 m4 m5 : Fin n → FMem K), (∀ r, Courant (X r)) ∧
    ParticlePhase Z.B Z.Rd X Z.P Z.nf Z.N σ.R σ.st σ'.R σ'.st ∧
    CurrentPhase Z.F Z.Rd Z.P Z.sc (fun r => (σ'.R r).a) σ.m m3 ∧
    RanksB Z.F (1 / 2) m3 m4 ∧ RanksE Z.F m4 m5 ∧ RanksB Z.F (1 / 2) m5 σ'.m

/-- Spec: where a particle is and how much of it there is. -/
def chargeAt (p : MoveP.Part K) : (Fin 3 → K) × ℤ × K := (p.d, p.i, p.w)

/-- Work on the particles between the steps that moves none of them: sorting, collisions. -/
structure Shuffle {n : ℕ} (Z : Setup K S n) (σ σ' : State K S n) : Prop where
  st : σ'.st = σ.st
  m : σ'.m = σ.m
  q : ∀ r, ∀ id < Z.nsp, ((σ'.R r).sp id).q = ((σ.R r).sp id).q
  max_np : ∀ r, ∀ id < Z.nsp, ((σ'.R r).sp id).max_np = ((σ.R r).sp id).max_np
  max_nm : ∀ r, ∀ id < Z.nsp, ((σ'.R r).sp id).max_nm = ((σ.R r).sp id).max_nm
  perm : ∀ r, ∀ id < Z.nsp, ((live ((σ'.R r).sp id).p ((σ'.R r).sp id).np).map chargeAt).Perm
    ((live ((σ.R r).sp id).p ((σ.R r).sp id).np).map chargeAt)

/-- Any number of steps and shuffles. -/
inductive Steps {n : ℕ} (Z : Setup K S n) : State K S n → State K S n → Prop
  | refl (σ) : Steps Z σ σ
  | full {σ σ1 σ2} : Steps Z σ σ1 → FullStep Z σ1 σ2 → Steps Z σ σ2
  | shuffle {σ σ1 σ2} : Steps Z σ σ1 → Shuffle Z σ1 σ2 → Steps Z σ σ2

/-- The error of Gauss's law as the program reports it: `clear_rhof`, `accumulate_rho_p`, `synchronize_rho`,
`compute_div_e_err`, /repo/src/vpic/advance.cc:144-149. -/
def Reports {n : ℕ} (Z : Setup K S n) (σ : State K S n) (err : Fin n → Pos → K) : Prop :=
  ∃ m1 m2 : Fin n → FMem K, MeasureRho Z.F Z.sc.r8V Z.nsp (fun r => (σ.R r).sp) σ.m m1 ∧ RanksDivE Z.F m1 m2 ∧
    ∀ r c, NodeOn (Z.F r).g c → err r c = m2 r (vox (Z.F r).g c, .divE)

/-! ### Specification -/

/-- Spec: material without conductivity along `a`. -/
def Insulating (c : MC K) (a : Fin 3) : Prop := c.decay a = 1 ∧ c.drive a * c.eps a = 1

/-- Spec: a periodic box whose cut axes have at least two cells per rank, of one medium in which every node is inside a
conductor (its error is not looked at) or has insulating edges only; constants that fit together. -/
structure Setup.Ok {n : ℕ} (Z : Setup K S n) : Prop where
  box : PeriodicBox Z.D Z.t0 Z.F Z.B
  rounding : Z.Rd.Accurate
  rounds : 3 ≤ Z.N
  nsp : ∀ r, (Z.B r).nsp = Z.nsp
  nf : 12 ≤ Z.nf
  threads : 0 < Z.P ∧ Z.P ≤ 2 ^ 16
  fuel : ∀ r, 3 < (Z.B r).fuel
  acc : ∀ r, (SfInterface.accArgs (Z.F r).g.nx (Z.F r).g.ny (Z.F r).g.nz Z.nf Z.P).n < 2 ^ 31
  acc' : ∀ r, (Z.P : ℤ) * (SfInterface.pow2Ceil2 (SfInterface.nvOf (Z.F r).g.nx (Z.F r).g.ny (Z.F r).g.nz) * Z.nf) < 2 ^ 31
  dt : Z.sc.dt ≠ 0
  vol : Z.sc.r8V = Z.sc.rd 0 * Z.sc.rd 1 * Z.sc.rd 2 * (1 / 8)
  dt_same : Z.sc.dt = Z.C.dt
  rd_same : Z.sc.rd = Z.C.rd
  resolved : Resolved Z.D
  consts : SameConsts Z.F Z.C
  made : MadeOf Z.D Z.F Z.M
  medium : ∀ s, (Z.M.node s).nonconductive = 0 ∨
    ∀ a, Insulating (Z.M.edge a s) a ∧ Insulating (Z.M.edge a (prev (sizeOf Z.D) a s)) a

/-- Divergence of the damped curl. -/
def divTca (N : Pos) (C : Consts K) (G : Fields K) (s : Pos) : K :=
  ∑ a, C.rd a * (G (.tca a) s - G (.tca a) (prev N a s))

/-- Spec: a state between two steps: the ranks agree on the fields, the damped curl has no divergence (nothing is asked
without damping), no particle is on its way, the accumulators are clean where nobody writes. -/
structure Ready {n : ℕ} (Z : Setup K S n) (σ : State K S n) : Prop where
  fields : ∃ G : Fields K, (∀ a, Holds Z.D Z.F σ.m G (.e a)) ∧ (∀ a, Holds Z.D Z.F σ.m G (.cb a)) ∧
    (∀ a, Holds Z.D Z.F σ.m G (.tca a)) ∧ Holds Z.D Z.F σ.m G .rhob ∧ ∀ s, Z.C.damp * divTca (sizeOf Z.D) Z.C G s = 0
  particles : ∀ r, ∀ id < Z.nsp, Settled (Z.F r).g ((σ.R r).sp id)
  sized : ∀ r, ∀ id < Z.nsp, Sized ((σ.R r).sp id)
  charges : ∀ r s, ∀ id < Z.nsp, ((σ.R r).sp id).q = ((σ.R s).sp id).q
  tidy : ∀ r, TidyAll (Z.F r).g Z.P (accOf Z.nf (σ.st r))

end

end Verif.Torus
