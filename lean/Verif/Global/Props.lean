import Verif.Global.Moved
import Verif.Global.RunSpec

/-!
# Particles do not see how the box is cut (C91)
-/
namespace Verif.Global

open Grid MoveP Charge Torus Threads
open Field (Pos)
open Boundary (Rank Env live)

section
variable {K : Type} {S : Type*} [Field K] [LinearOrder K] [IsStrictOrderedRing K] [Archimedean K]

/-- Spec: the interpolators of all ranks are `fi` on the cells of the box. -/
def Interpolates {n : ℕ} (Z : Setup K S n) (μ : Machine K S n) (fi : Pos → Boris.Interp K) : Prop :=
  ∀ r c, IsInterior Z.D c → μ.fi r (VOXEL (Z.B r).g.nx (Z.B r).g.ny c.x c.y c.z) = fi (siteAt Z.D r ![c.x, c.y, c.z])

/-- Spec: what is needed of a periodic box: three rounds of exchange, the same species on all ranks. -/
structure Whole {n : ℕ} (Z : Setup K S n) : Prop where
  box : PeriodicBox Z.D Z.t0 Z.F Z.B
  rounds : 3 ≤ Z.N
  nsp : ∀ r, (Z.B r).nsp = Z.nsp

/-- **C91.** Sorting, push, exchange and removal on all ranks of a periodic box do what a single mesh would do: each particle of
the box is pushed once and goes from cell to cell (`push`, which never fails), the particles afterwards are the results, and
each cell of each rank holds the currents that all particles leave in it. -/
theorem moved_global {n : ℕ} {Z : Setup K S n} {V : Drive K} (hW : Whole Z) (hZ : Sane Z V) {μ : Machine K S n} (hμ : Fit Z μ)
    {fi : Pos → Boris.Interp K} (hfi : Interpolates Z μ fi) {q : ℕ → K} (hq : ∀ r, ∀ id < Z.nsp, ((μ.R r).sp id).q = q id)
    {step : ℤ} {R' : Fin n → Rank K S} {st' : Fin n → ℤ → K} (h : Moved Z V step μ R' st') :
    ∃ adv : ℕ → GPart K → GPart K × GAccum K,
      (∀ id < Z.nsp, ∀ p ∈ gather Z.D Z.B μ.R id, push (Torus.sizeOf Z.D) fi (lawAt V q id) 4 p = some (adv id p)) ∧
      (∀ id < Z.nsp, gather Z.D Z.B R' id = (gather Z.D Z.B μ.R id).map fun p => (adv id p).1) ∧
      (∀ r c, IsInterior Z.D c → ∀ k, (R' r).a (VOXEL (Z.B r).g.nx (Z.B r).g.ny c.x c.y c.z) k =
        ∑ id ∈ Finset.range Z.nsp, ((gather Z.D Z.B μ.R id).map fun p =>
          (adv id p).2 (siteAt Z.D r ![c.x, c.y, c.z]) k).sum) ∧
      (∀ r, ∀ id < Z.nsp, ((R' r).sp id).q = q id ∧ ((R' r).sp id).nm = 0) := by
  obtain ⟨h1, h2, h3, h4, -⟩ := moved_box hW.box hZ hW.rounds hW.nsp hμ hfi hq h
  refine ⟨fun id => adv (Torus.sizeOf Z.D) fi (lawAt V q id), h1, h2, fun r c hc k => ?_, h4⟩
  have hg : ∀ r : Fin n, gridOf Z.D n Z.t0 r = some (Z.B r).g := fun r => by rw [hZ.grid]; exact hW.box.grid r
  have e := congrFun (congrFun h3 (siteAt Z.D r ![c.x, c.y, c.z])) k
  rw [Finset.sum_apply, Finset.sum_apply, Finset.sum_eq_single r, spread_own hW.box.ok Z.t0 hg r _ hc k] at e
  · rw [e, Finset.sum_apply, Finset.sum_apply]
    refine Finset.sum_congr rfl fun id _ => ?_
    generalize gather Z.D Z.B μ.R id = m
    induction m using Multiset.induction_on with
    | empty => rfl
    | cons p m ih => simp only [Multiset.map_cons, Multiset.sum_cons, Pi.add_apply, ih, lawAt]
  · exact fun s _ hs => spread_other hW.box.ok Z.t0 hg s r hs _ hc k
  · exact fun h => absurd (Finset.mem_univ r) h

/-- **C91.** Two ways of cutting the same box, with any numbers of ranks and pipelines: from the same particles in the same
fields come the same particles, and the same currents in the same cells. -/
theorem moved_any_decomposition {n1 n2 : ℕ} {Z1 : Setup K S n1} {Z2 : Setup K S n2} {V : Drive K} (hW1 : Whole Z1) (hW2 : Whole Z2)
    (hZ1 : Sane Z1 V) (hZ2 : Sane Z2 V) (hN : Torus.sizeOf Z1.D = Torus.sizeOf Z2.D) (hnsp : Z1.nsp = Z2.nsp)
    {μ1 : Machine K S n1} {μ2 : Machine K S n2} (hμ1 : Fit Z1 μ1) (hμ2 : Fit Z2 μ2)
    {fi : Pos → Boris.Interp K} (hfi1 : Interpolates Z1 μ1 fi) (hfi2 : Interpolates Z2 μ2 fi) {q : ℕ → K}
    (hq1 : ∀ r, ∀ id < Z1.nsp, ((μ1.R r).sp id).q = q id) (hq2 : ∀ r, ∀ id < Z2.nsp, ((μ2.R r).sp id).q = q id)
    (hp : ∀ id < Z1.nsp, gather Z1.D Z1.B μ1.R id = gather Z2.D Z2.B μ2.R id)
    {step : ℤ} {R1 : Fin n1 → Rank K S} {st1 : Fin n1 → ℤ → K} (h1 : Moved Z1 V step μ1 R1 st1)
    {R2 : Fin n2 → Rank K S} {st2 : Fin n2 → ℤ → K} (h2 : Moved Z2 V step μ2 R2 st2) :
    (∀ id < Z1.nsp, gather Z1.D Z1.B R1 id = gather Z2.D Z2.B R2 id) ∧
    ∀ r1 r2 c1 c2, IsInterior Z1.D c1 → IsInterior Z2.D c2 →
      siteAt Z1.D r1 ![c1.x, c1.y, c1.z] = siteAt Z2.D r2 ![c2.x, c2.y, c2.z] → ∀ k,
      (R1 r1).a (VOXEL (Z1.B r1).g.nx (Z1.B r1).g.ny c1.x c1.y c1.z) k =
        (R2 r2).a (VOXEL (Z2.B r2).g.nx (Z2.B r2).g.ny c2.x c2.y c2.z) k := by
  obtain ⟨a1, b1, c1, d1, -⟩ := moved_global hW1 hZ1 hμ1 hfi1 hq1 h1
  obtain ⟨a2, b2, c2, d2, -⟩ := moved_global hW2 hZ2 hμ2 hfi2 hq2 h2
  have same : ∀ id < Z1.nsp, ∀ p ∈ gather Z1.D Z1.B μ1.R id, a1 id p = a2 id p := by
    intro id hid p hm
    have e := b1 id hid p hm
    rw [hN, b2 id (hnsp ▸ hid) p (by rw [← hp id hid]; exact hm)] at e
    exact (Option.some.inj e).symm
  constructor
  · intro id hid
    rw [c1 id hid, c2 id (hnsp ▸ hid), ← hp id hid]
    exact Multiset.map_congr rfl fun p hm => by rw [same id hid p hm]
  · intro r1 r2 x1 x2 i1 i2 e k
    rw [d1 r1 x1 i1 k, d2 r2 x2 i2 k, ← hnsp]
    refine Finset.sum_congr rfl fun id hid => ?_
    rw [← hp id (Finset.mem_range.mp hid)]
    refine congrArg _ (Multiset.map_congr rfl fun p hm => ?_)
    rw [same id (Finset.mem_range.mp hid) p hm, e]

end

end Verif.Global
