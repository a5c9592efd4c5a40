import Verif.Torus.EnergyProps
import Mathlib.Analysis.SpecialFunctions.Sqrt

/-!
# The Courant length and stability of the field solver (C75)
-/
namespace Verif.Torus

open Grid
open Field (Pos FC FMem World MC EntOn fieldExt InArray vox ranksOf coordOf SameCells dims up dn EdgeOn FaceOn NodeOn)
open Charge (cellsOf siteAt)

section
variable {K : Type} [Field K] [LinearOrder K]

/-! ### Model -/

/-- `courant_length`, /repo/src/vpic/vpic.h:658-665, with `rt` for `sqrt`; `none` is the division by zero when no axis has
more than one cell. -/
def courantLength (rt : K → K) (lx ly lz nx ny nz : K) : Option K :=
  let w1 : K := 0
  let w1 := if 1 < nx then w1 + (nx / lx) * (nx / lx) else w1
  let w1 := if 1 < ny then w1 + (ny / ly) * (ny / ly) else w1
  let w1 := if 1 < nz then w1 + (nz / lz) * (nz / lz) else w1
  if w1 = 0 then none else some (rt (1 / w1))

/-! ### Specification -/

/-- Spec: any number of steps of the field solver. -/
inductive FieldSteps {n : ℕ} (F : World K n) [IsStrictOrderedRing K] : (m m' : Fin n → FMem K) → Prop
  | refl (m) : FieldSteps F m m
  | step {m m1 m'} : FieldSteps F m m1 → FieldStep F m1 m' → FieldSteps F m m'

/-- Spec: light in the medium is not faster than in vacuum. -/
def Slow (M : Medium K) : Prop := ∃ κ : K, ∀ a s, 0 ≤ (M.face a s).rmu a ∧ (M.face a s).rmu a ≤ κ ∧ κ ≤ (M.edge a s).eps a

/-- Spec: no current. -/
def NoCurrent {n : ℕ} (F : World K n) (m : Fin n → FMem K) : Prop :=
  ∀ r a c, EdgeOn (F r).g a c → m r (vox (F r).g c, .jf a) = 0

end

section
variable {K : Type} [Field K] [LinearOrder K] [IsStrictOrderedRing K]

lemma courantLength_some {rt : K → K} {l N : Fin 3 → K} {L : K}
    (h : courantLength rt (l 0) (l 1) (l 2) (N 0) (N 1) (N 2) = some L) :
    ∃ w1, w1 = (∑ a, if 1 < N a then (N a / l a) ^ 2 else 0) ∧ w1 ≠ 0 ∧ L = rt (1 / w1) := by
  refine ⟨_, rfl, ?_⟩
  have e : courantLength rt (l 0) (l 1) (l 2) (N 0) (N 1) (N 2) =
      if (∑ a, if 1 < N a then (N a / l a) ^ 2 else 0) = 0 then none
      else some (rt (1 / ∑ a, if 1 < N a then (N a / l a) ^ 2 else 0)) := by
    unfold courantLength
    simp only [Fin.sum_univ_three]
    by_cases h0 : 1 < N 0 <;> by_cases h1 : 1 < N 1 <;> by_cases h2 : 1 < N 2 <;>
      simp only [h0, h1, h2, if_true, if_false, sq, zero_add, add_zero]
  rw [e] at h
  by_cases hz : (∑ a, if 1 < N a then (N a / l a) ^ 2 else 0) = 0
  · rw [if_pos hz] at h; simp at h
  · rw [if_neg hz, Option.some.injEq] at h
    exact ⟨hz, h.symm⟩

/-- **C75, the limit.**  `courant_length` is the longest way light may go in a time step: a length `x` is at most the Courant
length if and only if the sum over the axes with more than one cell of the squares of `x` over the cell size is at most one;
then `x` is at most one cell along each of these axes. -/
theorem courant_length_limit {rt : K → K} (hrt : ∀ x, 0 ≤ x → 0 ≤ rt x ∧ rt x * rt x = x) {l N : Fin 3 → K} {L : K}
    (h : courantLength rt (l 0) (l 1) (l 2) (N 0) (N 1) (N 2) = some L) (x : K) (hx : 0 ≤ x) :
    (x ≤ L ↔ ∑ a, (if 1 < N a then (x * (N a / l a)) ^ 2 else 0) ≤ 1) ∧
      (x ≤ L → ∀ a, 1 < N a → |x * (N a / l a)| ≤ 1) := by
  have hw := courantLength_some h
  obtain ⟨w1, e1, e2, rfl⟩ := hw
  have w0 : 0 < w1 := by
    refine lt_of_le_of_ne ?_ e2.symm
    rw [e1]
    exact Finset.sum_nonneg fun a _ => by split_ifs <;> positivity
  have sum : ∑ a, (if 1 < N a then (x * (N a / l a)) ^ 2 else 0) = x * x * w1 := by
    rw [e1, Finset.mul_sum]
    exact Finset.sum_congr rfl fun a _ => by split_ifs <;> ring
  obtain ⟨r0, r1⟩ := hrt (1 / w1) (by positivity)
  have iff : x ≤ rt (1 / w1) ↔ ∑ a, (if 1 < N a then (x * (N a / l a)) ^ 2 else 0) ≤ 1 := by
    rw [sum, mul_self_le_mul_self_iff hx r0, r1, le_div_iff₀ w0]
  refine ⟨iff, fun h a ha => ?_⟩
  have h := iff.mp h
  have one : (x * (N a / l a)) ^ 2 ≤ 1 := by
    refine le_trans ?_ h
    have := Finset.single_le_sum (f := fun a => if 1 < N a then (x * (N a / l a)) ^ 2 else 0)
      (fun a _ => by split_ifs <;> positivity) (Finset.mem_univ a)
    simpa [ha] using this
  exact abs_le_one_iff_mul_self_le_one.mpr (by rw [← sq]; exact one)

variable {n : ℕ} {D : Decomp} (hD : D.ok n = true) (t0 : ℕ → ℤ → ℤ) {F : World K n}
  (hg : ∀ r : Fin n, gridOf D n t0 r = some (F r).g) (hS : SameCells F D)
  {C : Consts K} (hC : SameConsts F C) {M : Medium K} (hM : MadeOf D F M) (hR : Resolved D)

/-- The energy is between the leap energy and a multiple. -/
lemma leap_between (N : Pos) (C : Consts K) (M : Medium K) (hs : Slow M) (G : Fields K)
    (hc : (C.cvac * C.dt) ^ 2 * invLen2 N C ≤ 1) :
    leapEnergy N C M G ≤ energy N M G ∧
      (1 - (C.cvac * C.dt) ^ 2 * invLen2 N C) * energy N M G ≤ leapEnergy N C M G := by
  obtain ⟨κ, hκ⟩ := hs
  have q0 : 0 ≤ ∑ s ∈ sites N, ∑ a, (M.face a s).rmu a * curlE N C G a s ^ 2 :=
    Finset.sum_nonneg fun s _ => Finset.sum_nonneg fun a _ => mul_nonneg (hκ a s).1 (sq_nonneg _)
  have k2 : 0 ≤ (C.cvac * C.dt / 2) ^ 2 := sq_nonneg _
  refine ⟨by unfold leapEnergy; nlinarith [mul_nonneg k2 q0], ?_⟩
  have κ0 : 0 ≤ κ := (hκ 0 0).1.trans (hκ 0 0).2.1
  have inv0 : 0 ≤ invLen2 N C := Finset.sum_nonneg fun a _ => by split_ifs <;> positivity
  have q1 : ∑ s ∈ sites N, ∑ a, (M.face a s).rmu a * curlE N C G a s ^ 2 ≤ κ * ∑ s ∈ sites N, ∑ a, curlE N C G a s ^ 2 := by
    simp only [Finset.mul_sum]
    exact Finset.sum_le_sum fun s _ => Finset.sum_le_sum fun a _ => mul_le_mul_of_nonneg_right (hκ a s).2.1 (sq_nonneg _)
  have q2 := mul_le_mul_of_nonneg_left (curl_bound N C G) κ0
  have q3 : κ * ∑ s ∈ sites N, ∑ a, G (.e a) s ^ 2 ≤ ∑ s ∈ sites N, ∑ a, (M.edge a s).eps a * G (.e a) s ^ 2 := by
    simp only [Finset.mul_sum]
    exact Finset.sum_le_sum fun s _ => Finset.sum_le_sum fun a _ => mul_le_mul_of_nonneg_right (hκ a s).2.2 (sq_nonneg _)
  have q4 : 0 ≤ ∑ s ∈ sites N, ∑ a, (M.face a s).rmu a * G (.cb a) s ^ 2 :=
    Finset.sum_nonneg fun s _ => Finset.sum_nonneg fun a _ => mul_nonneg (hκ a s).1 (sq_nonneg _)
  have en : energy N M G = ∑ s ∈ sites N, ∑ a, (M.edge a s).eps a * G (.e a) s ^ 2 +
      ∑ s ∈ sites N, ∑ a, (M.face a s).rmu a * G (.cb a) s ^ 2 := by
    simp only [energy, Finset.sum_add_distrib]
  unfold leapEnergy
  rw [en]
  set A := ∑ s ∈ sites N, ∑ a, (M.edge a s).eps a * G (.e a) s ^ 2
  set B := ∑ s ∈ sites N, ∑ a, (M.face a s).rmu a * G (.cb a) s ^ 2
  set Q := ∑ s ∈ sites N, ∑ a, (M.face a s).rmu a * curlE N C G a s ^ 2
  set k := C.cvac * C.dt
  have l0 : 0 ≤ k ^ 2 * invLen2 N C := mul_nonneg (sq_nonneg _) inv0
  have q5 : Q ≤ 4 * invLen2 N C * A := by
    refine q1.trans (q2.trans ?_)
    have := mul_le_mul_of_nonneg_left q3 (by positivity : 0 ≤ 4 * invLen2 N C)
    linarith
  have q6 := mul_le_mul_of_nonneg_left q5 k2
  have q7 := mul_nonneg l0 q4
  nlinarith

include hD hg hS hC hM hR

/-- **C75.**  The field solver is stable below the Courant limit: without currents the energy of the fields, summed over all
ranks, stays below a fixed multiple of the initial one, over any number of steps. -/
theorem stable (hd : C.damp = 0) (hi : ∀ a s, Insulating (M.edge a s) a) (hs : Slow M)
    (hc : (C.cvac * C.dt) ^ 2 * invLen2 (sizeOf D) C < 1) {m m' : Fin n → FMem K} (h : Agreed D F m) (hj : NoCurrent F m)
    (hst : FieldSteps F m m') :
    ∑ r, rankEnergy (F r) (m' r) ≤ (1 / (1 - (C.cvac * C.dt) ^ 2 * invLen2 (sizeOf D) C)) * ∑ r, rankEnergy (F r) (m r) := by
  have key : Agreed D F m' ∧ (∀ r c, c ∈ rankCells (F r).g → ∀ a, m' r (vox (F r).g c, .jf a) = 0) ∧
      ∑ r, rankLeap (F r) (m' r) = ∑ r, rankLeap (F r) (m r) := by
    induction hst with
    | refl =>
      refine ⟨h, fun r c hc a => hj r a c ?_, rfl⟩
      exact Field.entOn_edge.2.2.mp ((cell_on hD t0 hg hc).2.2.1 a)
    | @step m1 m' _ h1 ih =>
      obtain ⟨i1, i2, i3⟩ := ih
      obtain ⟨p1, p2⟩ := poynting hD t0 hg hS hC hM hR hd hi i1 h1
      obtain ⟨G, hG⟩ := i1
      have hG' := step_global hD t0 hg hS hC hM hR hG h1
      refine ⟨p1, fun r c hc a => ?_, ?_⟩
      · have on := (cell_on hD t0 hg hc).2.2.1 a
        rw [hG' _ (.inr (.inr (.inr ⟨a, rfl⟩))) r c on]
        show G (.jf a) _ = 0
        rw [← hG _ (.inr (.inr (.inr ⟨a, rfl⟩))) r c on]
        exact i2 r c hc a
      · have w : ∀ m' : Fin n → FMem K, ∑ r, rankWork (F r) (m1 r) (m' r) = 0 := fun m' => Finset.sum_eq_zero fun r _ => by
          unfold rankWork
          rw [Finset.sum_eq_zero fun c hc => Finset.sum_eq_zero fun a _ => by rw [i2 r c hc a, zero_mul], mul_zero]
        rw [w] at p2
        rw [← i3]
        linarith
  obtain ⟨⟨G', hG'⟩, -, e⟩ := key
  obtain ⟨G, hG⟩ := h
  have b1 := (leap_between (sizeOf D) C M hs G hc.le).1
  have b2 := (leap_between (sizeOf D) C M hs G' hc.le).2
  rw [leap_global hD t0 hg hC hM hG', leap_global hD t0 hg hC hM hG] at e
  rw [energy_global hD t0 hg hM hG', energy_global hD t0 hg hM hG, one_div, inv_mul_eq_div, le_div_iff₀ (by linarith)]
  linarith

/-- **C75, as a deck sets it up.**  A time step of `f` times the Courant length of the global mesh over the speed of light,
`f < 1`: the energy stays below `1/(1-f²)` times the initial one. -/
theorem stable_below_courant_length (hd : C.damp = 0) (hi : ∀ a s, Insulating (M.edge a s) a) (hs : Slow M) {rt : K → K}
    (hrt : ∀ x, 0 ≤ x → 0 ≤ rt x ∧ rt x * rt x = x) {l : Fin 3 → K} (hrd : ∀ a, C.rd a = (sizeOf D a : K) / l a) {L f : K}
    (hL : courantLength rt (l 0) (l 1) (l 2) (sizeOf D 0) (sizeOf D 1) (sizeOf D 2) = some L) (hf0 : 0 ≤ f) (hf : f < 1)
    (hdt : C.cvac * C.dt = f * L) {m m' : Fin n → FMem K} (h : Agreed D F m) (hj : NoCurrent F m)
    (hst : FieldSteps F m m') :
    ∑ r, rankEnergy (F r) (m' r) ≤ (1 / (1 - f ^ 2)) * ∑ r, rankEnergy (F r) (m r) := by
  have L0 : 0 ≤ L := by
    obtain ⟨w1, e1, -, rfl⟩ := courantLength_some (N := fun a => (sizeOf D a : K)) hL
    refine (hrt _ ?_).1
    rw [e1]
    exact one_div_nonneg.mpr (Finset.sum_nonneg fun a _ => by split_ifs <;> positivity)
  have lim := ((courant_length_limit hrt (N := fun a => (sizeOf D a : K)) hL L L0).1).mp le_rfl
  have e : (C.cvac * C.dt) ^ 2 * invLen2 (sizeOf D) C = f ^ 2 * ∑ a, (if 1 < (sizeOf D a : K) then (L * ((sizeOf D a : K) / l a)) ^ 2 else 0) := by
    rw [hdt, invLen2, Finset.mul_sum, Finset.mul_sum]
    refine Finset.sum_congr rfl fun a _ => ?_
    rw [hrd]
    have : (1 < (sizeOf D a : K)) ↔ 1 < sizeOf D a := by exact_mod_cast Iff.rfl
    simp only [this]
    split_ifs <;> ring
  have f2 : f ^ 2 < 1 := by nlinarith
  have le : (C.cvac * C.dt) ^ 2 * invLen2 (sizeOf D) C ≤ f ^ 2 := by
    rw [e]
    nlinarith [sq_nonneg f]
  refine (stable hD t0 hg hS hC hM hR hd hi hs (lt_of_le_of_lt le f2) h hj hst).trans ?_
  obtain ⟨κ, hκ⟩ := hs
  obtain ⟨G, hG⟩ := h
  have en : 0 ≤ ∑ r, rankEnergy (F r) (m r) := by
    rw [energy_global hD t0 hg hM hG]
    exact Finset.sum_nonneg fun s _ => Finset.sum_nonneg fun a _ => add_nonneg
      (mul_nonneg (((hκ a s).1.trans (hκ a s).2.1).trans (hκ a s).2.2) (sq_nonneg _)) (mul_nonneg (hκ a s).1 (sq_nonneg _))
  refine mul_le_mul_of_nonneg_right ?_ en
  exact one_div_le_one_div_of_le (by linarith) (by linarith)

end

end Verif.Torus
