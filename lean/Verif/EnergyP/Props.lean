import Verif.EnergyP.Model
import Mathlib.Algebra.BigOperators.Group.Finset.Basic
import Mathlib.Algebra.Order.BigOperators.Group.Finset
import Mathlib.Tactic.FieldSimp
import Mathlib.Tactic.Positivity
import Mathlib.Tactic.Linarith
import Mathlib.Tactic.LinearCombination
import Mathlib.Tactic.FinCases
import Mathlib.Data.Fintype.Basic
import Mathlib.Analysis.Real.Sqrt

/-!
# Kinetic energy of a species: properties (C64)
-/
namespace Verif.EnergyP

open MoveP Boris

variable {K : Type*} [Field K] [LinearOrder K] [IsStrictOrderedRing K]

/-- Spec: momentum of a particle after half an electric kick (normalised to `mc`). -/
def centredU (qdt_2mc : K) (f0 : ℤ → Interp K) (p : MoveP.Part K) : Fin 3 → K :=
  fun k => p.u k + halfE qdt_2mc (f0 p.i) p.d k

/-- Spec: squared Lorentz factor. -/
def gammaSq (u : Fin 3 → K) : K := 1 + (u 0 ^ 2 + u 1 ^ 2 + u 2 ^ 2)

omit [LinearOrder K] [IsStrictOrderedRing K] in
lemma foldl_add (l : List ℤ) (g : ℤ → K) (a : K) :
    l.foldl (fun en n => en + g n) a = a + (l.map g).sum := by
  induction l generalizing a with
  | nil => simp
  | cons x l ih => simp [ih, add_assoc]

omit [LinearOrder K] [IsStrictOrderedRing K] in
lemma foldl_add' (l : List K) (a : K) : l.foldl (fun en n => en + n) a = a + l.sum := by
  induction l generalizing a with
  | nil => simp
  | cons x l ih => simp [ih, add_assoc]

lemma sum_shares {α : Type*} (F : α → Option (List ℤ)) (g : ℤ → K) (l : List α) :
    (l.mapM fun p => (F p).map fun is => is.foldl (fun en n => en + g n) 0).map
      (fun en => en.foldl (fun loc x => loc + x) 0)
    = (l.mapM F).map fun ls => (ls.flatten.map g).sum := by
  simp only [foldl_add, foldl_add', zero_add]
  induction l with
  | nil => simp
  | cons a l ih =>
    simp only [List.mapM_cons, Option.pure_def, Option.bind_eq_bind]
    cases hF : F a with
    | none => simp
    | some is =>
      simp only [Option.map_some, Option.bind_some]
      cases h1 : l.mapM F with
      | none =>
        rw [h1] at ih
        simp only [Option.map_none, Option.map_eq_none_iff] at ih
        simp [ih]
      | some ls =>
        rw [h1] at ih
        simp only [Option.map_some] at ih
        obtain ⟨en, h2, h3⟩ := Option.map_eq_some_iff.1 ih
        simp [h2, h3]

/-- **C64.** Whatever the number of pipelines, the local energy is the sum over all particles,
each exactly once. -/
theorem energy_each_once (rt : K → K) (msp qdt_2mc : K) (f0 : ℤ → Interp K) (ps : ℤ → MoveP.Part K)
    (R : Distribute.Rounding) (hR : R.Accurate) (np P : ℕ) (hnp : np < 2 ^ 31) (hP : 0 < P)
    (hP2 : P ≤ 2 ^ 16) :
    energyP rt msp qdt_2mc f0 ps R np P
      = some (∑ n ∈ Finset.range np, energyOne rt msp qdt_2mc f0 (ps n)) := by
  have h := Distribute.distribute_exact R hR np 16 P hnp (by norm_num) hP hP2
  unfold Distribute.allItems at h
  obtain ⟨ls, h1, h2⟩ := Option.map_eq_some_iff.1 h
  unfold energyP energyRank
  rw [sum_shares (fun p => Distribute.items (Distribute.distribute R np 16 p P))
    (fun n => energyOne rt msp qdt_2mc f0 (ps n)), h1]
  simp only [Option.map_some, h2, Distribute.upTo, List.map_map]
  rfl

/-- **C64.** The result does not depend on the number of pipelines. -/
theorem energy_pipeline_independent (rt : K → K) (msp qdt_2mc : K) (f0 : ℤ → Interp K)
    (ps : ℤ → MoveP.Part K) (R R' : Distribute.Rounding) (hR : R.Accurate) (hR' : R'.Accurate)
    (np P P' : ℕ) (hnp : np < 2 ^ 31) (hP : 0 < P) (hP2 : P ≤ 2 ^ 16) (hP' : 0 < P')
    (hP2' : P' ≤ 2 ^ 16) :
    energyP rt msp qdt_2mc f0 ps R np P = energyP rt msp qdt_2mc f0 ps R' np P' := by
  rw [energy_each_once rt msp qdt_2mc f0 ps R hR np P hnp hP hP2,
    energy_each_once rt msp qdt_2mc f0 ps R' hR' np P' hnp hP' hP2']

/-- **C64.** With a square root that is right at the particle's squared Lorentz factor, a particle
of mass `m` and weight `w` contributes `m w (γ - 1)`, `γ` taken after half an electric kick. -/
theorem energyOne_eq (rt : K → K) (msp qdt_2mc : K) (f0 : ℤ → Interp K) (p : MoveP.Part K)
    (hrt : rt (gammaSq (centredU qdt_2mc f0 p)) ^ 2 = gammaSq (centredU qdt_2mc f0 p))
    (hrt0 : 0 ≤ rt (gammaSq (centredU qdt_2mc f0 p))) :
    energyOne rt msp qdt_2mc f0 p
      = msp * p.w * (rt (gammaSq (centredU qdt_2mc f0 p)) - 1) := by
  have e : ∀ a b c : K, a * a + b * b + c * c = a ^ 2 + b ^ 2 + c ^ 2 := by intros; ring
  simp only [gammaSq, centredU] at hrt hrt0
  simp only [energyOne, gammaSq, centredU, e]
  generalize hv : (p.u 0 + halfE qdt_2mc (f0 p.i) p.d 0) ^ 2 +
    (p.u 1 + halfE qdt_2mc (f0 p.i) p.d 1) ^ 2 + (p.u 2 + halfE qdt_2mc (f0 p.i) p.d 2) ^ 2 = v at *
  have h1 : (1 + rt (1 + v)) ≠ 0 := by positivity
  have h2 : v = rt (1 + v) ^ 2 - 1 := by rw [hrt]; ring
  congr 1
  rw [div_eq_iff h1]
  linear_combination h2

/-- **C64.** The local energy is non-negative for a non-negative mass and non-negative weights. -/
theorem energy_nonneg (rt : K → K) (msp qdt_2mc : K) (f0 : ℤ → Interp K) (ps : ℤ → MoveP.Part K)
    (R : Distribute.Rounding) (hR : R.Accurate) (np P : ℕ) (hnp : np < 2 ^ 31) (hP : 0 < P)
    (hP2 : P ≤ 2 ^ 16) (hrt : ∀ x, 1 ≤ x → 0 ≤ rt x) (hm : 0 ≤ msp)
    (hw : ∀ n : ℕ, n < np → 0 ≤ (ps n).w) :
    ∃ en, energyP rt msp qdt_2mc f0 ps R np P = some en ∧ 0 ≤ en := by
  refine ⟨_, energy_each_once rt msp qdt_2mc f0 ps R hR np P hnp hP hP2, ?_⟩
  refine Finset.sum_nonneg fun n hn => ?_
  simp only [energyOne]
  generalize hv : (_ * _ + _ * _ + _ * _ : K) = v
  have h0 : 0 ≤ v := by rw [← hv]; nlinarith [mul_self_nonneg ((ps n).u 0 + halfE qdt_2mc (f0 (ps n).i) (ps n).d 0), mul_self_nonneg ((ps n).u 1 + halfE qdt_2mc (f0 (ps n).i) (ps n).d 1), mul_self_nonneg ((ps n).u 2 + halfE qdt_2mc (f0 (ps n).i) (ps n).d 2)]
  have h1 : 0 ≤ rt (1 + v) := hrt _ (by linarith)
  have h2 := hw n (Finset.mem_range.1 hn)
  positivity

/-- **C64.** Energy zero exactly for a species at rest (after the half kick): with positive mass and
weights the local energy vanishes only if every particle has zero centred momentum. -/
theorem energy_zero_iff (rt : K → K) (msp qdt_2mc : K) (f0 : ℤ → Interp K) (ps : ℤ → MoveP.Part K)
    (R : Distribute.Rounding) (hR : R.Accurate) (np P : ℕ) (hnp : np < 2 ^ 31) (hP : 0 < P)
    (hP2 : P ≤ 2 ^ 16) (hrt : ∀ x, 1 ≤ x → 0 ≤ rt x) (hm : 0 < msp)
    (hw : ∀ n : ℕ, n < np → 0 < (ps n).w) :
    energyP rt msp qdt_2mc f0 ps R np P = some 0
      ↔ ∀ n : ℕ, n < np → ∀ k, centredU qdt_2mc f0 (ps n) k = 0 := by
  rw [energy_each_once rt msp qdt_2mc f0 ps R hR np P hnp hP hP2, Option.some_inj]
  have key : ∀ n : ℕ, n < np → 0 ≤ energyOne rt msp qdt_2mc f0 (ps n) ∧
      (energyOne rt msp qdt_2mc f0 (ps n) = 0 ↔ ∀ k, centredU qdt_2mc f0 (ps n) k = 0) := by
    intro n hn
    have h2 := hw n hn
    have e : energyOne rt msp qdt_2mc f0 (ps n) = (msp * (ps n).w) *
      ((centredU qdt_2mc f0 (ps n) 0 * centredU qdt_2mc f0 (ps n) 0 +
       centredU qdt_2mc f0 (ps n) 1 * centredU qdt_2mc f0 (ps n) 1 +
       centredU qdt_2mc f0 (ps n) 2 * centredU qdt_2mc f0 (ps n) 2) /
       (1 + rt (1 + (centredU qdt_2mc f0 (ps n) 0 * centredU qdt_2mc f0 (ps n) 0 +
       centredU qdt_2mc f0 (ps n) 1 * centredU qdt_2mc f0 (ps n) 1 +
       centredU qdt_2mc f0 (ps n) 2 * centredU qdt_2mc f0 (ps n) 2)))) := rfl
    rw [e]
    generalize centredU qdt_2mc f0 (ps n) = c
    have h0 : 0 ≤ c 0 * c 0 + c 1 * c 1 + c 2 * c 2 := by
      nlinarith [mul_self_nonneg (c 0), mul_self_nonneg (c 1), mul_self_nonneg (c 2)]
    have h1 : 0 ≤ rt (1 + (c 0 * c 0 + c 1 * c 1 + c 2 * c 2)) := hrt _ (by linarith)
    have h3 : 1 + rt (1 + (c 0 * c 0 + c 1 * c 1 + c 2 * c 2)) ≠ 0 := by positivity
    refine ⟨by positivity, ?_⟩
    rw [mul_eq_zero, div_eq_zero_iff]
    constructor
    · rintro (h | h | h)
      · exact absurd h (by positivity)
      · have a0 : c 0 * c 0 = 0 := by
          nlinarith [mul_self_nonneg (c 0), mul_self_nonneg (c 1), mul_self_nonneg (c 2)]
        have a1 : c 1 * c 1 = 0 := by
          nlinarith [mul_self_nonneg (c 0), mul_self_nonneg (c 1), mul_self_nonneg (c 2)]
        have a2 : c 2 * c 2 = 0 := by
          nlinarith [mul_self_nonneg (c 0), mul_self_nonneg (c 1), mul_self_nonneg (c 2)]
        intro k
        fin_cases k
        · exact mul_self_eq_zero.1 a0
        · exact mul_self_eq_zero.1 a1
        · exact mul_self_eq_zero.1 a2
      · exact absurd h h3
    · intro h
      right; left
      simp [h]
  rw [Finset.sum_eq_zero_iff_of_nonneg fun n hn => (key n (Finset.mem_range.1 hn)).1]
  exact ⟨fun h n hn => (key n hn).2.1 (h n (Finset.mem_range.2 hn)),
    fun h n hn => (key n (Finset.mem_range.1 hn)).2.2 (h n (Finset.mem_range.1 hn))⟩

/-- Over the reals with the real square root the hypotheses on `rt` hold for every particle. -/
theorem energyOne_real (msp qdt_2mc : ℝ) (f0 : ℤ → Interp ℝ) (p : MoveP.Part ℝ) :
    energyOne Real.sqrt msp qdt_2mc f0 p
      = msp * p.w * (Real.sqrt (gammaSq (centredU qdt_2mc f0 p)) - 1) := by
  apply energyOne_eq
  · apply Real.sq_sqrt
    unfold gammaSq; positivity
  · exact Real.sqrt_nonneg _

/-- A concrete case: 37 particles of weight 2, momentum (3/4,0,0) without fields and a square root
which is right at 25/16, mass 8, three pipelines: energy 37·8·2·(5/4-1) = 148. -/
theorem energy_example :
    energyP (K := ℚ) (fun _ => 5 / 4) 8 1 (fun _ => ⟨0,0,0,0,0,0,0,0,0,0,0,0,0,0,0,0,0,0⟩)
      (fun _ => ⟨fun _ => 0, 1, ![3 / 4, 0, 0], 2⟩) Distribute.doubleRounding 37 3 = some 148 := by
  rw [energy_each_once _ _ _ _ _ _ Distribute.doubleRounding_accurate 37 3 (by norm_num)
    (by norm_num) (by norm_num)]
  simp [energyOne, halfE]
  norm_num

end Verif.EnergyP
