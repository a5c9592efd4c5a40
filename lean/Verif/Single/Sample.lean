import Verif.Single.Props

/-!
A concrete case for C89: five particles on two pipelines, of which the third has rate 0 and the fifth
a probability above one.
-/
namespace Verif.Single

open Verif.Distribute

/-- Collision rate 1/4 per particle number, stored in the weight. -/
def cm₀ : Unary ℚ ℕ where
  rate p := p.w
  collision p g := ({ p with u := fun a => - p.u a }, g + 1)

/-- A generator that returns 0, 1/4, 1/2, 3/4, 0, … -/
def c0₀ (g : ℕ) : ℚ × ℕ := ((g % 4 : ℕ) / 4, g + 1)

/-- Weights 1/2, 1, 0, 1/4, 3. -/
def mem₀ : Mem ℚ (ℕ × ℕ)
  | .part i => ⟨fun _ => 0, 26 + i, fun _ => 1,
      if i = 0 then 1 / 2 else if i = 1 then 1 else if i = 2 then 0 else if i = 3 then 1 / 4 else 3⟩
  | .gen r => (r, 7)

/-- One of the schedules. -/
def mem₁ : Mem ℚ (ℕ × ℕ) :=
  runSeq ((List.range 2).map (pipeline fmaRounding 5 2 unaryStart
    (unaryTreat cm₀ c0₀ (1 * ((3 : ℤ) : ℚ))))).flatten mem₀

def warn₁ : ℕ := ((List.range 2).map fun r => (mem₁ (.gen r)).2).sum

/-- There is an application that meets the hypotheses of `unary_applied`. -/
theorem sample_unary :
    ApplyUnary fmaRounding 5 2 cm₀ c0₀ 1 (fun z => (z : ℚ)) 3 6 mem₀ mem₁ warn₁ := by
  unfold ApplyUnary
  rw [if_neg (by decide)]
  exact ⟨runs_seq _ _, rfl⟩

theorem c0₀_range (g : ℕ) : 0 ≤ (c0₀ g).1 ∧ (c0₀ g).1 < 1 := by
  have h : g % 4 < 4 := Nat.mod_lt _ (by norm_num)
  have h' : ((g % 4 : ℕ) : ℚ) < 4 := by exact_mod_cast h
  constructor
  · simp only [c0₀]; positivity
  · simp only [c0₀]; rw [div_lt_one (by norm_num)]; exact h'

/-- The particle with rate 0 keeps its momentum, the one with probability 9 is reversed, and the
warning counts the three particles with probability 3/2, 3 and 9. -/
example : (mem₁ (.part 2)).u 0 = 1 ∧ (mem₁ (.part 4)).u 0 = -1 ∧ warn₁ = 3 := by
  obtain ⟨h, _, _, hw⟩ := (unary_applied fmaRounding fmaRounding_accurate 5 2 (by norm_num)
    (by norm_num) (by norm_num) cm₀ c0₀ 1 (fun z => (z : ℚ)) (fun g => (c0₀_range g).1)
    (fun g => (c0₀_range g).2) 3 6 mem₀ mem₁ warn₁ sample_unary).2 (by norm_num) (by norm_num)
  refine ⟨?_, ?_, ?_⟩
  · rw [(h 2 (by norm_num) (by norm_num)).2.1 (by simp [cm₀, mem₀])]
    rfl
  · obtain ⟨g, hg⟩ := (h 4 (by norm_num) (by norm_num)).2.2 (by simp [cm₀, mem₀]; norm_num)
    rw [hg]
    rfl
  · rw [hw]
    decide +kernel

/-- The Langevin operator with three generators for two pipelines; a pool with one generator. -/
example (nrm : ℕ → ℝ × ℕ) (m : Mem ℝ ℕ) :
    (∃ out, ApplyLangevin fmaRounding 5 2 3 nrm 1 1 1 1 1 3 6 m = some out ∧ ∃ m', out m') ∧
    ApplyLangevin fmaRounding 5 2 1 nrm 1 1 1 1 1 3 6 m = none := by
  obtain ⟨out, h1, h2, _⟩ := langevin_applied fmaRounding fmaRounding_accurate 5 2 3 (by norm_num)
    (by norm_num) (by norm_num) nrm 1 1 1 1 1 3 6 (by norm_num) m
  exact ⟨⟨out, h1, h2⟩, (langevin_small_pool_undefined fmaRounding 5 2 1 (by norm_num) nrm 1 1 1 1 1
    (by norm_num) (by norm_num) 3 6 (by norm_num) (by norm_num) m).2⟩

/-- At the speed of light 2 the bath is not at the temperature asked for. -/
example : lawAfter 1 1 2 1 (ProbabilityTheory.gaussianReal 0 (.mk (1 / (1 * 2 ^ 2)) (by positivity))) 1
    ≠ ProbabilityTheory.gaussianReal 0 (.mk (1 / (1 * 2 ^ 2)) (by positivity)) := by
  intro h
  have := (langevin_temperature 1 1 2 1 (by norm_num) (by norm_num) (by norm_num) (by norm_num)).mp h
  norm_num at this

end Verif.Single
