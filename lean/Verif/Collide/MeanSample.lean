import Verif.Collide.MeanBinary
import Verif.Collide.Sample

/-!
# Samples for C119
-/
namespace Verif.Collide
open Verif.Collision Verif.SortP

/-- A light and a heavy electron in the only cell of the smallest mesh. -/
noncomputable def unequalElectrons : ℕ → Species ℤ ℝ := fun _ =>
  { np := 2, p := fun j => ⟨13, if j = 0 then ![1, 0, 0] else ![0, 1, 0], if j = 0 then 1 else 3⟩, part := fun _ => 7, last := -1 }

lemma unequalElectrons_sane (step : ℤ) (h : 0 ≤ step) (d : ℕ) : Sane (fun v => v) 1 1 1 step (unequalElectrons d) := by
  refine ⟨?_, fun e => ?_⟩
  · intro x hx
    simp only [Species.parts, unequalElectrons, List.mem_map] at hx
    obtain ⟨i, -, rfl⟩ := hx
    norm_num
  · have : (-1 : ℤ) = step := e
    omega

-- The hypotheses of `takizuka_abe_mean` are met by particles of different weights in a step in which the operator is due.
example (R : Distribute.Rounding) (hR : R.Accurate) (S : Schedules (Part ℤ ℝ)) (g : Scratch (Part ℤ ℝ)) :
    ∃ (gens : ℕ → TAGen ℝ) (ns : ℕ → ℕ) (out : (ℕ → List ℝ) → ℕ → Species ℤ ℝ),
      (∀ rss : ℕ → List ℝ, (∀ r < 2, (rss r).length = ns r) →
        applyOp (libSort R (fun v => v) S g 2 1 1 1) 1 1 1 2 6 (taOp realTA 3 (regen gens rss)) unequalElectrons = some (out rss)) ∧
      ∀ i, pipeMean ns (List.range 2) (fun rss => cellMom (fun v => v) (fun _ => 1) (out rss) 0 13 i) = ![1, 3, 0] i := by
  obtain ⟨gens, st', h⟩ := takizuka_abe_completes (fun v => v) realTA 3 1 1 1 2 le_rfl le_rfl le_rfl (by norm_num) (by norm_num)
    R hR S g 6 unequalElectrons (fun _ => by norm_num [unequalElectrons]) (fun d => unequalElectrons_sane 6 (by norm_num) d)
  obtain ⟨ns, out, h1, h2⟩ := takizuka_abe_mean (fun v => v) realTA realTA_ok 3 gens 1 1 1 2 le_rfl le_rfl le_rfl (by norm_num)
    (by norm_num) R hR S g 6 unequalElectrons st' (fun _ => by norm_num [unequalElectrons])
    (fun d => unequalElectrons_sane 6 (by norm_num) d) (by
      intro c _ p hp
      simp only [Species.parts, unequalElectrons, List.mem_map] at hp
      obtain ⟨i, -, rfl⟩ := hp
      simp only
      split_ifs <;> norm_num) h
  refine ⟨gens, ns, out, h1, fun i => ?_⟩
  have := (h2 13).1 i
  simp only [realTA, Finset.insert_eq_of_mem, Finset.mem_singleton, Finset.sum_singleton] at this
  rw [this]
  unfold cellMom
  rw [cell_map]
  fin_cases i <;> simp [unequalElectrons, Finset.sum_range_succ]

-- In a single collision of particles of weights 1 and 3 momentum is not conserved when the number is above one third: the
-- statement about the average is not a statement about every run.
example (r : ℝ) (hr : 1 < 3 * r) :
    (takizukaAbe Real.sqrt 0 1 1 2 1 1 0 r 1 3 ![1, 0, 0] ![0, 0, 0]).2 = ![0, 0, 0] := by
  unfold takizukaAbe
  have : (1 : ℝ) < 3 ∧ 3 * r > 1 := ⟨by norm_num, hr⟩
  simp only [if_pos this, zero_mul, sub_zero]

example (r : ℝ) : (takizukaAbe Real.sqrt 0 1 1 2 1 1 0 r 1 3 ![1, 0, 0] ![0, 0, 0]).1 0 = 1 / 2 := by
  unfold takizukaAbe
  have h : ¬ ((3 : ℝ) < 1 ∧ 1 * r > 3) := fun h => absurd h.1 (by norm_num)
  have hn : normSq (fun k => (![1, 0, 0] : Fin 3 → ℝ) k - (![0, 0, 0] : Fin 3 → ℝ) k) = 1 := by
    simp [normSq]
  simp only [if_neg h, hn, Real.sqrt_one]
  have h2 : (![1, 0, 0] : Fin 3 → ℝ) 2 - (![0, 0, 0] : Fin 3 → ℝ) 2 = 0 := by simp
  simp [tvec, cross, axes, h2]
  norm_num

end Verif.Collide
