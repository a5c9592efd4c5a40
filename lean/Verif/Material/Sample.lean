import Verif.Material.Stable
import Verif.Torus.EnergySample

/-!
# Concrete cases for the materials
-/
namespace Verif.Material

open Grid Torus
open Field (Pos FC FMem World MC)

/-- A crystal that conducts along z. -/
noncomputable def crystal : Mat := ⟨0, ![2, 3, 4], ![1, 1, 2], ![0, 0, 5], fun _ => 0⟩

/-- 2 by 2 by 2 cells per rank, half a cell of light per step. -/
noncomputable def sampleGrid : GridPar := ⟨![2, 2, 2], 1, 1 / 2, 1, fun _ => 1⟩

lemma crystal_passive : Passive crystal :=
  ⟨fun k => by fin_cases k <;> norm_num [crystal], fun k => by fin_cases k <;> norm_num [crystal],
    fun k => by fin_cases k <;> norm_num [crystal]⟩

lemma crystal_quiet : check sampleGrid crystal = .ok [] := by
  have e2 : crystal.eps 2 = 4 := rfl
  have m2 : crystal.mu 2 = 2 := rfl
  have n2 : sampleGrid.n 2 = 2 := rfl
  have e1 : crystal.eps 1 = 3 := rfl
  have m1 : crystal.mu 1 = 1 := rfl
  have n1 : sampleGrid.n 1 = 2 := rfl
  have e0 : crystal.eps 0 = 2 := rfl
  have m0 : crystal.mu 0 = 1 := rfl
  have n0 : sampleGrid.n 0 = 2 := rfl
  have c : cg2 sampleGrid crystal < 1 := by
    simp only [cg2, cdt2, minf, e0, e1, e2, m0, m1, m2, n0, n1, n2]
    norm_num [sampleGrid]
  have hp := crystal_passive
  unfold check
  rw [if_neg (by push Not; exact fun k => ⟨(hp.eps k).ne', (hp.mu k).ne'⟩), if_neg (by simp [crystal])]
  have a : ∀ k, ¬ crystal.sigma k / crystal.eps k < 0 := fun k => not_lt.mpr (div_nonneg (hp.sigma k) (hp.eps k).le)
  have b : ∀ j k, ¬ crystal.eps j * crystal.mu k < 0 := fun j k => not_lt.mpr (mul_pos (hp.eps j) (hp.mu k)).le
  simp only [a, b, not_le.mpr c, ge_iff_le, if_false, List.append_nil]

/-- Ranks filled with the crystal. -/
noncomputable def crystals {n : ℕ} (g : Fin n → LGrid) : World ℝ n := fun r =>
  ⟨g r, n, 1, 1 / 2, 1, fun _ => 1, fun _ => 1, 1, 0, fun _ => coefOf sampleGrid crystal, fun _ _ => 0, fun _ _ => 0, fun _ => 0⟩

/-- C78 on a concrete mesh of 4 by 4 by 2 cells on 2 by 2 by 1 ranks, for any fields and any number of steps. -/
example (G : Fields ℝ) (hj : ∀ a s, G (.jf a) s = 0) (k : ℕ) : ∃ (F : World ℝ 4) (ms : ℕ → Fin 4 → FMem ℝ),
    (∀ i, FieldStep F (ms i) (ms (i + 1))) ∧ (∀ k, Holds ⟨4, 4, 2, 2, 2, 1⟩ F (ms 0) G k) ∧
    ∑ r, rankEnergy (F r) (ms k r) ≤ 1 / (1 - cg2 sampleGrid crystal) * ∑ r, rankEnergy (effEnv (F r)) (ms 0 r) := by
  have hD : (⟨4, 4, 2, 2, 2, 1⟩ : Decomp).ok 4 = true := by decide
  obtain ⟨g, hg⟩ := grids_exist hD
  have hS : Field.SameCells (crystals g) ⟨4, 4, 2, 2, 2, 1⟩ :=
    ⟨fun _ => rfl, fun _ _ => rfl, fun _ _ => by norm_num [crystals], by decide⟩
  obtain ⟨m, h⟩ := holds_exists hD _ (F := crystals g) hg G
  obtain ⟨ms, f1, f2, f3⟩ := field_steps_run hD _ (F := crystals g) hg hS m k
  have hR : Resolved ⟨4, 4, 2, 2, 2, 1⟩ := by unfold Resolved; decide
  refine ⟨crystals g, ms, f2, by rw [f1]; exact h, ?_⟩
  rw [f1]
  refine (no_warning_stable hD _ hg hS (C := ⟨1, 1 / 2, 1, 0, fun _ => 1⟩)
    (M := ⟨fun _ _ => coefOf sampleGrid crystal, fun _ _ => coefOf sampleGrid crystal, fun _ => coefOf sampleGrid crystal⟩)
    ⟨fun _ => rfl, fun _ => rfl, fun _ => rfl, fun _ => rfl, fun _ => rfl⟩
    ⟨fun _ _ _ _ => rfl, fun _ _ _ _ => rfl, fun _ _ _ => rfl⟩ hR (g := sampleGrid) crystal_passive (fun _ => rfl) rfl
    (by norm_num [sampleGrid]) (by norm_num [sampleGrid]) ?_ rfl rfl rfl (fun _ _ => rfl) (fun _ _ => rfl) crystal_quiet
    (by simp) ⟨G, fun k _ => h k⟩ (fun r a c hc => ?_) f3).2.1
  · funext a
    fin_cases a <;> rfl
  · rw [h (.jf a) r c (Field.entOn_edge.2.2.mpr hc)]
    exact hj _ _

/-- C76 on the crystal: one material, numbered 0. -/
example : ∃ w P, createSfaParams sampleGrid [crystal] 0 = .ok (w, P) ∧ P.mc 0 = some (coefOf sampleGrid crystal) := by
  obtain ⟨w, P, h1, -, -, h2, -⟩ := table_spec sampleGrid (by norm_num [sampleGrid]) [crystal] 0 rfl (by
    intro m hm
    obtain rfl : m = crystal := by simpa using hm
    exact ⟨fun k => ⟨(crystal_passive.eps k).ne', (crystal_passive.mu k).ne'⟩, fun _ => rfl⟩)
  exact ⟨w, P, h1, h2 crystal (by simp)⟩

end Verif.Material
