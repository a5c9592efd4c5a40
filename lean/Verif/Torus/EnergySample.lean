import Verif.Torus.Courant

/-!
# Concrete cases for the energy balance and stability
-/
namespace Verif.Torus

open Grid
open Field (Pos FC FMem World EntOn fieldExt vox EdgeOn)

/-- Steps of the field solver exist, any number of them. -/
theorem field_steps_run {K : Type} [Field K] [LinearOrder K] [IsStrictOrderedRing K] {n : ℕ} {D : Decomp}
    (hD : D.ok n = true) (t0 : ℕ → ℤ → ℤ) {F : World K n} (hg : ∀ r : Fin n, gridOf D n t0 r = some (F r).g)
    (hS : Field.SameCells F D) (m : Fin n → FMem K) (k : ℕ) : ∃ ms : ℕ → Fin n → FMem K, ms 0 = m ∧
      (∀ i, FieldStep F (ms i) (ms (i + 1))) ∧ FieldSteps F m (ms k) := by
  have one : ∀ m : Fin n → FMem K, ∃ m', FieldStep F m m' := by
    intro m
    obtain ⟨m', h⟩ := ops_run hD t0 hg hS [.b (1 / 2), .e, .b (1 / 2)] m
    cases h with
    | cons a1 a2 =>
      cases a2 with
      | cons a2 a3 =>
        cases a3 with
        | cons a3 a4 => cases a4; exact ⟨m', _, _, a1, a2, a3⟩
  choose f hf using one
  refine ⟨fun i => f^[i] m, rfl, fun i => ?_, ?_⟩
  · show FieldStep F (f^[i] m) (f^[i + 1] m)
    rw [Function.iterate_succ_apply']
    exact hf _
  · show FieldSteps F m (f^[k] m)
    induction k with
    | zero => exact .refl _
    | succ k ih => rw [Function.iterate_succ_apply']; exact .step ih (hf _)

/-- C74 and C75 on a concrete mesh of 4 by 4 by 2 cells on 2 by 2 by 1 ranks, for any fields and any number of steps. -/
example (G : Fields ℚ) (k : ℕ) : ∃ (F : World ℚ 4) (ms ms0 : ℕ → Fin 4 → FMem ℚ),
    (∀ i, FieldStep F (ms i) (ms (i + 1))) ∧ (∀ i, FieldStep F (ms0 i) (ms0 (i + 1))) ∧
    (∀ k, Holds ⟨4, 4, 2, 2, 2, 1⟩ F (ms 0) G k) ∧
    (∀ k, (∀ a, k ≠ .jf a) → Holds ⟨4, 4, 2, 2, 2, 1⟩ F (ms0 0) G k) ∧
    (∑ r, rankLeap (F r) (ms 1 r) - ∑ r, rankLeap (F r) (ms 0 r) = - ∑ r, rankWork (F r) (ms 0 r) (ms 1 r)) ∧
    ∑ r, rankEnergy (F r) (ms0 k r) ≤ 4 * ∑ r, rankEnergy (F r) (ms0 0 r) := by
  have hD : (⟨4, 4, 2, 2, 2, 1⟩ : Decomp).ok 4 = true := by decide
  obtain ⟨g, hg⟩ := grids_exist hD
  have hS := plain_same ⟨4, 4, 2, 2, 2, 1⟩ (by decide) g
  obtain ⟨m, h⟩ := holds_exists hD _ (F := plain g) hg G
  obtain ⟨m0, h0⟩ := holds_exists hD _ (F := plain g) hg fun k s => match k with | .jf _ => 0 | k => G k s
  obtain ⟨ms, e1, e2, -⟩ := field_steps_run hD _ (F := plain g) hg hS m k
  obtain ⟨ms0, f1, f2, f3⟩ := field_steps_run hD _ (F := plain g) hg hS m0 k
  have hR : Resolved ⟨4, 4, 2, 2, 2, 1⟩ := by unfold Resolved; decide
  have ins : ∀ a s, Insulating (plainMedium.edge a s) a := fun a s => by simp [Insulating, plainMedium]
  refine ⟨plain g, ms, ms0, e2, f2, by rw [e1]; exact h, ?_, ?_, ?_⟩
  · intro k hk
    rw [f1]
    have := h0 k
    cases k <;> first | exact this | exact absurd rfl (hk _)
  · exact (poynting hD _ hg hS (plain_consts g) (plain_made _ g) hR rfl ins ⟨G, fun k _ => by rw [e1]; exact h k⟩ (e2 0)).2
  · have inv : invLen2 (sizeOf ⟨4, 4, 2, 2, 2, 1⟩) plainConsts = 3 := by
      have : ∀ a, (1 : ℤ) < sizeOf ⟨4, 4, 2, 2, 2, 1⟩ a := by decide
      simp [invLen2, this, plainConsts]
    have := stable hD _ hg hS (plain_consts g) (plain_made _ g) hR rfl ins
      ⟨1, fun a s => by simp [plainMedium]⟩ (by rw [inv]; norm_num [plainConsts]) (m := m0) (m' := ms0 k)
      ⟨_, fun k _ => h0 k⟩ (fun r a c hc => h0 (.jf a) r c (Field.entOn_edge.2.2.mpr hc)) f3
    rw [inv] at this
    rw [f1]
    refine this.trans (le_of_eq ?_)
    norm_num [plainConsts]

/-- The Courant length of a box of 4 by 1 by 1 cells of half a unit. -/
example : courantLength Real.sqrt 2 1 1 4 1 1 = some (Real.sqrt (1 / 4)) ∧
    ∀ x, 0 ≤ x → 0 ≤ Real.sqrt x ∧ Real.sqrt x * Real.sqrt x = x := by
  refine ⟨?_, fun x hx => ⟨Real.sqrt_nonneg x, Real.mul_self_sqrt hx⟩⟩
  norm_num [courantLength]

end Verif.Torus
