import Verif.Inject.Emit
import Mathlib.Data.Rat.Floor

/-!
# Injection and emission: concrete cases
-/
namespace Verif.Inject.Sample

open Grid
open MoveP (Part Mover MState)

/-- Example: a box of 4x6x4 cells on 2x3x1 ranks. -/
def D : Decomp := ⟨4, 6, 4, 2, 3, 1⟩

lemma D_ok : D.ok 6 = true := by decide

/-- Example: its extent. -/
def B : Box ℚ := ⟨![-1, 0, 0], ![1, 3, 1]⟩

lemma B_ok : ∀ k, B.lo k < B.hi k := by
  intro k
  fin_cases k <;> norm_num [B]

/-- Example: a position on the face between two ranks, in the box. -/
def x : Fin 3 → ℚ := ![0, 5 / 4, 1 / 3]

lemma x_in : InBox B (fun _ => False) x := by
  intro k
  fin_cases k <;> norm_num [B, x]

/-- Example: a particle injected on the face shared by two ranks is stored by one of six ranks. -/
theorem sample_inject : ∃ gr : ℕ → LGrid, (∀ r < 6, gridOf D 6 (fun _ _ => 0) r = some (gr r)) ∧
    ∃ r < 6, ∃ (c : Cell) (d : Fin 3 → ℚ), IsInterior D c ∧ (∀ k, position B D r c d k = x k) ∧
      (∀ rt fuel, ∃ s', injectParticle (gr r) (geomOf B D r 1) rt fuel ⟨⟨-1, 1, [], 5, [], 5⟩, fun _ => 0, fun _ _ => 0⟩ x (fun _ => 0)
        2 0 true = .ok s' ∧ s'.sp.p = [atCell (gr r) c d (fun _ => 0) 2]) ∧
      ∀ r' < 6, r' ≠ r → ∀ rt fuel s, injectParticle (gr r') (geomOf B D r' 1) rt fuel s x (fun _ => 0) 2 0 true = .ok s := by
  haveI : Nonempty LGrid := ⟨Deposit.exGrid⟩
  choose! gr hg hF using fun r hr => periodic_faces D 6 D_ok (fun _ _ => 0) r hr
  obtain ⟨r, hr, c, d, hc, _, hp, hs, _, ho⟩ := inject_where D_ok B B_ok (fun _ => False) gr hF x x_in 1
  refine ⟨gr, hg, r, hr, c, d, hc, hp, fun rt fuel => ?_, fun r' hr' hne rt fuel s => ho r' hr' hne rt fuel s _ _ _ _ (by norm_num)⟩
  obtain ⟨s', e, e1, _⟩ := hs rt fuel ⟨⟨-1, 1, [], 5, [], 5⟩, fun _ => 0, fun _ _ => 0⟩ (fun _ => 0) 2 true (by norm_num) (by simp)
  exact ⟨s', e, by rw [e1]; rfl⟩

/-- Example: at the upper end of a walled box. -/
example : InBox B (fun k => cells D k > 1) ![1, 3, 1] := by
  intro k
  fin_cases k <;> norm_num [B, cells, D]

/-- Example: a position at the upper end of a periodic box is not in it. -/
example : ¬ InBox B (fun _ => False) ![1, 1, 1 / 2] := by
  intro h
  have := h 0
  norm_num [B] at this

/-- Example: two emitting components of cells of the mesh with 2x1x3 cells, the lower x face of the first cell and the
upper z face of the second; a third component is an edge. -/
theorem sample_emit (rt : ℚ → ℚ) (fi : ℤ → Fin 3 → ℚ) :
    ∃ fuel0, ∀ fuel, fuel0 ≤ fuel → ∀ s : Sim ℚ, ∃ s' n m new,
      emitChildLangmuir Deposit.exGrid ⟨fun _ => 0, fun _ => 1, fun _ => 1, fun _ => 1, 1 / 8, 1 / 2⟩ rt fuel 1 ⟨2, 1, 1, 0, 1⟩ fi
        [(32 * 17 + 12, fun _ => ⟨1, 1, 1, 1 / 2, 0, 1⟩), (32 * 18 + 22, fun _ => ⟨1, 1, 1, 1 / 2, 0, 1⟩),
          (32 * 17 + 9, fun _ => ⟨1, 1, 1, 1 / 2, 0, 1⟩)] s = .ok (s', n, m) ∧ s'.sp.p = s.sp.p ++ new ∧ (Fits s.sp → Fits s'.sp) := by
  obtain ⟨f0, h⟩ := emit_storage_and_charge Deposit.exGrid_mesh ⟨fun _ => 0, fun _ => 1, fun _ => 1, fun _ => 1, 1 / 8, 1 / 2⟩ rt 1
    ⟨2, 1, 1, 0, 1⟩ fi [(32 * 17 + 12, fun _ => ⟨1, 1, 1, 1 / 2, 0, 1⟩), (32 * 18 + 22, fun _ => ⟨1, 1, 1, 1 / 2, 0, 1⟩),
          (32 * 17 + 9, fun _ => ⟨1, 1, 1, 1 / 2, 0, 1⟩)] (by
      intro y hy
      simp only [List.mem_cons, List.not_mem_nil, or_false] at hy
      rcases hy with rfl | rfl | rfl
      · exact ⟨⟨1, 1, 1⟩, by unfold Cell.Interior; decide, by decide⟩
      · exact ⟨⟨2, 1, 1⟩, by unfold Cell.Interior; decide, by decide⟩
      · exact ⟨⟨1, 1, 1⟩, by unfold Cell.Interior; decide, by decide⟩) (by
      intro y hy n
      simp only [List.mem_cons, List.not_mem_nil, or_false] at hy
      rcases hy with rfl | rfl | rfl <;> exact ⟨by norm_num, by norm_num, by norm_num, by norm_num⟩)
  refine ⟨f0, fun fuel hf s => ?_⟩
  obtain ⟨s', n, m, new, e, e1, e2, _⟩ := h fuel hf s
  exact ⟨s', n, m, new, e, e1, e2⟩

end Verif.Inject.Sample
