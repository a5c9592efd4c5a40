import Verif.Drift.ElProps

/-!
# Properties C126, C129: uniform fields do not change
-/
namespace Verif.Drift
open Verif.Place Verif.Streak Verif.Flow

/-- **C126 (uniform electric fields).** With electric fields that are uniform, of any strength and changing from half step to half step,
the magnetic field stays the same in every bit. -/
theorem quiet_b (p : Ratio) {b : Mag} (hb : ∀ i j k, rnd32 (b.x i j k) = b.x i j k ∧ rnd32 (b.y i j k) = b.y i j k ∧ rnd32 (b.z i j k) = b.z i j k)
    (Es : List (Fin 3 → ℚ)) : run p b (Es.map fun E => ⟨fun _ _ _ => E 0, fun _ _ _ => E 1, fun _ _ _ => E 2⟩) = b := by
  have one : ∀ b p q a c : ℚ, rnd32 b = b → upd b p a a q c c = b := by
    intro b p q a c h
    unfold upd
    rw [sub_self, sub_self, r_zero, mul_zero, mul_zero, r_zero, sub_self, r_zero, sub_zero, h]
  have step : ∀ E : Fin 3 → ℚ, advanceB p ⟨fun _ _ _ => E 0, fun _ _ _ => E 1, fun _ _ _ => E 2⟩ b = b := by
    intro E
    obtain ⟨x, y, z⟩ := b
    unfold advanceB
    congr 1 <;> funext i j k
    · exact one _ _ _ _ _ (hb i j k).1
    · exact one _ _ _ _ _ (hb i j k).2.1
    · exact one _ _ _ _ _ (hb i j k).2.2
  induction Es with
  | nil => rfl
  | cons E Es ih =>
    rw [List.map_cons]
    unfold run at ih ⊢
    rw [List.foldl_cons, step E]
    exact ih

/-- **C129 (uniform magnetic fields).** In vacuum without current, with magnetic fields that are uniform, of any strength and changing from
step to step, the electric field stays the same in every bit. -/
theorem quiet_e {m : Medium} (hm : m.Vacuum) {e : El}
    (he : ∀ i j k, rnd32 (e.x i j k) = e.x i j k ∧ rnd32 (e.y i j k) = e.y i j k ∧ rnd32 (e.z i j k) = e.z i j k) (Bs : List (Fin 3 → ℚ)) (t : El) :
    (runE m (t, e) (Bs.map fun B => (⟨fun _ _ _ => B 0, fun _ _ _ => B 1, fun _ _ _ => B 2⟩, ⟨fun _ _ _ => 0, fun _ _ _ => 0, fun _ _ _ => 0⟩))).2 = e := by
  obtain ⟨-, hd, hv, h0⟩ := hm
  have one : ∀ cj e t p q a c : ℚ, rnd32 e = e → newE 1 1 cj e (newT 0 t p a a q c c) 0 = e := by
    intro cj e t p q a c h
    unfold newE newT
    simp only [sub_self, r_zero, mul_zero, zero_mul, one_mul, h, add_zero]
  have step : ∀ (B : Fin 3 → ℚ) (t : El),
      advanceE m ⟨fun _ _ _ => B 0, fun _ _ _ => B 1, fun _ _ _ => B 2⟩ ⟨fun _ _ _ => 0, fun _ _ _ => 0, fun _ _ _ => 0⟩ t e = e := by
    intro B t
    obtain ⟨x, y, z⟩ := e
    simp only [advanceE, advanceT, hd, hv, h0]
    congr 1 <;> funext i j k
    · exact one _ _ _ _ _ _ _ (he i j k).1
    · exact one _ _ _ _ _ _ _ (he i j k).2.1
    · exact one _ _ _ _ _ _ _ (he i j k).2.2
  induction Bs generalizing t with
  | nil => rfl
  | cons B Bs ih =>
    rw [List.map_cons]
    unfold runE at ih ⊢
    rw [List.foldl_cons]
    simp only [step B t]
    exact ih _

/-- Fields of floats that vary from place to place. -/
example : ∀ i j k, rnd32 (wave.x i j k) = wave.x i j k ∧ rnd32 (wave.y i j k) = wave.y i j k ∧ rnd32 (wave.z i j k) = wave.z i j k := by
  intro i j k
  unfold wave
  refine ⟨?_, ?_, ?_⟩ <;> simp only <;> split_ifs <;> exact r_idem _

end Verif.Drift
