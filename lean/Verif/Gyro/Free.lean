import Verif.Gyro.Kick

/-!
# Properties C127, C128: where the rounding has no effect
-/
namespace Verif.Gyro
open Verif.Place Verif.Streak Verif.Flow Verif.Drift

lemma crossAdd_parallel (c : ℚ) {u b : Fin 3 → ℚ} (hu : ∀ k, rnd32 (u k) = u k) (h : ∀ i j, u i * b j = u j * b i) : crossAdd c u u b = u := by
  funext k
  unfold crossAdd
  rw [h (k + 1) (k + 2), sub_self, r_zero, mul_zero, r_zero, add_zero, hu]

/-- **C127 (along the field).** A momentum along the magnetic field, or any momentum without one, is not changed in a single bit. -/
theorem parallel_exact (rt : ℚ → ℚ) (qdt : ℚ) {u b : Fin 3 → ℚ} (hu : ∀ k, rnd32 (u k) = u k) (h : ∀ i j, u i * b j = u j * b i) :
    boris rt qdt b u = u := by
  unfold boris rotate
  rw [crossAdd_parallel _ hu h, crossAdd_parallel _ hu h]

/-- **C128 (a uniform magnetic field).** A particle in a uniform magnetic field sees it without any error. -/
theorem bAt_uniform {B : Fin 3 → ℚ} (hB : ∀ n, rnd32 (B n) = B n) (i j k : ℤ) (d : Fin 3 → ℚ) :
    bAt ⟨fun _ _ _ => B 0, fun _ _ _ => B 1, fun _ _ _ => B 2⟩ i j k d = B := by
  have one : ∀ a s : ℚ, rnd32 a = a → seenB a a s = a := by
    intro a s ha
    unfold seenB
    have e : (1 : ℚ) / 2 * (a + a) = a := by ring
    rw [r_double ha, e, ha, sub_self, r_zero, mul_zero, r_zero, mul_zero, r_zero, add_zero, ha]
  funext n
  fin_cases n <;> simp only [bAt] <;> exact one _ _ (hB _)

/-- No electric field. -/
def noE : El := ⟨fun _ _ _ => 0, fun _ _ _ => 0, fun _ _ _ => 0⟩

/-- **C128 (free particles).** Without fields the momentum of a particle stays the same in every bit, over any number of steps and
wherever it is. -/
theorem free_exact (rt : ℚ → ℚ) (qdt : ℚ) {u : Fin 3 → ℚ} (hu : ∀ k, rnd32 (u k) = u k) (at_ : List ((ℤ × ℤ × ℤ) × (Fin 3 → ℚ))) :
    at_.foldl (fun u a => advU rt qdt (eAt noE a.1.1 a.1.2.1 a.1.2.2 a.2) (bAt Drift.none a.1.1 a.1.2.1 a.1.2.2 a.2) u) u = u := by
  have he : ∀ i j k d, eAt noE i j k d = fun _ => 0 := by
    intro i j k d
    exact eAt_uniform (E := fun _ => 0) (fun _ => r_zero) i j k d
  have hb : ∀ i j k d, bAt Drift.none i j k d = fun _ => 0 := by
    intro i j k d
    funext n
    fin_cases n <;> simp [bAt, seenB, Drift.none, r_zero]
  have hk : ∀ v : Fin 3 → ℚ, (∀ k, rnd32 (v k) = v k) → kicked qdt (fun _ => 0) v = v := by
    intro v hv
    funext k
    unfold kicked
    rw [mul_zero, r_zero, add_zero, hv]
  induction at_ with
  | nil => rfl
  | cons a l ih =>
    rw [List.foldl_cons]
    have : advU rt qdt (eAt noE a.1.1 a.1.2.1 a.1.2.2 a.2) (bAt Drift.none a.1.1 a.1.2.1 a.1.2.2 a.2) u = u := by
      rw [he, hb]
      unfold advU
      rw [hk u hu, parallel_exact rt qdt hu (by simp), hk u hu]
    rw [this]
    exact ih

/-- A momentum along a field that is not along an axis. -/
example : (∀ k, rnd32 ((![3, -6, 3 / 2] : Fin 3 → ℚ) k) = (![3, -6, 3 / 2] : Fin 3 → ℚ) k) ∧
    ∀ i j, (![3, -6, 3 / 2] : Fin 3 → ℚ) i * (![2, -4, 1] : Fin 3 → ℚ) j = (![3, -6, 3 / 2] : Fin 3 → ℚ) j * (![2, -4, 1] : Fin 3 → ℚ) i := by
  decide +kernel

end Verif.Gyro
