import Verif.Vector.Layout
import Verif.Vector.Neon

/-! Cases that meet the hypotheses of the theorems of `Verif/Vector`. -/
namespace Verif.Vector

/-- Memory that holds at each address its number. -/
def tape : Memory ℕ := id

/-- Rows of four words, aligned and apart. -/
def rows4 : Fin 1 → Fin 4 → ℕ := fun _ l => 20 * l + 4

example : (∀ q l, rows4 q l % 4 = 0) ∧ Apart 4 rows4 := by
  refine ⟨by decide, ?_⟩
  intro q l q' l' j j' e
  have := j.2
  have := j'.2
  replace e : 20 * (l : ℕ) + 4 + j = 20 * l' + 4 + j' := e
  exact ⟨Subsingleton.elim _ _, Fin.ext (by omega), Fin.ext (by omega)⟩

example : (V4Sse.load_4x4_tr tape rows4).map (fun r => (r 0 0 0, r 0 0 1, r 3 0 0, r 2 0 3)) = some (4, 24, 7, 66) := by decide +kernel
example : V4Sse.load_4x4_tr tape (fun _ l => 20 * l + 3) = none := by decide +kernel
example : V4Portable.load_4x4_tr tape (fun _ l => 20 * l + 3) 1 0 2 = 44 := by decide +kernel

/-- Rows of sixteen words for vectors of sixteen. -/
def rows16 : Fin 4 → Fin 4 → ℕ := fun q l => 32 * (4 * q + l)

example : (∀ q l, rows16 q l % 16 = 0) ∧ Apart 16 rows16 := by
  refine ⟨by decide, ?_⟩
  intro q l q' l' j j' e
  have := j.2
  have := j'.2
  replace e : 32 * (4 * (q : ℕ) + l) + j = 32 * (4 * q' + l') + j' := e
  exact ⟨Fin.ext (by omega), Fin.ext (by omega), Fin.ext (by omega)⟩

example : (V16Avx512.load_16x16_tr tape rows16).map (fun r => (r 0 0 0, r 5 1 2, r 15 3 3)) = some (0, 197, 495) := by decide +kernel
example : (V16Avx512.load_16x8_tr_p tape fun q l => 16 * (4 * q + l)).map (fun r => (r 0 0 1, r 5 1 2, r 7 3 3)) = some (8, 53, 127) := by decide +kernel

/-- Pairs of particles do not overlap. -/
example : Apart 8 (pairs fun q l => 16 * (4 * q + l)) := by
  intro q l q' l' j j' e
  have := j.2
  have := j'.2
  simp only [pairs] at e
  exact ⟨Fin.ext (by omega), Fin.ext (by omega), Fin.ext (by omega)⟩

/-- Two places that do not overlap. -/
example : SameOrApart 16 0 32 := Or.inr (Or.inl (by decide))
example : V16Portable.swap_16x1 tape 0 32 5 = 37 ∧ V16Portable.swap_16x1 tape 0 32 37 = 5 ∧ V16Portable.swap_16x1 tape 0 32 20 = 20 := by decide +kernel

/-- Fields: the array starts at 64 words, the voxels of a row. -/
example : Start 64 ∧ Part 4 ∧ (∀ q l q' l' : Fin 4, 7 + (4 * q.val + l) = 7 + (4 * q' + l') → q = q' ∧ l = l') :=
  ⟨by unfold Start; decide, Or.inr (Or.inl rfl), by decide⟩
example : (7 + (4 * 0 + 0)) % 4 ≠ (7 + (4 * 0 + 1)) % 4 := by decide
example : (V8Avx.load_8x4_tr tape fun q l => fieldAt 64 (7 + (4 * q + l)) 4).map (fun r => (r 0 0 0, r 2 1 3)) = some (208, 350) := by decide +kernel
example : V16Avx512.load_16x3_tr tape (fun q l => fieldAt 64 (7 + (4 * q + l)) 4) = none := by decide +kernel

/-- Rows of eight words, one behind the other in pairs, as `load_4x8_tr` of `v4_neon.h` wants them. -/
example : V4Neon.load_4x8_tr tape (fun _ l => 8 * l) 5 0 3 = 29 := by decide +kernel

end Verif.Vector
