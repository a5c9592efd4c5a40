import Verif.Rng.Model
import Mathlib.Tactic.Linarith
import Mathlib.Tactic.FieldSimp
import Mathlib.Tactic.Ring
import Mathlib.Tactic.NormNum
import Mathlib.Data.List.Perm.Basic
import Mathlib.Data.Nat.Cast.Order.Field

/-!
# Properties of the random number generators: C41 - C45
-/
namespace Verif.Rng

/-! ## C41 -/

lemma Format.scale (F : Format) (m : ℕ) (h : m ≤ 2 ^ F.p) (hp : F.p ≤ 100) :
    F.rnd (F.rnd (m : ℚ) * F.rnd (1 / 2 ^ F.p)) = m / 2 ^ F.p := by
  have h1 : F.rnd (m : ℚ) = m := by simpa using F.exact m 0 h (by omega)
  have h2 : F.rnd (1 / 2 ^ F.p) = 1 / 2 ^ F.p := by simpa using F.exact 1 F.p Nat.one_le_two_pow hp
  rw [h1, h2, mul_one_div, F.exact m F.p h hp]

lemma Format.half (F : Format) (k : ℕ) (h : k < 2 ^ (F.p - 1)) (hp : F.p ≤ 100) (hp1 : 1 ≤ F.p) :
    F.rnd (F.rnd (F.rnd (k : ℚ) + F.rnd (1 / 2)) * F.rnd (2 / 2 ^ F.p)) = (k + 1 / 2) / 2 ^ (F.p - 1) := by
  have h2p : 2 ^ F.p = 2 * 2 ^ (F.p - 1) := by
    rw [← pow_succ']; congr 1; omega
  have h2q : (2 : ℚ) ^ F.p = 2 * 2 ^ (F.p - 1) := by
    rw [← pow_succ']; congr 1; omega
  have h1 : F.rnd (k : ℚ) = k := by simpa using F.exact k 0 (by omega) (by omega)
  have hh : F.rnd (1 / 2) = 1 / 2 := by simpa using F.exact 1 1 Nat.one_le_two_pow (by omega)
  have h2 : F.rnd (2 / 2 ^ F.p) = 1 / 2 ^ (F.p - 1) := by
    have e : (2 : ℚ) / 2 ^ F.p = (1 : ℕ) / 2 ^ (F.p - 1) := by rw [h2q]; field_simp; simp
    rw [e, F.exact 1 (F.p - 1) Nat.one_le_two_pow (by omega)]; simp
  have h3 : F.rnd ((k : ℚ) + 1 / 2) = k + 1 / 2 := by
    have e : (k : ℚ) + 1 / 2 = (2 * k + 1 : ℕ) / 2 ^ 1 := by push_cast; ring
    rw [e, F.exact (2 * k + 1) 1 (by omega) (by omega)]
  have h4 : ((k : ℚ) + 1 / 2) * (1 / 2 ^ (F.p - 1)) = (2 * k + 1 : ℕ) / 2 ^ F.p := by
    rw [h2q]; push_cast; field_simp
  rw [h1, hh, h2, h3, h4, F.exact _ _ (by omega) hp, h2q]
  push_cast; field_simp

lemma lattice_eq_zero (m p : ℕ) : (m : ℚ) / 2 ^ p = 0 ↔ m = 0 := by
  rw [div_eq_zero_iff]; simp

lemma lattice_eq_one (m p : ℕ) : (m : ℚ) / 2 ^ p = 1 ↔ m = 2 ^ p := by
  rw [div_eq_one_iff_eq (by positivity)]; exact_mod_cast Iff.rfl

lemma lattice_lt_one (m p : ℕ) : (m : ℚ) / 2 ^ p < 1 ↔ m < 2 ^ p := by
  rw [div_lt_one (by positivity)]; exact_mod_cast Iff.rfl

lemma lattice_le_one (m p : ℕ) : (m : ℚ) / 2 ^ p ≤ 1 ↔ m ≤ 2 ^ p := by
  rw [div_le_one (by positivity)]; exact_mod_cast Iff.rfl

/-- C41 for single precision: the conversions are exact (no rounding takes place) and give the documented
lattice points; their values lie in the documented intervals and hit the endpoints exactly for the raw
numbers given. -/
theorem frand_intervals (F : Format) (hp : F.p = 24) (u : ℕ) (hu : u < 2 ^ 32) :
    (convFrand F u = ((u / 2 ^ 9 : ℕ) + 1 / 2) / 2 ^ 23 ∧ 0 < convFrand F u ∧ convFrand F u < 1) ∧
    (convFrandC0 F u = (u / 2 ^ 8 : ℕ) / 2 ^ 24 ∧ 0 ≤ convFrandC0 F u ∧ convFrandC0 F u < 1 ∧
      (convFrandC0 F u = 0 ↔ u < 2 ^ 8)) ∧
    (convFrandC1 F u = (u / 2 ^ 8 + 1 : ℕ) / 2 ^ 24 ∧ 0 < convFrandC1 F u ∧ convFrandC1 F u ≤ 1 ∧
      (convFrandC1 F u = 1 ↔ 2 ^ 32 - 2 ^ 8 ≤ u)) ∧
    (convFrandC F u = (u / 2 ^ 8 + u % 2 : ℕ) / 2 ^ 24 ∧ 0 ≤ convFrandC F u ∧ convFrandC F u ≤ 1 ∧
      (convFrandC F u = 0 ↔ u < 2 ^ 8 ∧ u % 2 = 0) ∧
      (convFrandC F u = 1 ↔ 2 ^ 32 - 2 ^ 8 ≤ u ∧ u % 2 = 1)) := by
  have hk9 : u / 2 ^ 9 < 2 ^ 23 := by omega
  have hk8 : u / 2 ^ 8 < 2 ^ 24 := by omega
  refine ⟨?_, ?_, ?_, ?_⟩
  · have e : convFrand F u = ((u / 2 ^ 9 : ℕ) + 1 / 2) / 2 ^ 23 := by
      have := F.half (u / 2 ^ 9) (by rw [hp]; exact hk9) (by omega) (by omega)
      rw [hp] at this
      unfold convFrand
      norm_num at this ⊢
      exact this
    rw [e]
    have h1 : ((u / 2 ^ 9 : ℕ) : ℚ) + 1 ≤ 2 ^ 23 := by exact_mod_cast hk9
    have h2 : (0 : ℚ) ≤ ((u / 2 ^ 9 : ℕ) : ℚ) := Nat.cast_nonneg _
    refine ⟨rfl, by positivity, ?_⟩
    rw [div_lt_one (by positivity)]
    linarith
  · have e : convFrandC0 F u = (u / 2 ^ 8 : ℕ) / 2 ^ 24 := by
      have := F.scale (u / 2 ^ 8) (by rw [hp]; exact hk8.le) (by omega)
      rw [hp] at this
      unfold convFrandC0
      norm_num at this ⊢
      exact this
    rw [e, lattice_eq_zero, lattice_lt_one]
    exact ⟨rfl, by positivity, hk8, by omega⟩
  · have e : convFrandC1 F u = (u / 2 ^ 8 + 1 : ℕ) / 2 ^ 24 := by
      have := F.scale (u / 2 ^ 8 + 1) (by rw [hp]; exact hk8) (by omega)
      rw [hp] at this
      unfold convFrandC1
      rw [Nat.mod_eq_of_lt (show u / 2 ^ 8 + 1 < 2 ^ 32 by omega)]
      norm_num at this ⊢
      exact this
    rw [e, lattice_eq_one, lattice_le_one]
    exact ⟨rfl, by positivity, hk8, by omega⟩
  · have e : convFrandC F u = (u / 2 ^ 8 + u % 2 : ℕ) / 2 ^ 24 := by
      have := F.scale (u / 2 ^ 8 + u % 2) (by rw [hp]; omega) (by omega)
      rw [hp] at this
      unfold convFrandC
      rw [Nat.mod_eq_of_lt (show u / 2 ^ 8 + u % 2 < 2 ^ 32 by omega)]
      norm_num at this ⊢
      exact this
    rw [e, lattice_eq_one, lattice_le_one, lattice_eq_zero]
    exact ⟨rfl, by positivity, by omega, by omega, by omega⟩

/-- C41 for double precision. -/
theorem drand_intervals (F : Format) (hp : F.p = 53) (u : ℕ) (hu : u < 2 ^ 64) :
    (convDrand F u = ((u / 2 ^ 12 : ℕ) + 1 / 2) / 2 ^ 52 ∧ 0 < convDrand F u ∧ convDrand F u < 1) ∧
    (convDrandC0 F u = (u / 2 ^ 11 : ℕ) / 2 ^ 53 ∧ 0 ≤ convDrandC0 F u ∧ convDrandC0 F u < 1 ∧
      (convDrandC0 F u = 0 ↔ u < 2 ^ 11)) ∧
    (convDrandC1 F u = (u / 2 ^ 11 + 1 : ℕ) / 2 ^ 53 ∧ 0 < convDrandC1 F u ∧ convDrandC1 F u ≤ 1 ∧
      (convDrandC1 F u = 1 ↔ 2 ^ 64 - 2 ^ 11 ≤ u)) ∧
    (convDrandC F u = (u / 2 ^ 11 + u % 2 : ℕ) / 2 ^ 53 ∧ 0 ≤ convDrandC F u ∧ convDrandC F u ≤ 1 ∧
      (convDrandC F u = 0 ↔ u < 2 ^ 11 ∧ u % 2 = 0) ∧
      (convDrandC F u = 1 ↔ 2 ^ 64 - 2 ^ 11 ≤ u ∧ u % 2 = 1)) := by
  have hk9 : u / 2 ^ 12 < 2 ^ 52 := by omega
  have hk8 : u / 2 ^ 11 < 2 ^ 53 := by omega
  refine ⟨?_, ?_, ?_, ?_⟩
  · have e : convDrand F u = ((u / 2 ^ 12 : ℕ) + 1 / 2) / 2 ^ 52 := by
      have := F.half (u / 2 ^ 12) (by rw [hp]; exact hk9) (by omega) (by omega)
      rw [hp] at this
      unfold convDrand
      norm_num at this ⊢
      exact this
    rw [e]
    have h1 : ((u / 2 ^ 12 : ℕ) : ℚ) + 1 ≤ 2 ^ 52 := by exact_mod_cast hk9
    have h2 : (0 : ℚ) ≤ ((u / 2 ^ 12 : ℕ) : ℚ) := Nat.cast_nonneg _
    refine ⟨rfl, by positivity, ?_⟩
    rw [div_lt_one (by positivity)]
    linarith
  · have e : convDrandC0 F u = (u / 2 ^ 11 : ℕ) / 2 ^ 53 := by
      have := F.scale (u / 2 ^ 11) (by rw [hp]; exact hk8.le) (by omega)
      rw [hp] at this
      unfold convDrandC0
      norm_num at this ⊢
      exact this
    rw [e, lattice_eq_zero, lattice_lt_one]
    exact ⟨rfl, by positivity, hk8, by omega⟩
  · have e : convDrandC1 F u = (u / 2 ^ 11 + 1 : ℕ) / 2 ^ 53 := by
      have := F.scale (u / 2 ^ 11 + 1) (by rw [hp]; exact hk8) (by omega)
      rw [hp] at this
      unfold convDrandC1
      rw [Nat.mod_eq_of_lt (show u / 2 ^ 11 + 1 < 2 ^ 64 by omega)]
      norm_num at this ⊢
      exact this
    rw [e, lattice_eq_one, lattice_le_one]
    exact ⟨rfl, by positivity, hk8, by omega⟩
  · have e : convDrandC F u = (u / 2 ^ 11 + u % 2 : ℕ) / 2 ^ 53 := by
      have := F.scale (u / 2 ^ 11 + u % 2) (by rw [hp]; omega) (by omega)
      rw [hp] at this
      unfold convDrandC
      rw [Nat.mod_eq_of_lt (show u / 2 ^ 11 + u % 2 < 2 ^ 64 by omega)]
      norm_num at this ⊢
      exact this
    rw [e, lattice_eq_one, lattice_le_one, lattice_eq_zero]
    exact ⟨rfl, by positivity, by omega, by omega, by omega⟩

/-- C41: signed integer generators return non-negative numbers of their type. -/
theorem int_intervals (w u : ℕ) (hw : 0 < w) (hu : u < 2 ^ w) :
    convInt true u < 2 ^ (w - 1) ∧ convInt false u < 2 ^ w := by
  have : 2 ^ w = 2 * 2 ^ (w - 1) := by rw [← pow_succ']; congr 1; omega
  simp only [convInt, if_true, Bool.false_eq_true, if_false]
  omega

/-- A format: exact arithmetic on numbers with at most 24 bits. -/
example : ∃ F : Format, F.p = 24 ∧ convFrand F 0 = 1 / 2 ^ 24 :=
  ⟨⟨24, id, fun _ _ _ _ => rfl⟩, rfl, by norm_num [convFrand]⟩

end Verif.Rng
