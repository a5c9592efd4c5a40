import Verif.Place.Bits

/-!
# Placement with rounding: helper lemmas
-/
namespace Verif.Place
open Verif.Uniform

lemma rnd64_int (m : ℤ) (h : |m| ≤ 2 ^ 53) : rnd64 (m : ℚ) = m := by
  have := rnd_exact m 0 h
  simpa using this

lemma rnd64_one : rnd64 1 = 1 := by exact_mod_cast rnd64_int 1 (by norm_num)

lemma rnd32_int (m : ℤ) (h : |m| ≤ 2 ^ 24) : rnd32 (m : ℚ) = m := by
  have := rnd_exactB (b := 23) m 0 (by simpa using h)
  simpa [rnd32] using this

lemma rnd32_mono {x y : ℚ} (h : x ≤ y) : rnd32 x ≤ rnd32 y := rnd_monoB h

lemma rnd32_one : rnd32 1 = 1 := by exact_mod_cast rnd32_int 1 (by norm_num)

lemma rnd32_neg_one : rnd32 (-1) = -1 := by exact_mod_cast rnd32_int (-1) (by norm_num)

/-- A difference is rounded to a positive number if it is positive. -/
lemma rnd64_pos {x : ℚ} (h : 0 < x) : 0 < rnd64 x := by
  have := (abs_le.mp (rnd_err x)).1
  rw [abs_of_pos h] at this
  have h2 : x / 2 ^ 53 < x := div_lt_self h (by norm_num)
  linarith

/-- The rounded quotient is at least 0 and at most 1. -/
lemma quot_bounds {x x0 x1 : ℚ} (h : x0 < x1) (h0 : x0 ≤ x) (h1 : x ≤ x1) :
    0 ≤ rnd64 (rnd64 (x - x0) / rnd64 (x1 - x0)) ∧ rnd64 (rnd64 (x - x0) / rnd64 (x1 - x0)) ≤ 1 := by
  have hd : 0 < rnd64 (x1 - x0) := rnd64_pos (by linarith)
  have hn : 0 ≤ rnd64 (x - x0) := rnd_nonneg (by linarith)
  have hle : rnd64 (x - x0) ≤ rnd64 (x1 - x0) := rnd_mono (by linarith)
  refine ⟨rnd_nonneg (div_nonneg hn hd.le), ?_⟩
  have := rnd_mono ((div_le_one hd).mpr hle)
  rwa [rnd64_one] at this

/-- "x is rigorously on [0,nx]", misc.cc:50. -/
lemma scaled_bounds {n : ℤ} (hn : 0 < n) (hn' : n < 2 ^ 31) {x x0 x1 : ℚ} (h : x0 < x1) (h0 : x0 ≤ x) (h1 : x ≤ x1) :
    0 ≤ rnd64 (n * rnd64 (rnd64 (x - x0) / rnd64 (x1 - x0))) ∧
      rnd64 (n * rnd64 (rnd64 (x - x0) / rnd64 (x1 - x0))) ≤ n := by
  obtain ⟨q0, q1⟩ := quot_bounds h h0 h1
  have hnq : (0 : ℚ) < n := by exact_mod_cast hn
  refine ⟨rnd_nonneg (mul_nonneg hnq.le q0), ?_⟩
  have := rnd_mono (mul_le_of_le_one_right hnq.le q1)
  rwa [rnd64_int n (by rw [abs_of_pos hn]; omega)] at this

/-- The part of a number of double precision behind the point is one as well. -/
lemma frac_exact {X : ℚ} (h0 : 0 ≤ X) (hX : rnd64 X = X) : rnd64 (X - ⌊X⌋) = X - ⌊X⌋ := by
  rcases h0.eq_or_lt with h | hpos
  · rw [← h]; simp [rnd_zero]
  · obtain ⟨a, ha⟩ := multiple hpos.ne' hX
    have hu := unit_pos X
    have hb := (unit_bounds X hpos.ne').2
    rw [abs_of_pos hpos] at hb
    have f0 : (0 : ℤ) ≤ ⌊X⌋ := Int.floor_nonneg.mpr h0
    have hf := Int.floor_le X
    have hf' := Int.lt_floor_add_one X
    rcases le_or_gt 0 (Int.log 2 |X| - 52) with hk | hk
    · -- a whole number
      obtain ⟨k, hk⟩ := Int.eq_ofNat_of_zero_le hk
      have hux : unit X = 2 ^ k := by unfold unit; rw [hk]; exact zpow_natCast 2 k
      have e : X = ((a * 2 ^ k : ℤ) : ℚ) := by
        rw [hux] at ha
        push_cast
        exact ha
      have e2 : X - ⌊X⌋ = 0 := by rw [e, Int.floor_intCast, sub_self]
      rw [e2, rnd_zero]
    · obtain ⟨k, hk⟩ := Int.eq_ofNat_of_zero_le (show 0 ≤ -(Int.log 2 |X| - 52) by omega)
      have eu : unit X = 2 ^ (-(k : ℤ)) := by unfold unit; congr 1; omega
      have e : X - ⌊X⌋ = ((a - ⌊X⌋ * 2 ^ k : ℤ) : ℚ) * 2 ^ (-(k : ℤ)) := by
        push_cast
        rw [sub_mul, ← eu, ← ha, eu, mul_assoc, zpow_neg, zpow_natCast, mul_inv_cancel₀ (by positivity), mul_one]
      have hm : |a - ⌊X⌋ * 2 ^ k| ≤ 2 ^ 53 := by
        have h1 : (0 : ℚ) ≤ ((a - ⌊X⌋ * 2 ^ k : ℤ) : ℚ) * unit X := by rw [eu, ← e]; linarith
        have h2 : ((a - ⌊X⌋ * 2 ^ k : ℤ) : ℚ) * unit X ≤ 2 ^ 53 * unit X := by
          rw [eu, ← e, ← eu]
          have : (0 : ℚ) ≤ ⌊X⌋ := by exact_mod_cast f0
          linarith
        have h1' := nonneg_of_mul_nonneg_left h1 hu
        have h2' := le_of_mul_le_mul_right h2 hu
        rw [abs_of_nonneg (by exact_mod_cast h1')]
        exact_mod_cast h2'
      rw [e]
      exact rnd_exact _ _ hm

lemma double_exact {f : ℚ} (h : rnd64 f = f) : rnd64 (f + f) = f + f := by
  by_cases h0 : f = 0
  · simp [h0, rnd_zero]
  · obtain ⟨a, ha⟩ := multiple h0 h
    have hu := unit_pos f
    have hb := (unit_bounds f h0).2
    have hm : |a| ≤ 2 ^ 53 := by
      have : |f| = |(a : ℚ)| * unit f := by
        conv_lhs => rw [ha]
        rw [abs_mul, abs_of_pos hu]
      rw [this] at hb
      exact_mod_cast (lt_of_mul_lt_mul_right hb hu.le).le
    have e : f + f = a * 2 ^ (Int.log 2 |f| - 52 + 1) := by
      rw [zpow_add₀ (by norm_num), zpow_one]
      have : f = a * 2 ^ (Int.log 2 |f| - 52) := ha
      linarith
    rw [e]
    exact rnd_exact _ _ hm

/-- A number of double precision below 1 is at most 1 - 2^-53. -/
lemma below_one {f : ℚ} (h : rnd64 f = f) (h0 : 0 ≤ f) (h1 : f < 1) : f ≤ 1 - 1 / 2 ^ 53 := by
  rcases h0.eq_or_lt with h2 | hpos
  · rw [← h2]; norm_num
  · have := gap_above hpos h1 h rnd64_one
    by_contra hc
    have hlow : (1 : ℚ) / 2 ≤ f := by
      have : (1 : ℚ) - 1 / 2 ^ 53 ≥ 1 / 2 := by norm_num
      linarith
    have hu : 1 / 2 ^ 53 ≤ unit f := by
      have hb := (unit_bounds f hpos.ne').2
      rw [abs_of_pos hpos] at hb
      have hm := unit_mono (by norm_num : (0 : ℚ) < 1 / 2) hlow
      have : unit (1 / 2) = 1 / 2 ^ 53 := by
        have hb' := unit_bounds (1 / 2) (by norm_num)
        unfold unit
        rw [show |(1 / 2 : ℚ)| = ((2 : ℕ) : ℚ) ^ (-1 : ℤ) by norm_num, Int.log_zpow (by norm_num)]
        norm_num
      linarith
    linarith

/-- The offset before the far wall is considered: exactly twice the part behind the point, less 1, rounded; "on [-1,1)". -/
lemma offset_bounds {X : ℚ} (h0 : 0 ≤ X) (hX : rnd64 X = X) :
    rnd64 (rnd64 (rnd64 (X - ⌊X⌋) + rnd64 (X - ⌊X⌋)) - 1) = rnd64 (2 * (X - ⌊X⌋) - 1) ∧
      -1 ≤ rnd64 (2 * (X - ⌊X⌋) - 1) ∧ rnd64 (2 * (X - ⌊X⌋) - 1) < 1 := by
  have hf := frac_exact h0 hX
  have hd := double_exact hf
  have l0 : 0 ≤ X - ⌊X⌋ := by linarith [Int.floor_le X]
  have l1 : X - ⌊X⌋ < 1 := by linarith [Int.lt_floor_add_one X]
  refine ⟨by rw [hf, hd]; congr 1; ring, ?_, ?_⟩
  · have := rnd_mono (show (-1 : ℚ) ≤ 2 * (X - ⌊X⌋) - 1 by linarith)
    rwa [rnd_neg, rnd64_one] at this
  · have hb := below_one hf l0 l1
    have h1 := rnd_mono (show 2 * (X - ⌊X⌋) - 1 ≤ ((2 ^ 52 - 1 : ℤ) : ℚ) * 2 ^ (-52 : ℤ) by
      have : ((2 ^ 52 - 1 : ℤ) : ℚ) * 2 ^ (-52 : ℤ) = 1 - 2 * (1 / 2 ^ 53) := by norm_num
      rw [this]
      linarith)
    rw [rnd_exact _ _ (by norm_num)] at h1
    refine lt_of_le_of_lt h1 (by norm_num)

end Verif.Place
