import Verif.Streak.Model
import Verif.Place.Lemmas

/-!
# Streaks with rounding: helper lemmas for one axis
-/
namespace Verif.Streak
open Verif.Place

lemma r_neg (x : ℚ) : rnd32 (-x) = -rnd32 x := rnd_negB x
lemma r_zero : rnd32 0 = 0 := rnd_zeroB
lemma r_idem (x : ℚ) : rnd32 (rnd32 x) = rnd32 x := rnd_idemB x
lemma r_nonneg {x : ℚ} (h : 0 ≤ x) : 0 ≤ rnd32 x := rnd_nonnegB h

lemma r_err (x : ℚ) : |rnd32 x - x| ≤ |x| / 2 ^ 24 := rnd_errB (b := 23) x

lemma r_pos {x : ℚ} (h : 0 < x) : 0 < rnd32 x := by
  have := (abs_le.mp (r_err x)).1
  rw [abs_of_pos h] at this
  have h2 : x / 2 ^ 24 < x := div_lt_self h (by norm_num)
  linarith

lemma r_exact (m k : ℤ) (hm : |m| ≤ 2 ^ 24) : rnd32 (m * 2 ^ k) = m * 2 ^ k := rnd_exactB (b := 23) m k (by simpa using hm)

/-- Scaling by a power of two is exact. -/
lemma r_scale {f : ℚ} (h : rnd32 f = f) (e : ℤ) : rnd32 (f * 2 ^ e) = f * 2 ^ e := by
  by_cases h0 : f = 0
  · simp [h0, r_zero]
  · obtain ⟨a, ha⟩ := multipleB (b := 23) h0 h
    have hu := unit_posB (b := 23) f
    have hb := (unit_boundsB (b := 23) f h0).2
    have hm : |a| ≤ 2 ^ 24 := by
      have : |f| = |(a : ℚ)| * unitB 23 f := by
        conv_lhs => rw [ha]
        rw [abs_mul, abs_of_pos hu]
      rw [this] at hb
      exact_mod_cast (lt_of_mul_lt_mul_right hb hu.le).le
    have e : f * 2 ^ e = a * 2 ^ (Int.log 2 |f| - ((23 : ℕ) : ℤ) + e) := by
      rw [zpow_add₀ (by norm_num), ← mul_assoc]
      have : f = a * 2 ^ (Int.log 2 |f| - ((23 : ℕ) : ℤ)) := ha
      rw [← this]
    rw [e]
    exact r_exact _ _ hm

lemma r_double {f : ℚ} (h : rnd32 f = f) : rnd32 (f + f) = f + f := by
  have := r_scale h 1
  rw [zpow_one] at this
  rwa [show f + f = f * 2 by ring]

lemma r_half {f : ℚ} (h : rnd32 f = f) : rnd32 (f * (1 / 2)) = f * (1 / 2) := by
  have := r_scale h (-1)
  rw [zpow_neg_one] at this
  rwa [show f * (1 / 2) = f * 2⁻¹ by ring]

lemma unit_pow (k : ℤ) : unitB 23 ((2 : ℚ) ^ k) = 2 ^ (k - 23) := by
  unfold unitB
  rw [abs_of_pos (zpow_pos (by norm_num) _), show ((2 : ℚ) ^ k) = ((2 : ℕ) : ℚ) ^ k by norm_num, Int.log_zpow (by norm_num)]
  rfl

lemma unit_le_of_lt_two {y : ℚ} (h0 : 0 < y) (h : y < 2) : unitB 23 y ≤ 1 / 2 ^ 23 := by
  have hl : Int.log 2 |y| ≤ 0 := by
    rw [abs_of_pos h0]
    by_contra hc
    have h1 : (1 : ℤ) ≤ Int.log 2 y := by omega
    have h2 := Int.zpow_log_le_self (b := 2) (by norm_num) h0
    push_cast at h2
    have h3 : (2 : ℚ) ^ (1 : ℤ) ≤ 2 ^ Int.log 2 y := zpow_le_zpow_right₀ (by norm_num) h1
    rw [zpow_one] at h3
    linarith
  unfold unitB
  calc (2 : ℚ) ^ (Int.log 2 |y| - ((23 : ℕ) : ℤ)) ≤ 2 ^ (-23 : ℤ) := zpow_le_zpow_right₀ (by norm_num) (by push_cast; omega)
    _ = _ := by norm_num

lemma unit_le_of_lt_one {y : ℚ} (h0 : 0 < y) (h : y < 1) : unitB 23 y ≤ 1 / 2 ^ 24 := by
  have hl : Int.log 2 |y| ≤ -1 := by
    rw [abs_of_pos h0]
    by_contra hc
    have h1 : (0 : ℤ) ≤ Int.log 2 y := by omega
    have h2 := Int.zpow_log_le_self (b := 2) (by norm_num) h0
    push_cast at h2
    have h3 : (2 : ℚ) ^ (0 : ℤ) ≤ 2 ^ Int.log 2 y := zpow_le_zpow_right₀ (by norm_num) h1
    rw [zpow_zero] at h3
    linarith
  unfold unitB
  calc (2 : ℚ) ^ (Int.log 2 |y| - ((23 : ℕ) : ℤ)) ≤ 2 ^ (-24 : ℤ) := zpow_le_zpow_right₀ (by norm_num) (by push_cast; omega)
    _ = _ := by norm_num

lemma r_err_two {y : ℚ} (h0 : 0 < y) (h : y < 2) : |rnd32 y - y| ≤ 1 / 2 ^ 24 := by
  have := rnd_unit_errB (b := 23) y h0.ne'
  have h2 := unit_le_of_lt_two h0 h
  refine le_trans this ?_
  have e : (1 : ℚ) / 2 ^ 24 = 1 / 2 ^ 23 / 2 := by norm_num
  rw [e]
  linarith

lemma tie_one : rnd32 (1 + 1 / 2 ^ 24) = 1 := by decide +kernel
lemma tie_next : rnd32 (1 + 3 / 2 ^ 25) = 1 + 1 / 2 ^ 23 := by decide +kernel

/-- The rounded distance to the face. -/
lemma dist_err {x : ℚ} (h0 : -1 ≤ x) (h1 : x ≤ 1) : x + rnd32 (1 - x) ≤ 1 + 1 / 2 ^ 24 := by
  rcases h0.eq_or_lt with h | h
  · rw [← h, show (1 : ℚ) - -1 = 1 + 1 by norm_num, r_double rnd32_one]; norm_num
  · rcases h1.eq_or_lt with h' | h'
    · rw [h', sub_self, r_zero]; norm_num
    · have := (abs_le.mp (r_err_two (show 0 < 1 - x by linarith) (by linarith))).2
      linarith

/-- If the face is not reached, the displacement is not longer than the rounded distance. -/
lemma not_reached {N d : ℚ} (hN : rnd32 N = N) (hd : rnd32 d = d) (h0 : 0 < d) (h : 2 ≤ rnd32 (N / d)) : 2 * d ≤ N := by
  by_contra hc
  push Not at hc
  have hNp : 0 < N := by
    by_contra hn
    push Not at hn
    have h1 : N / d ≤ 0 := div_nonpos_of_nonpos_of_nonneg hn h0.le
    have := rnd32_mono h1
    rw [r_zero] at this
    linarith
  have hh : rnd32 (N * (1 / 2)) = N * (1 / 2) := r_half hN
  have hg := gap_aboveB (b := 23) (show 0 < N * (1 / 2) by linarith) (show N * (1 / 2) < d by linarith) hh hd
  have hu := (unit_boundsB (b := 23) (N * (1 / 2)) (by positivity)).2
  rw [abs_of_pos (by positivity)] at hu
  have hd' : N * (1 / 2) * (1 + 1 / 2 ^ 24) < d := by
    have : N * (1 / 2) / 2 ^ 24 < unitB 23 (N * (1 / 2)) := by
      have hu' : N * (1 / 2) < 2 ^ 24 * unitB 23 (N * (1 / 2)) := hu
      rw [div_lt_iff₀ (by norm_num)]
      linarith
    linarith
  have hq : N / d < 2 - 1 / 2 ^ 24 := by
    rw [div_lt_iff₀ h0]
    have h1 : N * (1 / 2) * (1 + 1 / 2 ^ 24) * (2 - 1 / 2 ^ 24) ≤ d * (2 - 1 / 2 ^ 24) :=
      mul_le_mul_of_nonneg_right hd'.le (by norm_num)
    have h2 : N < N * (1 / 2) * (1 + 1 / 2 ^ 24) * (2 - 1 / 2 ^ 24) := by
      rw [mul_assoc, mul_assoc]
      exact lt_mul_of_one_lt_right hNp (by norm_num)
    linarith
  have hq0 : 0 < N / d := div_pos hNp h0
  have := (abs_le.mp (r_err_two hq0 (by have : (0 : ℚ) < 1 / 2 ^ 24 := by norm_num
                                        linarith))).2
  linarith

/-- The end of the track, towards the upper face. -/
lemma end_pos {x d : ℚ} (hx : rnd32 x = x) (hd : rnd32 d = d) (h0 : -1 ≤ x) (h1 : x ≤ 1) (hp : 0 < d)
    (h : 2 ≤ rnd32 (rnd32 (1 - x) / d)) : -1 ≤ rnd32 (x + (d + d)) ∧ rnd32 (x + (d + d)) ≤ 1 := by
  have h2 := not_reached (r_idem _) hd hp h
  have h3 := dist_err h0 h1
  constructor
  · have := rnd32_mono (show -1 ≤ x + (d + d) by linarith)
    rwa [rnd32_neg_one] at this
  · have := rnd32_mono (show x + (d + d) ≤ 1 + 1 / 2 ^ 24 by linarith)
    rwa [tie_one] at this

/-- Up to a face, what is done is at most the rounded distance, or the next number if that is less than 1. -/
lemma done_le {N d t : ℚ} (hN : rnd32 N = N) (hd : rnd32 d = d) (hN0 : 0 ≤ N) (hN2 : N ≤ 2) (h0 : 0 < d) (h1 : d ≤ 1) (ht : t ≤ 2)
    (h : t ≤ rnd32 (N / d)) : rnd32 (d * t) ≤ N ∨ (N < 1 ∧ rnd32 (d * t) ≤ N + 1 / 2 ^ 24) := by
  rcases le_or_gt 2 (rnd32 (N / d)) with hv | hv
  · left
    have h2 := not_reached hN hd h0 hv
    have h3 := rnd32_mono (show d * t ≤ d + d by nlinarith)
    rw [r_double hd] at h3
    linarith
  · have hq2 : N / d < 2 := by
      by_contra hc
      push Not at hc
      have := rnd32_mono hc
      rw [show (2 : ℚ) = 1 + 1 by norm_num, r_double rnd32_one] at this
      linarith
    have hmono := rnd32_mono (mul_le_mul_of_nonneg_left h h0.le)
    rcases le_or_gt 1 N with hN1 | hN1
    · left
      rcases h1.eq_or_lt with hd1 | hd1
      · subst hd1
        rw [div_one, hN, one_mul, one_mul, hN] at hmono
        rw [one_mul]; exact hmono
      · have hq : 0 < N / d := by positivity
        have he := (abs_le.mp (r_err_two hq hq2)).2
        have hy : d * rnd32 (N / d) < N + 1 / 2 ^ 24 := by
          have e : N = d * (N / d) := by field_simp
          have h5 : d * (rnd32 (N / d) - N / d) ≤ d * (1 / 2 ^ 24) := mul_le_mul_of_nonneg_left he h0.le
          have h6 : d * (1 / 2 ^ 24 : ℚ) < 1 * (1 / 2 ^ 24) := mul_lt_mul_of_pos_right hd1 (by norm_num)
          rw [mul_sub, ← e] at h5
          linarith
        refine hmono.trans ?_
        by_contra hc
        push Not at hc
        have hv0 : 0 < rnd32 (N / d) := r_pos hq
        have hy0 : 0 < d * rnd32 (N / d) := mul_pos h0 hv0
        have hgap := gap_aboveB (b := 23) (show 0 < N by linarith) hc hN (r_idem _)
        have hu : 1 / 2 ^ 23 ≤ unitB 23 N := by
          have h7 := unit_monoB (b := 23) (by norm_num : (0 : ℚ) < 1) hN1
          have h8 := unit_pow 0
          rw [zpow_zero] at h8
          rw [h8] at h7
          have h9 : (2 : ℚ) ^ ((0 : ℤ) - 23) = 1 / 2 ^ 23 := by norm_num
          rwa [h9] at h7
        have hy2 : d * rnd32 (N / d) < 2 := by nlinarith
        have he2 := (abs_le.mp (r_err_two hy0 hy2)).2
        have e24 : (1 : ℚ) / 2 ^ 23 = 1 / 2 ^ 24 + 1 / 2 ^ 24 := by norm_num
        rw [e24] at hu
        linarith
    · right
      refine ⟨hN1, hmono.trans ?_⟩
      rcases hN0.eq_or_lt with hz | hNp
      · rw [← hz, zero_div, r_zero, mul_zero, r_zero]; norm_num
      · have hq : 0 < N / d := by positivity
        have he := (abs_le.mp (r_err (N / d))).2
        rw [abs_of_pos hq] at he
        have hb := unit_boundsB (b := 23) N hNp.ne'
        rw [abs_of_pos hNp] at hb
        have hup := unit_posB (b := 23) N
        have hy : d * rnd32 (N / d) ≤ N + unitB 23 N := by
          have e : N = d * (N / d) := by field_simp
          have h5 : d * (rnd32 (N / d) - N / d) ≤ d * (N / d / 2 ^ 24) := mul_le_mul_of_nonneg_left he h0.le
          rw [mul_sub, ← e, ← mul_div_assoc, ← e] at h5
          have h6 : N / 2 ^ 24 ≤ unitB 23 N := by
            rw [div_le_iff₀ (by norm_num), mul_comm]
            simpa using hb.2.le
          linarith
        have hfl : rnd32 (N + unitB 23 N) = N + unitB 23 N := by
          obtain ⟨a, ha⟩ := multipleB (b := 23) hNp.ne' hN
          have ha2 : a < 2 ^ 24 := by
            have h6 : (a : ℚ) * unitB 23 N < 2 ^ 24 * unitB 23 N := by rw [← ha]; simpa using hb.2
            exact_mod_cast lt_of_mul_lt_mul_right h6 hup.le
          have ha0 : 0 < a := by
            have h6 : 0 < (a : ℚ) * unitB 23 N := by rw [← ha]; exact hNp
            exact_mod_cast pos_of_mul_pos_left h6 hup.le
          have e : N + unitB 23 N = ((a + 1 : ℤ) : ℚ) * 2 ^ (Int.log 2 |N| - ((23 : ℕ) : ℤ)) := by
            have h6 : N = a * 2 ^ (Int.log 2 |N| - ((23 : ℕ) : ℤ)) := ha
            push_cast
            rw [add_mul, one_mul]
            have h7 : unitB 23 N = 2 ^ (Int.log 2 |N| - ((23 : ℕ) : ℤ)) := rfl
            rw [h7]
            push_cast at h6 ⊢
            rw [← h6]
          rw [e]
          exact r_exact _ _ (by rw [abs_of_pos (by omega)]; omega)
        have := rnd32_mono hy
        rw [hfl] at this
        have := unit_le_of_lt_one hNp hN1
        linarith

/-- For a distance below 1 the error is half as large. -/
lemma dist_err_lt {x : ℚ} (h1 : x ≤ 1) (h : rnd32 (1 - x) < 1) : x + rnd32 (1 - x) ≤ 1 + 1 / 2 ^ 25 := by
  rcases h1.eq_or_lt with h' | h'
  · rw [h', sub_self, r_zero]; norm_num
  · have hlt : 1 - x < 1 := by
      by_contra hc
      push Not at hc
      have := rnd32_mono hc
      rw [rnd32_one] at this
      linarith
    have h2 := rnd_unit_errB (b := 23) (1 - x) (by linarith)
    have h3 := unit_le_of_lt_one (show 0 < 1 - x by linarith) hlt
    have h4 : |rnd32 (1 - x) - (1 - x)| ≤ unitB 23 (1 - x) / 2 := h2
    have h5 := (abs_le.mp h4).2
    have e : (1 : ℚ) / 2 ^ 25 = 1 / 2 ^ 24 / 2 := by norm_num
    rw [e]
    linarith

/-- Up to a face: the new offset, towards the upper face. -/
lemma cross_pos {x d t : ℚ} (hd : rnd32 d = d) (h0 : -1 ≤ x) (h1 : x ≤ 1) (hx : rnd32 x = x) (hp : 0 < d)
    (hd1 : d ≤ 1) (ht0 : 0 ≤ t) (ht : t ≤ 2) (h : t ≤ rnd32 (rnd32 (1 - x) / d)) :
    -1 ≤ rnd32 (x + rnd32 (d * t)) ∧ rnd32 (x + rnd32 (d * t)) ≤ 1 + 1 / 2 ^ 23 := by
  have hs : 0 ≤ rnd32 (d * t) := r_nonneg (mul_nonneg hp.le ht0)
  have hN0 : 0 ≤ rnd32 (1 - x) := r_nonneg (by linarith)
  have hN2 : rnd32 (1 - x) ≤ 2 := by
    have := rnd32_mono (show 1 - x ≤ 1 + 1 by linarith)
    rw [r_double rnd32_one] at this
    linarith
  constructor
  · have := rnd32_mono (show -1 ≤ x + rnd32 (d * t) by linarith)
    rwa [rnd32_neg_one] at this
  · rcases done_le (r_idem _) hd hN0 hN2 hp hd1 ht h with hc | ⟨hN1, hc⟩
    · have h3 := dist_err h0 h1
      have := rnd32_mono (show x + rnd32 (d * t) ≤ 1 + 1 / 2 ^ 24 by linarith)
      rw [tie_one] at this
      have : (0 : ℚ) ≤ 1 / 2 ^ 23 := by norm_num
      linarith
    · have h3 := dist_err_lt h1 hN1
      have e : (1 : ℚ) + 3 / 2 ^ 25 = 1 + 1 / 2 ^ 25 + 1 / 2 ^ 24 := by norm_num
      have := rnd32_mono (show x + rnd32 (d * t) ≤ 1 + 3 / 2 ^ 25 by rw [e]; linarith)
      rwa [tie_next] at this

/-- Some displacement is left if the streak is not the last one. -/
lemma left_pos {d h : ℚ} (hd : rnd32 d = d) (hh : rnd32 h = h) (hp : 0 < d) (h0 : 0 ≤ h) (h1 : h < 1) : rnd32 (d * h) < d := by
  have hle : rnd32 (d * h) ≤ d := by
    have := rnd32_mono (mul_le_of_le_one_right hp.le h1.le)
    rwa [hd] at this
  refine lt_of_le_of_ne hle fun he => ?_
  -- h is at most 1 - 2^-24
  have hb : h ≤ 1 - 1 / 2 ^ 24 := by
    rcases h0.eq_or_lt with hz | hpos
    · rw [← hz]; norm_num
    · by_contra hc
      push Not at hc
      have hhalf : (2 : ℚ) ^ (-1 : ℤ) ≤ h := by
        have : (2 : ℚ) ^ (-1 : ℤ) ≤ 1 - 1 / 2 ^ 24 := by norm_num
        exact this.trans hc.le
      have hg := gap_aboveB (b := 23) hpos h1 hh rnd32_one
      have hm := unit_monoB (b := 23) (zpow_pos (by norm_num) _) hhalf
      rw [unit_pow] at hm
      have h9 : (2 : ℚ) ^ ((-1 : ℤ) - 23) = 1 / 2 ^ 24 := by norm_num
      rw [h9] at hm
      generalize (1 : ℚ) / 2 ^ 24 = u at *
      linarith
  have hy : d * h ≤ d - d / 2 ^ 24 := by
    have := mul_le_mul_of_nonneg_left hb hp.le
    rw [mul_sub, mul_one, mul_one_div] at this
    exact this
  have hbd := unit_boundsB (b := 23) d hp.ne'
  rw [abs_of_pos hp] at hbd
  have hup := unit_posB (b := 23) d
  have hd2 : unitB 23 d / 2 ≤ d / 2 ^ 24 := by
    rw [le_div_iff₀ (by norm_num)]
    have : (2 : ℚ) ^ 23 * unitB 23 d ≤ d := hbd.1
    have e : unitB 23 d / 2 * 2 ^ 24 = 2 ^ 23 * unitB 23 d := by ring
    rw [e]; exact this
  have hmono : rnd32 (d - unitB 23 d / 2) ≥ rnd32 (d * h) := rnd32_mono (by linarith)
  -- the number half a unit below d is not rounded up to d if d is the lower end of a binade; otherwise d is even more than that below
  obtain ⟨a, ha⟩ := multipleB (b := 23) hp.ne' hd
  have ha23 : (2 : ℤ) ^ 23 ≤ a := by
    have h6 : (2 : ℚ) ^ 23 * unitB 23 d ≤ a * unitB 23 d := by rw [← ha]; exact hbd.1
    exact_mod_cast le_of_mul_le_mul_right h6 hup
  rcases ha23.eq_or_lt with hq | hq
  · -- d is a power of two
    have e : d - unitB 23 d / 2 = ((2 ^ 24 - 1 : ℤ) : ℚ) * 2 ^ (Int.log 2 |d| - ((23 : ℕ) : ℤ) - 1) := by
      have h7 : unitB 23 d = 2 ^ (Int.log 2 |d| - ((23 : ℕ) : ℤ)) := rfl
      rw [zpow_sub₀ (by norm_num : (2 : ℚ) ≠ 0) _ 1, ← h7, zpow_one]
      have h8 : d = 2 ^ 23 * unitB 23 d := by
        have : (a : ℚ) = 2 ^ 23 := by exact_mod_cast hq.symm
        rw [this] at ha
        exact ha
      push_cast
      linarith
    have h10 : rnd32 (d - unitB 23 d / 2) = d - unitB 23 d / 2 := by
      rw [e]; exact r_exact _ _ (by norm_num)
    rw [h10] at hmono
    linarith
  · have hd3 : unitB 23 d / 2 < d / 2 ^ 24 := by
      rw [lt_div_iff₀ (by norm_num)]
      have h6 : (2 : ℚ) ^ 23 * unitB 23 d < a * unitB 23 d :=
        mul_lt_mul_of_pos_right (by exact_mod_cast hq) hup
      rw [← ha] at h6
      have e : unitB 23 d / 2 * 2 ^ 24 = 2 ^ 23 * unitB 23 d := by ring
      rw [e]; exact h6
    rcases h0.eq_or_lt with hz | hpos
    · rw [← hz, mul_zero, r_zero] at he
      linarith
    · have hy0 : 0 < d * h := mul_pos hp hpos
      have h11 := (abs_le.mp (rnd_unit_errB (b := 23) (d * h) hy0.ne')).2
      have h12 := unit_monoB (b := 23) hy0 (mul_le_of_le_one_right hp.le h1.le)
      have h13 : rndB 23 (d * h) = d := he
      rw [h13] at h11
      linarith

end Verif.Streak
