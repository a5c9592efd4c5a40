import Verif.Place.Model
import Verif.Uniform.Closed

/-!
# Rounding to `b + 1` bits
-/
namespace Verif.Place
open Verif.Uniform (nearest nearest_err nearest_int nearest_mono nearest_neg nearest_cases)

variable {b : ℕ}

lemma unit_posB (x : ℚ) : 0 < unitB b x := by unfold unitB; exact zpow_pos (by norm_num) _

lemma unit_negB (x : ℚ) : unitB b (-x) = unitB b x := by unfold unitB; rw [abs_neg]

lemma rnd_zeroB : rndB b 0 = 0 := by simp [rndB]

lemma rnd_negB (x : ℚ) : rndB b (-x) = -rndB b x := by
  unfold rndB
  by_cases h : x = 0
  · simp [h]
  · rw [if_neg h, if_neg (neg_ne_zero.mpr h), unit_negB, neg_div, nearest_neg]
    push_cast
    ring

lemma unit_boundsB (x : ℚ) (h : x ≠ 0) : 2 ^ b * unitB b x ≤ |x| ∧ |x| < 2 ^ (b + 1) * unitB b x := by
  have h0 : 0 < |x| := abs_pos.mpr h
  have h1 := Int.zpow_log_le_self (b := 2) (by norm_num) h0
  have h2 := Int.lt_zpow_succ_log_self (b := 2) (by norm_num) |x|
  have e1 : (2 : ℚ) ^ (Int.log 2 |x|) = 2 ^ b * unitB b x := by
    unfold unitB
    rw [← zpow_natCast, ← zpow_add₀ (by norm_num)]
    congr 1
    push_cast
    ring
  have e2 : (2 : ℚ) ^ (Int.log 2 |x| + 1) = 2 ^ (b + 1) * unitB b x := by
    unfold unitB
    rw [← zpow_natCast, ← zpow_add₀ (by norm_num)]
    congr 1
    push_cast
    ring
  push_cast at h1 h2
  rw [e1] at h1
  rw [e2] at h2
  exact ⟨h1, h2⟩

/-- The relative error is at most 2^-(b+1). -/
lemma rnd_errB (x : ℚ) : |rndB b x - x| ≤ |x| / 2 ^ (b + 1) := by
  by_cases h : x = 0
  · simp [h, rnd_zeroB]
  · have hu := unit_posB (b := b) x
    have hb := (unit_boundsB (b := b) x h).1
    have he := nearest_err (x / unitB b x)
    have e : rndB b x - x = (nearest (x / unitB b x) - x / unitB b x) * unitB b x := by
      unfold rndB
      rw [if_neg h, sub_mul, div_mul_cancel₀ _ hu.ne']
    rw [e, abs_mul, abs_of_pos hu]
    have : |(nearest (x / unitB b x) : ℚ) - x / unitB b x| * unitB b x ≤ 1 / 2 * unitB b x := mul_le_mul_of_nonneg_right he hu.le
    rw [le_div_iff₀ (by positivity)]
    have h2 := mul_le_mul_of_nonneg_right this (pow_nonneg (show (0 : ℚ) ≤ 2 by norm_num) (b + 1))
    have h3 : 1 / 2 * unitB b x * 2 ^ (b + 1) = 2 ^ b * unitB b x := by rw [pow_succ]; ring
    linarith

/-- Numbers with at most b + 1 bits are not changed. -/
lemma rnd_exactB (m k : ℤ) (hm : |m| ≤ 2 ^ (b + 1)) : rndB b (m * 2 ^ k) = m * 2 ^ k := by
  by_cases h0 : m = 0
  · simp [h0, rnd_zeroB]
  · set x : ℚ := m * 2 ^ k with hx
    have hp : (0 : ℚ) < 2 ^ k := zpow_pos (by norm_num) _
    have hm0 : (m : ℚ) ≠ 0 := by exact_mod_cast h0
    have hx0 : x ≠ 0 := by rw [hx]; exact mul_ne_zero hm0 hp.ne'
    have hab : |x| = |(m : ℚ)| * 2 ^ k := by rw [hx, abs_mul, abs_of_pos hp]
    have hb := (unit_boundsB (b := b) x hx0).1
    have hmq : |(m : ℚ)| ≤ 2 ^ (b + 1) := by exact_mod_cast hm
    -- x is a multiple of the unit
    have hint : ∃ z : ℤ, x = z * unitB b x := by
      have hu : unitB b x = 2 ^ (Int.log 2 |x| - (b : ℤ)) := rfl
      set L := Int.log 2 |x| with hL
      by_cases hk : L - (b : ℤ) ≤ k
      · obtain ⟨n, hn⟩ := Int.eq_ofNat_of_zero_le (sub_nonneg.mpr hk)
        refine ⟨m * 2 ^ n, ?_⟩
        rw [hu, hx]
        push_cast
        rw [mul_assoc, ← zpow_natCast, ← zpow_add₀ (by norm_num : (2 : ℚ) ≠ 0)]
        congr 2
        rw [← hn]
        ring
      · have hk : k + ((b : ℤ) + 1) ≤ L := by omega
        have h1 : (2 : ℚ) ^ (k + ((b : ℤ) + 1)) ≤ 2 ^ L := zpow_le_zpow_right₀ (by norm_num) hk
        have h2 := Int.zpow_log_le_self (b := 2) (by norm_num) (abs_pos.mpr hx0)
        push_cast at h2
        rw [← hL, hab] at h2
        have h3 : |(m : ℚ)| * 2 ^ k ≤ 2 ^ (b + 1) * 2 ^ k := mul_le_mul_of_nonneg_right hmq hp.le
        have h4 : (2 : ℚ) ^ (k + ((b : ℤ) + 1)) = 2 ^ (b + 1) * 2 ^ k := by
          rw [zpow_add₀ (by norm_num), mul_comm]; congr 1
        have h5 : (2 : ℚ) ^ L = 2 ^ (k + ((b : ℤ) + 1)) := by linarith
        have h6 : L = k + ((b : ℤ) + 1) := zpow_right_injective₀ (by norm_num) (by norm_num) h5
        have h7 : |(m : ℚ)| * 2 ^ k = 2 ^ (b + 1) * 2 ^ k := by linarith
        have h8 : |(m : ℚ)| = 2 ^ (b + 1) := mul_right_cancel₀ hp.ne' h7
        have h9 : |m| = 2 ^ (b + 1) := by exact_mod_cast h8
        have h10 : unitB b x = 2 * 2 ^ k := by
          rw [hu, h6, show k + ((b : ℤ) + 1) - (b : ℤ) = 1 + k by ring, zpow_add₀ (by norm_num), zpow_one]
        have hd : ∃ z, m = 2 * z := by
          rcases abs_eq (by norm_num : (0 : ℤ) ≤ 2 ^ (b + 1)) |>.mp h9 with h | h
          · exact ⟨2 ^ b, by rw [h]; ring⟩
          · exact ⟨-2 ^ b, by rw [h]; ring⟩
        obtain ⟨z, hz⟩ := hd
        refine ⟨z, ?_⟩
        rw [h10, hx, hz]
        push_cast
        ring
    obtain ⟨z, hz⟩ := hint
    have hu := unit_posB (b := b) x
    unfold rndB
    rw [if_neg hx0]
    have : x / unitB b x = (z : ℚ) := by
      rw [div_eq_iff hu.ne']; exact hz
    rw [this, nearest_int]
    exact hz.symm

/-- A rounded number is not changed by rounding again. -/
lemma rnd_idemB (x : ℚ) : rndB b (rndB b x) = rndB b x := by
  by_cases h : x = 0
  · simp [h, rnd_zeroB]
  · have hu := unit_posB (b := b) x
    have hb := unit_boundsB (b := b) x h
    have hn : |nearest (x / unitB b x)| ≤ 2 ^ (b + 1) := by
      have h1 : |x / unitB b x| < 2 ^ (b + 1) := by
        rw [abs_div, abs_of_pos hu, div_lt_iff₀ hu]; exact hb.2
      rw [abs_lt] at h1
      rw [abs_le]
      constructor
      · have := nearest_mono h1.1.le
        rw [show (-2 ^ (b + 1) : ℚ) = ((-2 ^ (b + 1) : ℤ) : ℚ) by norm_num, nearest_int] at this
        exact this
      · have := nearest_mono h1.2.le
        rw [show (2 ^ (b + 1) : ℚ) = ((2 ^ (b + 1) : ℤ) : ℚ) by norm_num, nearest_int] at this
        exact this
    have e : rndB b x = nearest (x / unitB b x) * 2 ^ (Int.log 2 |x| - (b : ℤ)) := by
      unfold rndB; rw [if_neg h]; rfl
    rw [e, rnd_exactB _ _ hn]

lemma rnd_mono_posB {x y : ℚ} (hx : 0 < x) (h : x ≤ y) : rndB b x ≤ rndB b y := by
  have hy : 0 < y := hx.trans_le h
  have hux := unit_posB (b := b) x
  have huy := unit_posB (b := b) y
  have bx := unit_boundsB (b := b) x hx.ne'
  have b_y := unit_boundsB (b := b) y hy.ne'
  rw [abs_of_pos hx] at bx
  rw [abs_of_pos hy] at b_y
  have hl : Int.log 2 |x| ≤ Int.log 2 |y| := Int.log_mono_right (abs_pos.mpr hx.ne') (by rwa [abs_of_pos hx, abs_of_pos hy])
  unfold rndB
  rw [if_neg hx.ne', if_neg hy.ne']
  rcases hl.eq_or_lt with he | hlt
  · have : unitB b x = unitB b y := by unfold unitB; rw [he]
    rw [this]
    apply mul_le_mul_of_nonneg_right _ huy.le
    exact_mod_cast nearest_mono (div_le_div_of_nonneg_right h huy.le)
  · have h1 : (nearest (x / unitB b x) : ℚ) ≤ 2 ^ (b + 1) := by
      have h1 : x / unitB b x ≤ 2 ^ (b + 1) := by rw [div_le_iff₀ hux]; exact bx.2.le
      have := nearest_mono h1
      rw [show (2 ^ (b + 1) : ℚ) = ((2 ^ (b + 1) : ℤ) : ℚ) by norm_num, nearest_int] at this
      exact_mod_cast this
    have h2 : (2 ^ b : ℚ) ≤ nearest (y / unitB b y) := by
      have h1 : (2 ^ b : ℚ) ≤ y / unitB b y := by rw [le_div_iff₀ huy]; exact b_y.1
      have := nearest_mono h1
      rw [show (2 ^ b : ℚ) = ((2 ^ b : ℤ) : ℚ) by norm_num, nearest_int] at this
      exact_mod_cast this
    have h3 : 2 * unitB b x ≤ unitB b y := by
      unfold unitB
      have : (2 : ℚ) * 2 ^ (Int.log 2 |x| - (b : ℤ)) = 2 ^ (Int.log 2 |x| - (b : ℤ) + 1) := by
        rw [zpow_add₀ (by norm_num), zpow_one]; ring
      rw [this]
      exact zpow_le_zpow_right₀ (by norm_num) (by omega)
    calc (nearest (x / unitB b x) : ℚ) * unitB b x ≤ 2 ^ (b + 1) * unitB b x := mul_le_mul_of_nonneg_right h1 hux.le
      _ ≤ 2 ^ b * unitB b y := by rw [pow_succ]; nlinarith [pow_pos (show (0:ℚ) < 2 by norm_num) b]
      _ ≤ nearest (y / unitB b y) * unitB b y := mul_le_mul_of_nonneg_right h2 huy.le

lemma rnd_nonnegB {x : ℚ} (h : 0 ≤ x) : 0 ≤ rndB b x := by
  have := rnd_errB (b := b) x
  rw [abs_of_nonneg h] at this
  have h1 : -(x / 2 ^ (b + 1)) ≤ rndB b x - x := (abs_le.mp this).1
  have h2 : x / 2 ^ (b + 1) ≤ x := div_le_self h (one_le_pow₀ (by norm_num))
  linarith

lemma rnd_monoB {x y : ℚ} (h : x ≤ y) : rndB b x ≤ rndB b y := by
  rcases lt_trichotomy x 0 with hx | hx | hx
  · rcases le_or_gt 0 y with hy | hy
    · have h1 := rnd_nonnegB (b := b) (x := -x) (by linarith)
      rw [rnd_negB] at h1
      have := rnd_nonnegB (b := b) hy
      linarith
    · have := rnd_mono_posB (b := b) (x := -y) (y := -x) (by linarith) (by linarith)
      rw [rnd_negB, rnd_negB] at this
      linarith
  · subst hx
    rw [rnd_zeroB]
    exact rnd_nonnegB h
  · exact rnd_mono_posB hx h

lemma rnd_unit_errB (x : ℚ) (h : x ≠ 0) : |rndB b x - x| ≤ unitB b x / 2 := by
  have hu := unit_posB (b := b) x
  have he := nearest_err (x / unitB b x)
  have e : rndB b x - x = (nearest (x / unitB b x) - x / unitB b x) * unitB b x := by
    unfold rndB
    rw [if_neg h, sub_mul, div_mul_cancel₀ _ hu.ne']
  rw [e, abs_mul, abs_of_pos hu]
  have := mul_le_mul_of_nonneg_right he hu.le
  linarith

lemma unit_monoB {x y : ℚ} (hx : 0 < x) (h : x ≤ y) : unitB b x ≤ unitB b y := by
  have hy : 0 < y := hx.trans_le h
  unfold unitB
  apply zpow_le_zpow_right₀ (by norm_num)
  have := Int.log_mono_right (b := 2) (abs_pos.mpr hx.ne') (by rwa [abs_of_pos hx, abs_of_pos hy] : |x| ≤ |y|)
  omega

/-- A number of `b + 1` bits is a multipleB of its unit. -/
lemma multipleB {x : ℚ} (h0 : x ≠ 0) (h : rndB b x = x) : ∃ a : ℤ, x = a * unitB b x := by
  refine ⟨nearest (x / unitB b x), ?_⟩
  unfold rndB at h
  rw [if_neg h0] at h
  exact h.symm

lemma unit_ratioB {x y : ℚ} (hx : 0 < x) (h : x ≤ y) : ∃ n : ℕ, unitB b y = 2 ^ n * unitB b x := by
  have hy : 0 < y := hx.trans_le h
  have hl := Int.log_mono_right (b := 2) (abs_pos.mpr hx.ne') (by rwa [abs_of_pos hx, abs_of_pos hy] : |x| ≤ |y|)
  obtain ⟨n, hn⟩ := Int.eq_ofNat_of_zero_le (sub_nonneg.mpr hl)
  refine ⟨n, ?_⟩
  unfold unitB
  rw [← zpow_natCast, ← zpow_add₀ (by norm_num)]
  congr 1
  omega

lemma gap_aboveB {low high : ℚ} (h0 : 0 < low) (hlt : low < high) (hl : rndB b low = low) (hh : rndB b high = high) :
    low + unitB b low ≤ high := by
  obtain ⟨a, ha⟩ := multipleB h0.ne' hl
  obtain ⟨c, hb⟩ := multipleB (h0.trans hlt).ne' hh
  obtain ⟨n, hn⟩ := unit_ratioB h0 hlt.le
  have hu := unit_posB (b := b) low
  have hb' : high = ((c * 2 ^ n : ℤ) : ℚ) * unitB b low := by
    rw [hn] at hb
    push_cast
    linarith [hb]
  have hab : a < c * 2 ^ n := by
    have : (a : ℚ) * unitB b low < ((c * 2 ^ n : ℤ) : ℚ) * unitB b low := by rw [← ha, ← hb']; exact hlt
    exact_mod_cast lt_of_mul_lt_mul_right this hu.le
  have h1 : ((a + 1 : ℤ) : ℚ) ≤ ((c * 2 ^ n : ℤ) : ℚ) := by exact_mod_cast hab
  have h2 := mul_le_mul_of_nonneg_right h1 hu.le
  rw [← hb'] at h2
  push_cast at h2
  linarith


end Verif.Place
