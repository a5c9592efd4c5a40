import Verif.Uniform.Model
import Mathlib.Tactic.Linarith
import Mathlib.Tactic.FieldSimp
import Mathlib.Tactic.Ring
import Mathlib.Tactic.NormNum
import Mathlib.Tactic.Positivity

/-!
# Rounding to 53 bits
-/
namespace Verif.Uniform

lemma nearest_cases (y : ℚ) : (nearest y = ⌊y⌋ ∧ y - ⌊y⌋ ≤ 1 / 2) ∨ (nearest y = ⌊y⌋ + 1 ∧ 1 / 2 ≤ y - ⌊y⌋) := by
  unfold nearest
  split_ifs with h1 h2 h3
  · exact Or.inl ⟨rfl, h1.le⟩
  · exact Or.inr ⟨rfl, h2.le⟩
  · exact Or.inl ⟨rfl, not_lt.mp h2⟩
  · exact Or.inr ⟨rfl, not_lt.mp h1⟩

lemma nearest_err (y : ℚ) : |(nearest y : ℚ) - y| ≤ 1 / 2 := by
  have f1 := Int.floor_le y
  have f2 := Int.lt_floor_add_one y
  rw [abs_le]
  rcases nearest_cases y with ⟨h, h'⟩ | ⟨h, h'⟩ <;> rw [h] <;> push_cast <;> constructor <;> linarith

lemma nearest_int (m : ℤ) : nearest (m : ℚ) = m := by
  unfold nearest
  norm_num

lemma nearest_mono {x y : ℚ} (h : x ≤ y) : nearest x ≤ nearest y := by
  by_contra hlt
  have hlt : nearest y + 1 ≤ nearest x := by omega
  have hf : ⌊x⌋ ≤ ⌊y⌋ := Int.floor_le_floor h
  rcases nearest_cases x with ⟨hx, hx'⟩ | ⟨hx, hx'⟩ <;> rcases nearest_cases y with ⟨hy, hy'⟩ | ⟨hy, hy'⟩
  · omega
  · omega
  · have he : ⌊x⌋ = ⌊y⌋ := by omega
    have hxy : x = y := by
      have : (⌊x⌋ : ℚ) = ⌊y⌋ := by exact_mod_cast he
      linarith
    subst hxy
    omega
  · omega

lemma nearest_neg (y : ℚ) : nearest (-y) = -nearest y := by
  by_cases hy : (⌊y⌋ : ℚ) = y
  · have e1 : nearest y = ⌊y⌋ := by rw [← hy, nearest_int]; simp
    have e2 : nearest (-y) = -⌊y⌋ := by
      rw [← hy, show -(⌊y⌋ : ℚ) = ((-⌊y⌋ : ℤ) : ℚ) by push_cast; rfl, nearest_int]; simp
    rw [e1, e2]
  · have f1 := Int.floor_le y
    have f2 := Int.lt_floor_add_one y
    have hlt : (⌊y⌋ : ℚ) < y := lt_of_le_of_ne f1 hy
    have hfl : ⌊-y⌋ = -⌊y⌋ - 1 := by
      rw [Int.floor_eq_iff]; push_cast; constructor <;> linarith
    unfold nearest
    rw [hfl]
    push_cast
    have hm : (-⌊y⌋ - 1) % 2 = 0 ↔ ¬ ⌊y⌋ % 2 = 0 := by omega
    split_ifs with a1 a2 a3 a4 a5 a6 a7 a8 a9 a10 a11 a12 <;> first | omega | (exfalso; linarith) | (exfalso; omega)

lemma unit_pos (x : ℚ) : 0 < unit x := by unfold unit; exact zpow_pos (by norm_num) _

lemma unit_neg (x : ℚ) : unit (-x) = unit x := by unfold unit; rw [abs_neg]

lemma rnd_zero : rnd64 0 = 0 := by simp [rnd64]

lemma rnd_neg (x : ℚ) : rnd64 (-x) = -rnd64 x := by
  unfold rnd64
  by_cases h : x = 0
  · simp [h]
  · rw [if_neg h, if_neg (neg_ne_zero.mpr h), unit_neg, neg_div, nearest_neg]
    push_cast
    ring

lemma unit_bounds (x : ℚ) (h : x ≠ 0) : 2 ^ 52 * unit x ≤ |x| ∧ |x| < 2 ^ 53 * unit x := by
  have h0 : 0 < |x| := abs_pos.mpr h
  have h1 := Int.zpow_log_le_self (b := 2) (by norm_num) h0
  have h2 := Int.lt_zpow_succ_log_self (b := 2) (by norm_num) |x|
  have e1 : (2 : ℚ) ^ (Int.log 2 |x|) = 2 ^ 52 * unit x := by
    unfold unit
    rw [← zpow_natCast, ← zpow_add₀ (by norm_num)]
    congr 1
    push_cast
    ring
  have e2 : (2 : ℚ) ^ (Int.log 2 |x| + 1) = 2 ^ 53 * unit x := by
    unfold unit
    rw [← zpow_natCast, ← zpow_add₀ (by norm_num)]
    congr 1
    push_cast
    ring
  push_cast at h1 h2
  rw [e1] at h1
  rw [e2] at h2
  exact ⟨h1, h2⟩

/-- The relative error is at most 2^-53. -/
lemma rnd_err (x : ℚ) : |rnd64 x - x| ≤ |x| / 2 ^ 53 := by
  by_cases h : x = 0
  · simp [h, rnd_zero]
  · have hu := unit_pos x
    have hb := (unit_bounds x h).1
    have he := nearest_err (x / unit x)
    have e : rnd64 x - x = (nearest (x / unit x) - x / unit x) * unit x := by
      unfold rnd64
      rw [if_neg h, sub_mul, div_mul_cancel₀ _ hu.ne']
    rw [e, abs_mul, abs_of_pos hu]
    have : |(nearest (x / unit x) : ℚ) - x / unit x| * unit x ≤ 1 / 2 * unit x := mul_le_mul_of_nonneg_right he hu.le
    rw [le_div_iff₀ (by positivity)]
    nlinarith

/-- Numbers with at most 53 bits are not changed. -/
lemma rnd_exact (m k : ℤ) (hm : |m| ≤ 2 ^ 53) : rnd64 (m * 2 ^ k) = m * 2 ^ k := by
  by_cases h0 : m = 0
  · simp [h0, rnd_zero]
  · set x : ℚ := m * 2 ^ k with hx
    have hp : (0 : ℚ) < 2 ^ k := zpow_pos (by norm_num) _
    have hm0 : (m : ℚ) ≠ 0 := by exact_mod_cast h0
    have hx0 : x ≠ 0 := by rw [hx]; exact mul_ne_zero hm0 hp.ne'
    have hab : |x| = |(m : ℚ)| * 2 ^ k := by rw [hx, abs_mul, abs_of_pos hp]
    have hb := (unit_bounds x hx0).1
    have hmq : |(m : ℚ)| ≤ 2 ^ 53 := by exact_mod_cast hm
    -- x is a multiple of the unit
    have hint : ∃ z : ℤ, x = z * unit x := by
      have hu : unit x = 2 ^ (Int.log 2 |x| - 52) := rfl
      set L := Int.log 2 |x| with hL
      by_cases hk : L - 52 ≤ k
      · obtain ⟨n, hn⟩ := Int.eq_ofNat_of_zero_le (sub_nonneg.mpr hk)
        refine ⟨m * 2 ^ n, ?_⟩
        rw [hu, hx]
        push_cast
        rw [mul_assoc, ← zpow_natCast, ← zpow_add₀ (by norm_num : (2 : ℚ) ≠ 0)]
        congr 2
        rw [← hn]
        ring
      · have hk : k + 53 ≤ L := by omega
        have h1 : (2 : ℚ) ^ (k + 53) ≤ 2 ^ L := zpow_le_zpow_right₀ (by norm_num) hk
        have h2 := Int.zpow_log_le_self (b := 2) (by norm_num) (abs_pos.mpr hx0)
        push_cast at h2
        rw [← hL, hab] at h2
        have h3 : |(m : ℚ)| * 2 ^ k ≤ 2 ^ 53 * 2 ^ k := mul_le_mul_of_nonneg_right hmq hp.le
        have h4 : (2 : ℚ) ^ (k + 53) = 2 ^ 53 * 2 ^ k := by
          rw [zpow_add₀ (by norm_num), mul_comm]; norm_num
        have h5 : (2 : ℚ) ^ L = 2 ^ (k + 53) := by linarith
        have h6 : L = k + 53 := zpow_right_injective₀ (by norm_num) (by norm_num) h5
        have h7 : |(m : ℚ)| * 2 ^ k = 2 ^ 53 * 2 ^ k := by linarith
        have h8 : |(m : ℚ)| = 2 ^ 53 := mul_right_cancel₀ hp.ne' h7
        have h9 : |m| = 2 ^ 53 := by exact_mod_cast h8
        have h10 : unit x = 2 * 2 ^ k := by
          rw [hu, h6, show k + 53 - 52 = 1 + k by ring, zpow_add₀ (by norm_num), zpow_one]
        have hd : ∃ z, m = 2 * z := by
          rcases abs_eq (by norm_num : (0 : ℤ) ≤ 2 ^ 53) |>.mp h9 with h | h
          · exact ⟨2 ^ 52, by rw [h]; norm_num⟩
          · exact ⟨-2 ^ 52, by rw [h]; norm_num⟩
        obtain ⟨z, hz⟩ := hd
        refine ⟨z, ?_⟩
        rw [h10, hx, hz]
        push_cast
        ring
    obtain ⟨z, hz⟩ := hint
    have hu := unit_pos x
    unfold rnd64
    rw [if_neg hx0]
    have : x / unit x = (z : ℚ) := by
      rw [div_eq_iff hu.ne']; exact hz
    rw [this, nearest_int]
    exact hz.symm

/-- A rounded number is not changed by rounding again. -/
lemma rnd_idem (x : ℚ) : rnd64 (rnd64 x) = rnd64 x := by
  by_cases h : x = 0
  · simp [h, rnd_zero]
  · have hu := unit_pos x
    have hb := unit_bounds x h
    have hn : |nearest (x / unit x)| ≤ 2 ^ 53 := by
      have h1 : |x / unit x| < 2 ^ 53 := by
        rw [abs_div, abs_of_pos hu, div_lt_iff₀ hu]; exact hb.2
      rw [abs_lt] at h1
      rw [abs_le]
      constructor
      · have := nearest_mono h1.1.le
        rw [show (-2 ^ 53 : ℚ) = ((-2 ^ 53 : ℤ) : ℚ) by norm_num, nearest_int] at this
        exact this
      · have := nearest_mono h1.2.le
        rw [show (2 ^ 53 : ℚ) = ((2 ^ 53 : ℤ) : ℚ) by norm_num, nearest_int] at this
        exact this
    have e : rnd64 x = nearest (x / unit x) * 2 ^ (Int.log 2 |x| - 52) := by
      unfold rnd64; rw [if_neg h]; rfl
    rw [e, rnd_exact _ _ hn]

lemma rnd_mono_pos {x y : ℚ} (hx : 0 < x) (h : x ≤ y) : rnd64 x ≤ rnd64 y := by
  have hy : 0 < y := hx.trans_le h
  have hux := unit_pos x
  have huy := unit_pos y
  have bx := unit_bounds x hx.ne'
  have b_y := unit_bounds y hy.ne'
  rw [abs_of_pos hx] at bx
  rw [abs_of_pos hy] at b_y
  have hl : Int.log 2 |x| ≤ Int.log 2 |y| := Int.log_mono_right (abs_pos.mpr hx.ne') (by rwa [abs_of_pos hx, abs_of_pos hy])
  unfold rnd64
  rw [if_neg hx.ne', if_neg hy.ne']
  rcases hl.eq_or_lt with he | hlt
  · have : unit x = unit y := by unfold unit; rw [he]
    rw [this]
    apply mul_le_mul_of_nonneg_right _ huy.le
    exact_mod_cast nearest_mono (div_le_div_of_nonneg_right h huy.le)
  · have h1 : (nearest (x / unit x) : ℚ) ≤ 2 ^ 53 := by
      have h1 : x / unit x ≤ 2 ^ 53 := by rw [div_le_iff₀ hux]; exact bx.2.le
      have := nearest_mono h1
      rw [show (2 ^ 53 : ℚ) = ((2 ^ 53 : ℤ) : ℚ) by norm_num, nearest_int] at this
      exact_mod_cast this
    have h2 : (2 ^ 52 : ℚ) ≤ nearest (y / unit y) := by
      have h1 : (2 ^ 52 : ℚ) ≤ y / unit y := by rw [le_div_iff₀ huy]; exact b_y.1
      have := nearest_mono h1
      rw [show (2 ^ 52 : ℚ) = ((2 ^ 52 : ℤ) : ℚ) by norm_num, nearest_int] at this
      exact_mod_cast this
    have h3 : 2 * unit x ≤ unit y := by
      unfold unit
      have : (2 : ℚ) * 2 ^ (Int.log 2 |x| - 52) = 2 ^ (Int.log 2 |x| - 52 + 1) := by
        rw [zpow_add₀ (by norm_num), zpow_one]; ring
      rw [this]
      exact zpow_le_zpow_right₀ (by norm_num) (by omega)
    calc (nearest (x / unit x) : ℚ) * unit x ≤ 2 ^ 53 * unit x := mul_le_mul_of_nonneg_right h1 hux.le
      _ ≤ 2 ^ 52 * unit y := by nlinarith
      _ ≤ nearest (y / unit y) * unit y := mul_le_mul_of_nonneg_right h2 huy.le

lemma rnd_nonneg {x : ℚ} (h : 0 ≤ x) : 0 ≤ rnd64 x := by
  have := rnd_err x
  rw [abs_of_nonneg h] at this
  have h1 : -(x / 2 ^ 53) ≤ rnd64 x - x := (abs_le.mp this).1
  have h2 : x / 2 ^ 53 ≤ x := div_le_self h (by norm_num)
  linarith

lemma rnd_mono {x y : ℚ} (h : x ≤ y) : rnd64 x ≤ rnd64 y := by
  rcases lt_trichotomy x 0 with hx | hx | hx
  · rcases le_or_gt 0 y with hy | hy
    · have h1 := rnd_nonneg (x := -x) (by linarith)
      rw [rnd_neg] at h1
      have := rnd_nonneg hy
      linarith
    · have := rnd_mono_pos (x := -y) (y := -x) (by linarith) (by linarith)
      rw [rnd_neg, rnd_neg] at this
      linarith
  · subst hx
    rw [rnd_zero]
    exact rnd_nonneg h
  · exact rnd_mono_pos hx h

/-- Double precision as a format of C41. -/
def double : Rng.Format where
  p := 53
  rnd := rnd64
  exact := fun m e hm _ => by
    have := rnd_exact m (-(e : ℤ)) (by rw [abs_of_nonneg (Int.natCast_nonneg m)]; exact_mod_cast hm)
    rw [zpow_neg, zpow_natCast] at this
    push_cast at this
    rw [div_eq_mul_inv]
    exact this

end Verif.Uniform
