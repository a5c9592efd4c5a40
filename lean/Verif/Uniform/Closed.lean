import Verif.Uniform.Props

/-!
# Between two numbers of double precision
-/
namespace Verif.Uniform
open Rng (convDrand)

lemma rnd_unit_err (x : ℚ) (h : x ≠ 0) : |rnd64 x - x| ≤ unit x / 2 := by
  have hu := unit_pos x
  have he := nearest_err (x / unit x)
  have e : rnd64 x - x = (nearest (x / unit x) - x / unit x) * unit x := by
    unfold rnd64
    rw [if_neg h, sub_mul, div_mul_cancel₀ _ hu.ne']
  rw [e, abs_mul, abs_of_pos hu]
  have := mul_le_mul_of_nonneg_right he hu.le
  linarith

lemma unit_mono {x y : ℚ} (hx : 0 < x) (h : x ≤ y) : unit x ≤ unit y := by
  have hy : 0 < y := hx.trans_le h
  unfold unit
  apply zpow_le_zpow_right₀ (by norm_num)
  have := Int.log_mono_right (b := 2) (abs_pos.mpr hx.ne') (by rwa [abs_of_pos hx, abs_of_pos hy] : |x| ≤ |y|)
  omega

/-- A number of double precision is a multiple of its unit. -/
lemma multiple {x : ℚ} (h0 : x ≠ 0) (h : rnd64 x = x) : ∃ a : ℤ, x = a * unit x := by
  refine ⟨nearest (x / unit x), ?_⟩
  unfold rnd64 at h
  rw [if_neg h0] at h
  exact h.symm

lemma unit_ratio {x y : ℚ} (hx : 0 < x) (h : x ≤ y) : ∃ n : ℕ, unit y = 2 ^ n * unit x := by
  have hy : 0 < y := hx.trans_le h
  have hl := Int.log_mono_right (b := 2) (abs_pos.mpr hx.ne') (by rwa [abs_of_pos hx, abs_of_pos hy] : |x| ≤ |y|)
  obtain ⟨n, hn⟩ := Int.eq_ofNat_of_zero_le (sub_nonneg.mpr hl)
  refine ⟨n, ?_⟩
  unfold unit
  rw [← zpow_natCast, ← zpow_add₀ (by norm_num)]
  congr 1
  omega

lemma gap_above {low high : ℚ} (h0 : 0 < low) (hlt : low < high) (hl : rnd64 low = low) (hh : rnd64 high = high) :
    low + unit low ≤ high := by
  obtain ⟨a, ha⟩ := multiple h0.ne' hl
  obtain ⟨b, hb⟩ := multiple (h0.trans hlt).ne' hh
  obtain ⟨n, hn⟩ := unit_ratio h0 hlt.le
  have hu := unit_pos low
  have hb' : high = ((b * 2 ^ n : ℤ) : ℚ) * unit low := by
    rw [hn] at hb
    push_cast
    linarith [hb]
  have hab : a < b * 2 ^ n := by
    have : (a : ℚ) * unit low < ((b * 2 ^ n : ℤ) : ℚ) * unit low := by rw [← ha, ← hb']; exact hlt
    exact_mod_cast lt_of_mul_lt_mul_right this hu.le
  have h1 : ((a + 1 : ℤ) : ℚ) ≤ ((b * 2 ^ n : ℤ) : ℚ) := by exact_mod_cast hab
  have h2 := mul_le_mul_of_nonneg_right h1 hu.le
  rw [← hb'] at h2
  push_cast at h2
  linarith

/-- Between powers of two the unit is the same. -/
lemma unit_eq {x y : ℚ} (hx : 0 < x) (h1 : 2 ^ 52 * unit x ≤ y) (h2 : y < 2 ^ 53 * unit x) : unit y = unit x := by
  have hux := unit_pos x
  have hy : 0 < y := lt_of_lt_of_le (by positivity) h1
  unfold unit at *
  rw [abs_of_pos hx] at *
  rw [abs_of_pos hy]
  have e1 : (2 : ℚ) ^ 52 * 2 ^ (Int.log 2 x - 52) = 2 ^ (Int.log 2 x) := by
    rw [← zpow_natCast, ← zpow_add₀ (by norm_num)]
    congr 1
    push_cast
    ring
  have e2 : (2 : ℚ) ^ 53 * 2 ^ (Int.log 2 x - 52) = 2 ^ (Int.log 2 x + 1) := by
    rw [← zpow_natCast, ← zpow_add₀ (by norm_num)]
    congr 1
    push_cast
    ring
  rw [e1] at h1
  rw [e2] at h2
  have l1 : Int.log 2 x ≤ Int.log 2 y := by
    rw [← Int.zpow_le_iff_le_log (by norm_num) hy]
    push_cast
    exact h1
  have l2 : Int.log 2 y < Int.log 2 x + 1 := by
    rw [← Int.lt_zpow_iff_log_lt (by norm_num) hy]
    push_cast
    exact h2
  congr 2
  omega

/-- A sum that is less than half a unit above a number of double precision is rounded to it or below. -/
lemma rnd_below {s high : ℚ} (h0 : 0 < high) (hh : rnd64 high = high) (hs : s < high + unit high / 2) : rnd64 s ≤ high := by
  rcases le_or_gt s high with h | h
  · have := rnd_mono h
    rwa [hh] at this
  · have hu := unit_pos high
    have hb := unit_bounds high h0.ne'
    rw [abs_of_pos h0] at hb
    obtain ⟨b, hbm⟩ := multiple h0.ne' hh
    have hb53 : b ≤ 2 ^ 53 - 1 := by
      have : (b : ℚ) * unit high < 2 ^ 53 * unit high := by rw [← hbm]; exact hb.2
      have : (b : ℚ) < 2 ^ 53 := lt_of_mul_lt_mul_right this hu.le
      have : b < 2 ^ 53 := by exact_mod_cast this
      omega
    have hbq : (b : ℚ) ≤ 2 ^ 53 - 1 := by exact_mod_cast hb53
    have hs2 : s < 2 ^ 53 * unit high := by
      have : (b : ℚ) * unit high ≤ (2 ^ 53 - 1) * unit high := mul_le_mul_of_nonneg_right hbq hu.le
      linarith
    have hus : unit s = unit high := unit_eq h0 (by linarith) hs2
    have hs0 : s ≠ 0 := (h0.trans h).ne'
    unfold rnd64
    rw [if_neg hs0, hus]
    have hy : s / unit high < b + 1 / 2 := by
      rw [div_lt_iff₀ hu]
      linarith
    have hn : nearest (s / unit high) ≤ b := by
      have f1 := Int.floor_le (s / unit high)
      rcases nearest_cases (s / unit high) with ⟨e, h'⟩ | ⟨e, h'⟩
      · rw [e]
        have : (⌊s / unit high⌋ : ℚ) < ((b + 1 : ℤ) : ℚ) := by push_cast; linarith
        have : ⌊s / unit high⌋ < b + 1 := by exact_mod_cast this
        omega
      · rw [e]
        have : (⌊s / unit high⌋ : ℚ) < (b : ℚ) := by linarith
        have : ⌊s / unit high⌋ < b := by exact_mod_cast this
        omega
    have hnq : (nearest (s / unit high) : ℚ) ≤ b := by exact_mod_cast hn
    have := mul_le_mul_of_nonneg_right hnq hu.le
    linarith

/-- A sum that is less than half a unit below a number of double precision is rounded to it or above; below a power of two the
units are smaller. -/
lemma rnd_above {s low : ℚ} (h0 : 0 < low) (hl : rnd64 low = low) (hs : low - unit low / 2 < s)
    (hp : low = 2 ^ 52 * unit low → low ≤ s) : low ≤ rnd64 s := by
  rcases le_or_gt low s with h | h
  · have := rnd_mono h
    rwa [hl] at this
  · have hu := unit_pos low
    have hb := unit_bounds low h0.ne'
    rw [abs_of_pos h0] at hb
    obtain ⟨a, ham⟩ := multiple h0.ne' hl
    have ha52 : 2 ^ 52 + 1 ≤ a := by
      have h1 : (2 ^ 52 : ℚ) * unit low ≤ a * unit low := by rw [← ham]; exact hb.1
      have h2 : (2 ^ 52 : ℚ) ≤ a := le_of_mul_le_mul_right h1 hu
      have h3 : (2 ^ 52 : ℤ) ≤ a := by exact_mod_cast h2
      have h4 : a ≠ 2 ^ 52 := by
        intro e
        have : low = 2 ^ 52 * unit low := by
          rw [e] at ham
          push_cast at ham
          exact ham
        exact absurd (hp this) (not_le.mpr h)
      omega
    have haq : (2 ^ 52 : ℚ) + 1 ≤ a := by exact_mod_cast ha52
    have hs1 : 2 ^ 52 * unit low ≤ s := by
      have := mul_le_mul_of_nonneg_right haq hu.le
      linarith
    have hus : unit s = unit low := unit_eq h0 hs1 (by linarith)
    have hs0 : s ≠ 0 := (lt_of_lt_of_le (by positivity) hs1).ne'
    unfold rnd64
    rw [if_neg hs0, hus]
    have hy : a - 1 / 2 < s / unit low := by
      rw [lt_div_iff₀ hu]
      linarith
    have hn : a ≤ nearest (s / unit low) := by
      have f2 := Int.lt_floor_add_one (s / unit low)
      rcases nearest_cases (s / unit low) with ⟨e, h'⟩ | ⟨e, h'⟩
      · rw [e]
        have : ((a - 1 : ℤ) : ℚ) < (⌊s / unit low⌋ : ℚ) := by push_cast; linarith
        have : a - 1 < ⌊s / unit low⌋ := by exact_mod_cast this
        omega
      · rw [e]
        have : ((a - 2 : ℤ) : ℚ) < (⌊s / unit low⌋ : ℚ) := by push_cast; linarith
        have : a - 2 < ⌊s / unit low⌋ := by exact_mod_cast this
        omega
    have hnq : (a : ℚ) ≤ (nearest (s / unit low) : ℚ) := by exact_mod_cast hn
    have := mul_le_mul_of_nonneg_right hnq hu.le
    linarith

/-- The product of a power of two and a multiple of 2^-53 is exact. -/
lemma power_exact {x : ℚ} (h : x = 2 ^ 52 * unit x) (m : ℕ) (hm : m ≤ 2 ^ 53) : rnd64 (x * (m / 2 ^ 53)) = x * (m / 2 ^ 53) := by
  have e : x * ((m : ℚ) / 2 ^ 53) = ((m : ℤ) : ℚ) * 2 ^ (Int.log 2 |x| - 53) := by
    have h1 : unit x = 2 * 2 ^ (Int.log 2 |x| - 53) := by
      unfold unit
      rw [show Int.log 2 |x| - 52 = 1 + (Int.log 2 |x| - 53) by ring, zpow_add₀ (by norm_num), zpow_one]
    calc x * ((m : ℚ) / 2 ^ 53) = 2 ^ 52 * unit x * (m / 2 ^ 53) := by rw [← h]
      _ = ((m : ℤ) : ℚ) * 2 ^ (Int.log 2 |x| - 53) := by
        rw [h1]
        push_cast
        ring
  rw [e]
  apply rnd_exact
  rw [abs_of_nonneg (Int.natCast_nonneg m)]
  exact_mod_cast hm

/-- Closed bounds for positive numbers. -/
lemma closed_pos (m : ℕ) (h1 : 0 < m) (h2 : m < 2 ^ 53) (low high : ℚ) (h0 : 0 < low) (hlt : low < high)
    (hl : rnd64 low = low) (hh : rnd64 high = high) :
    low ≤ uniform rnd64 (m / 2 ^ 53) low high ∧ uniform rnd64 (m / 2 ^ 53) low high ≤ high := by
  have hhigh : 0 < high := h0.trans hlt
  set dx : ℚ := m / 2 ^ 53 with hdx
  have hmq : (0 : ℚ) < m := by exact_mod_cast h1
  have hmq2 : (m : ℚ) < 2 ^ 53 := by exact_mod_cast h2
  have hd0 : 0 < dx := by rw [hdx]; positivity
  have hd1 : 0 < 1 - dx := by
    have : dx < 1 := by rw [hdx, div_lt_one (by positivity)]; exact hmq2
    linarith
  have hc : 1 - dx = ((2 ^ 53 - m : ℕ) : ℚ) / 2 ^ 53 := by
    rw [hdx, Nat.cast_sub h2.le]
    push_cast
    field_simp
    norm_num
  have hcr : rnd64 (1 - dx) = 1 - dx := by
    rw [hc]
    exact double.exact (2 ^ 53 - m) 53 (Nat.sub_le _ _) (by norm_num)
  have hul := unit_pos low
  have huh := unit_pos high
  have bl := unit_bounds low h0.ne'
  have bh := unit_bounds high hhigh.ne'
  rw [abs_of_pos h0] at bl
  rw [abs_of_pos hhigh] at bh
  have hgap := gap_above h0 hlt hl hh
  have hlp : 0 < low * (1 - dx) := mul_pos h0 hd1
  have hhp : 0 < high * dx := mul_pos hhigh hd0
  have ep := abs_le.mp (rnd_unit_err _ hlp.ne')
  have eq := abs_le.mp (rnd_unit_err _ hhp.ne')
  have ep' := rnd_err (low * (1 - dx))
  have eq' := rnd_err (high * dx)
  rw [abs_of_pos hlp] at ep'
  rw [abs_of_pos hhp] at eq'
  have ep' := abs_le.mp ep'
  have eq' := abs_le.mp eq'
  have up : unit (low * (1 - dx)) ≤ unit low := unit_mono hlp (by nlinarith)
  have uq : unit (high * dx) ≤ unit high := unit_mono hhp (by nlinarith)
  unfold uniform
  rw [hcr]
  constructor
  · -- the second term is above its share of the lower bound
    have hq : low * dx < rnd64 (high * dx) := by
      by_cases hp2 : high = 2 ^ 52 * unit high
      · rw [hdx, power_exact hp2 m h2.le, ← hdx]
        exact mul_lt_mul_of_pos_right hlt hd0
      · have hbelow : low ≤ high - unit high := by
          obtain ⟨b, hb⟩ := multiple hhigh.ne' hh
          have hb1 : 2 ^ 52 + 1 ≤ b := by
            have h3 : (2 ^ 52 : ℚ) * unit high ≤ b * unit high := by rw [← hb]; exact bh.1
            have h4 : (2 ^ 52 : ℚ) ≤ b := le_of_mul_le_mul_right h3 huh
            have h5 : (2 ^ 52 : ℤ) ≤ b := by exact_mod_cast h4
            have h6 : b ≠ 2 ^ 52 := by
              intro e
              apply hp2
              rw [e] at hb
              push_cast at hb
              exact hb
            omega
          have hbq : (2 ^ 52 : ℚ) + 1 ≤ b := by exact_mod_cast hb1
          have hb2 := mul_le_mul_of_nonneg_right hbq huh.le
          rcases lt_or_ge low (2 ^ 52 * unit high) with hx | hx
          · linarith
          · have hu : unit low = unit high := unit_eq hhigh hx (hlt.trans bh.2)
            rw [← hu]
            linarith
        have h3 : high / 2 ^ 53 < unit high := by
          rw [div_lt_iff₀ (by positivity)]
          linarith [bh.2]
        have h4 : high * dx / 2 ^ 53 = high / 2 ^ 53 * dx := by ring
        have h5 : high / 2 ^ 53 * dx < unit high * dx := mul_lt_mul_of_pos_right h3 hd0
        have h6 : low * dx ≤ (high - unit high) * dx := mul_le_mul_of_nonneg_right hbelow hd0.le
        linarith [eq'.1]
    apply rnd_above h0 hl
    · linarith [ep.1]
    · intro hp2
      have : rnd64 (low * (1 - dx)) = low * (1 - dx) := by
        rw [hc]; exact power_exact hp2 _ (Nat.sub_le _ _)
      rw [this]
      linarith
  · apply rnd_below hhigh hh
    have h3 : low / 2 ^ 53 < unit low := by
      rw [div_lt_iff₀ (by positivity)]
      linarith [bl.2]
    have h4 : low * (1 - dx) / 2 ^ 53 = low / 2 ^ 53 * (1 - dx) := by ring
    have h5 : low / 2 ^ 53 * (1 - dx) < unit low * (1 - dx) := mul_lt_mul_of_pos_right h3 hd1
    have h6 : (low + unit low) * (1 - dx) ≤ high * (1 - dx) := mul_le_mul_of_nonneg_right hgap hd1.le
    linarith [ep'.2, eq.2]

/-- Exchanging the bounds is replacing the number by its complement. -/
lemma uniform_flip (m : ℕ) (h2 : m < 2 ^ 53) (low high : ℚ) :
    uniform rnd64 (m / 2 ^ 53) low high = -uniform rnd64 ((2 ^ 53 - m : ℕ) / 2 ^ 53) (-high) (-low) := by
  have hc : 1 - (m : ℚ) / 2 ^ 53 = ((2 ^ 53 - m : ℕ) : ℚ) / 2 ^ 53 := by
    rw [Nat.cast_sub h2.le]
    push_cast
    field_simp
    norm_num
  have hc' : 1 - ((2 ^ 53 - m : ℕ) : ℚ) / 2 ^ 53 = (m : ℚ) / 2 ^ 53 := by rw [← hc]; ring
  have r1 : rnd64 (((2 ^ 53 - m : ℕ) : ℚ) / 2 ^ 53) = ((2 ^ 53 - m : ℕ) : ℚ) / 2 ^ 53 :=
    double.exact (2 ^ 53 - m) 53 (Nat.sub_le _ _) (by norm_num)
  have r2 : rnd64 ((m : ℚ) / 2 ^ 53) = (m : ℚ) / 2 ^ 53 := double.exact m 53 h2.le (by norm_num)
  unfold uniform
  rw [hc, hc', r1, r2, neg_mul, neg_mul, rnd_neg, rnd_neg, ← neg_add, rnd_neg, neg_neg, add_comm]

/-- **C121, the closed interval.** Between two different numbers of double precision, the number is never outside of the bounds,
for everything the generator may return. -/
theorem uniform_closed_partial (u : ℕ) (hu : u < 2 ^ 64) (low high : ℚ) (hlt : low < high) (hl : rnd64 low = low)
    (hh : rnd64 high = high) :
    low ≤ uniform rnd64 (convDrand double u) low high ∧ uniform rnd64 (convDrand double u) low high ≤ high := by
  rcases le_or_gt low 0 with h1 | h1
  · rcases le_or_gt 0 high with h2 | h2
    · have := uniform_inside_partial u hu low high h1 h2 hlt
      exact ⟨this.1.le, this.2.le⟩
    · have hk : u / 2 ^ 12 < 2 ^ 52 := by omega
      have e : convDrand double u = ((2 * (u / 2 ^ 12) + 1 : ℕ) : ℚ) / 2 ^ 53 := by
        rw [(Rng.drand_intervals double rfl u hu).1.1]
        push_cast
        ring
      rw [e, uniform_flip _ (by omega)]
      have := closed_pos (2 ^ 53 - (2 * (u / 2 ^ 12) + 1)) (by omega) (by omega) (-high) (-low) (by linarith) (by linarith)
        (by rw [rnd_neg, hh]) (by rw [rnd_neg, hl])
      constructor
      · linarith [this.2]
      · linarith [this.1]
  · have hk : u / 2 ^ 12 < 2 ^ 52 := by omega
    have e : convDrand double u = ((2 * (u / 2 ^ 12) + 1 : ℕ) : ℚ) / 2 ^ 53 := by
      rw [(Rng.drand_intervals double rfl u hu).1.1]
      push_cast
      ring
    rw [e]
    exact closed_pos _ (by omega) (by omega) low high h1 hlt hl hh

end Verif.Uniform
