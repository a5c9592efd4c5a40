import Verif.Uniform.Lemmas
import Verif.Rng.Props

/-!
# C121: random numbers in an interval
-/
namespace Verif.Uniform
open Rng (convDrand)

/-- The numbers that `drand` returns: odd multiples of 2^-53 between 0 and 1. -/
lemma drand_values (u : ℕ) (hu : u < 2 ^ 64) :
    1 / 2 ^ 53 ≤ convDrand double u ∧ convDrand double u ≤ 1 - 1 / 2 ^ 53 ∧
      rnd64 (1 - convDrand double u) = 1 - convDrand double u := by
  have h := (Rng.drand_intervals double rfl u hu).1.1
  have hk : u / 2 ^ 12 < 2 ^ 52 := by omega
  set k := u / 2 ^ 12 with hkd
  have hkq : (k : ℚ) + 1 ≤ 2 ^ 52 := by exact_mod_cast hk
  have hk0 : (0 : ℚ) ≤ k := Nat.cast_nonneg _
  rw [h]
  refine ⟨?_, ?_, ?_⟩
  · rw [div_le_div_iff₀ (by positivity) (by positivity)]
    linarith
  · rw [div_le_iff₀ (by positivity)]
    norm_num
    norm_num at hkq
    linarith
  · have e : (1 : ℚ) - (k + 1 / 2) / 2 ^ 52 = ((2 ^ 53 - 2 * k - 1 : ℤ) : ℚ) * 2 ^ (-53 : ℤ) := by
      push_cast
      rw [zpow_neg]
      norm_num
      ring
    rw [e]
    apply rnd_exact
    rw [abs_le]
    constructor <;> omega

/-- **C121, where it holds.** For an interval that contains zero, the number is strictly inside, for everything the generator
may return. -/
theorem uniform_inside_partial (u : ℕ) (hu : u < 2 ^ 64) (low high : ℚ) (hl : low ≤ 0) (hh : 0 ≤ high) (hlt : low < high) :
    low < uniform rnd64 (convDrand double u) low high ∧ uniform rnd64 (convDrand double u) low high < high := by
  obtain ⟨h1, h2, h3⟩ := drand_values u hu
  set dx := convDrand double u with hdx
  have hd0 : 0 < dx := lt_of_lt_of_le (by norm_num) h1
  have hd1 : 0 < 1 - dx := by
    have : (0 : ℚ) < 1 / 2 ^ 53 := by norm_num
    linarith
  have hc0 : 1 / 2 ^ 53 ≤ 1 - dx := by linarith
  have hc1 : 1 - dx ≤ 1 - 1 / 2 ^ 53 := by linarith
  unfold uniform
  rw [h3]
  set p := rnd64 (low * (1 - dx)) with hp
  set q := rnd64 (high * dx) with hq
  have hpi : rnd64 p = p := rnd_idem _
  have hqi : rnd64 q = q := rnd_idem _
  have hp0 : p ≤ 0 := by
    have := rnd_mono (x := low * (1 - dx)) (y := 0) (mul_nonpos_of_nonpos_of_nonneg hl hd1.le)
    rwa [rnd_zero] at this
  have hq0 : 0 ≤ q := rnd_nonneg (mul_nonneg hh hd0.le)
  have ep := rnd_err (low * (1 - dx))
  have eq := rnd_err (high * dx)
  rw [abs_of_nonneg (mul_nonneg hh hd0.le)] at eq
  rw [abs_of_nonpos (mul_nonpos_of_nonpos_of_nonneg hl hd1.le)] at ep
  rw [← hp] at ep
  rw [← hq] at eq
  have ep := abs_le.mp ep
  have eq := abs_le.mp eq
  -- the sum is at least the first and at most the second term
  have s1 : p ≤ rnd64 (p + q) := by
    have := rnd_mono (x := p) (y := p + q) (by linarith)
    rwa [hpi] at this
  have s2 : rnd64 (p + q) ≤ q := by
    have := rnd_mono (x := p + q) (y := q) (by linarith)
    rwa [hqi] at this
  constructor
  · rcases hl.eq_or_lt with h0 | h0
    · -- the interval starts at zero
      have hp' : p = 0 := by rw [hp, h0, zero_mul, rnd_zero]
      have hh' : 0 < high := by linarith
      have hpos : 0 < high * dx := mul_pos hh' hd0
      rw [hp', zero_add, hqi, h0]
      have : high * dx / 2 ^ 53 < high * dx := div_lt_self hpos (by norm_num)
      linarith [eq.1]
    · refine lt_of_lt_of_le ?_ s1
      have hb : (-low) * (1 - dx) ≤ (-low) * (1 - 1 / 2 ^ 53) := mul_le_mul_of_nonneg_left hc1 (by linarith)
      have : low * (1 - dx) - -(low * (1 - dx)) / 2 ^ 53 > low := by
        have e : low * (1 - dx) - -(low * (1 - dx)) / 2 ^ 53 = -((-low) * (1 - dx) * (1 + 1 / 2 ^ 53)) := by ring
        rw [e]
        have : (-low) * (1 - dx) * (1 + 1 / 2 ^ 53) ≤ (-low) * (1 - 1 / 2 ^ 53) * (1 + 1 / 2 ^ 53) :=
          mul_le_mul_of_nonneg_right hb (by norm_num)
        have h5 : (-low) * (1 - 1 / 2 ^ 53) * (1 + 1 / 2 ^ 53) < -low := by
          rw [mul_assoc]
          exact mul_lt_of_lt_one_right (by linarith) (by norm_num)
        linarith
      linarith [ep.1]
  · rcases hh.eq_or_lt with h0 | h0
    · have hq' : q = 0 := by rw [hq, ← h0, zero_mul, rnd_zero]
      have hl' : low < 0 := by linarith
      have hneg : low * (1 - dx) < 0 := mul_neg_of_neg_of_pos hl' hd1
      rw [hq', add_zero, hpi, ← h0]
      have : -(low * (1 - dx)) / 2 ^ 53 < -(low * (1 - dx)) := div_lt_self (by linarith) (by norm_num)
      linarith [ep.2]
    · refine lt_of_le_of_lt s2 ?_
      have hb : high * dx ≤ high * (1 - 1 / 2 ^ 53) := mul_le_mul_of_nonneg_left h2 hh
      have h4 : high * dx * (1 + 1 / 2 ^ 53) ≤ high * (1 - 1 / 2 ^ 53) * (1 + 1 / 2 ^ 53) :=
        mul_le_mul_of_nonneg_right hb (by norm_num)
      have h5 : high * (1 - 1 / 2 ^ 53) * (1 + 1 / 2 ^ 53) < high := by
        rw [mul_assoc]
        exact mul_lt_of_lt_one_right h0 (by norm_num)
      have h6 : high * dx * (1 + 1 / 2 ^ 53) = high * dx + high * dx / 2 ^ 53 := by ring
      linarith [eq.2]

/-- **C121, where it holds.** For every interval the number is the one of exact arithmetic, which is strictly inside, but for at
most 2^-51 of the larger bound. -/
theorem uniform_near_partial (u : ℕ) (hu : u < 2 ^ 64) (low high M : ℚ) (hl : |low| ≤ M) (hh : |high| ≤ M) :
    let dx := convDrand double u
    |uniform rnd64 dx low high - (low + dx * (high - low))| ≤ M / 2 ^ 51 ∧
      (low < high → low < low + dx * (high - low) ∧ low + dx * (high - low) < high) := by
  obtain ⟨h1, h2, h3⟩ := drand_values u hu
  intro dx
  have hdx : convDrand double u = dx := rfl
  rw [hdx] at h1 h2 h3
  have hu0 : (0 : ℚ) < 1 / 2 ^ 53 := by norm_num
  have hd0 : 0 < dx := lt_of_lt_of_le hu0 h1
  have hd1 : 0 < 1 - dx := by linarith
  constructor
  · unfold uniform
    rw [h3]
    have hM : 0 ≤ M := (abs_nonneg low).trans hl
    have ea := rnd_err (low * (1 - dx))
    have eb := rnd_err (high * dx)
    have ec := rnd_err (rnd64 (low * (1 - dx)) + rnd64 (high * dx))
    have ba : |low * (1 - dx)| ≤ M * (1 - dx) := by
      rw [abs_mul, abs_of_pos hd1]; exact mul_le_mul_of_nonneg_right hl hd1.le
    have bb : |high * dx| ≤ M * dx := by
      rw [abs_mul, abs_of_pos hd0]; exact mul_le_mul_of_nonneg_right hh hd0.le
    set a := low * (1 - dx) with ha
    set b := high * dx with hb
    have e : low + dx * (high - low) = a + b := by rw [ha, hb]; ring
    rw [e]
    set p := rnd64 a
    set q := rnd64 b
    have ea' : |p - a| ≤ M * (1 - dx) / 2 ^ 53 := ea.trans (div_le_div_of_nonneg_right ba (by norm_num))
    have eb' : |q - b| ≤ M * dx / 2 ^ 53 := eb.trans (div_le_div_of_nonneg_right bb (by norm_num))
    have hpq : |p + q - (a + b)| ≤ M / 2 ^ 53 := by
      calc |p + q - (a + b)| = |(p - a) + (q - b)| := by congr 1; ring
        _ ≤ |p - a| + |q - b| := abs_add_le _ _
        _ ≤ M * (1 - dx) / 2 ^ 53 + M * dx / 2 ^ 53 := add_le_add ea' eb'
        _ = M / 2 ^ 53 := by ring
    have hab : |a + b| ≤ M := by
      calc |a + b| ≤ |a| + |b| := abs_add_le _ _
        _ ≤ M * (1 - dx) + M * dx := add_le_add ba bb
        _ = M := by ring
    have hs : |p + q| ≤ M + M / 2 ^ 53 := by
      calc |p + q| = |(a + b) + (p + q - (a + b))| := by congr 1; ring
        _ ≤ |a + b| + |p + q - (a + b)| := abs_add_le _ _
        _ ≤ M + M / 2 ^ 53 := add_le_add hab hpq
    have ec' : |rnd64 (p + q) - (p + q)| ≤ (M + M / 2 ^ 53) / 2 ^ 53 := ec.trans (div_le_div_of_nonneg_right hs (by norm_num))
    calc |rnd64 (p + q) - (a + b)| = |(rnd64 (p + q) - (p + q)) + (p + q - (a + b))| := by congr 1; ring
      _ ≤ |rnd64 (p + q) - (p + q)| + |p + q - (a + b)| := abs_add_le _ _
      _ ≤ (M + M / 2 ^ 53) / 2 ^ 53 + M / 2 ^ 53 := add_le_add ec' hpq
      _ ≤ M / 2 ^ 51 := by
        norm_num
        linarith
  · intro hlt
    have h5 : 0 < dx * (high - low) := mul_pos hd0 (by linarith)
    have h6 : 0 < (1 - dx) * (high - low) := mul_pos hd1 (by linarith)
    constructor
    · linarith
    · linarith [show (1 - dx) * (high - low) = high - (low + dx * (high - low)) by ring]

/-- **C121 is false of the code.** The interval is not open: between 1 and 2, one raw number gives 1 and another gives 2. -/
theorem uniform_ends :
    uniform rnd64 (convDrand double 0) 1 2 = 1 ∧ uniform rnd64 (convDrand double (2 ^ 64 - 1)) 1 2 = 2 := by
  decide +kernel

/-- **C121 is false of the code.** The number need not be between the bounds at all: with both bounds the same number of double
precision the result is the next larger one. -/
theorem uniform_outside :
    ∃ u < 2 ^ 64, ∃ b : ℚ, rnd64 b = b ∧ b < uniform rnd64 (convDrand double u) b b := by
  refine ⟨1861760970330646 * 2 ^ 12, by norm_num, 0x1f01000a07de23 / 2 ^ 52, ?_⟩
  decide +kernel

end Verif.Uniform
