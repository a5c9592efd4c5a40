import Verif.Flow.Lemmas
import Mathlib.Analysis.SpecialFunctions.Integrals.Basic

/-!
# Property C124: the current of a streak with all roundings
-/
namespace Verif.Flow
open Verif.Place Verif.Streak

/-- The sides along Y of the four accumulators of a direction. -/
def sideY : Fin 4 → ℚ := ![-1, 1, -1, 1]

/-- The sides along Z. -/
def sideZ : Fin 4 → ℚ := ![-1, -1, 1, 1]

/-- Specification: the mean along the streak, which goes by `uy` and `uz` to both sides of its midpoint, of the share of the
accumulator on side `a` along Y and `b` along Z. -/
noncomputable def meanShare (a b y z uy uz : ℝ) : ℝ := (∫ s in (-1 : ℝ)..1, (1 + a * (y + s * uy)) * (1 + b * (z + s * uz))) / 2

lemma integral_quadratic (A B C : ℝ) : ∫ s in (-1 : ℝ)..1, (A + B * s + C * s ^ 2) = 2 * A + 2 * C / 3 := by
  rw [intervalIntegral.integral_add, intervalIntegral.integral_add, intervalIntegral.integral_const_mul,
    intervalIntegral.integral_const_mul, intervalIntegral.integral_const, integral_id, integral_pow]
  · simp only [smul_eq_mul]; push_cast; ring
  all_goals exact Continuous.intervalIntegrable (by fun_prop) _ _

lemma meanShare_eq (a b y z uy uz : ℝ) : meanShare a b y z uy uz = (1 + a * y) * (1 + b * z) + a * b * (uy * uz) / 3 := by
  unfold meanShare
  have e : ∀ s : ℝ, (1 + a * (y + s * uy)) * (1 + b * (z + s * uz)) =
      (1 + a * y) * (1 + b * z) + ((1 + a * y) * b * uz + a * uy * (1 + b * z)) * s + a * uy * b * uz * s ^ 2 := fun s => by ring
  simp_rw [e]
  rw [integral_quadratic]
  ring

/-- The shares without roundings. -/
def exactShare (u y z : ℚ) (r : ℚ) (i : Fin 4) : ℚ := u * ((1 + sideY i * y) * (1 + sideZ i * z) + sideY i * sideZ i * r / 3)

lemma shares_near {q u y z r v5 : ℚ} (hy : |y| ≤ 1) (hz : |z| ≤ 1) (hr : |r| ≤ 1) (h5 : |v5 - q * u * r / 3| ≤ 3 / 2 ^ 24 * |q * u|)
    (i : Fin 4) : |shares q u y z v5 i - exactShare (q * u) y z r i| ≤ 1 / 2 ^ 19 * |q * u| := by
  obtain ⟨y0, y1, y2, y3⟩ := factor_y q u hy
  obtain ⟨p0, p1, p2⟩ := factor_z hz
  obtain ⟨m0, m1, m2⟩ := factor_z (z := -z) (by rwa [abs_neg])
  rw [← sub_eq_add_neg] at m0 m1 m2
  have hb : |q * u * r / 3| ≤ |q * u| / 3 := by
    rw [abs_div, abs_mul, show |(3 : ℚ)| = 3 by norm_num]
    exact div_le_div_of_nonneg_right (mul_le_of_le_one_right (abs_nonneg _) hr) (by norm_num)
  have h5' : |-v5 - -(q * u * r / 3)| ≤ 3 / 2 ^ 24 * |q * u| := by
    rw [← neg_sub', abs_neg]; exact h5
  have hb' : |-(q * u * r / 3)| ≤ |q * u| / 3 := by rwa [abs_neg]
  fin_cases i
  · have := corner y0 y2 m0 m1 m2 h5 hb
    have e : exactShare (q * u) y z r 0 = q * u * (1 - y) * (1 - z) + q * u * r / 3 := by
      simp [exactShare, sideY, sideZ]; ring
    show |shares q u y z v5 0 - exactShare (q * u) y z r 0| ≤ _
    rw [e]; exact this
  · have := corner y1 y3 m0 m1 m2 h5' hb'
    have e : exactShare (q * u) y z r 1 = q * u * (1 + y) * (1 - z) + -(q * u * r / 3) := by
      simp [exactShare, sideY, sideZ]; ring
    show |shares q u y z v5 1 - exactShare (q * u) y z r 1| ≤ _
    rw [e]
    rw [← sub_eq_add_neg] at this
    exact this
  · have := corner y0 y2 p0 p1 p2 h5' hb'
    have e : exactShare (q * u) y z r 2 = q * u * (1 - y) * (1 + z) + -(q * u * r / 3) := by
      simp [exactShare, sideY, sideZ]; ring
    show |shares q u y z v5 2 - exactShare (q * u) y z r 2| ≤ _
    rw [e]
    rw [← sub_eq_add_neg] at this
    exact this
  · have := corner y1 y3 p0 p1 p2 h5 hb
    have e : exactShare (q * u) y z r 3 = q * u * (1 + y) * (1 + z) + q * u * r / 3 := by
      simp [exactShare, sideY, sideZ]; ring
    show |shares q u y z v5 3 - exactShare (q * u) y z r 3| ≤ _
    rw [e]; exact this

/-- The two ways in which the correction is computed. -/
def Corr (v5 q : ℚ) (u : Fin 3 → ℚ) : Prop := v5 = corrPush q u ∨ v5 = corrMove q u

lemma corr_axis {v5 q : ℚ} {u : Fin 3 → ℚ} (h : Corr v5 q u) (hu : ∀ k, |u k| ≤ 1) (k : Fin 3) :
    |v5 - q * u k * (u (k + 1) * u (k + 2)) / 3| ≤ 3 / 2 ^ 24 * |q * u k| ∧ |u (k + 1) * u (k + 2)| ≤ 1 := by
  have hm : |u (k + 1) * u (k + 2)| ≤ 1 := by rw [abs_mul]; exact mul_le_one₀ (hu _) (abs_nonneg _) (hu _)
  refine ⟨?_, hm⟩
  have e : q * u 0 * u 1 * u 2 = q * u k * (u (k + 1) * u (k + 2)) := by fin_cases k <;> simp <;> ring
  have h' : |v5 - q * u 0 * u 1 * u 2 / 3| ≤ 3 / 2 ^ 24 * |q * u 0 * u 1 * u 2| := by
    rcases h with rfl | rfl
    · exact corrPush_near q u
    · exact corrMove_near q u
  rw [e] at h'
  refine h'.trans (mul_le_mul_of_nonneg_left ?_ (by norm_num))
  rw [abs_mul]
  exact mul_le_of_le_one_right (abs_nonneg _) hm

/-- **C124 (the four shares).** What a streak with midpoint in the closed voxel contributes to each accumulator is, within 2^-19 of the
charge times the displacement, that product times the mean share along the streak. -/
theorem share_mean {v5 q : ℚ} {u mid : Fin 3 → ℚ} (hc : Corr v5 q u) (hu : ∀ k, |u k| ≤ 1) (hm : ∀ k, |mid k| ≤ 1) (k : Fin 3)
    (i : Fin 4) :
    |((shares q (u k) (mid (k + 1)) (mid (k + 2)) v5 i : ℚ) : ℝ) -
      q * u k * meanShare (sideY i) (sideZ i) (mid (k + 1)) (mid (k + 2)) (u (k + 1)) (u (k + 2))| ≤ 1 / 2 ^ 19 * |(q * u k : ℝ)| := by
  obtain ⟨h1, h2⟩ := corr_axis hc hu k
  have h := shares_near (hm (k + 1)) (hm (k + 2)) h2 h1 i
  rw [meanShare_eq]
  have := (Rat.cast_le (K := ℝ)).mpr h
  unfold exactShare at this
  push_cast at this
  exact this

/-- **C124 (no charge is lost).** The four contributions of a direction together are four times the charge times the displacement,
within 2^-17 of it. -/
theorem shares_total {v5 q : ℚ} {u mid : Fin 3 → ℚ} (hc : Corr v5 q u) (hu : ∀ k, |u k| ≤ 1) (hm : ∀ k, |mid k| ≤ 1) (k : Fin 3) :
    |∑ i, shares q (u k) (mid (k + 1)) (mid (k + 2)) v5 i - 4 * (q * u k)| ≤ 1 / 2 ^ 17 * |q * u k| := by
  obtain ⟨h1, h2⟩ := corr_axis hc hu k
  have h := fun i => shares_near (hm (k + 1)) (hm (k + 2)) h2 h1 i
  have e : 4 * (q * u k) = ∑ i, exactShare (q * u k) (mid (k + 1)) (mid (k + 2)) (u (k + 1) * u (k + 2)) i := by
    simp only [exactShare, sideY, sideZ, Fin.sum_univ_four]
    simp
    ring
  rw [e, ← Finset.sum_sub_distrib]
  refine (Finset.abs_sum_le_sum_abs _ _).trans ((Finset.sum_le_sum fun i _ => h i).trans (le_of_eq ?_))
  simp
  ring

/-- **C124 (the accumulators).** After the streak each accumulator holds, within 2^-18 of the charge times the displacement and half a
unit in the last place of what it held, its value before plus the product with the mean share. -/
theorem deposit_near {v5 q : ℚ} {u mid : Fin 3 → ℚ} (hc : Corr v5 q u) (hu : ∀ k, |u k| ≤ 1) (hm : ∀ k, |mid k| ≤ 1)
    (a : Fin 3 → Fin 4 → ℚ) (k : Fin 3) (i : Fin 4) :
    |((deposit v5 q u mid a k i : ℚ) : ℝ) -
      (a k i + q * u k * meanShare (sideY i) (sideZ i) (mid (k + 1)) (mid (k + 2)) (u (k + 1)) (u (k + 2)))| ≤
    1 / 2 ^ 18 * |(q * u k : ℝ)| + |(a k i : ℝ)| / 2 ^ 24 := by
  obtain ⟨h1, h2⟩ := corr_axis hc hu k
  have h := shares_near (hm (k + 1)) (hm (k + 2)) h2 h1 i
  have key : |deposit v5 q u mid a k i - (a k i + exactShare (q * u k) (mid (k + 1)) (mid (k + 2)) (u (k + 1) * u (k + 2)) i)| ≤
      1 / 2 ^ 18 * |q * u k| + |a k i| / 2 ^ 24 := by
    have hE : |exactShare (q * u k) (mid (k + 1)) (mid (k + 2)) (u (k + 1) * u (k + 2)) i| ≤ 5 * |q * u k| := by
      have s1 : ∀ i, |sideY i| = 1 := by intro i; fin_cases i <;> norm_num [sideY]
      have s2 : ∀ i, |sideZ i| = 1 := by intro i; fin_cases i <;> norm_num [sideZ]
      unfold exactShare
      rw [abs_mul, mul_comm]
      refine mul_le_mul_of_nonneg_right ?_ (abs_nonneg _)
      have f1 : |1 + sideY i * mid (k + 1)| ≤ 2 := by
        refine (abs_add_le _ _).trans ?_
        rw [abs_mul, s1, abs_one, one_mul]
        linarith [hm (k + 1)]
      have f2 : |1 + sideZ i * mid (k + 2)| ≤ 2 := by
        refine (abs_add_le _ _).trans ?_
        rw [abs_mul, s2, abs_one, one_mul]
        linarith [hm (k + 2)]
      have f3 : |sideY i * sideZ i * (u (k + 1) * u (k + 2)) / 3| ≤ 1 := by
        rw [abs_div, abs_mul, abs_mul, s1, s2, show |(3 : ℚ)| = 3 by norm_num]
        linarith
      refine (abs_add_le _ _).trans ?_
      rw [abs_mul]
      have := mul_le_mul f1 f2 (abs_nonneg _) (by norm_num)
      linarith
    unfold deposit
    generalize exactShare (q * u k) (mid (k + 1)) (mid (k + 2)) (u (k + 1) * u (k + 2)) i = E at *
    generalize shares q (u k) (mid (k + 1)) (mid (k + 2)) v5 i = v at *
    have hQ := abs_nonneg (q * u k)
    generalize |q * u k| = Q at *
    have h3 : |a k i + v - (a k i + E)| ≤ 1 / 2 ^ 19 * Q := by
      have e : a k i + v - (a k i + E) = v - E := by ring
      rwa [e]
    have h4 : |a k i + E| ≤ |a k i| + 5 * Q := (abs_add_le _ _).trans (by linarith)
    refine (rnd_near h3 (abs_of_near h3 h4)).trans ?_
    have e : 1 / 2 ^ 19 * Q + (|a k i| + 5 * Q + 1 / 2 ^ 19 * Q) / 2 ^ 24 =
      (1 / 2 ^ 19 + (5 + 1 / 2 ^ 19) / 2 ^ 24) * Q + |a k i| / 2 ^ 24 := by ring
    rw [e]
    exact add_le_add_left (mul_le_mul_of_nonneg_right (by norm_num) hQ) _
  rw [meanShare_eq]
  have := (Rat.cast_le (K := ℝ)).mpr key
  unfold exactShare at this
  push_cast at this
  exact this

/-- **C124 (a particle that stays in its voxel).** The midpoint of its streak is in the closed voxel, so that what the pusher adds to
the accumulators is its charge times the displacement times the mean shares. -/
theorem push_near {rt : ℚ → ℚ} {c x u : Fin 3 → ℚ} (hi : ∀ k, |x k| ≤ 1) (hs : Slow ⟨x, disp rt c u⟩)
    (hf : ∀ k, rnd32 (x k) = x k) (hin : ∀ k, |newPos (x k) (disp rt c u k)| ≤ 1) (q : ℚ) (a : Fin 3 → Fin 4 → ℚ) :
    ∃ mid : Fin 3 → ℚ, (∀ k, |mid k| ≤ 1 ∧ |mid k - (x k + disp rt c u k)| ≤ 1 / 2 ^ 23) ∧ ∀ k i,
      |((pushDeposit rt c x u q a k i : ℚ) : ℝ) - (a k i + q * disp rt c u k *
        meanShare (sideY i) (sideZ i) (mid (k + 1)) (mid (k + 2)) (disp rt c u (k + 1)) (disp rt c u (k + 2)))| ≤
      1 / 2 ^ 18 * |(q * disp rt c u k : ℝ)| + |(a k i : ℝ)| / 2 ^ 24 := by
  have hmid : ∀ k, |rnd32 (x k + disp rt c u k)| ≤ 1 := by
    intro k
    have hx := hi k
    have hn := hin k
    have hxf := hf k
    generalize disp rt c u k = d at *
    generalize x k = x at *
    unfold newPos at hn
    rw [abs_le] at hx hn ⊢
    rcases le_total 0 d with h | h
    · have a1 := rnd32_mono (show x ≤ x + d by linarith)
      have a2 := rnd32_mono (show rnd32 (x + d) ≤ rnd32 (x + d) + d by linarith)
      rw [hxf] at a1
      rw [r_idem] at a2
      exact ⟨by linarith [hx.1], by linarith [hn.2]⟩
    · have a1 := rnd32_mono (show x + d ≤ x by linarith)
      have a2 := rnd32_mono (show rnd32 (x + d) + d ≤ rnd32 (x + d) by linarith)
      rw [hxf] at a1
      rw [r_idem] at a2
      exact ⟨by linarith [hn.1], by linarith [hx.2]⟩
  refine ⟨fun k => rnd32 (x k + disp rt c u k), fun k => ⟨hmid k, ?_⟩, fun k i => ?_⟩
  · have h1 : |disp rt c u k| ≤ 1 := hs k
    have h2 : |x k + disp rt c u k| ≤ 2 := (abs_add_le _ _).trans (by linarith [hi k])
    have h3 := div_le_div_of_nonneg_right h2 (show (0 : ℚ) ≤ 2 ^ 24 by norm_num)
    refine (r_err _).trans (h3.trans (by norm_num))
  · exact deposit_near (Or.inl rfl) hs hmid a k i

end Verif.Flow
