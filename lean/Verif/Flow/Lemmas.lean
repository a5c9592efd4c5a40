import Verif.Flow.Model

/-!
# The current of a streak: lemmas
-/
namespace Verif.Flow
open Verif.Place Verif.Streak

lemma rnd_near {z y e B : ℚ} (h : |z - y| ≤ e) (hB : |z| ≤ B) : |rnd32 z - y| ≤ e + B / 2 ^ 24 := by
  have h1 := r_err z
  have h2 := div_le_div_of_nonneg_right hB (show (0 : ℚ) ≤ 2 ^ 24 by norm_num)
  have e1 : rnd32 z - y = (rnd32 z - z) + (z - y) := by ring
  rw [e1]
  exact (abs_add_le _ _).trans (by linarith)

lemma abs_of_near {z y e B : ℚ} (h : |z - y| ≤ e) (hB : |y| ≤ B) : |z| ≤ B + e := by
  have e1 : z = y + (z - y) := by ring
  rw [e1]
  exact (abs_add_le _ _).trans (by linarith)

/-- Relative errors through a rounded product. -/
lemma rel_mul {z y p n m : ℚ} (h : |z - y| ≤ n / 2 ^ 24 * |y|) (hn : n + (1 + n / 2 ^ 24) ≤ m) :
    |rnd32 (z * p) - y * p| ≤ m / 2 ^ 24 * |y * p| := by
  have h1 : |z * p - y * p| ≤ n / 2 ^ 24 * |y * p| := by
    rw [← sub_mul, abs_mul, abs_mul, ← mul_assoc]
    exact mul_le_mul_of_nonneg_right h (abs_nonneg p)
  have h2 := abs_of_near h1 le_rfl
  refine (rnd_near h1 h2).trans ?_
  have h3 := mul_le_mul_of_nonneg_right hn (abs_nonneg (y * p))
  have e : n / 2 ^ 24 * |y * p| + (|y * p| + n / 2 ^ 24 * |y * p|) / 2 ^ 24 = (n + (1 + n / 2 ^ 24)) * |y * p| / 2 ^ 24 := by ring
  rw [e]
  have e2 : m / 2 ^ 24 * |y * p| = m * |y * p| / 2 ^ 24 := by ring
  rw [e2]
  exact div_le_div_of_nonneg_right h3 (by norm_num)

lemma prod_near (q : ℚ) (u : Fin 3 → ℚ) :
    |rnd32 (rnd32 (rnd32 (q * u 0) * u 1) * u 2) - q * u 0 * u 1 * u 2| ≤ 4 / 2 ^ 24 * |q * u 0 * u 1 * u 2| := by
  have h0 : |q * u 0 - q * u 0| ≤ 0 / 2 ^ 24 * |q * u 0| := by simp
  have h1 : |rnd32 (q * u 0) - q * u 0| ≤ 1 / 2 ^ 24 * |q * u 0| := by
    have := r_err (q * u 0)
    have e : 1 / 2 ^ 24 * |q * u 0| = |q * u 0| / 2 ^ 24 := by ring
    rwa [e]
  exact rel_mul (m := 4) (rel_mul (m := 5 / 2) h1 (by norm_num)) (by norm_num)

lemma third_near {t y th : ℚ} (h : |t - y| ≤ 4 / 2 ^ 24 * |y|) (hth : |th - 1 / 3| ≤ 1 / 3 / 2 ^ 24) :
    |t * th - y / 3| ≤ 2 / 2 ^ 24 * |y| := by
  have e : t * th - y / 3 = (t - y) * th + y * (th - 1 / 3) := by ring
  rw [e]
  have hth2 : |th| ≤ 35 / 100 := by
    have := abs_of_near hth (show |(1 / 3 : ℚ)| ≤ 1 / 3 by norm_num)
    refine this.trans (by norm_num)
  have a := mul_le_mul h hth2 (abs_nonneg _) (by positivity)
  have b := mul_le_mul_of_nonneg_left hth (abs_nonneg y)
  refine (abs_add_le _ _).trans ?_
  rw [abs_mul, abs_mul]
  refine (add_le_add a b).trans ?_
  have hy := abs_nonneg y
  have e2 : 4 / 2 ^ 24 * |y| * (35 / 100) + |y| * (1 / 3 / 2 ^ 24) = (4 * (35 / 100) + 1 / 3) / 2 ^ 24 * |y| := by ring
  rw [e2]
  exact mul_le_mul_of_nonneg_right (by norm_num) hy

/-- The correction of the pusher is a third of the product. -/
lemma corrPush_near (q : ℚ) (u : Fin 3 → ℚ) :
    |corrPush q u - q * u 0 * u 1 * u 2 / 3| ≤ 3 / 2 ^ 24 * |q * u 0 * u 1 * u 2| := by
  have h3 : |rnd32 (1 / 3) - 1 / 3| ≤ 1 / 3 / 2 ^ 24 := by
    have := r_err (1 / 3)
    rwa [show |(1 / 3 : ℚ)| = 1 / 3 by norm_num] at this
  have h := third_near (prod_near q u) h3
  have hB := abs_of_near h (show |q * u 0 * u 1 * u 2 / 3| ≤ |q * u 0 * u 1 * u 2| / 3 by
    rw [abs_div, show |(3 : ℚ)| = 3 by norm_num])
  refine (rnd_near h hB).trans ?_
  generalize |q * u 0 * u 1 * u 2| = y at *
  have hy : 0 ≤ y := by
    have := (abs_nonneg _).trans h
    have e : (2 : ℚ) / 2 ^ 24 * y = y * (2 / 2 ^ 24) := by ring
    rw [e] at this
    exact nonneg_of_mul_nonneg_left this (by norm_num)
  have e : 2 / 2 ^ 24 * y + (y / 3 + 2 / 2 ^ 24 * y) / 2 ^ 24 = (2 / 2 ^ 24 + (1 / 3 + 2 / 2 ^ 24) / 2 ^ 24) * y := by ring
  rw [e]
  exact mul_le_mul_of_nonneg_right (by norm_num) hy

/-- The same for `move_p`. -/
lemma corrMove_near (q : ℚ) (u : Fin 3 → ℚ) :
    |corrMove q u - q * u 0 * u 1 * u 2 / 3| ≤ 3 / 2 ^ 24 * |q * u 0 * u 1 * u 2| := by
  have h3 : |rndB 52 (1 / 3) - 1 / 3| ≤ 1 / 3 / 2 ^ 24 := by
    have := rnd_errB (b := 52) (1 / 3)
    rw [show |(1 / 3 : ℚ)| = 1 / 3 by norm_num] at this
    exact this.trans (by norm_num)
  have h := third_near (prod_near q u) h3
  unfold corrMove
  set z := rnd32 (rnd32 (rnd32 (q * u 0) * u 1) * u 2) * rndB 52 (1 / 3)
  have hB := abs_of_near h (show |q * u 0 * u 1 * u 2 / 3| ≤ |q * u 0 * u 1 * u 2| / 3 by
    rw [abs_div, show |(3 : ℚ)| = 3 by norm_num])
  have hz : |rndB 52 z - q * u 0 * u 1 * u 2 / 3| ≤ 21 / 10 / 2 ^ 24 * |q * u 0 * u 1 * u 2| := by
    have h1 := rnd_errB (b := 52) z
    have e1 : rndB 52 z - q * u 0 * u 1 * u 2 / 3 = (rndB 52 z - z) + (z - q * u 0 * u 1 * u 2 / 3) := by ring
    rw [e1]
    refine (abs_add_le _ _).trans ?_
    generalize |q * u 0 * u 1 * u 2| = y at *
    have hy : 0 ≤ y := by
      have := (abs_nonneg _).trans h
      have e : (2 : ℚ) / 2 ^ 24 * y = y * (2 / 2 ^ 24) := by ring
      rw [e] at this
      exact nonneg_of_mul_nonneg_left this (by norm_num)
    have h2 : |z| / 2 ^ (52 + 1) ≤ (y / 3 + 2 / 2 ^ 24 * y) / 2 ^ (52 + 1) := div_le_div_of_nonneg_right hB (by norm_num)
    refine (add_le_add (h1.trans h2) h).trans ?_
    have e : (y / 3 + 2 / 2 ^ 24 * y) / 2 ^ (52 + 1) + 2 / 2 ^ 24 * y = ((1 / 3 + 2 / 2 ^ 24) / 2 ^ (52 + 1) + 2 / 2 ^ 24) * y := by ring
    rw [e]
    exact mul_le_mul_of_nonneg_right (by norm_num) hy
  have hB' := abs_of_near hz (show |q * u 0 * u 1 * u 2 / 3| ≤ |q * u 0 * u 1 * u 2| / 3 by
    rw [abs_div, show |(3 : ℚ)| = 3 by norm_num])
  refine (rnd_near hz hB').trans ?_
  have hy := abs_nonneg (q * u 0 * u 1 * u 2)
  generalize |q * u 0 * u 1 * u 2| = y at *
  have e : 21 / 10 / 2 ^ 24 * y + (y / 3 + 21 / 10 / 2 ^ 24 * y) / 2 ^ 24 = (21 / 10 / 2 ^ 24 + (1 / 3 + 21 / 10 / 2 ^ 24) / 2 ^ 24) * y := by
    ring
  rw [e]
  exact mul_le_mul_of_nonneg_right (by norm_num) hy

/-- One of the four: `A` and `P` stand for the factors, `c` for the signed correction. -/
lemma corner {A a P p c b Q : ℚ} (hA : |A - a| ≤ 6 / 2 ^ 24 * Q) (ha : |a| ≤ 2 * Q) (hP : |P - p| ≤ 2 / 2 ^ 24) (hP2 : |P| ≤ 2)
    (hp : |p| ≤ 2) (hc : |c - b| ≤ 3 / 2 ^ 24 * Q) (hb : |b| ≤ Q / 3) : |rnd32 (rnd32 (A * P) + c) - (a * p + b)| ≤ 1 / 2 ^ 19 * Q := by
  have hQ : 0 ≤ Q := by have := (abs_nonneg _).trans ha; linarith
  have h1 : |A * P - a * p| ≤ 16 / 2 ^ 24 * Q := by
    have e : A * P - a * p = (A - a) * P + a * (P - p) := by ring
    rw [e]
    refine (abs_add_le _ _).trans ?_
    rw [abs_mul, abs_mul]
    have x := mul_le_mul hA hP2 (abs_nonneg _) (by positivity)
    have y := mul_le_mul ha hP (abs_nonneg _) (by positivity)
    refine (add_le_add x y).trans (le_of_eq ?_)
    ring
  have h2 : |a * p| ≤ 4 * Q := by
    rw [abs_mul]
    refine (mul_le_mul ha hp (abs_nonneg _) (by positivity)).trans (le_of_eq ?_)
    ring
  have h3 := rnd_near h1 (abs_of_near h1 h2)
  have h4 : |rnd32 (A * P) - a * p| ≤ 21 / 2 ^ 24 * Q := by
    refine h3.trans ?_
    have e : 16 / 2 ^ 24 * Q + (4 * Q + 16 / 2 ^ 24 * Q) / 2 ^ 24 = (16 / 2 ^ 24 + (4 + 16 / 2 ^ 24) / 2 ^ 24) * Q := by ring
    rw [e]
    exact mul_le_mul_of_nonneg_right (by norm_num) hQ
  have h5 : |rnd32 (A * P) + c - (a * p + b)| ≤ 24 / 2 ^ 24 * Q := by
    have e : rnd32 (A * P) + c - (a * p + b) = (rnd32 (A * P) - a * p) + (c - b) := by ring
    rw [e]
    refine (abs_add_le _ _).trans ((add_le_add h4 hc).trans (le_of_eq ?_))
    ring
  have h6 : |a * p + b| ≤ 4 * Q + Q / 3 := (abs_add_le _ _).trans (add_le_add h2 hb)
  refine (rnd_near h5 (abs_of_near h5 h6)).trans ?_
  have e : 24 / 2 ^ 24 * Q + (4 * Q + Q / 3 + 24 / 2 ^ 24 * Q) / 2 ^ 24 = (24 / 2 ^ 24 + (4 + 1 / 3 + 24 / 2 ^ 24) / 2 ^ 24) * Q := by ring
  rw [e]
  exact mul_le_mul_of_nonneg_right (by norm_num) hQ

/-- The factors along Y. -/
lemma factor_y (q u : ℚ) {y : ℚ} (hy : |y| ≤ 1) :
    |rnd32 (rnd32 (q * u) - rnd32 (rnd32 (q * u) * y)) - q * u * (1 - y)| ≤ 6 / 2 ^ 24 * |q * u| ∧
    |rnd32 (rnd32 (rnd32 (q * u) * y) + rnd32 (q * u)) - q * u * (1 + y)| ≤ 6 / 2 ^ 24 * |q * u| ∧
    |q * u * (1 - y)| ≤ 2 * |q * u| ∧ |q * u * (1 + y)| ≤ 2 * |q * u| := by
  have h0 := r_err (q * u)
  generalize q * u = W at *
  generalize rnd32 W = w at *
  have hQ := abs_nonneg W
  have hw : |w - W| ≤ 1 / 2 ^ 24 * |W| := h0.trans (le_of_eq (by ring))
  have h1 : |w * y - W * y| ≤ 1 / 2 ^ 24 * |W| := by
    rw [← sub_mul, abs_mul]
    exact (mul_le_of_le_one_right (abs_nonneg _) hy).trans hw
  have hWy : |W * y| ≤ |W| := by rw [abs_mul]; exact mul_le_of_le_one_right hQ hy
  have h2 := rnd_near h1 (abs_of_near h1 hWy)
  have h3 : |rnd32 (w * y) - W * y| ≤ 21 / 10 / 2 ^ 24 * |W| := by
    refine h2.trans ?_
    have e : 1 / 2 ^ 24 * |W| + (|W| + 1 / 2 ^ 24 * |W|) / 2 ^ 24 = (1 / 2 ^ 24 + (1 + 1 / 2 ^ 24) / 2 ^ 24) * |W| := by ring
    rw [e]
    exact mul_le_mul_of_nonneg_right (by norm_num) hQ
  generalize rnd32 (w * y) = v at *
  have b1 : |W * (1 - y)| ≤ 2 * |W| := by
    rw [abs_mul, mul_comm]
    refine mul_le_mul_of_nonneg_right ?_ hQ
    rw [abs_le] at hy ⊢
    constructor <;> linarith [hy.1, hy.2]
  have b2 : |W * (1 + y)| ≤ 2 * |W| := by
    rw [abs_mul, mul_comm]
    refine mul_le_mul_of_nonneg_right ?_ hQ
    rw [abs_le] at hy ⊢
    constructor <;> linarith [hy.1, hy.2]
  have fin : ∀ z a : ℚ, |z - a| ≤ 31 / 10 / 2 ^ 24 * |W| → |a| ≤ 2 * |W| → |rnd32 z - a| ≤ 6 / 2 ^ 24 * |W| := by
    intro z a h hB
    refine (rnd_near h (abs_of_near h hB)).trans ?_
    have e : 31 / 10 / 2 ^ 24 * |W| + (2 * |W| + 31 / 10 / 2 ^ 24 * |W|) / 2 ^ 24 =
      (31 / 10 / 2 ^ 24 + (2 + 31 / 10 / 2 ^ 24) / 2 ^ 24) * |W| := by ring
    rw [e]
    exact mul_le_mul_of_nonneg_right (by norm_num) hQ
  refine ⟨fin _ _ ?_ b1, fin _ _ ?_ b2, b1, b2⟩
  · have e : w - v - W * (1 - y) = (w - W) - (v - W * y) := by ring
    rw [e]
    exact (abs_sub _ _).trans ((add_le_add hw h3).trans (le_of_eq (by ring)))
  · have e : v + w - W * (1 + y) = (v - W * y) + (w - W) := by ring
    rw [e]
    exact (abs_add_le _ _).trans ((add_le_add h3 hw).trans (le_of_eq (by ring)))

/-- The factors along Z. -/
lemma factor_z {z : ℚ} (hz : |z| ≤ 1) : (|rnd32 (1 + z) - (1 + z)| ≤ 2 / 2 ^ 24 ∧ |rnd32 (1 + z)| ≤ 2 ∧ |1 + z| ≤ 2) := by
  obtain ⟨a, b⟩ := abs_le.mp hz
  have h2 : |1 + z| ≤ 2 := abs_le.mpr ⟨by linarith, by linarith⟩
  refine ⟨(r_err _).trans (div_le_div_of_nonneg_right h2 (by norm_num)), ?_, h2⟩
  have h0 := r_nonneg (show 0 ≤ 1 + z by linarith)
  have h1 := rnd32_mono (show 1 + z ≤ 2 by linarith)
  rw [float_two] at h1
  rw [abs_of_nonneg h0]
  exact h1

end Verif.Flow
