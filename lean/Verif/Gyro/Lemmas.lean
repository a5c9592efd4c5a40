import Verif.Gyro.Model

/-!
# The magnetic rotation: lemmas
-/
namespace Verif.Gyro
open Verif.Place Verif.Streak Verif.Flow

/-- The exact cross product. -/
def cross (w b : Fin 3 → ℚ) (k : Fin 3) : ℚ := w (k + 1) * b (k + 2) - w (k + 2) * b (k + 1)

lemma rel_rnd {z y n m : ℚ} (h : |z - y| ≤ n / 2 ^ 24 * |y|) (hn : n + (1 + n / 2 ^ 24) ≤ m) : |rnd32 z - y| ≤ m / 2 ^ 24 * |y| := by
  have := rel_mul (p := 1) h hn
  rwa [mul_one, mul_one] at this

lemma Btw_mul {n m : ℕ} {y z y' z' : ℚ} (hy : 0 ≤ y) (hy' : 0 ≤ y') (h : Btw n y z) (h' : Btw m y' z') :
    Btw (n + m) (y * y') (z * z') := by
  have hq : (0 : ℚ) ≤ 1 - 1 / 2 ^ 24 := by norm_num
  have hp : (0 : ℚ) ≤ 1 + 1 / 2 ^ 24 := by norm_num
  have hz : 0 ≤ z := le_trans (mul_nonneg hy (pow_nonneg hq n)) h.1
  have hz' : 0 ≤ z' := le_trans (mul_nonneg hy' (pow_nonneg hq m)) h'.1
  constructor
  · have := mul_le_mul h.1 h'.1 (mul_nonneg hy' (pow_nonneg hq m)) hz
    rw [pow_add _ n m]
    calc y * y' * ((1 - 1 / 2 ^ 24) ^ n * (1 - 1 / 2 ^ 24) ^ m) = y * (1 - 1 / 2 ^ 24) ^ n * (y' * (1 - 1 / 2 ^ 24) ^ m) := by ring
      _ ≤ z * z' := this
  · have := mul_le_mul h.2 h'.2 hz' (mul_nonneg hy (pow_nonneg hp n))
    rw [pow_add _ n m]
    calc z * z' ≤ y * (1 + 1 / 2 ^ 24) ^ n * (y' * (1 + 1 / 2 ^ 24) ^ m) := this
      _ = y * y' * ((1 + 1 / 2 ^ 24) ^ n * (1 + 1 / 2 ^ 24) ^ m) := by ring

/-- `1 + t`, where `t` is the square of the tangent times the field. -/
lemma denom_near (tau : ℚ) (b : Fin 3 → ℚ) :
    Btw 6 (1 + (b 0 * b 0 + (b 1 * b 1 + b 2 * b 2)) * (tau * tau)) (rnd32 (1 + rnd32 (fieldSq b * rnd32 (tau * tau)))) := by
  have n0 := mul_self_nonneg (b 0)
  have n1 := mul_self_nonneg (b 1)
  have n2 := mul_self_nonneg (b 2)
  have nt := mul_self_nonneg tau
  have hbc : Btw 2 (b 1 * b 1 + b 2 * b 2) (rnd32 (rnd32 (b 1 * b 1) + rnd32 (b 2 * b 2))) :=
    (((Btw.refl _).rnd n1).add ((Btw.refl _).rnd n2)).rnd (by linarith)
  have habc : Btw 3 (b 0 * b 0 + (b 1 * b 1 + b 2 * b 2)) (fieldSq b) := ((((Btw.refl _).rnd n0).up n0).add hbc).rnd (by linarith)
  have ht : Btw 1 (tau * tau) (rnd32 (tau * tau)) := (Btw.refl _).rnd nt
  have hB : 0 ≤ b 0 * b 0 + (b 1 * b 1 + b 2 * b 2) := by linarith
  have hm : Btw 5 ((b 0 * b 0 + (b 1 * b 1 + b 2 * b 2)) * (tau * tau)) (rnd32 (fieldSq b * rnd32 (tau * tau))) :=
    (Btw_mul hB nt habc ht).rnd (mul_nonneg hB nt)
  have h1 : Btw 5 1 1 := ((((((Btw.refl 1).up zero_le_one).up zero_le_one).up zero_le_one).up zero_le_one).up zero_le_one)
  exact (h1.add hm).rnd (add_nonneg zero_le_one (mul_nonneg hB nt))

/-- The coefficient of the second step is `2 tau / (1 + t)`. -/
lemma coef_near (tau : ℚ) (b : Fin 3 → ℚ) (t : ℚ) (ht : t = (b 0 * b 0 + (b 1 * b 1 + b 2 * b 2)) * (tau * tau)) :
    |coef tau b - 2 * tau / (1 + t)| ≤ 9 / 2 ^ 24 * |2 * tau / (1 + t)| := by
  have hd := denom_near tau b
  rw [← ht] at hd
  have ht0 : 0 ≤ t := by
    rw [ht]
    exact mul_nonneg (by nlinarith [mul_self_nonneg (b 0), mul_self_nonneg (b 1), mul_self_nonneg (b 2)]) (mul_self_nonneg tau)
  unfold coef
  simp only
  set A := rnd32 (1 + rnd32 (fieldSq b * rnd32 (tau * tau)))
  have hT : 0 < 1 + t := by linarith
  have hA : 0 < A := lt_of_lt_of_le (mul_pos hT (by norm_num)) hd.1
  have q1 : |tau / A - tau / (1 + t)| ≤ 61 / 10 / 2 ^ 24 * |tau / (1 + t)| := by
    have e : tau / A - tau / (1 + t) = tau / (1 + t) * ((1 + t) / A - 1) := by field_simp
    rw [e, abs_mul, mul_comm]
    refine mul_le_mul_of_nonneg_right ?_ (abs_nonneg _)
    rw [abs_le]
    constructor
    · have : (1 : ℚ) - 61 / 10 / 2 ^ 24 ≤ (1 + t) / A := by
        rw [le_div_iff₀ hA]
        calc (1 - 61 / 10 / 2 ^ 24) * A ≤ (1 - 61 / 10 / 2 ^ 24) * ((1 + t) * (1 + 1 / 2 ^ 24) ^ 6) :=
              mul_le_mul_of_nonneg_left hd.2 (by norm_num)
          _ = (1 + t) * ((1 - 61 / 10 / 2 ^ 24) * (1 + 1 / 2 ^ 24) ^ 6) := by ring
          _ ≤ (1 + t) * 1 := mul_le_mul_of_nonneg_left (by norm_num) hT.le
          _ = 1 + t := mul_one _
      linarith
    · have : (1 + t) / A ≤ (1 : ℚ) + 61 / 10 / 2 ^ 24 := by
        rw [div_le_iff₀ hA]
        calc 1 + t = (1 + t) * 1 := (mul_one _).symm
          _ ≤ (1 + t) * ((1 + 61 / 10 / 2 ^ 24) * (1 - 1 / 2 ^ 24) ^ 6) := mul_le_mul_of_nonneg_left (by norm_num) hT.le
          _ = (1 + 61 / 10 / 2 ^ 24) * ((1 + t) * (1 - 1 / 2 ^ 24) ^ 6) := by ring
          _ ≤ (1 + 61 / 10 / 2 ^ 24) * A := mul_le_mul_of_nonneg_left hd.1 (by norm_num)
      linarith
  have q2 := rel_rnd (m := 75 / 10) q1 (by norm_num)
  generalize rnd32 (tau / A) = v at *
  have e2 : 2 * tau / (1 + t) = 2 * (tau / (1 + t)) := by ring
  rw [e2]
  generalize tau / (1 + t) = y at *
  refine rel_rnd (n := 75 / 10) ?_ (by norm_num)
  have e3 : v + v - 2 * y = 2 * (v - y) := by ring
  rw [e3, abs_mul, abs_mul, abs_of_pos (show (0 : ℚ) < 2 by norm_num)]
  linarith

/-- One of the two steps: `G` bounds the coefficient times the field, `m` the vector that is crossed with it. -/
lemma crossAdd_near {c G m A : ℚ} {a w b : Fin 3 → ℚ} (hG : ∀ i, |c * b i| ≤ G) (hm : ∀ i, |w i| ≤ m) (hA : ∀ i, |a i| ≤ A) (k : Fin 3) :
    |crossAdd c a w b k - (a k + c * cross w b k)| ≤ (A + 9 * (G * m)) / 2 ^ 24 ∧ |c * cross w b k| ≤ 2 * (G * m) := by
  have hG0 : 0 ≤ G := (abs_nonneg _).trans (hG 0)
  have hm0 : 0 ≤ m := (abs_nonneg _).trans (hm 0)
  have hGm : 0 ≤ G * m := mul_nonneg hG0 hm0
  -- the products, times the coefficient
  have pr : ∀ i j, |c * (rnd32 (w i * b j) - w i * b j)| ≤ 1 / 2 ^ 24 * (G * m) ∧ |c * (w i * b j)| ≤ G * m := by
    intro i j
    have h2 : |c * (w i * b j)| ≤ G * m := by
      have e : c * (w i * b j) = c * b j * w i := by ring
      rw [e, abs_mul]
      exact mul_le_mul (hG j) (hm i) (abs_nonneg _) hG0
    refine ⟨?_, h2⟩
    rw [abs_mul]
    have h1 := mul_le_mul_of_nonneg_left (r_err (w i * b j)) (abs_nonneg c)
    refine h1.trans ?_
    have e : |c| * (|w i * b j| / 2 ^ 24) = 1 / 2 ^ 24 * |c * (w i * b j)| := by rw [abs_mul c]; ring
    rw [e]
    exact mul_le_mul_of_nonneg_left h2 (by norm_num)
  obtain ⟨p1, p2⟩ := pr (k + 1) (k + 2)
  obtain ⟨p3, p4⟩ := pr (k + 2) (k + 1)
  have hC : |c * cross w b k| ≤ 2 * (G * m) := by
    have e : c * cross w b k = c * (w (k + 1) * b (k + 2)) - c * (w (k + 2) * b (k + 1)) := by unfold cross; ring
    rw [e]
    exact (abs_sub _ _).trans (by linarith)
  refine ⟨?_, hC⟩
  unfold crossAdd
  have d1 : |c * (rnd32 (w (k + 1) * b (k + 2)) - rnd32 (w (k + 2) * b (k + 1))) - c * cross w b k| ≤ 2 / 2 ^ 24 * (G * m) := by
    have e : c * (rnd32 (w (k + 1) * b (k + 2)) - rnd32 (w (k + 2) * b (k + 1))) - c * cross w b k =
      c * (rnd32 (w (k + 1) * b (k + 2)) - w (k + 1) * b (k + 2)) - c * (rnd32 (w (k + 2) * b (k + 1)) - w (k + 2) * b (k + 1)) := by
      unfold cross; ring
    rw [e]
    exact (abs_sub _ _).trans ((add_le_add p1 p3).trans (le_of_eq (by ring)))
  generalize rnd32 (w (k + 1) * b (k + 2)) - rnd32 (w (k + 2) * b (k + 1)) = D at *
  generalize c * cross w b k = C at *
  have d2 : |c * rnd32 D - C| ≤ 41 / 10 / 2 ^ 24 * (G * m) := by
    have e : c * rnd32 D - C = c * (rnd32 D - D) + (c * D - C) := by ring
    have h1 : |c * (rnd32 D - D)| ≤ |c * D| / 2 ^ 24 := by
      rw [abs_mul, abs_mul]
      have := mul_le_mul_of_nonneg_left (r_err D) (abs_nonneg c)
      rwa [← mul_div_assoc] at this
    have h2 : |c * D| ≤ 2 * (G * m) + 2 / 2 ^ 24 * (G * m) := abs_of_near d1 hC
    have h3 := h1.trans (div_le_div_of_nonneg_right h2 (by norm_num))
    rw [e]
    refine (abs_add_le _ _).trans ((add_le_add h3 d1).trans ?_)
    have e2 : (2 * (G * m) + 2 / 2 ^ 24 * (G * m)) / 2 ^ 24 + 2 / 2 ^ 24 * (G * m) =
      ((2 + 2 / 2 ^ 24) / 2 ^ 24 + 2 / 2 ^ 24) * (G * m) := by ring
    rw [e2]
    exact mul_le_mul_of_nonneg_right (by norm_num) hGm
  have d3 : |rnd32 (c * rnd32 D) - C| ≤ 62 / 10 / 2 ^ 24 * (G * m) := by
    refine (rnd_near d2 (abs_of_near d2 hC)).trans ?_
    have e2 : 41 / 10 / 2 ^ 24 * (G * m) + (2 * (G * m) + 41 / 10 / 2 ^ 24 * (G * m)) / 2 ^ 24 =
      (41 / 10 / 2 ^ 24 + (2 + 41 / 10 / 2 ^ 24) / 2 ^ 24) * (G * m) := by ring
    rw [e2]
    exact mul_le_mul_of_nonneg_right (by norm_num) hGm
  have d4 : |a k + rnd32 (c * rnd32 D) - (a k + C)| ≤ 62 / 10 / 2 ^ 24 * (G * m) := by
    have e : a k + rnd32 (c * rnd32 D) - (a k + C) = rnd32 (c * rnd32 D) - C := by ring
    rwa [e]
  have d5 : |a k + C| ≤ A + 2 * (G * m) := (abs_add_le _ _).trans (add_le_add (hA k) hC)
  refine (rnd_near d4 (abs_of_near d4 d5)).trans ?_
  have e2 : 62 / 10 / 2 ^ 24 * (G * m) + (A + 2 * (G * m) + 62 / 10 / 2 ^ 24 * (G * m)) / 2 ^ 24 =
    A / 2 ^ 24 + (62 / 10 / 2 ^ 24 + (2 + 62 / 10 / 2 ^ 24) / 2 ^ 24) * (G * m) := by ring
  have e3 : (A + 9 * (G * m)) / 2 ^ 24 = A / 2 ^ 24 + 9 / 2 ^ 24 * (G * m) := by ring
  rw [e2, e3]
  exact add_le_add_right (mul_le_mul_of_nonneg_right (by norm_num) hGm) _

end Verif.Gyro
