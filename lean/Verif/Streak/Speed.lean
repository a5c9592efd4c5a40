import Verif.Streak.Double
import Mathlib.Analysis.Real.Sqrt

/-!
# Property C123: how far a step moves a particle
-/
namespace Verif.Streak
open Verif.Place

/-- `sqrtf` with a relative error of at most 2^-24, for numbers from 1 on. -/
def SqrtNear (rt : ℚ → ℚ) : Prop :=
  ∀ y, 1 ≤ y → 0 < rt y ∧ y * (1 - 1 / 2 ^ 24) ^ 2 ≤ rt y ^ 2 ∧ rt y ^ 2 ≤ y * (1 + 1 / 2 ^ 24) ^ 2

lemma r_abs_ge (y : ℚ) : |y| * (1 - 1 / 2 ^ 24) ≤ |rnd32 y| := by
  rcases le_total 0 y with h | h
  · rw [abs_of_nonneg h, abs_of_nonneg (r_nonneg h)]; exact r_ge h
  · have := r_ge (y := -y) (by linarith)
    rw [r_neg] at this
    rw [abs_of_nonpos h]
    exact this.trans (neg_le_abs _)

/-- Squares of rounded numbers. -/
lemma r_sq (y : ℚ) : y ^ 2 * (1 - 1 / 2 ^ 24) ^ 2 ≤ rnd32 y ^ 2 ∧ rnd32 y ^ 2 ≤ y ^ 2 * (1 + 1 / 2 ^ 24) ^ 2 := by
  have a := pow_le_pow_left₀ (by positivity) (r_abs y) 2
  have b := pow_le_pow_left₀ (mul_nonneg (abs_nonneg _) (by norm_num)) (r_abs_ge y) 2
  rw [mul_pow, sq_abs, sq_abs] at a b
  exact ⟨b, a⟩

/-- Between `q^n y` and `p^n y`, for `n` roundings. -/
def Btw (n : ℕ) (y z : ℚ) : Prop := y * (1 - 1 / 2 ^ 24) ^ n ≤ z ∧ z ≤ y * (1 + 1 / 2 ^ 24) ^ n

lemma Btw.rnd {n : ℕ} {y z : ℚ} (hy : 0 ≤ y) (h : Btw n y z) : Btw (n + 1) y (rnd32 z) := by
  have hq : (0 : ℚ) ≤ 1 - 1 / 2 ^ 24 := by norm_num
  have hp : (0 : ℚ) ≤ 1 + 1 / 2 ^ 24 := by norm_num
  have hz : 0 ≤ z := le_trans (mul_nonneg hy (pow_nonneg hq n)) h.1
  constructor
  · rw [pow_succ, ← mul_assoc]
    exact (mul_le_mul_of_nonneg_right h.1 hq).trans (r_ge hz)
  · rw [pow_succ, ← mul_assoc]
    exact (r_le hz).trans (mul_le_mul_of_nonneg_right h.2 hp)

lemma Btw.up {n : ℕ} {y z : ℚ} (hy : 0 ≤ y) (h : Btw n y z) : Btw (n + 1) y z := by
  have hq : (0 : ℚ) ≤ 1 - 1 / 2 ^ 24 := by norm_num
  have hp : (0 : ℚ) ≤ 1 + 1 / 2 ^ 24 := by norm_num
  constructor
  · refine le_trans (mul_le_mul_of_nonneg_left ?_ hy) h.1
    rw [pow_succ]
    exact mul_le_of_le_one_right (pow_nonneg hq n) (by norm_num)
  · refine h.2.trans (mul_le_mul_of_nonneg_left ?_ hy)
    rw [pow_succ _ n]
    exact le_mul_of_one_le_right (pow_nonneg hp n) (show (1 : ℚ) ≤ 1 + 1 / 2 ^ 24 by norm_num)

lemma Btw.add {n : ℕ} {y z y' z' : ℚ} (h : Btw n y z) (h' : Btw n y' z') : Btw n (y + y') (z + z') := by
  constructor
  · rw [add_mul]; exact add_le_add h.1 h'.1
  · rw [add_mul]; exact add_le_add h.2 h'.2

lemma Btw.refl (y : ℚ) : Btw 0 y y := by constructor <;> simp

/-- The argument of the square root. -/
lemma arg_near (a b c : ℚ) (ha : 0 ≤ a) (hb : 0 ≤ b) (hc : 0 ≤ c) :
    Btw 4 (1 + (a + (b + c))) (rnd32 (1 + rnd32 (rnd32 a + rnd32 (rnd32 b + rnd32 c)))) := by
  have hbc : Btw 2 (b + c) (rnd32 (rnd32 b + rnd32 c)) := (((Btw.refl b).rnd hb).add ((Btw.refl c).rnd hc)).rnd (by linarith)
  have habc : Btw 3 (a + (b + c)) (rnd32 (rnd32 a + rnd32 (rnd32 b + rnd32 c))) :=
    ((((Btw.refl a).rnd ha).up ha).add hbc).rnd (by linarith)
  exact (((((Btw.refl 1).up (by norm_num)).up (by norm_num)).up (by norm_num)).add habc).rnd (by linarith)

/-- **C123 (how fast a particle moves).** The displacement has the direction of the momentum `u`, and up to six roundings on either
side it is `c u / sqrt(1 + u²)`, half of the way light moves in the voxel times the velocity. -/
theorem disp_near {rt : ℚ → ℚ} (hrt : SqrtNear rt) {c : Fin 3 → ℚ} (u : Fin 3 → ℚ) (k : Fin 3) (hc : 0 ≤ c k) :
    0 ≤ u k * disp rt c u k ∧
    (u k * c k) ^ 2 * (1 - 1 / 2 ^ 24) ^ 6 ≤ disp rt c u k ^ 2 * (1 + (u 0 ^ 2 + u 1 ^ 2 + u 2 ^ 2)) * (1 + 1 / 2 ^ 24) ^ 6 ∧
    disp rt c u k ^ 2 * (1 + (u 0 ^ 2 + u 1 ^ 2 + u 2 ^ 2)) * (1 - 1 / 2 ^ 24) ^ 6 ≤ (u k * c k) ^ 2 * (1 + 1 / 2 ^ 24) ^ 6 := by
  have hA := arg_near (u 0 * u 0) (u 1 * u 1) (u 2 * u 2) (mul_self_nonneg _) (mul_self_nonneg _) (mul_self_nonneg _)
  have hA1 : 1 ≤ rnd32 (1 + rnd32 (rnd32 (u 0 * u 0) + rnd32 (rnd32 (u 1 * u 1) + rnd32 (u 2 * u 2)))) := by
    have n := fun k => r_nonneg (mul_self_nonneg (u k))
    have := rnd32_mono (show (1 : ℚ) ≤ 1 + rnd32 (rnd32 (u 0 * u 0) + rnd32 (rnd32 (u 1 * u 1) + rnd32 (u 2 * u 2))) from
      le_add_of_nonneg_right (r_nonneg (add_nonneg (n 0) (r_nonneg (add_nonneg (n 1) (n 2))))))
    rwa [rnd32_one] at this
  have eU : 1 + (u 0 * u 0 + (u 1 * u 1 + u 2 * u 2)) = 1 + (u 0 ^ 2 + u 1 ^ 2 + u 2 ^ 2) := by ring
  rw [eU] at hA
  unfold disp invGamma
  set A := rnd32 (1 + rnd32 (rnd32 (u 0 * u 0) + rnd32 (rnd32 (u 1 * u 1) + rnd32 (u 2 * u 2))))
  set U := 1 + (u 0 ^ 2 + u 1 ^ 2 + u 2 ^ 2)
  obtain ⟨g0, g1, g2⟩ := hrt A hA1
  set g := rt A
  have hU : 0 < U := by positivity
  have hq : (0 : ℚ) < 1 - 1 / 2 ^ 24 := by norm_num
  have hp : (0 : ℚ) < 1 + 1 / 2 ^ 24 := by norm_num
  obtain ⟨hA2, hA3⟩ := hA
  have i := r_sq (1 / g)
  have m := r_sq (u k * c k)
  have d := r_sq (rnd32 (u k * c k) * rnd32 (1 / g))
  refine ⟨?_, ?_⟩
  · have hi : 0 ≤ rnd32 (1 / g) := r_nonneg (by positivity)
    rcases le_total 0 (u k) with h | h
    · exact mul_nonneg h (r_nonneg (mul_nonneg (r_nonneg (mul_nonneg h hc)) hi))
    · refine mul_nonneg_of_nonpos_of_nonpos h ?_
      have s1 := rnd32_mono (mul_nonpos_of_nonpos_of_nonneg h hc)
      rw [r_zero] at s1
      have s2 := rnd32_mono (mul_nonpos_of_nonpos_of_nonneg s1 hi)
      rwa [r_zero] at s2
  generalize (1 : ℚ) - 1 / 2 ^ 24 = q at *
  generalize (1 : ℚ) + 1 / 2 ^ 24 = p at *
  generalize rnd32 (u k * c k) = M at *
  generalize u k * c k = w at *
  generalize hI : rnd32 (1 / g) = I at *
  generalize rnd32 (M * I) = D at *
  -- g² I² is between q² and p²
  have gI1 : q ^ 2 ≤ g ^ 2 * I ^ 2 := by
    have := mul_le_mul_of_nonneg_left i.1 (sq_nonneg g)
    have e : g ^ 2 * ((1 / g) ^ 2 * q ^ 2) = q ^ 2 := by field_simp
    rwa [e] at this
  have gI2 : g ^ 2 * I ^ 2 ≤ p ^ 2 := by
    have := mul_le_mul_of_nonneg_left i.2 (sq_nonneg g)
    have e : g ^ 2 * ((1 / g) ^ 2 * p ^ 2) = p ^ 2 := by field_simp
    rwa [e] at this
  have G1 : U * q ^ 6 ≤ g ^ 2 := by
    refine le_trans ?_ g1
    have := mul_le_mul_of_nonneg_right hA2 (sq_nonneg q)
    calc U * q ^ 6 = U * q ^ 4 * q ^ 2 := by ring
      _ ≤ _ := this
  have G2 : g ^ 2 ≤ U * p ^ 6 := by
    refine g2.trans ?_
    have := mul_le_mul_of_nonneg_right hA3 (sq_nonneg p)
    calc A * p ^ 2 ≤ U * p ^ 4 * p ^ 2 := this
      _ = _ := by ring
  constructor
  · -- w² q^6 ≤ D² U p^6
    calc w ^ 2 * q ^ 6 = (w ^ 2 * q ^ 2) * q ^ 2 * q ^ 2 := by ring
      _ ≤ M ^ 2 * q ^ 2 * q ^ 2 := by
          apply mul_le_mul_of_nonneg_right _ (sq_nonneg q)
          exact mul_le_mul_of_nonneg_right m.1 (sq_nonneg q)
      _ ≤ M ^ 2 * (g ^ 2 * I ^ 2) * q ^ 2 := by
          apply mul_le_mul_of_nonneg_right _ (sq_nonneg q)
          exact mul_le_mul_of_nonneg_left gI1 (sq_nonneg M)
      _ = ((M * I) ^ 2 * q ^ 2) * g ^ 2 := by ring
      _ ≤ D ^ 2 * g ^ 2 := mul_le_mul_of_nonneg_right d.1 (sq_nonneg g)
      _ ≤ D ^ 2 * (U * p ^ 6) := mul_le_mul_of_nonneg_left G2 (sq_nonneg D)
      _ = _ := by ring
  · calc D ^ 2 * U * q ^ 6 = D ^ 2 * (U * q ^ 6) := by ring
      _ ≤ D ^ 2 * g ^ 2 := mul_le_mul_of_nonneg_left G1 (sq_nonneg D)
      _ ≤ ((M * I) ^ 2 * p ^ 2) * g ^ 2 := mul_le_mul_of_nonneg_right d.2 (sq_nonneg g)
      _ = M ^ 2 * (g ^ 2 * I ^ 2) * p ^ 2 := by ring
      _ ≤ M ^ 2 * p ^ 2 * p ^ 2 := by
          apply mul_le_mul_of_nonneg_right _ (sq_nonneg p)
          exact mul_le_mul_of_nonneg_left gI2 (sq_nonneg M)
      _ ≤ w ^ 2 * p ^ 2 * p ^ 2 * p ^ 2 := by
          apply mul_le_mul_of_nonneg_right _ (sq_nonneg p)
          exact mul_le_mul_of_nonneg_right m.2 (sq_nonneg p)
      _ = _ := by ring

/-- **C123 (where a particle that stays in its voxel ends).** Two displacements on, within 2^-22, if the displacement is at most 1. -/
theorem stay_near {rt : ℚ → ℚ} {c x u : Fin 3 → ℚ} (hi : ∀ k, |x k| ≤ 1) (hs : Slow ⟨x, disp rt c u⟩)
    (hin : ∀ k, |newPos (x k) (disp rt c u k)| ≤ 1) (face : Face) : ∃ t, step rt c x u face = .done t ∧
    ∀ k, |t.x k - (x k + 2 * disp rt c u k)| ≤ 1 / 2 ^ 22 := by
  have hin' : ∀ k, newPos (x k) (disp rt c u k) ≤ 1 ∧ -newPos (x k) (disp rt c u k) ≤ 1 := fun k => by
    have := abs_le.mp (hin k)
    exact ⟨this.2, by linarith [this.1]⟩
  refine ⟨⟨fun k => newPos (x k) (disp rt c u k), fun _ => 0⟩, ?_, fun k => ?_⟩
  · unfold step
    simp only
    rw [if_pos hin']
  · have hd : |disp rt c u k| ≤ 1 := hs k
    have hx := hi k
    have hn := hin k
    show |newPos (x k) (disp rt c u k) - _| ≤ _
    generalize disp rt c u k = d at *
    generalize x k = x at *
    unfold newPos at hn ⊢
    have e1 := r_err (x + d)
    have s1 : |x + d| ≤ 2 := (abs_add_le x d).trans (by linarith)
    generalize rnd32 (x + d) = m at *
    have e2 := r_err (m + d)
    have b := r_abs_ge (m + d)
    have s2 : |m + d| ≤ 2 := by
      by_contra hc
      have := mul_lt_mul_of_pos_right (not_le.mp hc) (show (0 : ℚ) < 1 - 1 / 2 ^ 24 by norm_num)
      have k2 : (1 : ℚ) < 2 * (1 - 1 / 2 ^ 24) := by norm_num
      linarith
    generalize rnd32 (m + d) = n at *
    have f1 : |m - (x + d)| ≤ 1 / 2 ^ 23 := e1.trans (by
      have := div_le_div_of_nonneg_right s1 (show (0 : ℚ) ≤ 2 ^ 24 by norm_num)
      refine this.trans (by norm_num))
    have f2 : |n - (m + d)| ≤ 1 / 2 ^ 23 := e2.trans (by
      have := div_le_div_of_nonneg_right s2 (show (0 : ℚ) ≤ 2 ^ 24 by norm_num)
      refine this.trans (by norm_num))
    have e : n - (x + 2 * d) = (n - (m + d)) + (m - (x + d)) := by ring
    rw [e]
    have h3 : (1 : ℚ) / 2 ^ 22 = 1 / 2 ^ 23 + 1 / 2 ^ 23 := by norm_num
    rw [h3]
    exact (abs_add_le _ _).trans (add_le_add f2 f1)

/-- **C123 (a step over faces).** A particle inside its voxel, with any momentum, is inside after the step, under the Courant condition
with a margin for the roundings and if no two successive crossings leave an offset outside, the last two excepted. -/
theorem step_any_partial {rt : ℚ → ℚ} (hrt : SqrtOk rt) {c x : Fin 3 → ℚ} (hc : ∀ k, 0 ≤ c k ∧ c k ≤ 1 - 1 / 2 ^ 20)
    (hx : ∀ k, rnd32 (x k) = x k) (hi : ∀ k, |x k| ≤ 1) (u : Fin 3 → ℚ) {f1 f2 : Face} {s' e t : St} {l : List St}
    (h1 : step rt c x u f1 = .more s') (hp : Path s' l e) (hn : NotTwice (s' :: l).dropLast) (hd : streak f2 e = .done t) :
    Floats t ∧ Inside t := by
  obtain ⟨hf, hs⟩ := courant_slow hrt hc hx u
  unfold step at h1
  simp only at h1
  split_ifs at h1
  exact any_faces_partial _ le_rfl hf hi hs (.cons f1 h1 hp) hn hd

/-- Near the root of every number there are rational ones, so that the assumptions on the square root can be met. -/
theorem sqrt_exists : ∃ rt, SqrtNear rt ∧ SqrtOk rt := by
  have key : ∀ y : ℚ, ∃ r : ℚ, 1 ≤ y → 0 < r ∧ y * (1 - 1 / 2 ^ 24) ^ 2 ≤ r ^ 2 ∧ r ^ 2 ≤ y * (1 + 1 / 2 ^ 24) ^ 2 := by
    intro y
    by_cases hy : 1 ≤ y
    · have hyR : (0 : ℝ) < (y : ℝ) := by exact_mod_cast lt_of_lt_of_le one_pos hy
      have hs := Real.sqrt_pos.mpr hyR
      obtain ⟨r, h1, h2⟩ := exists_rat_btwn (show √(y : ℝ) * (1 - 1 / 2 ^ 24) < √(y : ℝ) * (1 + 1 / 2 ^ 24) from
        mul_lt_mul_of_pos_left (by norm_num) hs)
      have h0 : 0 < √(y : ℝ) * (1 - 1 / 2 ^ 24) := mul_pos hs (by norm_num)
      have hr0 : (0 : ℝ) < r := h0.trans h1
      have a := pow_le_pow_left₀ h0.le h1.le 2
      have b := pow_le_pow_left₀ hr0.le h2.le 2
      rw [mul_pow, Real.sq_sqrt hyR.le] at a b
      exact ⟨r, fun _ => ⟨by exact_mod_cast hr0, (Rat.cast_le (K := ℝ)).mp (by push_cast; exact a),
        (Rat.cast_le (K := ℝ)).mp (by push_cast; exact b)⟩⟩
    · exact ⟨0, fun h => absurd h hy⟩
  choose rt h using key
  exact ⟨rt, h, fun y hy => ⟨(h y hy).1, (h y hy).2.1⟩⟩

end Verif.Streak
