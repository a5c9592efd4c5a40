import Verif.Gyro.Props

/-!
# Property C127: the angle of the magnetic rotation
-/
namespace Verif.Gyro
open Verif.Place Verif.Streak Verif.Flow

lemma Btw_le {n m : ℕ} {y z : ℚ} (hy : 0 ≤ y) (h : Btw n y z) (hnm : n ≤ m) : Btw m y z := by
  induction m, hnm using Nat.le_induction with
  | base => exact h
  | succ m _ ih => exact ih.up hy

lemma fieldSq_near (b : Fin 3 → ℚ) : Btw 3 (sq b) (fieldSq b) := by
  have n0 := mul_self_nonneg (b 0)
  have n1 := mul_self_nonneg (b 1)
  have n2 := mul_self_nonneg (b 2)
  have hbc : Btw 2 (b 1 * b 1 + b 2 * b 2) (rnd32 (rnd32 (b 1 * b 1) + rnd32 (b 2 * b 2))) :=
    (((Btw.refl _).rnd n1).add ((Btw.refl _).rnd n2)).rnd (by linarith)
  have habc : Btw 3 (b 0 * b 0 + (b 1 * b 1 + b 2 * b 2)) (fieldSq b) := ((((Btw.refl _).rnd n0).up n0).add hbc).rnd (by linarith)
  have e : sq b = b 0 * b 0 + (b 1 * b 1 + b 2 * b 2) := by unfold sq; ring
  rwa [e]

/-- **C127 (the angle).** The tangent has the sign of `v0` and is, up to sixteen roundings, `v0 (1 + x/3 + 2x²/15)` with `x` the square
of `v0` times the field: the first three terms of the series of the tangent. -/
theorem tan_near (v0 : ℚ) (b : Fin 3 → ℚ) : 0 ≤ v0 * tanOf v0 b ∧
    Btw 16 (|v0| * (1 + v0 ^ 2 * sq b / 3 + 2 / 15 * (v0 ^ 2 * sq b) ^ 2)) |tanOf v0 b| := by
  have hb : 0 ≤ sq b := by unfold sq; positivity
  have nv := mul_self_nonneg v0
  have hx : 0 ≤ v0 * v0 * sq b := mul_nonneg nv hb
  have h2 : Btw 5 (v0 * v0 * sq b) (rnd32 (rnd32 (v0 * v0) * fieldSq b)) :=
    (Btw_mul nv hb ((Btw.refl _).rnd nv) (fieldSq_near b)).rnd hx
  have e0 : v0 ^ 2 * sq b = v0 * v0 * sq b := by ring
  rw [e0]
  unfold tanOf
  simp only
  generalize rnd32 (rnd32 (v0 * v0) * fieldSq b) = v2 at *
  generalize v0 * v0 * sq b = x at *
  have hc : (0 : ℚ) ≤ 2 / 15 := by norm_num
  have h3 : Btw 7 (x * (2 / 15)) (rnd32 (v2 * rnd32 (2 / 15))) := (Btw_mul hx hc h2 ((Btw.refl _).rnd hc)).rnd (mul_nonneg hx hc)
  have h4 : Btw 7 (1 / 3) (rnd32 (1 / 3)) := Btw_le (by norm_num) ((Btw.refl _).rnd (by norm_num)) (by norm_num)
  have hs : (0 : ℚ) ≤ 1 / 3 + x * (2 / 15) := by positivity
  have h5 : Btw 8 (1 / 3 + x * (2 / 15)) (rnd32 (rnd32 (1 / 3) + rnd32 (v2 * rnd32 (2 / 15)))) := (h4.add h3).rnd hs
  have h6 := (Btw_mul hx hs h2 h5).rnd (mul_nonneg hx hs)
  have h7 : Btw 14 1 1 := Btw_le zero_le_one (Btw.refl 1) (by norm_num)
  have hp : 0 ≤ 1 + x * (1 / 3 + x * (2 / 15)) := add_nonneg zero_le_one (mul_nonneg hx hs)
  have h8 := (h7.add h6).rnd hp
  generalize rnd32 (1 + rnd32 (v2 * rnd32 (rnd32 (1 / 3) + rnd32 (v2 * rnd32 (2 / 15))))) = z at *
  have hz : 0 ≤ z := le_trans (mul_nonneg hp (pow_nonneg (by norm_num) _)) h8.1
  have h9 := (Btw_mul (abs_nonneg v0) hp (Btw.refl |v0|) h8).rnd (mul_nonneg (abs_nonneg v0) hp)
  have hab : |rnd32 (v0 * z)| = rnd32 (|v0| * z) := by
    rcases le_total 0 v0 with h | h
    · rw [abs_of_nonneg h, abs_of_nonneg (r_nonneg (mul_nonneg h hz))]
    · have hn : 0 ≤ -v0 * z := mul_nonneg (by linarith) hz
      have e : v0 * z = -(-v0 * z) := by ring
      rw [abs_of_nonpos h, e, r_neg, abs_neg, abs_of_nonneg (r_nonneg hn)]
  refine ⟨?_, ?_⟩
  · rcases le_total 0 v0 with h | h
    · exact mul_nonneg h (r_nonneg (mul_nonneg h hz))
    · refine mul_nonneg_of_nonpos_of_nonpos h ?_
      have := rnd32_mono (mul_nonpos_of_nonpos_of_nonneg h hz)
      rwa [r_zero] at this
  · rw [hab]
    have e : |v0| * (1 + x / 3 + 2 / 15 * x ^ 2) = |v0| * (1 + x * (1 / 3 + x * (2 / 15))) := by ring
    rw [e]
    exact h9

/-- **C127 (the angle and the energy).** `v0` is the charge times half a step per mass over `sqrt(1 + u²)`, up to roundings. -/
theorem slow_near {rt : ℚ → ℚ} (hrt : SqrtNear rt) (qdt : ℚ) (u : Fin 3 → ℚ) :
    qdt ^ 2 * (1 - 1 / 2 ^ 24) ^ 2 ≤ slow rt qdt u ^ 2 * (1 + sq u) * (1 + 1 / 2 ^ 24) ^ 6 ∧
    slow rt qdt u ^ 2 * (1 + sq u) * (1 - 1 / 2 ^ 24) ^ 6 ≤ qdt ^ 2 * (1 + 1 / 2 ^ 24) ^ 2 := by
  have hA := arg_near (u 0 * u 0) (u 1 * u 1) (u 2 * u 2) (mul_self_nonneg _) (mul_self_nonneg _) (mul_self_nonneg _)
  have hA1 : 1 ≤ rnd32 (1 + rnd32 (rnd32 (u 0 * u 0) + rnd32 (rnd32 (u 1 * u 1) + rnd32 (u 2 * u 2)))) := by
    have n := fun k => r_nonneg (mul_self_nonneg (u k))
    have := rnd32_mono (show (1 : ℚ) ≤ 1 + rnd32 (rnd32 (u 0 * u 0) + rnd32 (rnd32 (u 1 * u 1) + rnd32 (u 2 * u 2))) from
      le_add_of_nonneg_right (r_nonneg (add_nonneg (n 0) (r_nonneg (add_nonneg (n 1) (n 2))))))
    rwa [rnd32_one] at this
  have eU : 1 + (u 0 * u 0 + (u 1 * u 1 + u 2 * u 2)) = 1 + sq u := by unfold sq; ring
  rw [eU] at hA
  unfold slow
  set A := rnd32 (1 + rnd32 (rnd32 (u 0 * u 0) + rnd32 (rnd32 (u 1 * u 1) + rnd32 (u 2 * u 2))))
  obtain ⟨g0, g1, g2⟩ := hrt A hA1
  set g := rt A
  obtain ⟨hA2, hA3⟩ := hA
  have i := r_sq (qdt / g)
  generalize (1 : ℚ) - 1 / 2 ^ 24 = q at *
  generalize (1 : ℚ) + 1 / 2 ^ 24 = p at *
  generalize rnd32 (qdt / g) = I at *
  generalize 1 + sq u = U at *
  have gI1 : qdt ^ 2 * q ^ 2 ≤ g ^ 2 * I ^ 2 := by
    have := mul_le_mul_of_nonneg_left i.1 (sq_nonneg g)
    have e : g ^ 2 * ((qdt / g) ^ 2 * q ^ 2) = qdt ^ 2 * q ^ 2 := by field_simp
    rwa [e] at this
  have gI2 : g ^ 2 * I ^ 2 ≤ qdt ^ 2 * p ^ 2 := by
    have := mul_le_mul_of_nonneg_left i.2 (sq_nonneg g)
    have e : g ^ 2 * ((qdt / g) ^ 2 * p ^ 2) = qdt ^ 2 * p ^ 2 := by field_simp
    rwa [e] at this
  have G1 : U * q ^ 6 ≤ g ^ 2 := by
    refine le_trans ?_ g1
    have := mul_le_mul_of_nonneg_right hA2 (sq_nonneg q)
    calc U * q ^ 6 = U * q ^ 4 * q ^ 2 := by ring
      _ ≤ _ := this
  have G2 : g ^ 2 ≤ U * p ^ 6 := by
    refine g2.trans ?_
    have := mul_le_mul_of_nonneg_right hA3 (sq_nonneg p)
    calc A * p ^ 2 ≤ U * p ^ 4 * p ^ 2 := this
      _ = _ := by ring
  constructor
  · calc qdt ^ 2 * q ^ 2 ≤ g ^ 2 * I ^ 2 := gI1
      _ ≤ U * p ^ 6 * I ^ 2 := mul_le_mul_of_nonneg_right G2 (sq_nonneg I)
      _ = _ := by ring
  · calc I ^ 2 * U * q ^ 6 = U * q ^ 6 * I ^ 2 := by ring
      _ ≤ g ^ 2 * I ^ 2 := mul_le_mul_of_nonneg_right G1 (sq_nonneg I)
      _ ≤ _ := gI2

/-- **C127 (the whole rotation).** The new momentum is the old one turned about the field by twice the angle whose tangent per field is
`tau`, up to `2^-16` of the largest component, where `tau` is the series of the tangent at `v0`, and `v0` the charge times half a step per
mass over the energy. -/
theorem boris_near {rt : ℚ → ℚ} (hrt : SqrtNear rt) (qdt : ℚ) (b u : Fin 3 → ℚ) {U : ℚ} (hU : ∀ i, |u i| ≤ U) : ∃ v0 tau : ℚ,
    qdt ^ 2 * (1 - 1 / 2 ^ 24) ^ 2 ≤ v0 ^ 2 * (1 + sq u) * (1 + 1 / 2 ^ 24) ^ 6 ∧
    v0 ^ 2 * (1 + sq u) * (1 - 1 / 2 ^ 24) ^ 6 ≤ qdt ^ 2 * (1 + 1 / 2 ^ 24) ^ 2 ∧
    0 ≤ qdt * v0 ∧ 0 ≤ v0 * tau ∧
    Btw 16 (|v0| * (1 + v0 ^ 2 * sq b / 3 + 2 / 15 * (v0 ^ 2 * sq b) ^ 2)) |tau| ∧
    ∀ k, |boris rt qdt b u k - exactRot tau b u k| ≤ 1 / 2 ^ 16 * U := by
  refine ⟨slow rt qdt u, tanOf (slow rt qdt u) b, (slow_near hrt qdt u).1, (slow_near hrt qdt u).2, ?_, (tan_near _ b).1, (tan_near _ b).2,
    fun k => rotate_near _ b u hU k⟩
  have hA1 : 1 ≤ rnd32 (1 + rnd32 (rnd32 (u 0 * u 0) + rnd32 (rnd32 (u 1 * u 1) + rnd32 (u 2 * u 2)))) := by
    have n := fun k => r_nonneg (mul_self_nonneg (u k))
    have := rnd32_mono (show (1 : ℚ) ≤ 1 + rnd32 (rnd32 (u 0 * u 0) + rnd32 (rnd32 (u 1 * u 1) + rnd32 (u 2 * u 2))) from
      le_add_of_nonneg_right (r_nonneg (add_nonneg (n 0) (r_nonneg (add_nonneg (n 1) (n 2))))))
    rwa [rnd32_one] at this
  obtain ⟨g0, -, -⟩ := hrt _ hA1
  unfold slow
  generalize rt _ = g at *
  rcases le_total 0 qdt with h | h
  · exact mul_nonneg h (r_nonneg (div_nonneg h g0.le))
  · refine mul_nonneg_of_nonpos_of_nonpos h ?_
    have := rnd32_mono (div_nonpos_of_nonpos_of_nonneg h g0.le)
    rwa [r_zero] at this

end Verif.Gyro
