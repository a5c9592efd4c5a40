import Verif.Streak.Push

/-!
# Streaks with rounding: two crossings
-/
namespace Verif.Streak
open Verif.Place

/-- An offset is rounded to more than 1 only if the face is far and the streak long. -/
lemma over_first {x d t : ℚ} (hx : rnd32 x = x) (hd : rnd32 d = d) (hv : rnd32 t = t) (h0 : -1 ≤ x) (h1 : x ≤ 1) (hp : 0 < d)
    (hd1 : d ≤ 1) (ht0 : 0 ≤ t) (ht : t < 2) (h : t ≤ rnd32 (rnd32 (1 - x) / d)) (hov : 1 < nx x d t) :
    1 / 16 ≤ d ∧ 1 / 8 ≤ t := by
  have hn : nx x d t = rnd32 (x + rnd32 (d * t)) := by unfold nx; rw [part_twice hv]
  rw [hn] at hov
  have hN0 : 0 ≤ rnd32 (1 - x) := r_nonneg (by linarith)
  have hN2 : rnd32 (1 - x) ≤ 2 := by
    have := rnd32_mono (show 1 - x ≤ 1 + 1 by linarith)
    rw [r_double rnd32_one] at this
    linarith
  have hy : 1 + 1 / 2 ^ 24 < x + rnd32 (d * t) := by
    by_contra hc
    push Not at hc
    have := rnd32_mono hc
    rw [tie_one] at this
    linarith
  have hdt0 : 0 ≤ d * t := mul_nonneg hp.le ht0
  have hR := r_le hdt0
  rcases done_le (r_idem _) hd hN0 hN2 hp hd1 ht.le h with hc | ⟨hN1, -⟩
  · have := dist_err h0 h1
    linarith
  · have h3 := dist_err_lt h1 hN1
    -- the product is at most the distance and three errors
    have hdt : d * t ≤ rnd32 (1 - x) * (1 + 1 / 2 ^ 24) := by
      have a1 := r_le (div_nonneg hN0 hp.le)
      have a2 := mul_le_mul_of_nonneg_left (h.trans a1) hp.le
      have e : d * (rnd32 (1 - x) / d * (1 + 1 / 2 ^ 24)) = rnd32 (1 - x) * (1 + 1 / 2 ^ 24) := by field_simp
      rwa [e] at a2
    have hNlow : 1 / 6 ≤ rnd32 (1 - x) := by
      have a3 : rnd32 (d * t) ≤ rnd32 (1 - x) * (1 + 1 / 2 ^ 24) * (1 + 1 / 2 ^ 24) :=
        hR.trans (mul_le_mul_of_nonneg_right hdt (by norm_num))
      have a4 : rnd32 (1 - x) * (1 + 1 / 2 ^ 24) * (1 + 1 / 2 ^ 24) ≤ rnd32 (1 - x) + rnd32 (1 - x) * (3 / 2 ^ 24) := by
        have : rnd32 (1 - x) * (1 + 1 / 2 ^ 24) * (1 + 1 / 2 ^ 24) =
            rnd32 (1 - x) + rnd32 (1 - x) * ((1 + 1 / 2 ^ 24) * (1 + 1 / 2 ^ 24) - 1) := by ring
        rw [this]
        have := mul_le_mul_of_nonneg_left (show ((1 + 1 / 2 ^ 24) * (1 + 1 / 2 ^ 24) - 1 : ℚ) ≤ 3 / 2 ^ 24 by norm_num) hN0
        linarith
      generalize rnd32 (1 - x) = N at *
      have e1 : (1 : ℚ) / 2 ^ 24 = 2 * (1 / 2 ^ 25) := by norm_num
      have e2 : (3 : ℚ) / 2 ^ 24 = 6 * (1 / 2 ^ 25) := by norm_num
      rw [e2] at a4
      rw [e1] at hy
      have hp25 : (0 : ℚ) < 1 / 2 ^ 25 := by norm_num
      have : 1 * (1 / 2 ^ 25) ≤ 6 * N * (1 / 2 ^ 25 : ℚ) := by linarith
      have := le_of_mul_le_mul_right this hp25
      linarith
    have hRlow : 1 / 6 ≤ rnd32 (d * t) := by
      have : (1 : ℚ) / 2 ^ 25 ≤ 1 / 2 ^ 24 := by norm_num
      linarith
    have hdtlow : 1 / 8 ≤ d * t := by
      have a5 : (1 : ℚ) + 1 / 2 ^ 24 ≤ 4 / 3 := by norm_num
      have := mul_le_mul_of_nonneg_left a5 hdt0
      linarith
    constructor <;> nlinarith

lemma half_gap {t : ℚ} (hv : rnd32 t = t) (ht0 : 0 ≤ t) (ht : t < 2) : 1 / 2 ^ 24 ≤ 1 - t * (1 / 2) := by
  have hh : rnd32 (t * (1 / 2)) = t * (1 / 2) := r_half hv
  rcases ht0.eq_or_lt with hz | hpos
  · rw [← hz]; norm_num
  · by_contra hc
    push Not at hc
    have hhalf : (2 : ℚ) ^ (-1 : ℤ) ≤ t * (1 / 2) := by
      have h1 : (2 : ℚ) ^ (-1 : ℤ) ≤ 1 - 1 / 2 ^ 24 := by norm_num
      have h2 : 1 - 1 / 2 ^ 24 ≤ t * (1 / 2) := by
        generalize (1 : ℚ) / 2 ^ 24 = u at *
        linarith
      exact h1.trans h2
    have hg := gap_aboveB (b := 23) (show 0 < t * (1 / 2) by linarith) (show t * (1 / 2) < 1 by linarith) hh rnd32_one
    have hm := unit_monoB (b := 23) (zpow_pos (by norm_num) _) hhalf
    rw [unit_pow] at hm
    have h9 : (2 : ℚ) ^ ((-1 : ℤ) - 23) = 1 / 2 ^ 24 := by norm_num
    rw [h9] at hm
    generalize (1 : ℚ) / 2 ^ 24 = u at *
    linarith

/-- How much is left, at least. -/
lemma left_lower {d t : ℚ} (hd : rnd32 d = d) (hv : rnd32 t = t) (hp : 0 < d) (ht0 : 1 / 8 ≤ t) (ht : t < 2) :
    d * (1 - t * (1 / 2)) / 16 ≤ nd d t := by
  set h := t * (1 / 2) with hh
  have hhf : rnd32 h = h := r_half hv
  have h0 : 0 < h := by rw [hh]; linarith
  have h1 : h < 1 := by rw [hh]; linarith
  have hpart : part d t = rnd32 (d * h) := part_eq hv
  have hlt := left_pos hd hhf hp h0.le h1
  have hdh : 0 < d * h := mul_pos hp h0
  have hs0 : 0 < rnd32 (d * h) := r_pos hdh
  have core : d * (1 - h) / 8 ≤ d - rnd32 (d * h) := by
    rcases le_or_gt (1 / 2 ^ 22) (1 - h) with hb | hb
    · have a1 := r_le hdh.le
      have a2 : d * h * (1 + 1 / 2 ^ 24) ≤ d * h + d * (1 / 2 ^ 24) := by
        have : d * h * (1 / 2 ^ 24) ≤ d * 1 * (1 / 2 ^ 24) :=
          mul_le_mul_of_nonneg_right (mul_le_mul_of_nonneg_left h1.le hp.le) (by norm_num)
        linarith
      have a3 : d * (1 / 2 ^ 24) ≤ d * (1 - h) / 4 := by
        have := mul_le_mul_of_nonneg_left hb hp.le
        have e : (1 : ℚ) / 2 ^ 24 = 1 / 2 ^ 22 / 4 := by norm_num
        rw [e]
        linarith
      have a4 : 0 ≤ d * (1 - h) := mul_nonneg hp.le (by linarith)
      linarith
    · have hg := gap_aboveB (b := 23) hs0 hlt (r_idem _) hd
      have hu := (unit_boundsB (b := 23) (rnd32 (d * h)) hs0.ne').2
      rw [abs_of_pos hs0] at hu
      have hu' : rnd32 (d * h) < 2 ^ 24 * unitB 23 (rnd32 (d * h)) := hu
      have a1 := r_ge hdh.le
      have a2 : d * (1 / 2) ≤ d * h * (1 - 1 / 2 ^ 24) := by
        rw [mul_assoc]
        apply mul_le_mul_of_nonneg_left _ hp.le
        have b1 : 1 - 1 / 2 ^ 22 ≤ h := by
          generalize (1 : ℚ) / 2 ^ 22 = u at *
          linarith
        have b2 := mul_le_mul_of_nonneg_right b1 (show (0 : ℚ) ≤ 1 - 1 / 2 ^ 24 by norm_num)
        refine le_trans (by norm_num) b2
      have a3 : d / 2 ^ 25 ≤ unitB 23 (rnd32 (d * h)) := by
        rw [div_le_iff₀ (by norm_num)]
        have e : (2 : ℚ) ^ 25 = 2 * 2 ^ 24 := by norm_num
        rw [e]
        linarith
      have a4 : d * (1 - h) / 8 ≤ d / 2 ^ 25 := by
        have := mul_le_mul_of_nonneg_left hb.le hp.le
        have e : d / 2 ^ 25 = d * (1 / 2 ^ 22) / 8 := by ring
        rw [e]
        linarith
      linarith
  have h2 : 0 ≤ d - rnd32 (d * h) := by linarith
  have h3 := r_ge h2
  unfold nd
  rw [hpart]
  have h4 : (d - rnd32 (d * h)) * (1 / 2) ≤ (d - rnd32 (d * h)) * (1 - 1 / 2 ^ 24) := mul_le_mul_of_nonneg_left (by norm_num) h2
  linarith

/-- How much is left, at most. -/
lemma left_upper {d t : ℚ} (hd0 : 0 ≤ d) (hd1 : d ≤ 1) (hv : rnd32 t = t) (ht0 : 1 / 8 ≤ t) (ht : t < 2) :
    nd d t ≤ 4 * (1 - t * (1 / 2)) ∧ nd d t ≤ 31 / 32 ∧ 0 ≤ nd d t := by
  have hgap := half_gap hv (by linarith) ht
  set h := t * (1 / 2) with hh
  have h0 : 1 / 16 ≤ h := by rw [hh]; linarith
  have h1 : h < 1 := by rw [hh]; linarith
  have hpart : part d t = rnd32 (d * h) := part_eq hv
  have hdh : 0 ≤ d * h := mul_nonneg hd0 (by linarith)
  have a1 := r_ge hdh
  have a2 := r_le hdh
  have a3 : d - rnd32 (d * h) ≤ (1 - h) + 1 / 2 ^ 24 := by
    have b1 : d * (1 - h) ≤ 1 * (1 - h) := mul_le_mul_of_nonneg_right hd1 (by linarith)
    have b2 : d * h * (1 / 2 ^ 24) ≤ 1 * (1 / 2 ^ 24) := mul_le_mul_of_nonneg_right (by nlinarith) (by norm_num)
    linarith
  have mono : ∀ y : ℚ, 0 ≤ y → d - rnd32 (d * h) ≤ y → nd d t ≤ y * (1 + 1 / 2 ^ 24) := fun y hy hle => by
    unfold nd
    rw [hpart]
    exact (rnd32_mono hle).trans (r_le hy)
  refine ⟨?_, ?_, ?_⟩
  · have := mono (2 * (1 - h)) (by linarith) (by linarith)
    have b : 2 * (1 - h) * (1 + 1 / 2 ^ 24) ≤ 2 * (1 - h) * 2 := mul_le_mul_of_nonneg_left (by norm_num) (by linarith)
    linarith
  · have := mono (15 / 16 + 1 / 2 ^ 24) (by norm_num) (by linarith)
    exact this.trans (by norm_num)
  · have hle : rnd32 (d * h) ≤ d ∨ d - rnd32 (d * h) ≤ 0 := by
      rcases le_total (rnd32 (d * h)) d with h | h
      · exact Or.inl h
      · exact Or.inr (by linarith)
    unfold nd
    rw [hpart]
    apply r_nonneg
    have b3 : d * h * (1 + 1 / 2 ^ 24) ≤ d := by
      have b4 : h ≤ 1 - 1 / 2 ^ 24 := by
        generalize (1 : ℚ) / 2 ^ 24 = u at *
        linarith
      have b5 : h * (1 + 1 / 2 ^ 24) ≤ 1 := by
        have := mul_le_mul_of_nonneg_right b4 (show (0 : ℚ) ≤ 1 + 1 / 2 ^ 24 by norm_num)
        exact this.trans (by norm_num)
      rw [mul_assoc]
      exact mul_le_of_le_one_right hd0 b5
    linarith

/-- Towards the upper face: inside or little above, and the end of the track not below. -/
def NearPos (x d : ℚ) : Prop := 0 < d ∧ d ≤ 1 ∧ -1 ≤ rnd32 (x + (d + d))

/-- A streak backwards. -/
lemma back_axis {x d v : ℚ} (hd : rnd32 d = d) (hv : rnd32 v = v) (h0 : -1 ≤ x) (hp : 0 < d) (hd1 : d ≤ 31 / 32)
    (hv0 : v ≤ 0) (hb : d * -v ≤ 1 / 2 ^ 10) : NearPos (nx x d v) (nd d v) := by
  have hs : part d v = -rnd32 (d * (-v * (1 / 2))) := by
    rw [part_eq hv, ← r_neg]
    congr 1
    ring
  have hy0 : 0 ≤ d * (-v * (1 / 2)) := mul_nonneg hp.le (by linarith)
  have hs0 := r_nonneg hy0
  have hsu := r_le hy0
  set σ := rnd32 (d * (-v * (1 / 2))) with hσ
  have hσf : rnd32 σ = σ := r_idem _
  have hσ1 : σ ≤ 1 / 2 ^ 10 := by
    have a1 : d * (-v * (1 / 2)) * (1 + 1 / 2 ^ 24) ≤ d * (-v * (1 / 2)) * 2 := mul_le_mul_of_nonneg_left (by norm_num) hy0
    have a2 : d * (-v * (1 / 2)) * 2 = d * -v := by ring
    linarith
  have hnx : nx x d v = rnd32 (x - (σ + σ)) := by
    unfold nx
    rw [hs, show -σ + -σ = -(σ + σ) by ring, r_neg, r_double hσf, sub_eq_add_neg]
  have hnd : nd d v = rnd32 (d + σ) := by unfold nd; rw [hs, sub_neg_eq_add]
  have hnd1 : σ ≤ nd d v := by
    rw [hnd]
    have := rnd32_mono (show σ ≤ d + σ by linarith)
    rwa [hσf] at this
  have hndp : 0 < nd d v := by rw [hnd]; exact r_pos (by linarith)
  refine ⟨hndp, ?_, ?_⟩
  · rw [hnd]
    have h10 : (1 : ℚ) / 2 ^ 10 ≤ 1 / 32 := by norm_num
    have := rnd32_mono (show d + σ ≤ 1 by linarith)
    rwa [rnd32_one] at this
  · -- the new offset is at least -1 - 2 σ - 2^-24
    have hx : -1 - (σ + σ) - 1 / 2 ^ 24 ≤ nx x d v := by
      rw [hnx]
      have a1 := rnd32_mono (show -(1 + (σ + σ)) ≤ x - (σ + σ) by linarith)
      rw [r_neg] at a1
      have h10 : (1 : ℚ) / 2 ^ 10 ≤ 1 / 32 := by norm_num
      have a2 := (abs_le.mp (r_err_two (show 0 < 1 + (σ + σ) by linarith) (by linarith))).2
      linarith
    have a3 := rnd32_mono (show -(1 + 1 / 2 ^ 24) ≤ nx x d v + (nd d v + nd d v) by linarith)
    rwa [r_neg, tie_one] at a3

/-- The last streak from there. -/
lemma end_near_axis {x d : ℚ} (hx : rnd32 x = x) (hd : rnd32 d = d) (h : NearPos x d) (hr : ∀ v, reach x d = some v → 2 ≤ v) :
    |nx x d 2| ≤ 1 := by
  obtain ⟨hp, hd1, hlow⟩ := h
  have hn : nx x d 2 = rnd32 (x + (d + d)) := by
    unfold nx
    rw [part_twice float_two, show d * 2 = d + d by ring, r_double hd]
  rcases le_or_gt x 1 with h1 | h1
  · rcases le_or_gt (-1) x with h0 | h0
    · exact end_axis hx hd (abs_le.mpr ⟨h0, h1⟩) hr
    · rw [hn, abs_le]
      refine ⟨hlow, ?_⟩
      have := rnd32_mono (show x + (d + d) ≤ 1 by linarith)
      rwa [rnd32_one] at this
  · obtain ⟨v, hv1, hv2⟩ := reach_outside (show 1 < |x| from lt_of_lt_of_le h1 (le_abs_self x)) (mul_pos (by linarith) hp)
    have := hr v hv1
    linarith

/-- In either direction, or not moving. -/
def Near (x d : ℚ) : Prop := NearPos x d ∨ NearPos (-x) (-d) ∨ (d = 0 ∧ |x| ≤ 1)

lemma end_near_both {x d : ℚ} (hx : rnd32 x = x) (hd : rnd32 d = d) (h : Near x d) (hr : ∀ v, reach x d = some v → 2 ≤ v) :
    |nx x d 2| ≤ 1 := by
  rcases h with h | h | ⟨h, h'⟩
  · exact end_near_axis hx hd h hr
  · have := end_near_axis (by rw [r_neg, hx]) (by rw [r_neg, hd]) h (by rwa [reach_neg])
    rwa [nx_neg, abs_neg] at this
  · exact end_axis hx hd h' hr

end Verif.Streak
