import Verif.Streak.Props

/-!
# The displacement of a step, with rounding

Model of the displacement in `advance_p_pipeline_scalar`, /repo/src/species_advance/standard/pipeline/advance_p_pipeline.cc:145-174
and 214-216.
-/
namespace Verif.Streak
open Verif.Place

/-- `v0`, advance_p_pipeline.cc:145; `rt` is `sqrtf`. -/
def invGamma (rt : ℚ → ℚ) (u : Fin 3 → ℚ) : ℚ :=
  rnd32 (1 / rt (rnd32 (1 + rnd32 (rnd32 (u 0 * u 0) + rnd32 (rnd32 (u 1 * u 1) + rnd32 (u 2 * u 2))))))

/-- `ux`, `uy` and `uz` after advance_p_pipeline.cc:148-154, which become the displacement of the mover, :214-216; `c` is `cdt_dx`,
`cdt_dy`, `cdt_dz`. -/
def disp (rt : ℚ → ℚ) (c u : Fin 3 → ℚ) (k : Fin 3) : ℚ := rnd32 (rnd32 (u k * c k) * invGamma rt u)

/-- The new position, advance_p_pipeline.cc:156-162. -/
def newPos (x d : ℚ) : ℚ := rnd32 (rnd32 (x + d) + d)

/-- Where the offsets are after the step and what is left to move: stored at once if all are in the voxel,
advance_p_pipeline.cc:165-176, or the first streak of `move_p`, :214-220. -/
def step (rt : ℚ → ℚ) (c x u : Fin 3 → ℚ) (face : Face) : Out :=
  let d := disp rt c u
  if ∀ k, newPos (x k) (d k) ≤ 1 ∧ -newPos (x k) (d k) ≤ 1 then .done ⟨fun k => newPos (x k) (d k), fun _ => 0⟩
  else streak face ⟨x, d⟩

/-- All that is used of `sqrtf`: the result for numbers from 1 on is positive and not too small by more than a relative error of
2^-24. -/
def SqrtOk (rt : ℚ → ℚ) : Prop := ∀ y, 1 ≤ y → 0 < rt y ∧ y * (1 - 1 / 2 ^ 24) ^ 2 ≤ rt y ^ 2

lemma r_le {y : ℚ} (h : 0 ≤ y) : rnd32 y ≤ y * (1 + 1 / 2 ^ 24) := by
  have := (abs_le.mp (r_err y)).2
  rw [abs_of_nonneg h] at this
  have e : y * (1 + 1 / 2 ^ 24) = y + y / 2 ^ 24 := by ring
  rw [e]; linarith

lemma r_ge {y : ℚ} (h : 0 ≤ y) : y * (1 - 1 / 2 ^ 24) ≤ rnd32 y := by
  have := (abs_le.mp (r_err y)).1
  rw [abs_of_nonneg h] at this
  have e : y * (1 - 1 / 2 ^ 24) = y - y / 2 ^ 24 := by ring
  rw [e]; linarith

lemma r_abs (y : ℚ) : |rnd32 y| ≤ |y| * (1 + 1 / 2 ^ 24) := by
  rcases le_total 0 y with h | h
  · rw [abs_of_nonneg h, abs_of_nonneg (r_nonneg h)]; exact r_le h
  · have := r_le (y := -y) (by linarith)
    rw [r_neg] at this
    have h2 : rnd32 y ≤ 0 := by have := rnd32_mono h; rwa [r_zero] at this
    rw [abs_of_nonpos h, abs_of_nonpos h2]
    exact this

/-- One component is at most the norm. -/
lemma disp_core {rt : ℚ → ℚ} (hrt : SqrtOk rt) {w c S : ℚ} (hS : rnd32 (w * w) ≤ S) (hc0 : 0 ≤ c) (hc : c ≤ 1 - 1 / 2 ^ 20) :
    |rnd32 (rnd32 (w * c) * rnd32 (1 / rt (rnd32 (1 + S))))| ≤ 1 := by
  have hw2 : 0 ≤ w * w := mul_self_nonneg w
  have h1 := r_ge hw2
  have hS0 : 0 ≤ S := (r_nonneg hw2).trans hS
  have hA1 : 1 ≤ rnd32 (1 + S) := by
    have := rnd32_mono (show (1 : ℚ) ≤ 1 + S by linarith)
    rwa [rnd32_one] at this
  have hA := r_ge (show 0 ≤ 1 + S by linarith)
  obtain ⟨hg0, hg⟩ := hrt _ hA1
  set g := rt (rnd32 (1 + S)) with hgdef
  set q : ℚ := 1 - 1 / 2 ^ 24 with hq
  have hq0 : 0 < q := by rw [hq]; norm_num
  have hq1 : q ≤ 1 := by rw [hq]; norm_num
  -- g is at least |w| q^2
  have hgw : |w| * q ^ 2 ≤ g := by
    refine (le_abs_self _).trans (abs_le_of_sq_le_sq ?_ hg0.le)
    calc (|w| * q ^ 2) ^ 2 = (w * w * q) * q * q ^ 2 := by rw [mul_pow, sq_abs]; ring
        _ ≤ (1 + S) * q * q ^ 2 := by
            apply mul_le_mul_of_nonneg_right _ (by positivity)
            apply mul_le_mul_of_nonneg_right _ hq0.le
            linarith
        _ ≤ rnd32 (1 + S) * q ^ 2 := mul_le_mul_of_nonneg_right hA (by positivity)
        _ ≤ g ^ 2 := hg
  set p : ℚ := 1 + 1 / 2 ^ 24 with hp
  have hp0 : 0 < p := by rw [hp]; norm_num
  have b1 := r_abs (w * c)
  have b2 := r_le (show 0 ≤ 1 / g by positivity)
  have b3 := r_abs (rnd32 (w * c) * rnd32 (1 / g))
  have b4 : 0 ≤ rnd32 (1 / g) := r_nonneg (by positivity)
  rw [abs_mul, abs_of_nonneg b4] at b3
  rw [abs_mul, abs_of_nonneg hc0] at b1
  refine b3.trans ?_
  have b5 : |rnd32 (w * c)| * rnd32 (1 / g) ≤ |w| * c * p * (1 / g * p) :=
    mul_le_mul b1 b2 b4 (by positivity)
  have b6 : |w| * c * p * (1 / g * p) * p * q ^ 2 ≤ c * p ^ 3 := by
    have : |w| * c * p * (1 / g * p) * p * q ^ 2 = c * p ^ 3 * (|w| * q ^ 2 / g) := by ring
    rw [this]
    exact mul_le_of_le_one_right (by positivity) ((div_le_one hg0).mpr hgw)
  have b7 : c * p ^ 3 ≤ 1 * q ^ 2 := by
    calc c * p ^ 3 ≤ (1 - 1 / 2 ^ 20) * p ^ 3 := mul_le_mul_of_nonneg_right hc (by positivity)
      _ ≤ 1 * q ^ 2 := by rw [hp, hq]; norm_num
  have b8 : |w| * c * p * (1 / g * p) * p ≤ 1 := le_of_mul_le_mul_right (b6.trans b7) (by positivity)
  exact (mul_le_mul_of_nonneg_right b5 hp0.le).trans b8

/-- **C123 (no particle moves farther than a voxel).** Whatever the momentum, the displacement that is computed with all roundings
is at most that of a voxel if light moves by at most 1 - 2^-20 of the voxel in a step. -/
theorem courant_slow {rt : ℚ → ℚ} (hrt : SqrtOk rt) {c x : Fin 3 → ℚ} (hc : ∀ k, 0 ≤ c k ∧ c k ≤ 1 - 1 / 2 ^ 20)
    (hx : ∀ k, rnd32 (x k) = x k) (u : Fin 3 → ℚ) : Floats ⟨x, disp rt c u⟩ ∧ Slow ⟨x, disp rt c u⟩ := by
  refine ⟨fun k => ⟨hx k, r_idem _⟩, fun k => ?_⟩
  have n := fun k => r_nonneg (mul_self_nonneg (u k))
  have up : ∀ a b : ℚ, 0 ≤ b → rnd32 a ≤ rnd32 (rnd32 a + b) := fun a b hb => by
    have := rnd32_mono (show rnd32 a ≤ rnd32 a + b by linarith)
    rwa [r_idem] at this
  have up' : ∀ a b : ℚ, 0 ≤ b → rnd32 a ≤ rnd32 (b + rnd32 a) := fun a b hb => by
    rw [add_comm]; exact up a b hb
  have nn := r_nonneg (add_nonneg (n 1) (n 2))
  refine disp_core hrt ?_ (hc k).1 (hc k).2
  have : k = 0 ∨ k = 1 ∨ k = 2 := by omega
  rcases this with rfl | rfl | rfl
  · exact up _ _ nn
  · exact (up _ _ (n 2)).trans (up' _ _ (n 0))
  · exact (up' _ _ (n 1)).trans (up' _ _ (n 0))

/-- **C123 (a step).** A particle inside its voxel, with any momentum, is inside after the step if it crosses no face or one, under
the Courant condition with a margin for the roundings. -/
theorem step_inside_partial {rt : ℚ → ℚ} (hrt : SqrtOk rt) {c x : Fin 3 → ℚ} (hc : ∀ k, 0 ≤ c k ∧ c k ≤ 1 - 1 / 2 ^ 20)
    (hx : ∀ k, rnd32 (x k) = x k) (hi : ∀ k, |x k| ≤ 1) (u : Fin 3 → ℚ) {face face' : Face} {t : St}
    (h : step rt c x u face = .done t ∨ ∃ s', step rt c x u face = .more s' ∧ streak face' s' = .done t) : Floats t ∧ Inside t := by
  obtain ⟨hf, hs⟩ := courant_slow hrt hc hx u
  unfold step at h
  simp only at h
  split_ifs at h with hin
  · rcases h with h | ⟨s', h, -⟩
    · simp only [Out.done.injEq] at h
      subst h
      exact ⟨fun k => ⟨r_idem _, r_zero⟩, fun k => abs_le.mpr ⟨by linarith [(hin k).2], (hin k).1⟩⟩
    · cases h
  · exact movement_inside_partial hf hi hs h

/-- The assumption on the square root can be met: the mean of the number and 1 is not too small. -/
example : SqrtOk fun y => (y + 1) / 2 := fun y hy => ⟨by linarith, by
  have h1 : y * (1 - 1 / 2 ^ 24) ^ 2 ≤ y * 1 := mul_le_mul_of_nonneg_left (by norm_num) (by linarith)
  nlinarith [sq_nonneg (y - 1)]⟩

end Verif.Streak
