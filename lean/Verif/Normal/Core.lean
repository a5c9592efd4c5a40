import Verif.Normal.Model
import Mathlib.MeasureTheory.Function.JacobianOneDim
import Mathlib.Probability.Distributions.Gaussian.Real

/-! The integrals of the ziggurat. -/
namespace Verif.Normal

open MeasureTheory Set ENNReal

/-- The bell curve, in the form of the code. -/
noncomputable def bell (x : ℝ) : ℝ := Real.exp (-(1 / 2) * x * x)

lemma bell_pos (x : ℝ) : 0 < bell x := Real.exp_pos _

lemma bell_le_iff {x y : ℝ} (hx : 0 ≤ x) (hy : 0 ≤ y) : bell x ≤ bell y ↔ y ≤ x := by
  unfold bell
  rw [Real.exp_le_exp]
  constructor
  · intro h; nlinarith
  · intro h; nlinarith

lemma bell_lt_iff {x y : ℝ} (hx : 0 ≤ x) (hy : 0 ≤ y) : bell x < bell y ↔ y < x := by
  rw [← not_le, ← not_le, bell_le_iff hy hx]

lemma bell_neg (x : ℝ) : bell (-x) = bell x := by unfold bell; ring_nf

lemma measurable_bell : Measurable bell := by unfold bell; fun_prop

/-- Scaling a uniform number. -/
lemma lintegral_scale (X : ℝ) (hX : 0 < X) (G : ℝ → ℝ≥0∞) :
    ∫⁻ t in Ioc (0 : ℝ) 1, G (t * X) = ENNReal.ofReal X⁻¹ * ∫⁻ x in Ioc 0 X, G x := by
  have himg : (fun t : ℝ => t * X) '' Ioc 0 1 = Ioc 0 X := by
    ext x
    constructor
    · rintro ⟨t, ⟨h0, h1⟩, rfl⟩
      exact ⟨by positivity, by dsimp only; nlinarith⟩
    · rintro ⟨h0, h1⟩
      exact ⟨x / X, ⟨by positivity, (div_le_one hX).mpr h1⟩, by field_simp⟩
  have h := lintegral_image_eq_lintegral_abs_deriv_mul (s := Ioc (0 : ℝ) 1) (f := fun t => t * X)
    (f' := fun _ => X) measurableSet_Ioc
    (fun x _ => by simpa using ((hasDerivAt_id x).mul_const X).hasDerivWithinAt)
    (fun a _ b _ hab => mul_right_cancel₀ hX.ne' hab) G
  rw [himg] at h
  rw [h, lintegral_const_mul' _ _ ENNReal.ofReal_ne_top, ← mul_assoc, ← ENNReal.ofReal_mul (by positivity),
    abs_of_pos hX, inv_mul_cancel₀ hX.ne', ENNReal.ofReal_one, one_mul]

/-- The tail variable `r - log(w)/r` of a uniform `w` is exponential beyond `r`. -/
lemma lintegral_tail (r : ℝ) (hr : 0 < r) (G : ℝ → ℝ≥0∞) :
    ∫⁻ w in Ioc (0 : ℝ) 1, G (r - (1 / r) * Real.log w)
      = ∫⁻ x in Ici r, ENNReal.ofReal (r * Real.exp (-r * (x - r))) * G x := by
  have himg : (fun x : ℝ => Real.exp (-r * (x - r))) '' Ici r = Ioc 0 1 := by
    ext w
    constructor
    · rintro ⟨x, hx, rfl⟩
      rw [mem_Ici] at hx
      exact ⟨Real.exp_pos _, Real.exp_le_one_iff.mpr (by nlinarith)⟩
    · rintro ⟨h0, h1⟩
      refine ⟨r - (1 / r) * Real.log w, ?_, ?_⟩
      · have := Real.log_nonpos h0.le h1
        have h2 : 0 < 1 / r := by positivity
        rw [mem_Ici]; nlinarith
      · have : -r * (r - 1 / r * Real.log w - r) = Real.log w := by field_simp; ring
        dsimp only
        rw [this, Real.exp_log h0]
  have h := lintegral_image_eq_lintegral_abs_deriv_mul (s := Ici r)
    (f := fun x => Real.exp (-r * (x - r))) (f' := fun x => Real.exp (-r * (x - r)) * (-r))
    measurableSet_Ici
    (fun x _ => by
      have h1 : HasDerivAt (fun x => -r * (x - r)) (-r) x := by
        simpa using ((hasDerivAt_id x).sub_const r).const_mul (-r)
      exact h1.exp.hasDerivWithinAt)
    (fun a _ b _ hab => by
      have := Real.exp_injective hab
      have h2 := mul_left_cancel₀ (by linarith : -r ≠ 0) this
      linarith) (fun w => G (r - (1 / r) * Real.log w))
  rw [himg] at h
  rw [h]
  apply setLIntegral_congr_fun measurableSet_Ici
  intro x _
  dsimp only
  rw [Real.log_exp, abs_mul, abs_neg, abs_of_pos hr, abs_of_pos (Real.exp_pos _), mul_comm r]
  congr 2
  field_simp
  ring

/-- The share of a uniform number in (0,1] above a bound. -/
lemma share_above (c : ℝ) (h0 : 0 ≤ c) :
    volume (Ioc (0 : ℝ) 1 ∩ {y | c < y}) = ENNReal.ofReal (1 - c) := by
  have : Ioc (0 : ℝ) 1 ∩ {y | c < y} = Ioc c 1 := by
    ext y
    simp only [mem_inter_iff, mem_Ioc, mem_setOf_eq]
    constructor
    · rintro ⟨⟨_, h⟩, h'⟩; exact ⟨h', h⟩
    · rintro ⟨h, h'⟩; exact ⟨⟨by linarith, h'⟩, h⟩
  rw [this, Real.volume_Ioc]

lemma share_below (c : ℝ) (h1 : c ≤ 1) :
    volume (Ioc (0 : ℝ) 1 ∩ {y | y < c}) = ENNReal.ofReal c := by
  have : Ioc (0 : ℝ) 1 ∩ {y | y < c} = Ioo 0 c := by
    ext y
    simp only [mem_inter_iff, mem_Ioc, mem_setOf_eq, mem_Ioo]
    constructor
    · rintro ⟨⟨h, _⟩, h'⟩; exact ⟨h, h'⟩
    · rintro ⟨h, h'⟩; exact ⟨⟨h, by linarith⟩, h'⟩
  rw [this, Real.volume_Ioo, sub_zero]

lemma lintegral_ite_const (A : Set ℝ) (hA : MeasurableSet A) (k : ℝ≥0∞) [DecidablePred (· ∈ A)] :
    ∫⁻ y in Ioc (0 : ℝ) 1, (if y ∈ A then k else 0) = k * volume (Ioc (0 : ℝ) 1 ∩ A) := by
  have : (fun y => if y ∈ A then k else 0) = A.indicator fun _ => k := by
    funext y; simp [indicator_apply]
  rw [this, lintegral_indicator hA, lintegral_const, Measure.restrict_apply_univ,
    Measure.restrict_apply' measurableSet_Ioc, inter_comm]

/-- Acceptance between two heights. -/
lemma accept_strip (a b F : ℝ) (hab : b < a) (hF0 : b ≤ F) (hF1 : F ≤ a) (k : ℝ≥0∞) :
    ∫⁻ y in Ioc (0 : ℝ) 1, (if a + (b - a) * y < F then k else 0)
      = k * ENNReal.ofReal ((F - b) / (a - b)) := by
  have h := lintegral_ite_const {y | (a - F) / (a - b) < y} (measurableSet_lt measurable_const measurable_id) k
  rw [share_above _ (div_nonneg (by linarith) (by linarith))] at h
  have e : 1 - (a - F) / (a - b) = (F - b) / (a - b) := by
    have : a - b ≠ 0 := by linarith
    field_simp; ring
  rw [e] at h
  rw [← h]
  apply lintegral_congr
  intro y
  have hp : 0 < a - b := by linarith
  have : (a + (b - a) * y < F) ↔ y ∈ {y | (a - F) / (a - b) < y} := by
    rw [mem_setOf_eq, div_lt_iff₀ hp]
    constructor <;> intro h <;> nlinarith
  simp only [this]

/-- Acceptance under the exponential envelope. -/
lemma accept_tail (g F : ℝ) (hg : 0 < g) (hF1 : F ≤ g) (k : ℝ≥0∞) :
    ∫⁻ y in Ioc (0 : ℝ) 1, (if y * g < F then k else 0) = k * ENNReal.ofReal (F / g) := by
  have h := lintegral_ite_const {y | y < F / g} (measurableSet_lt measurable_id measurable_const) k
  rw [share_below _ ((div_le_one hg).mpr hF1)] at h
  rw [← h]
  apply lintegral_congr
  intro y
  have : (y * g < F) ↔ y ∈ {y | y < F / g} := by rw [mem_setOf_eq, lt_div_iff₀ hg]
  simp only [this]

/-- Specification: the table of an exact ziggurat.  `N` strips of equal area under (and over) the
bell curve, the last one with an exponential tail beyond `R`. -/
structure Exact (T : Table) : Prop where
  two : 2 ≤ T.N
  x0 : T.x 0 = 0
  mono : ∀ i < T.N, T.x i < T.x (i + 1)
  y : ∀ i < T.N, T.y i = Real.exp (-(T.x i) ^ 2 / 2)
  R : T.R = T.x (T.N - 1)
  area : ∀ i, i + 1 < T.N → T.x (i + 1) * (T.y i - T.y (i + 1)) = T.x T.N * T.y (T.N - 1)
  base : T.x T.N * T.y (T.N - 1) = T.R * T.y (T.N - 1) + T.y (T.N - 1) / T.R

/-- The area of a strip (of its positive half). -/
noncomputable def Table.v (T : Table) : ℝ := T.x T.N * T.y (T.N - 1)

namespace Exact

variable {T : Table} (h : Exact T)
include h

lemma y_bell {i : ℕ} (hi : i < T.N) : T.y i = bell (T.x i) := by
  rw [h.y i hi]; unfold bell; congr 1; ring

lemma x_nonneg {i : ℕ} (hi : i ≤ T.N) : 0 ≤ T.x i := by
  induction i with
  | zero => exact h.x0.ge
  | succ i ih => exact (ih (by omega)).trans (h.mono i (by omega)).le

lemma x_pos {i : ℕ} (hi : i < T.N) : 0 < T.x (i + 1) :=
  (h.x_nonneg hi.le).trans_lt (h.mono i hi)

lemma R_pos : 0 < T.R := by
  have := h.two
  rw [h.R]
  have := h.x_pos (i := T.N - 2) (by omega)
  rwa [show T.N - 2 + 1 = T.N - 1 by omega] at this

lemma y_pos {i : ℕ} (hi : i < T.N) : 0 < T.y i := by rw [h.y_bell hi]; exact bell_pos _

lemma y_anti {i : ℕ} (hi : i + 1 < T.N) : T.y (i + 1) < T.y i := by
  rw [h.y_bell hi, h.y_bell (by omega : i < T.N), bell_lt_iff (h.x_nonneg hi.le) (h.x_nonneg (by omega))]
  exact h.mono i (by omega)

lemma last : T.N - 1 < T.N := by have := h.two; omega

lemma v_pos : 0 < T.v := by
  have h1 := h.last
  have h2 := h.x_pos h1
  rw [show T.N - 1 + 1 = T.N by have := h.two; omega] at h2
  exact mul_pos h2 (h.y_pos h1)

/-- A strip gives every point `x > 0` with the share of the bell curve in that strip. -/
lemma strip (i : ℕ) (hi : i + 1 < T.N) (k : ℝ → ℝ≥0∞) :
    ∫⁻ t in Ioc (0 : ℝ) 1, (if t * T.x (i + 1) < T.x i then k (t * T.x (i + 1)) else
        ∫⁻ y in Ioc (0 : ℝ) 1, if T.y i + (T.y (i + 1) - T.y i) * y < bell (t * T.x (i + 1))
          then k (t * T.x (i + 1)) else 0)
      = ENNReal.ofReal T.v⁻¹ * ∫⁻ x in Ioi (0 : ℝ),
          k x * ENNReal.ofReal (min (bell x) (T.y i) - min (bell x) (T.y (i + 1))) := by
  have hX := h.x_pos (i := i) (by omega)
  have hx0 := h.x_nonneg (i := i) (by omega)
  have hy := h.y_anti hi
  have hyi := h.y_bell (i := i) (by omega)
  have hyi1 := h.y_bell hi
  have hd : 0 < T.y i - T.y (i + 1) := by linarith
  rw [lintegral_scale (T.x (i + 1)) hX (fun x => if x < T.x i then k x else
        ∫⁻ y in Ioc (0 : ℝ) 1, if T.y i + (T.y (i + 1) - T.y i) * y < bell x then k x else 0)]
  have e1 : ∀ x ∈ Ioc 0 (T.x (i + 1)), (if x < T.x i then k x else
        ∫⁻ y in Ioc (0 : ℝ) 1, if T.y i + (T.y (i + 1) - T.y i) * y < bell x then k x else 0)
      = ENNReal.ofReal (T.y i - T.y (i + 1))⁻¹ *
        (k x * ENNReal.ofReal (min (bell x) (T.y i) - min (bell x) (T.y (i + 1)))) := by
    rintro x ⟨hx, hx1⟩
    have hb1 : T.y (i + 1) ≤ bell x := by rw [hyi1, bell_le_iff hX.le hx.le]; exact hx1
    rw [min_eq_right hb1, mul_left_comm, ← ENNReal.ofReal_mul (by positivity)]
    split_ifs with hq
    · have : T.y i ≤ bell x := by rw [hyi, bell_le_iff hx0 hx.le]; exact hq.le
      rw [min_eq_right this, inv_mul_cancel₀ hd.ne', ENNReal.ofReal_one, mul_one]
    · have : bell x ≤ T.y i := by rw [hyi, bell_le_iff hx.le hx0]; exact not_lt.mp hq
      rw [accept_strip _ _ _ hy hb1 this, min_eq_left this]
      congr 2
      field_simp
  rw [setLIntegral_congr_fun measurableSet_Ioc e1, lintegral_const_mul' _ _ ENNReal.ofReal_ne_top,
    ← mul_assoc, ← ENNReal.ofReal_mul (by positivity)]
  have e2 : (T.x (i + 1))⁻¹ * (T.y i - T.y (i + 1))⁻¹ = T.v⁻¹ := by
    rw [← mul_inv, h.area i hi]; rfl
  rw [e2]
  congr 1
  have hsplit : Ioi (0 : ℝ) = Ioc 0 (T.x (i + 1)) ∪ Ioi (T.x (i + 1)) := (Ioc_union_Ioi_eq_Ioi hX.le).symm
  rw [hsplit, lintegral_union measurableSet_Ioi (by
    rw [Set.disjoint_left]; rintro x ⟨_, h1⟩ h2; exact absurd h1 (not_le.mpr h2))]
  have e3 : ∫⁻ x in Ioi (T.x (i + 1)),
      k x * ENNReal.ofReal (min (bell x) (T.y i) - min (bell x) (T.y (i + 1))) = 0 := by
    rw [setLIntegral_congr_fun (g := fun _ => 0) measurableSet_Ioi]
    · simp
    · intro x hx
      have hx' : T.x (i + 1) < x := hx
      have hb : bell x ≤ T.y (i + 1) := by
        rw [hyi1, bell_le_iff (hX.trans hx').le hX.le]; exact hx'.le
      dsimp only
      rw [min_eq_left hb, min_eq_left (hb.trans hy.le), sub_self, ENNReal.ofReal_zero, mul_zero]
  rw [e3, add_zero]

/-- The same for the strip with the tail. -/
lemma base_strip (k : ℝ → ℝ≥0∞) (hk : Measurable k) :
    ∫⁻ t in Ioc (0 : ℝ) 1, (if t * T.x T.N < T.x (T.N - 1) then k (t * T.x T.N) else
        ∫⁻ y in Ioc (0 : ℝ) 1, ∫⁻ w in Ioc (0 : ℝ) 1,
          if y * Real.exp (-T.R * ((T.R - (1 / T.R) * Real.log w) - (1 / 2) * T.R))
              < bell (T.R - (1 / T.R) * Real.log w)
          then k (T.R - (1 / T.R) * Real.log w) else 0)
      = ENNReal.ofReal T.v⁻¹ * ∫⁻ x in Ioi (0 : ℝ), k x * ENNReal.ofReal (min (bell x) (T.y (T.N - 1))) := by
  have hR := h.R_pos
  have hl := h.last
  have hX := h.x_pos hl
  rw [show T.N - 1 + 1 = T.N by omega] at hX
  have hyp := h.y_pos hl
  have hyb := h.y_bell hl
  rw [← h.R] at hyb ⊢
  have hRX : T.R < T.x T.N := by
    have := h.mono _ hl
    rwa [show T.N - 1 + 1 = T.N by omega, ← h.R] at this
  set B := ∫⁻ y in Ioc (0 : ℝ) 1, ∫⁻ w in Ioc (0 : ℝ) 1,
          if y * Real.exp (-T.R * ((T.R - (1 / T.R) * Real.log w) - (1 / 2) * T.R))
              < bell (T.R - (1 / T.R) * Real.log w)
          then k (T.R - (1 / T.R) * Real.log w) else 0 with hB
  have hBval : B = ENNReal.ofReal (T.R / T.y (T.N - 1)) * ∫⁻ x in Ici T.R, k x * ENNReal.ofReal (bell x) := by
    rw [hB, lintegral_lintegral_swap]
    · have e : ∀ w, (∫⁻ y in Ioc (0 : ℝ) 1,
          if y * Real.exp (-T.R * ((T.R - (1 / T.R) * Real.log w) - (1 / 2) * T.R))
              < bell (T.R - (1 / T.R) * Real.log w)
          then k (T.R - (1 / T.R) * Real.log w) else 0)
          = (fun x => k x * ENNReal.ofReal (bell x / Real.exp (-T.R * (x - (1 / 2) * T.R))))
              (T.R - (1 / T.R) * Real.log w) := by
        intro w
        dsimp only
        rw [accept_tail _ _ (Real.exp_pos _)]
        unfold bell
        rw [Real.exp_le_exp]
        nlinarith [sq_nonneg ((T.R - (1 / T.R) * Real.log w) - T.R)]
      simp only [e]
      rw [lintegral_tail T.R hR
        (fun x => k x * ENNReal.ofReal (bell x / Real.exp (-T.R * (x - (1 / 2) * T.R)))),
        ← lintegral_const_mul' _ _ ENNReal.ofReal_ne_top]
      apply lintegral_congr
      intro x
      rw [mul_left_comm, mul_left_comm _ (k x), ← ENNReal.ofReal_mul (by positivity),
        ← ENNReal.ofReal_mul (by positivity)]
      congr 2
      rw [hyb]
      have e : Real.exp (-T.R * (x - T.R)) * bell T.R = Real.exp (-T.R * (x - (1 / 2) * T.R)) := by
        unfold bell
        rw [← Real.exp_add]
        congr 1; ring
      rw [← e]
      have := bell_pos T.R
      field_simp
    · apply Measurable.aemeasurable
      refine Measurable.ite (measurableSet_lt ?_ ?_) ?_ measurable_const
      · fun_prop
      · exact measurable_bell.comp (by fun_prop)
      · exact hk.comp (by fun_prop)
  rw [lintegral_scale (T.x T.N) hX (fun x => if x < T.R then k x else B)]
  have s1 : Ioc 0 (T.x T.N) = Ioo 0 T.R ∪ Icc T.R (T.x T.N) := (Ioo_union_Icc_eq_Ioc hR hRX.le).symm
  have s2 : Ioi (0 : ℝ) = Ioo 0 T.R ∪ Ici T.R := (Ioo_union_Ici_eq_Ioi hR).symm
  rw [s1, s2, lintegral_union measurableSet_Icc (by
      rw [Set.disjoint_left]; rintro x ⟨_, h1⟩ ⟨h2, _⟩; linarith),
    lintegral_union measurableSet_Ici (by
      rw [Set.disjoint_left]; rintro x ⟨_, h1⟩ h2; exact absurd h1 (not_lt.mpr h2))]
  have e1 : ∫⁻ x in Ioo 0 T.R, (if x < T.R then k x else B)
      = ∫⁻ x in Ioo 0 T.R, k x :=
    setLIntegral_congr_fun measurableSet_Ioo fun x hx => if_pos hx.2
  have e2 : ∫⁻ x in Icc T.R (T.x T.N), (if x < T.R then k x else B)
      = B * ENNReal.ofReal (T.x T.N - T.R) := by
    rw [setLIntegral_congr_fun (g := fun _ => B) measurableSet_Icc fun x hx => if_neg (not_lt.mpr hx.1),
      lintegral_const, Measure.restrict_apply_univ, Real.volume_Icc]
  have e3 : ∫⁻ x in Ioo 0 T.R, k x * ENNReal.ofReal (min (bell x) (T.y (T.N - 1)))
      = (∫⁻ x in Ioo 0 T.R, k x) * ENNReal.ofReal (T.y (T.N - 1)) := by
    rw [← lintegral_mul_const' _ _ ENNReal.ofReal_ne_top]
    refine setLIntegral_congr_fun measurableSet_Ioo fun x hx => ?_
    have : T.y (T.N - 1) ≤ bell x := by rw [hyb, bell_le_iff hR.le hx.1.le]; exact hx.2.le
    rw [min_eq_right this]
  have e4 : ∫⁻ x in Ici T.R, k x * ENNReal.ofReal (min (bell x) (T.y (T.N - 1)))
      = ∫⁻ x in Ici T.R, k x * ENNReal.ofReal (bell x) := by
    refine setLIntegral_congr_fun measurableSet_Ici fun x hx => ?_
    have hx' : T.R ≤ x := hx
    have : bell x ≤ T.y (T.N - 1) := by rw [hyb, bell_le_iff (hR.le.trans hx') hR.le]; exact hx'
    rw [min_eq_left this]
  rw [e1, e2, e3, e4, hBval, mul_add, mul_add]
  congr 1
  · rw [mul_comm (∫⁻ x in Ioo 0 T.R, k x), ← mul_assoc, ← ENNReal.ofReal_mul (by have := h.v_pos; positivity)]
    congr 2
    unfold Table.v
    field_simp
  · rw [mul_right_comm, ← mul_assoc, ← mul_assoc]
    rw [← ENNReal.ofReal_mul (by positivity), ← ENNReal.ofReal_mul (by positivity)]
    congr 2
    have hb := h.base
    have hv : T.x T.N - T.R = 1 / T.R := by
      field_simp at hb ⊢
      linarith
    rw [hv]
    unfold Table.v
    field_simp

end Exact
end Verif.Normal
