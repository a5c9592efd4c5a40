import Verif.Normal.Props

/-! The ziggurat with a table that is not exact. -/
namespace Verif.Normal

open MeasureTheory Measure Set ENNReal ProbabilityTheory

/-- The conditions of an exact table, within a share `η`. -/
structure Near (T : Table) (η : ℝ) : Prop where
  two : 2 ≤ T.N
  eta : 0 ≤ η
  small : η ≤ 1 / 20
  x0 : T.x 0 = 0
  mono : ∀ i < T.N, T.x i < T.x (i + 1)
  y0 : T.y 0 = 1
  anti : ∀ i, i + 1 < T.N → T.y (i + 1) < T.y i
  ypos : 0 < T.y (T.N - 1)
  R : T.R = T.x (T.N - 1)
  quick : ∀ i, i + 1 < T.N → (1 - η) * (T.y i - T.y (i + 1)) ≤ bell (T.x i) - T.y (i + 1)
  lost : ∀ i, i + 1 < T.N → bell (T.x (i + 1)) - T.y (i + 1) ≤ η / T.N * T.y (T.N - 1)
  area : ∀ i, i + 1 < T.N → (1 - η) * T.v ≤ T.x (i + 1) * (T.y i - T.y (i + 1)) ∧
    T.x (i + 1) * (T.y i - T.y (i + 1)) ≤ (1 + η) * T.v
  tail : (1 - η) * T.y (T.N - 1) ≤ bell T.R ∧ bell T.R ≤ (1 + η) * T.y (T.N - 1)
  base : 1 - η ≤ (T.x T.N - T.R) * T.R ∧ (T.x T.N - T.R) * T.R ≤ 1 + η

/-- Acceptance between two heights, for a curve that need not be between them. -/
lemma accept_clamp (a b F : ℝ) (hab : b < a) (k : ℝ≥0∞) :
    ∫⁻ y in Ioc (0 : ℝ) 1, (if a + (b - a) * y < F then k else 0)
      = k * ENNReal.ofReal ((min F a - min F b) / (a - b)) := by
  rcases le_total F b with h | h
  · rw [min_eq_left h, min_eq_left (h.trans hab.le), sub_self, zero_div, ENNReal.ofReal_zero, mul_zero,
      setLIntegral_congr_fun (g := fun _ => 0) measurableSet_Ioc]
    · simp
    · intro y hy
      have : ¬ a + (b - a) * y < F := by nlinarith [hy.1, hy.2]
      exact if_neg this
  · rcases le_total F a with h' | h'
    · rw [accept_strip a b F hab h h', min_eq_left h', min_eq_right h]
    · rw [min_eq_right h', min_eq_right h, div_self (by linarith), ENNReal.ofReal_one, mul_one,
        setLIntegral_congr_fun (g := fun _ => k) measurableSet_Ioc]
      · simp
      · intro y hy
        have : a + (b - a) * y < F := by nlinarith [hy.1, hy.2]
        exact if_pos this

/-- The density of strip `i` at `x`. -/
noncomputable def Table.d (T : Table) (i : ℕ) (x : ℝ) : ℝ :=
  if x ≤ T.x (i + 1) then
    (T.x (i + 1))⁻¹ * (if x < T.x i then 1 else
      (min (bell x) (T.y i) - min (bell x) (T.y (i + 1))) / (T.y i - T.y (i + 1)))
  else 0

/-- The density of the strip with the tail. -/
noncomputable def Table.db (T : Table) (x : ℝ) : ℝ :=
  if x < T.R then (T.x T.N)⁻¹ else
    (T.x T.N)⁻¹ * ((T.x T.N - T.R) * (T.R / bell T.R)) * bell x

namespace Near

variable {T : Table} {η : ℝ} (h : Near T η)
include h

lemma x_nonneg {i : ℕ} (hi : i ≤ T.N) : 0 ≤ T.x i := by
  induction i with
  | zero => exact h.x0.ge
  | succ i ih => exact (ih (by omega)).trans (h.mono i (by omega)).le

lemma x_pos {i : ℕ} (hi : i < T.N) : 0 < T.x (i + 1) :=
  (h.x_nonneg hi.le).trans_lt (h.mono i hi)

lemma R_pos : 0 < T.R := by
  have := h.two
  rw [h.R]
  have := h.x_pos (i := T.N - 2) (by omega)
  rwa [show T.N - 2 + 1 = T.N - 1 by omega] at this

lemma last : T.N - 1 < T.N := by have := h.two; omega

lemma xN_pos : 0 < T.x T.N := by
  have := h.x_pos h.last
  rwa [show T.N - 1 + 1 = T.N by have := h.two; omega] at this

lemma R_lt : T.R < T.x T.N := by
  have := h.mono _ h.last
  rwa [show T.N - 1 + 1 = T.N by have := h.two; omega, ← h.R] at this

lemma v_pos : 0 < T.v := mul_pos h.xN_pos h.ypos

lemma y_ge {i : ℕ} (hi : i < T.N) : T.y (T.N - 1) ≤ T.y i := by
  obtain ⟨k, hk⟩ : ∃ k, T.N - 1 = i + k := ⟨T.N - 1 - i, by omega⟩
  rw [hk]
  clear hi
  have : ∀ k, i + k < T.N → T.y (i + k) ≤ T.y i := by
    intro k
    induction k with
    | zero => intro _; exact le_rfl
    | succ k ih => intro hk; exact (h.anti _ (by omega)).le.trans (ih (by omega))
  exact this k (by have := h.last; omega)

lemma strip (i : ℕ) (hi : i + 1 < T.N) (k : ℝ → ℝ≥0∞) :
    ∫⁻ t in Ioc (0 : ℝ) 1, (if t * T.x (i + 1) < T.x i then k (t * T.x (i + 1)) else
        ∫⁻ y in Ioc (0 : ℝ) 1, if T.y i + (T.y (i + 1) - T.y i) * y < bell (t * T.x (i + 1))
          then k (t * T.x (i + 1)) else 0)
      = ∫⁻ x in Ioi (0 : ℝ), k x * ENNReal.ofReal (T.d i x) := by
  have hX := h.x_pos (i := i) (by omega)
  have hy := h.anti i hi
  rw [lintegral_scale (T.x (i + 1)) hX (fun x => if x < T.x i then k x else
        ∫⁻ y in Ioc (0 : ℝ) 1, if T.y i + (T.y (i + 1) - T.y i) * y < bell x then k x else 0),
    ← lintegral_const_mul' _ _ ENNReal.ofReal_ne_top]
  have hsplit : Ioi (0 : ℝ) = Ioc 0 (T.x (i + 1)) ∪ Ioi (T.x (i + 1)) := (Ioc_union_Ioi_eq_Ioi hX.le).symm
  rw [hsplit, lintegral_union measurableSet_Ioi (by
    rw [Set.disjoint_left]; rintro x ⟨_, h1⟩ h2; exact absurd h1 (not_le.mpr h2))]
  have e3 : ∫⁻ x in Ioi (T.x (i + 1)), k x * ENNReal.ofReal (T.d i x) = 0 := by
    rw [setLIntegral_congr_fun (g := fun _ => 0) measurableSet_Ioi]
    · simp
    · intro x hx
      have hx' : ¬ x ≤ T.x (i + 1) := not_le.mpr hx
      unfold Table.d
      simp only [if_neg hx', ENNReal.ofReal_zero, mul_zero]
  rw [e3, add_zero]
  refine setLIntegral_congr_fun measurableSet_Ioc fun x hx => ?_
  unfold Table.d
  simp only [if_pos hx.2]
  rw [ENNReal.ofReal_mul (by positivity), mul_left_comm]
  congr 1
  split_ifs with hq
  · simp
  · rw [accept_clamp _ _ _ hy]

lemma base_strip (k : ℝ → ℝ≥0∞) (hk : Measurable k) :
    ∫⁻ t in Ioc (0 : ℝ) 1, (if t * T.x T.N < T.x (T.N - 1) then k (t * T.x T.N) else
        ∫⁻ y in Ioc (0 : ℝ) 1, ∫⁻ w in Ioc (0 : ℝ) 1,
          if y * Real.exp (-T.R * ((T.R - (1 / T.R) * Real.log w) - (1 / 2) * T.R))
              < bell (T.R - (1 / T.R) * Real.log w)
          then k (T.R - (1 / T.R) * Real.log w) else 0)
      = ∫⁻ x in Ioi (0 : ℝ), k x * ENNReal.ofReal (T.db x) := by
  have hR := h.R_pos
  have hX := h.xN_pos
  have hRX := h.R_lt
  rw [← h.R]
  set B := ∫⁻ y in Ioc (0 : ℝ) 1, ∫⁻ w in Ioc (0 : ℝ) 1,
          if y * Real.exp (-T.R * ((T.R - (1 / T.R) * Real.log w) - (1 / 2) * T.R))
              < bell (T.R - (1 / T.R) * Real.log w)
          then k (T.R - (1 / T.R) * Real.log w) else 0 with hB
  have hBval : B = ENNReal.ofReal (T.R / bell T.R) * ∫⁻ x in Ici T.R, k x * ENNReal.ofReal (bell x) := by
    rw [hB, lintegral_lintegral_swap]
    · have e : ∀ w, (∫⁻ y in Ioc (0 : ℝ) 1,
          if y * Real.exp (-T.R * ((T.R - (1 / T.R) * Real.log w) - (1 / 2) * T.R))
              < bell (T.R - (1 / T.R) * Real.log w)
          then k (T.R - (1 / T.R) * Real.log w) else 0)
          = (fun x => k x * ENNReal.ofReal (bell x / Real.exp (-T.R * (x - (1 / 2) * T.R))))
              (T.R - (1 / T.R) * Real.log w) := by
        intro w
        dsimp only
        rw [accept_tail _ _ (Real.exp_pos _)]
        unfold bell
        rw [Real.exp_le_exp]
        nlinarith [sq_nonneg ((T.R - (1 / T.R) * Real.log w) - T.R)]
      simp only [e]
      rw [lintegral_tail T.R hR
        (fun x => k x * ENNReal.ofReal (bell x / Real.exp (-T.R * (x - (1 / 2) * T.R)))),
        ← lintegral_const_mul' _ _ ENNReal.ofReal_ne_top]
      apply lintegral_congr
      intro x
      have hb := bell_pos T.R
      rw [mul_left_comm, mul_left_comm _ (k x), ← ENNReal.ofReal_mul (by positivity),
        ← ENNReal.ofReal_mul (by positivity)]
      congr 2
      have e : Real.exp (-T.R * (x - T.R)) * bell T.R = Real.exp (-T.R * (x - (1 / 2) * T.R)) := by
        unfold bell
        rw [← Real.exp_add]
        congr 1; ring
      rw [← e]
      field_simp
    · apply Measurable.aemeasurable
      refine Measurable.ite (measurableSet_lt ?_ ?_) ?_ measurable_const
      · fun_prop
      · exact measurable_bell.comp (by fun_prop)
      · exact hk.comp (by fun_prop)
  rw [lintegral_scale (T.x T.N) hX (fun x => if x < T.R then k x else B)]
  have s1 : Ioc 0 (T.x T.N) = Ioo 0 T.R ∪ Icc T.R (T.x T.N) := (Ioo_union_Icc_eq_Ioc hR hRX.le).symm
  have s2 : Ioi (0 : ℝ) = Ioo 0 T.R ∪ Ici T.R := (Ioo_union_Ici_eq_Ioi hR).symm
  rw [s1, s2, lintegral_union measurableSet_Icc (by
      rw [Set.disjoint_left]; rintro x ⟨_, h1⟩ ⟨h2, _⟩; linarith),
    lintegral_union measurableSet_Ici (by
      rw [Set.disjoint_left]; rintro x ⟨_, h1⟩ h2; exact absurd h1 (not_lt.mpr h2))]
  have e1 : ∫⁻ x in Ioo 0 T.R, (if x < T.R then k x else B)
      = ∫⁻ x in Ioo 0 T.R, k x :=
    setLIntegral_congr_fun measurableSet_Ioo fun x hx => if_pos hx.2
  have e2 : ∫⁻ x in Icc T.R (T.x T.N), (if x < T.R then k x else B)
      = B * ENNReal.ofReal (T.x T.N - T.R) := by
    rw [setLIntegral_congr_fun (g := fun _ => B) measurableSet_Icc fun x hx => if_neg (not_lt.mpr hx.1),
      lintegral_const, Measure.restrict_apply_univ, Real.volume_Icc]
  have e3 : ∫⁻ x in Ioo 0 T.R, k x * ENNReal.ofReal (T.db x)
      = ENNReal.ofReal (T.x T.N)⁻¹ * (∫⁻ x in Ioo 0 T.R, k x) := by
    rw [← lintegral_const_mul' _ _ ENNReal.ofReal_ne_top]
    refine setLIntegral_congr_fun measurableSet_Ioo fun x hx => ?_
    unfold Table.db
    simp only [if_pos hx.2]
    rw [mul_comm]
  have hb := bell_pos T.R
  have e4 : ∫⁻ x in Ici T.R, k x * ENNReal.ofReal (T.db x)
      = ENNReal.ofReal ((T.x T.N)⁻¹ * ((T.x T.N - T.R) * (T.R / bell T.R))) *
        ∫⁻ x in Ici T.R, k x * ENNReal.ofReal (bell x) := by
    rw [← lintegral_const_mul' _ _ ENNReal.ofReal_ne_top]
    refine setLIntegral_congr_fun measurableSet_Ici fun x hx => ?_
    have hx' : ¬ x < T.R := not_lt.mpr hx
    unfold Table.db
    simp only [if_neg hx']
    rw [ENNReal.ofReal_mul (by have := sub_pos.mpr hRX; positivity), mul_left_comm]
  have hd := sub_pos.mpr hRX
  rw [e1, e2, e3, e4, hBval, mul_add, ENNReal.ofReal_mul (by positivity), ENNReal.ofReal_mul hd.le]
  ring

/-! ## The density -/

lemma d_bounds (i : ℕ) (hi : i + 1 < T.N) (x : ℝ) (hx : 0 < x) :
    0 ≤ T.d i x ∧
    (1 - η) * (1 - η) * T.v * T.d i x ≤ min (bell x) (T.y i) - min (bell x) (T.y (i + 1)) ∧
    min (bell x) (T.y i) - min (bell x) (T.y (i + 1))
      ≤ (1 + η) * T.v * T.d i x + η / T.N * bell x := by
  have hX := h.x_pos (i := i) (by omega)
  have hx0 := h.x_nonneg (i := i) (by omega)
  have hy := h.anti i hi
  have hg : 0 < T.y i - T.y (i + 1) := by linarith
  obtain ⟨a1, a2⟩ := h.area i hi
  have hv := h.v_pos
  have he := h.eta
  have hs := h.small
  have hw : 0 ≤ min (bell x) (T.y i) - min (bell x) (T.y (i + 1)) := by
    have := min_le_min_left (bell x) hy.le; linarith
  have hN : (0 : ℝ) < T.N := by have := h.two; positivity
  have hq := h.quick i hi
  have hext : 0 ≤ η / T.N * bell x := by have := bell_pos x; positivity
  set A := T.x (i + 1) * (T.y i - T.y (i + 1)) with hA
  have hApos : 0 < A := mul_pos hX hg
  unfold Table.d
  split_ifs with h1 h2
  · have hb : bell (T.x i) ≤ bell x := (bell_le_iff hx0 hx.le).mpr h2.le
    have hm1 : min (bell x) (T.y (i + 1)) = T.y (i + 1) := by
      apply min_eq_right; nlinarith
    have hm : T.y (i + 1) + (1 - η) * (T.y i - T.y (i + 1)) ≤ min (bell x) (T.y i) := by
      apply le_min
      · linarith
      · nlinarith
    have hm2 := min_le_right (bell x) (T.y i)
    have hinv : A * (T.x (i + 1))⁻¹ = T.y i - T.y (i + 1) := by rw [hA]; field_simp
    have hip : 0 < (T.x (i + 1))⁻¹ := inv_pos.mpr hX
    rw [hm1, mul_one]
    refine ⟨hip.le, ?_, ?_⟩
    · calc (1 - η) * (1 - η) * T.v * (T.x (i + 1))⁻¹
          = (1 - η) * (((1 - η) * T.v) * (T.x (i + 1))⁻¹) := by ring
        _ ≤ (1 - η) * (A * (T.x (i + 1))⁻¹) := by
            apply mul_le_mul_of_nonneg_left _ (by linarith)
            exact mul_le_mul_of_nonneg_right a1 hip.le
        _ ≤ _ := by rw [hinv]; linarith
    · have : A * (T.x (i + 1))⁻¹ ≤ (1 + η) * T.v * (T.x (i + 1))⁻¹ :=
        mul_le_mul_of_nonneg_right a2 hip.le
      rw [hinv] at this
      linarith
  · set w := min (bell x) (T.y i) - min (bell x) (T.y (i + 1)) with hwd
    have e : (T.x (i + 1))⁻¹ * (w / (T.y i - T.y (i + 1))) = w / A := by
      rw [hA]; field_simp
    rw [e]
    have hwA : 0 ≤ w / A := by positivity
    have hAw : A * (w / A) = w := by field_simp
    refine ⟨hwA, ?_, ?_⟩
    · have k1 := mul_le_mul_of_nonneg_right a1 hwA
      rw [hAw] at k1
      have k2 : 0 ≤ (1 - η) * T.v * (w / A) := by
        have : 0 ≤ 1 - η := by linarith
        positivity
      nlinarith
    · have k1 := mul_le_mul_of_nonneg_right a2 hwA
      rw [hAw] at k1
      linarith
  · refine ⟨le_rfl, by rw [mul_zero]; exact hw, ?_⟩
    rw [mul_zero, zero_add]
    rcases le_total (bell x) (T.y (i + 1)) with hb | hb
    · rw [min_eq_left hb, min_eq_left (hb.trans hy.le), sub_self]; exact hext
    · have hlost := h.lost i hi
      have hx1 : bell x ≤ bell (T.x (i + 1)) := (bell_le_iff hx.le hX.le).mpr (not_le.mp h1).le
      have hyN := h.y_ge (i := i + 1) hi
      have hm := min_le_left (bell x) (T.y i)
      rw [min_eq_right hb]
      have : η / T.N * T.y (T.N - 1) ≤ η / T.N * bell x :=
        mul_le_mul_of_nonneg_left (hyN.trans hb) (by positivity)
      linarith

lemma db_bounds (x : ℝ) (hx : 0 < x) :
    0 ≤ T.db x ∧
    (1 - η) * (1 - η) * T.v * T.db x ≤ (1 + η) * (1 + η) * min (bell x) (T.y (T.N - 1)) ∧
    (1 - η) * min (bell x) (T.y (T.N - 1)) ≤ (1 + η) * T.v * T.db x := by
  have hR := h.R_pos
  have hX := h.xN_pos
  have hRX := sub_pos.mpr h.R_lt
  have hy := h.ypos
  have he := h.eta
  have hs := h.small
  have hb := bell_pos T.R
  have hbx := bell_pos x
  obtain ⟨t1, t2⟩ := h.tail
  obtain ⟨b1, b2⟩ := h.base
  have hvX : T.v * (T.x T.N)⁻¹ = T.y (T.N - 1) := by unfold Table.v; field_simp
  set Y := T.y (T.N - 1) with hY
  unfold Table.db
  split_ifs with h1
  · have hbb : bell T.R ≤ bell x := (bell_le_iff hR.le hx.le).mpr h1.le
    have hm : (1 - η) * Y ≤ min (bell x) Y := le_min (t1.trans hbb) (by nlinarith)
    have hm2 := min_le_right (bell x) Y
    have hm0 : 0 ≤ min (bell x) Y := le_min hbx.le hy.le
    refine ⟨(inv_pos.mpr hX).le, ?_, ?_⟩
    · rw [mul_assoc _ T.v, hvX]
      have k1 := mul_le_mul_of_nonneg_left hm (by linarith : 0 ≤ 1 - η)
      have k2 : (1 - η) * min (bell x) Y ≤ (1 + η) * (1 + η) * min (bell x) Y :=
        mul_le_mul_of_nonneg_right (by nlinarith) hm0
      linarith
    · rw [mul_assoc _ T.v, hvX]
      nlinarith
  · have hbb : bell x ≤ bell T.R := (bell_le_iff hx.le hR.le).mpr (not_lt.mp h1)
    set c := (T.x T.N - T.R) * T.R with hc
    have e : T.v * ((T.x T.N)⁻¹ * ((T.x T.N - T.R) * (T.R / bell T.R)) * bell x)
        = c * (Y / bell T.R) * bell x := by
      rw [hc, ← hvX]; field_simp
    set r := Y / bell T.R with hr
    have hrb : r * bell T.R = Y := by rw [hr]; field_simp
    have hr0 : 0 < r := by positivity
    have r1 : (1 - η) * r ≤ 1 := by
      have : (1 - η) * r * bell T.R ≤ 1 * bell T.R := by rw [mul_assoc, hrb]; linarith
      exact le_of_mul_le_mul_right this hb
    have r2 : 1 ≤ (1 + η) * r := by
      have : 1 * bell T.R ≤ (1 + η) * r * bell T.R := by rw [mul_assoc, hrb]; linarith
      exact le_of_mul_le_mul_right this hb
    have hm1 := min_le_left (bell x) Y
    have hm2 : bell x ≤ (1 + η) * min (bell x) Y := by
      rcases min_cases (bell x) Y with ⟨q, _⟩ | ⟨q, _⟩ <;> rw [q] <;> nlinarith
    have hm0 : 0 ≤ min (bell x) Y := le_min hbx.le hy.le
    have hc0 : 0 < c := mul_pos hRX hR
    have hn : 0 ≤ 1 - η := by linarith
    refine ⟨by positivity, ?_, ?_⟩
    · rw [mul_assoc _ T.v, e]
      have p1 : (1 - η) * r * c ≤ 1 * (1 + η) := mul_le_mul r1 b2 hc0.le zero_le_one
      have p2 : ((1 - η) * r * c) * bell x ≤ (1 + η) * ((1 + η) * min (bell x) Y) := by
        rw [one_mul] at p1
        exact mul_le_mul p1 hm2 hbx.le (by linarith)
      have p3 : (1 - η) * (((1 - η) * r * c) * bell x) ≤ 1 * (((1 - η) * r * c) * bell x) :=
        mul_le_mul_of_nonneg_right (by linarith) (by positivity)
      calc (1 - η) * (1 - η) * (c * r * bell x) = (1 - η) * (((1 - η) * r * c) * bell x) := by ring
        _ ≤ 1 * (((1 - η) * r * c) * bell x) := p3
        _ = ((1 - η) * r * c) * bell x := one_mul _
        _ ≤ (1 + η) * ((1 + η) * min (bell x) Y) := p2
        _ = _ := by ring
    · rw [mul_assoc _ T.v, e]
      have p1 : (1 - η) * 1 ≤ c * ((1 + η) * r) := mul_le_mul b1 r2 zero_le_one hc0.le
      have p2 : (1 - η) * 1 * min (bell x) Y ≤ c * ((1 + η) * r) * bell x :=
        mul_le_mul p1 hm1 hm0 (by positivity)
      linarith

/-- The density of one trip of the loop follows the bell curve. -/
lemma density (x : ℝ) (hx : 0 < x) :
    (1 - 3 * η) * bell x ≤ T.v * (∑ i ∈ Finset.range (T.N - 1), T.d i x + T.db x) ∧
    T.v * (∑ i ∈ Finset.range (T.N - 1), T.d i x + T.db x) ≤ (1 + 5 * η) * bell x := by
  have he := h.eta
  have hs := h.small
  have hb := bell_pos x
  have hv := h.v_pos
  have hN : (0 : ℝ) < T.N := by have := h.two; positivity
  obtain ⟨q0, q1, q2⟩ := h.db_bounds x hx
  have tel := Finset.sum_range_sub' (fun i => min (bell x) (T.y i)) (T.N - 1)
  have htop : min (bell x) (T.y 0) = bell x := by
    rw [h.y0]
    apply min_eq_left
    unfold bell
    rw [Real.exp_le_one_iff]
    nlinarith
  rw [htop] at tel
  set S := ∑ i ∈ Finset.range (T.N - 1), T.d i x with hS
  set m := min (bell x) (T.y (T.N - 1)) with hm
  have hm0 : 0 ≤ m := le_min hb.le h.ypos.le
  have hmb : m ≤ bell x := min_le_left _ _
  have up : (1 - η) * (1 - η) * T.v * S ≤ bell x - m := by
    rw [← tel, hS, Finset.mul_sum]
    exact Finset.sum_le_sum fun i hi => (h.d_bounds i (by rw [Finset.mem_range] at hi; omega) x hx).2.1
  have S0 : 0 ≤ S := Finset.sum_nonneg fun i hi =>
    (h.d_bounds i (by rw [Finset.mem_range] at hi; omega) x hx).1
  have lo : bell x - m ≤ (1 + η) * T.v * S + η * bell x := by
    have h1 : bell x - m ≤ ∑ i ∈ Finset.range (T.N - 1), ((1 + η) * T.v * T.d i x + η / T.N * bell x) := by
      rw [← tel]
      exact Finset.sum_le_sum fun i hi => (h.d_bounds i (by rw [Finset.mem_range] at hi; omega) x hx).2.2
    rw [Finset.sum_add_distrib, ← Finset.mul_sum, Finset.sum_const, Finset.card_range, nsmul_eq_mul] at h1
    have h2 : ((T.N - 1 : ℕ) : ℝ) * (η / T.N * bell x) ≤ η * bell x := by
      have h3 : ((T.N - 1 : ℕ) : ℝ) ≤ T.N := by exact_mod_cast Nat.sub_le _ _
      have h4 : 0 ≤ η / T.N * bell x := by positivity
      calc ((T.N - 1 : ℕ) : ℝ) * (η / T.N * bell x) ≤ T.N * (η / T.N * bell x) :=
            mul_le_mul_of_nonneg_right h3 h4
        _ = _ := by field_simp
    linarith
  constructor
  · -- (1 + η) v (S + db) ≥ (1 - η) bell - η bell
    have k : (1 - 2 * η) * bell x ≤ (1 + η) * (T.v * (S + T.db x)) := by
      nlinarith
    have hp : 0 ≤ T.v * (S + T.db x) := by positivity
    by_contra hc
    rw [not_le] at hc
    have : (1 + η) * (T.v * (S + T.db x)) < (1 + η) * ((1 - 3 * η) * bell x) :=
      mul_lt_mul_of_pos_left hc (by linarith)
    have k2 : 0 ≤ η ^ 2 * bell x := by positivity
    nlinarith
  · have k : (1 - η) * (1 - η) * (T.v * (S + T.db x)) ≤ (1 + η) * (1 + η) * bell x := by
      have k1 : 1 * (bell x - m) ≤ (1 + η) * (1 + η) * (bell x - m) :=
        mul_le_mul_of_nonneg_right (by nlinarith) (by linarith)
      calc (1 - η) * (1 - η) * (T.v * (S + T.db x))
          = (1 - η) * (1 - η) * T.v * S + (1 - η) * (1 - η) * T.v * T.db x := by ring
        _ ≤ (1 + η) * (1 + η) * (bell x - m) + (1 + η) * (1 + η) * m := by linarith
        _ = _ := by ring
    by_contra hc
    rw [not_le] at hc
    have hp : 0 < (1 - η) * (1 - η) := by nlinarith
    have k2 : (1 - η) * (1 - η) * ((1 + 5 * η) * bell x) < (1 - η) * (1 - η) * (T.v * (S + T.db x)) :=
      mul_lt_mul_of_pos_left hc hp
    have k3 : (1 + η) * (1 + η) ≤ (1 - η) * (1 - η) * (1 + 5 * η) := by
      have : (1 - η) * (1 - η) * (1 + 5 * η) - (1 + η) * (1 + η) = η * (1 - 10 * η + 5 * η ^ 2) := by ring
      have : 0 ≤ η * (1 - 10 * η + 5 * η ^ 2) := mul_nonneg he (by nlinarith)
      linarith
    have := mul_le_mul_of_nonneg_right k3 hb.le
    nlinarith

end Near
end Verif.Normal
