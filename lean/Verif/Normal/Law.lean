import Verif.Normal.Core
import Verif.Normal.Stream

/-! The law of the number that the ziggurat returns. -/
namespace Verif.Normal

open MeasureTheory Measure Set ENNReal ProbabilityTheory

/-- Specification: the uniform distribution on (0,1]. -/
noncomputable def unif : Measure ℝ := volume.restrict (Ioc 0 1)

/-- Specification: raw numbers with independent uniform sign, index and number in (0,1]. -/
noncomputable def rawLaw (N : ℕ) : Measure (Raw N) :=
  ((2 : ℝ≥0∞)⁻¹ • count).prod (((N : ℝ≥0∞)⁻¹ • count).prod unif)

/-- Specification: a generator that gives independent raw numbers. -/
noncomputable def ideal (N : ℕ) : Measure (Raws N) := infinitePi fun _ : ℕ => rawLaw N

instance : IsProbabilityMeasure unif := ⟨by simp [unif]⟩

instance : IsProbabilityMeasure ((2 : ℝ≥0∞)⁻¹ • (count : Measure Bool)) :=
  ⟨by
    rw [Measure.smul_apply, count_apply MeasurableSet.univ, Set.encard_univ]
    simp [ENNReal.inv_mul_cancel]⟩

instance (N : ℕ) [NeZero N] : IsProbabilityMeasure ((N : ℝ≥0∞)⁻¹ • (count : Measure (Fin N))) :=
  ⟨by
    rw [Measure.smul_apply, count_apply MeasurableSet.univ]
    have : (N : ℝ≥0∞) ≠ 0 := by exact_mod_cast NeZero.ne N
    simp [ENNReal.inv_mul_cancel this]⟩

instance (N : ℕ) [NeZero N] : IsProbabilityMeasure (rawLaw N) := by unfold rawLaw; infer_instance

instance (N : ℕ) [NeZero N] : IsProbabilityMeasure (ideal N) := by unfold ideal; infer_instance

lemma lintegral_raw (N : ℕ) [NeZero N] (F : Raw N → ℝ≥0∞) (hF : Measurable F) :
    ∫⁻ a, F a ∂(rawLaw N)
      = (2 : ℝ≥0∞)⁻¹ * ∑ s : Bool, (N : ℝ≥0∞)⁻¹ * ∑ i : Fin N, ∫⁻ t in Ioc (0 : ℝ) 1, F (s, i, t) := by
  unfold rawLaw
  rw [lintegral_prod _ hF.aemeasurable, lintegral_smul_measure, lintegral_count, tsum_fintype,
    smul_eq_mul]
  congr 1
  refine Finset.sum_congr rfl fun s _ => ?_
  rw [lintegral_prod _ (by fun_prop), lintegral_smul_measure, lintegral_count, tsum_fintype,
    smul_eq_mul]
  rfl

/-- The number in (0,1] of a raw number is uniform. -/
lemma lintegral_raw_num (N : ℕ) [NeZero N] (F : ℝ → ℝ≥0∞) (hF : Measurable F) :
    ∫⁻ b, F b.2.2 ∂(rawLaw N) = ∫⁻ y in Ioc (0 : ℝ) 1, F y := by
  unfold rawLaw
  rw [lintegral_prod _ (by fun_prop)]
  simp only [lintegral_const, measure_univ, mul_one]
  rw [lintegral_prod _ (by fun_prop)]
  simp only [lintegral_const, measure_univ, mul_one]
  rfl

/-! ## One trip -/

/-- The value of a trip, `g x` when it returns `x` and `V` when the loop goes on, averaged over the
numbers drawn after the first. -/
noncomputable def tripI (T : Table) (g : ℝ → ℝ≥0∞) (V : ℝ≥0∞) (a : Raw T.N) : ℝ≥0∞ :=
  if a.2.2 * T.x (a.2.1 + 1) < T.x a.2.1 then g (sgn a.1 * (a.2.2 * T.x (a.2.1 + 1)))
  else if (a.2.1 : ℕ) ≠ T.N - 1 then
    ∫⁻ y in Ioc (0 : ℝ) 1, if T.y a.2.1 + (T.y (a.2.1 + 1) - T.y a.2.1) * y
      < bell (a.2.2 * T.x (a.2.1 + 1)) then g (sgn a.1 * (a.2.2 * T.x (a.2.1 + 1))) else V
  else ∫⁻ y in Ioc (0 : ℝ) 1, ∫⁻ w in Ioc (0 : ℝ) 1,
    if y * Real.exp (-T.R * ((T.R - (1 / T.R) * Real.log w) - (1 / 2) * T.R))
        < bell (T.R - (1 / T.R) * Real.log w)
    then g (sgn a.1 * (T.R - (1 / T.R) * Real.log w)) else V

lemma ite_split (c : Prop) [Decidable c] (g V : ℝ≥0∞) :
    (if c then g else V) = (if c then g else 0) + (if c then 0 else 1) * V := by
  split_ifs <;> simp

lemma measurable_sgn : Measurable sgn := Measurable.of_discrete

lemma measurable_tripI (T : Table) (g : ℝ → ℝ≥0∞) (hg : Measurable g) (V : ℝ≥0∞) :
    Measurable (tripI T g V) := by
  unfold tripI
  have hx1 : Measurable fun i : Fin T.N => T.x (i + 1) := Measurable.of_discrete
  have hx : Measurable fun i : Fin T.N => T.x i := Measurable.of_discrete
  have hy1 : Measurable fun i : Fin T.N => T.y (i + 1) := Measurable.of_discrete
  have hy : Measurable fun i : Fin T.N => T.y i := Measurable.of_discrete
  have hX : Measurable fun a : Raw T.N => a.2.2 * T.x (a.2.1 + 1) :=
    (measurable_snd.comp measurable_snd).mul (hx1.comp (measurable_fst.comp measurable_snd))
  have hs : Measurable fun a : Raw T.N => sgn a.1 := measurable_sgn.comp measurable_fst
  refine Measurable.ite (measurableSet_lt hX (hx.comp (measurable_fst.comp measurable_snd)))
    (hg.comp (hs.mul hX)) ?_
  refine Measurable.ite ?_ ?_ ?_
  · exact (measurable_fst.comp measurable_snd) (MeasurableSet.of_discrete (s := {i : Fin T.N | (i : ℕ) ≠ T.N - 1}))
  · apply Measurable.lintegral_prod_right' (f := fun q : Raw T.N × ℝ =>
      if T.y q.1.2.1 + (T.y (q.1.2.1 + 1) - T.y q.1.2.1) * q.2
      < bell (q.1.2.2 * T.x (q.1.2.1 + 1)) then g (sgn q.1.1 * (q.1.2.2 * T.x (q.1.2.1 + 1))) else V)
    refine Measurable.ite (measurableSet_lt ?_ ?_) ?_ measurable_const
    · have h1 : Measurable fun q : Raw T.N × ℝ => T.y q.1.2.1 :=
        hy.comp (measurable_fst.comp (measurable_snd.comp measurable_fst))
      have h2 : Measurable fun q : Raw T.N × ℝ => T.y (q.1.2.1 + 1) :=
        hy1.comp (measurable_fst.comp (measurable_snd.comp measurable_fst))
      exact h1.add ((h2.sub h1).mul measurable_snd)
    · exact measurable_bell.comp (hX.comp measurable_fst)
    · exact hg.comp ((hs.comp measurable_fst).mul (hX.comp measurable_fst))
  · apply Measurable.lintegral_prod_right' (f := fun q : Raw T.N × ℝ => ∫⁻ w in Ioc (0 : ℝ) 1,
      if q.2 * Real.exp (-T.R * ((T.R - (1 / T.R) * Real.log w) - (1 / 2) * T.R))
        < bell (T.R - (1 / T.R) * Real.log w)
      then g (sgn q.1.1 * (T.R - (1 / T.R) * Real.log w)) else V)
    apply Measurable.lintegral_prod_right' (f := fun z : (Raw T.N × ℝ) × ℝ =>
      if z.1.2 * Real.exp (-T.R * ((T.R - (1 / T.R) * Real.log z.2) - (1 / 2) * T.R))
        < bell (T.R - (1 / T.R) * Real.log z.2)
      then g (sgn z.1.1.1 * (T.R - (1 / T.R) * Real.log z.2)) else V)
    refine Measurable.ite (measurableSet_lt ?_ ?_) ?_ measurable_const
    · fun_prop
    · exact measurable_bell.comp (by fun_prop)
    · exact hg.comp ((hs.comp (measurable_fst.comp measurable_fst)).mul (by fun_prop))

lemma tripI_split (T : Table) (g : ℝ → ℝ≥0∞) (hg : Measurable g) (V : ℝ≥0∞) (hV : V ≠ ⊤) (a : Raw T.N) :
    tripI T g V a = tripI T g 0 a + tripI T (fun _ => 0) 1 a * V := by
  unfold tripI
  split_ifs with h1 h2
  · simp
  · rw [← lintegral_mul_const' _ _ hV, ← lintegral_add_left]
    · exact lintegral_congr fun y => ite_split _ _ _
    · refine Measurable.ite (measurableSet_lt ?_ ?_) ?_ measurable_const <;> fun_prop
  · rw [← lintegral_mul_const' _ _ hV, ← lintegral_add_left]
    · refine lintegral_congr fun y => ?_
      rw [← lintegral_mul_const' _ _ hV, ← lintegral_add_left]
      · exact lintegral_congr fun w => ite_split _ _ _
      · refine Measurable.ite (measurableSet_lt ?_ ?_) ?_ measurable_const
        · fun_prop
        · exact measurable_bell.comp (by fun_prop)
        · exact hg.comp (by fun_prop)
    · apply Measurable.lintegral_prod_right' (f := fun z : ℝ × ℝ =>
        if z.1 * Real.exp (-T.R * ((T.R - (1 / T.R) * Real.log z.2) - (1 / 2) * T.R))
          < bell (T.R - (1 / T.R) * Real.log z.2)
        then g (sgn a.1 * (T.R - (1 / T.R) * Real.log z.2)) else 0)
      refine Measurable.ite (measurableSet_lt ?_ ?_) ?_ measurable_const
      · fun_prop
      · exact measurable_bell.comp (by fun_prop)
      · exact hg.comp (by fun_prop)

lemma tripI_one (T : Table) (a : Raw T.N) : tripI T (fun _ => 1) 1 a = 1 := by
  unfold tripI
  simp

/-- The probability that a trip ends the loop. -/
noncomputable def Table.p (T : Table) : ℝ := Real.sqrt (2 * Real.pi) / (2 * T.N * T.v)

/-- The probability that it does not. -/
noncomputable def Table.q (T : Table) : ℝ≥0∞ := ∫⁻ a, tripI T (fun _ => 0) 1 a ∂(rawLaw T.N)

lemma lintegral_line (G : ℝ → ℝ≥0∞) :
    ∫⁻ x, G x = (∫⁻ x in Ioi (0 : ℝ), G x) + ∫⁻ x in Ioi (0 : ℝ), G (-x) := by
  have h1 : ∫⁻ x, G x = (∫⁻ x in Iio (0 : ℝ), G x) + ∫⁻ x in Ici (0 : ℝ), G x := by
    have hd : Disjoint (Iio (0 : ℝ)) (Ici 0) := by
      rw [Set.disjoint_left]; intro x h1 h2; exact absurd (mem_Iio.mp h1) (not_lt.mpr (mem_Ici.mp h2))
    rw [← lintegral_union measurableSet_Ici hd, Iio_union_Ici, Measure.restrict_univ]
  have h2 : ∫⁻ x in Ici (0 : ℝ), G x = ∫⁻ x in Ioi (0 : ℝ), G x :=
    setLIntegral_congr Ioi_ae_eq_Ici.symm
  have himg : (fun x : ℝ => -x) '' Ioi 0 = Iio 0 := by simp
  have h3 := lintegral_image_eq_lintegral_abs_deriv_mul (s := Ioi (0 : ℝ)) (f := fun x => -x)
    (f' := fun _ => -1) measurableSet_Ioi (fun x _ => (hasDerivAt_neg x).hasDerivWithinAt)
    (fun a _ b _ hab => neg_injective hab) G
  rw [himg] at h3
  simp only [abs_neg, abs_one, ENNReal.ofReal_one, one_mul] at h3
  rw [h1, h2, h3, add_comm]

lemma bell_gauss (x : ℝ) :
    ENNReal.ofReal (bell x) = ENNReal.ofReal (Real.sqrt (2 * Real.pi)) * gaussianPDF 0 1 x := by
  unfold gaussianPDF gaussianPDFReal bell
  rw [← ENNReal.ofReal_mul (by positivity)]
  congr 1
  have : Real.sqrt (2 * Real.pi) ≠ 0 := by positivity
  simp only [NNReal.coe_one, mul_one, sub_zero]
  field_simp

/-- The numbers that a trip returns have, up to a factor, the normal distribution. -/
lemma tripI_accept (T : Table) (h : Exact T) [NeZero T.N] (g : ℝ → ℝ≥0∞) (hg : Measurable g) :
    ∫⁻ a, tripI T g 0 a ∂(rawLaw T.N) = ENNReal.ofReal T.p * ∫⁻ x, g x ∂(gaussianReal 0 1) := by
  obtain ⟨n, hn⟩ : ∃ n, T.N = n + 1 := ⟨T.N - 1, by have := h.two; omega⟩
  have key : ∀ s : Bool, ∑ i : Fin T.N, ∫⁻ t in Ioc (0 : ℝ) 1, tripI T g 0 (s, i, t)
      = ENNReal.ofReal T.v⁻¹ * ∫⁻ x in Ioi (0 : ℝ), g (sgn s * x) * ENNReal.ofReal (bell x) := by
    intro s
    have hk : Measurable fun x => g (sgn s * x) := hg.comp (by fun_prop)
    have hmin : ∀ c : ℝ, Measurable fun x => min (bell x) c := fun c => measurable_bell.min measurable_const
    rw [Finset.sum_fin_eq_sum_range, show Finset.range T.N = Finset.range (n + 1) by rw [hn],
      Finset.sum_range_succ, dif_pos (by omega)]
    have e1 : ∀ i ∈ Finset.range n, (if hi : i < T.N then
          ∫⁻ t in Ioc (0 : ℝ) 1, tripI T g 0 (s, (⟨i, hi⟩ : Fin T.N), t) else 0)
        = ENNReal.ofReal T.v⁻¹ * ∫⁻ x in Ioi (0 : ℝ),
          g (sgn s * x) * ENNReal.ofReal (min (bell x) (T.y i) - min (bell x) (T.y (i + 1))) := by
      intro i hi
      rw [Finset.mem_range] at hi
      rw [dif_pos (by omega), ← h.strip i (by omega) fun x => g (sgn s * x)]
      refine lintegral_congr fun t => ?_
      unfold tripI
      dsimp only
      rw [if_pos (show i ≠ T.N - 1 by omega)]
    have e2 : ∫⁻ t in Ioc (0 : ℝ) 1, tripI T g 0 (s, (⟨n, by omega⟩ : Fin T.N), t)
        = ENNReal.ofReal T.v⁻¹ * ∫⁻ x in Ioi (0 : ℝ),
          g (sgn s * x) * ENNReal.ofReal (min (bell x) (T.y n)) := by
      have := h.base_strip (fun x => g (sgn s * x)) hk
      rw [show T.N - 1 = n by omega] at this
      rw [← this]
      refine lintegral_congr fun t => ?_
      unfold tripI
      dsimp only
      rw [if_neg (show ¬ n ≠ T.N - 1 by omega), show T.x (n + 1) = T.x T.N by rw [hn]]
    rw [Finset.sum_congr rfl e1, e2, ← Finset.mul_sum, ← mul_add]
    congr 1
    rw [← lintegral_finset_sum _ (fun i _ => by
      exact hk.mul (((hmin _).sub (hmin _)).ennreal_ofReal)), ← lintegral_add_right _ (by
      exact hk.mul (hmin _).ennreal_ofReal)]
    refine setLIntegral_congr_fun measurableSet_Ioi fun x hx => ?_
    have hx' : 0 < x := hx
    rw [← Finset.mul_sum, ← mul_add, ← ENNReal.ofReal_sum_of_nonneg, ← ENNReal.ofReal_add]
    · congr 2
      rw [Finset.sum_range_sub' (fun i => min (bell x) (T.y i)) n, sub_add_cancel]
      apply min_eq_left
      rw [h.y_bell (by omega), h.x0, bell_le_iff hx'.le le_rfl]
      exact hx'.le
    · apply Finset.sum_nonneg
      intro i hi
      rw [Finset.mem_range] at hi
      have := h.y_anti (i := i) (by omega)
      have := min_le_min_left (bell x) this.le
      linarith
    · exact le_min (bell_pos x).le (h.y_pos (by omega)).le
    · intro i hi
      rw [Finset.mem_range] at hi
      have := h.y_anti (i := i) (by omega)
      have := min_le_min_left (bell x) this.le
      linarith
  rw [lintegral_raw _ _ (measurable_tripI T g hg 0), Finset.sum_congr rfl fun s _ => by rw [key s],
    ← Finset.mul_sum, ← Finset.mul_sum, Fintype.sum_bool]
  simp only [sgn, if_true, Bool.false_eq_true, if_false, one_mul, neg_mul]
  have hline : (∫⁻ x in Ioi (0 : ℝ), g (-x) * ENNReal.ofReal (bell x))
      + ∫⁻ x in Ioi (0 : ℝ), g x * ENNReal.ofReal (bell x)
      = ENNReal.ofReal (Real.sqrt (2 * Real.pi)) * ∫⁻ x, g x ∂(gaussianReal 0 1) := by
    rw [add_comm, gaussianReal_of_var_ne_zero _ one_ne_zero,
      lintegral_withDensity_eq_lintegral_mul _ (by fun_prop) hg,
      ← lintegral_const_mul' _ _ ENNReal.ofReal_ne_top]
    have := lintegral_line fun x => g x * ENNReal.ofReal (bell x)
    simp only [bell_neg] at this
    rw [← this]
    refine lintegral_congr fun x => ?_
    rw [bell_gauss, Pi.mul_apply]
    ring
  rw [hline, ← mul_assoc, ← mul_assoc, ← mul_assoc]
  congr 1
  have hN : (0 : ℝ) < T.N := by have := h.two; positivity
  have hv := h.v_pos
  have c1 : (2 : ℝ≥0∞)⁻¹ = ENNReal.ofReal (2 : ℝ)⁻¹ := by
    rw [ENNReal.ofReal_inv_of_pos (by norm_num)]; simp
  have c2 : (T.N : ℝ≥0∞)⁻¹ = ENNReal.ofReal (T.N : ℝ)⁻¹ := by
    rw [ENNReal.ofReal_inv_of_pos hN]; simp
  rw [c1, c2, ← ENNReal.ofReal_mul (by positivity), ← ENNReal.ofReal_mul (by positivity),
    ← ENNReal.ofReal_mul (by positivity)]
  congr 1
  unfold Table.p
  field_simp

lemma p_add_q (T : Table) (h : Exact T) [NeZero T.N] : ENNReal.ofReal T.p + T.q = 1 := by
  have h1 := tripI_accept T h (fun _ => 1) measurable_const
  rw [lintegral_const, measure_univ, mul_one, mul_one] at h1
  rw [← h1]
  unfold Table.q
  rw [← lintegral_add_left (measurable_tripI T _ measurable_const 0)]
  have : ∀ a, tripI T (fun _ => 1) 0 a + tripI T (fun _ => 0) 1 a = 1 := by
    intro a
    have := tripI_split T (fun _ => 1) measurable_const 1 ENNReal.one_ne_top a
    rw [mul_one] at this
    rw [← this, tripI_one]
  simp only [this]
  simp

lemma p_pos (T : Table) (h : Exact T) : 0 < T.p := by
  have := h.v_pos
  have := h.two
  unfold Table.p
  positivity

lemma q_lt_one (T : Table) (h : Exact T) [NeZero T.N] : T.q < 1 := by
  have h1 := p_add_q T h
  have h2 : ENNReal.ofReal T.p ≠ 0 := by simpa using p_pos T h
  by_contra hc
  rw [not_lt] at hc
  have h3 : T.q ≤ 1 := by rw [← h1]; exact le_add_self
  have h4 : T.q = 1 := le_antisymm h3 hc
  rw [h4] at h1
  have : ENNReal.ofReal T.p = 0 := by
    have := ENNReal.add_right_inj (a := 1) ENNReal.one_ne_top (b := ENNReal.ofReal T.p) (c := 0)
    rw [add_comm, add_zero] at this
    exact this.mp h1
  exact h2 this

lemma q_eq (T : Table) (h : Exact T) [NeZero T.N] : T.q = ENNReal.ofReal (1 - T.p) := by
  have h1 := p_add_q T h
  rw [ENNReal.ofReal_sub _ (p_pos T h).le, ENNReal.ofReal_one, ← h1,
    ENNReal.add_sub_cancel_left ENNReal.ofReal_ne_top]

/-! ## The loop -/

/-- `F` of the result of the loop, 0 if there is none. -/
noncomputable def hit (T : Table) (n : ℕ) (F : ℝ × Raws T.N → ℝ≥0∞) (ω : Raws T.N) : ℝ≥0∞ :=
  match randn T n ω with
  | some z => F z
  | none => 0

lemma hit_succ (T : Table) (n : ℕ) (F : ℝ × Raws T.N → ℝ≥0∞) (ω : Raws T.N) :
    hit T (n + 1) F ω =
      if (ω 0).2.2 * T.x ((ω 0).2.1 + 1) < T.x (ω 0).2.1 then
        F (sgn (ω 0).1 * ((ω 0).2.2 * T.x ((ω 0).2.1 + 1)), next ω)
      else if ((ω 0).2.1 : ℕ) ≠ T.N - 1 then
        if T.y (ω 0).2.1 + (T.y ((ω 0).2.1 + 1) - T.y (ω 0).2.1) * (ω 1).2.2
          < bell ((ω 0).2.2 * T.x ((ω 0).2.1 + 1)) then
          F (sgn (ω 0).1 * ((ω 0).2.2 * T.x ((ω 0).2.1 + 1)), next (next ω))
        else hit T n F (next (next ω))
      else if (ω 1).2.2 * Real.exp (-T.R * ((T.R - (1 / T.R) * Real.log (ω 2).2.2) - (1 / 2) * T.R))
          < bell (T.R - (1 / T.R) * Real.log (ω 2).2.2) then
          F (sgn (ω 0).1 * (T.R - (1 / T.R) * Real.log (ω 2).2.2), next (next (next ω)))
        else hit T n F (next (next (next ω))) := by
  unfold hit
  rw [randn, trip]
  dsimp only
  by_cases h1 : (ω 0).2.2 * T.x ((ω 0).2.1 + 1) < T.x (ω 0).2.1
  · simp only [h1, if_true]
  · simp only [h1, if_false]
    by_cases h2 : ((ω 0).2.1 : ℕ) ≠ T.N - 1
    · rw [if_pos h2, if_pos h2]
      by_cases h3 : T.y (ω 0).2.1 + (T.y ((ω 0).2.1 + 1) - T.y (ω 0).2.1) * (ω 1).2.2
          < bell ((ω 0).2.2 * T.x ((ω 0).2.1 + 1))
      · rw [if_pos h3]
        have h3' := h3
        unfold bell at h3'
        simp only [next, zero_add, h3', if_true]
      · rw [if_neg h3]
        have h3' := h3
        unfold bell at h3'
        simp only [next, zero_add, h3', if_false]
    · rw [if_neg h2, if_neg h2]
      by_cases h3 : (ω 1).2.2 * Real.exp (-T.R * ((T.R - (1 / T.R) * Real.log (ω 2).2.2) - (1 / 2) * T.R))
          < bell (T.R - (1 / T.R) * Real.log (ω 2).2.2)
      · rw [if_pos h3]
        have h3' := h3
        unfold bell at h3'
        simp only [next, zero_add, Nat.reduceAdd, h3', if_true]
      · rw [if_neg h3]
        have h3' := h3
        unfold bell at h3'
        simp only [next, zero_add, Nat.reduceAdd, h3', if_false]

lemma measurable_next {N : ℕ} : Measurable (next : Raws N → Raws N) := by
  rw [measurable_pi_iff]; intro k; exact measurable_pi_apply _

lemma measurable_hit (T : Table) (n : ℕ) (F : ℝ × Raws T.N → ℝ≥0∞) (hF : Measurable F) :
    Measurable (hit T n F) := by
  induction n with
  | zero => exact measurable_const
  | succ n ih =>
    have hx1 : Measurable fun i : Fin T.N => T.x (i + 1) := Measurable.of_discrete
    have hx : Measurable fun i : Fin T.N => T.x i := Measurable.of_discrete
    have hy1 : Measurable fun i : Fin T.N => T.y (i + 1) := Measurable.of_discrete
    have hy : Measurable fun i : Fin T.N => T.y i := Measurable.of_discrete
    have e (k : ℕ) : Measurable fun ω : Raws T.N => ω k := measurable_pi_apply k
    have eI : Measurable fun ω : Raws T.N => (ω 0).2.1 := measurable_fst.comp (measurable_snd.comp (e 0))
    have eF (k : ℕ) : Measurable fun ω : Raws T.N => (ω k).2.2 :=
      measurable_snd.comp (measurable_snd.comp (e k))
    have hX : Measurable fun ω : Raws T.N => (ω 0).2.2 * T.x ((ω 0).2.1 + 1) :=
      (eF 0).mul (hx1.comp eI)
    have hs : Measurable fun ω : Raws T.N => sgn (ω 0).1 :=
      measurable_sgn.comp (measurable_fst.comp (e 0))
    have hT : Measurable fun ω : Raws T.N => T.R - (1 / T.R) * Real.log (ω 2).2.2 := by
      have := Real.measurable_log.comp (eF 2)
      exact measurable_const.sub (this.const_mul _)
    rw [funext (hit_succ T n F)]
    refine Measurable.ite (measurableSet_lt hX (hx.comp eI))
      (hF.comp ((hs.mul hX).prodMk measurable_next)) ?_
    refine Measurable.ite ?_ ?_ ?_
    · exact eI (MeasurableSet.of_discrete (s := {i : Fin T.N | (i : ℕ) ≠ T.N - 1}))
    · refine Measurable.ite (measurableSet_lt ?_ (measurable_bell.comp hX))
        (hF.comp ((hs.mul hX).prodMk (measurable_next.comp measurable_next)))
        (ih.comp (measurable_next.comp measurable_next))
      exact (hy.comp eI).add (((hy1.comp eI).sub (hy.comp eI)).mul (eF 1))
    · refine Measurable.ite (measurableSet_lt ?_ (measurable_bell.comp hT))
        (hF.comp ((hs.mul hT).prodMk (measurable_next.comp (measurable_next.comp measurable_next))))
        (ih.comp (measurable_next.comp (measurable_next.comp measurable_next)))
      exact (eF 1).mul (Real.measurable_exp.comp ((hT.sub measurable_const).const_mul _))

lemma lintegral_hit_cons (T : Table) [NeZero T.N] (n : ℕ) (F : ℝ × Raws T.N → ℝ≥0∞)
    (hF : Measurable F) (a : Raw T.N) :
    ∫⁻ ω, hit T (n + 1) F (scons a ω) ∂(ideal T.N)
      = tripI T (fun x => ∫⁻ ω, F (x, ω) ∂(ideal T.N)) (∫⁻ ω, hit T n F ω ∂(ideal T.N)) a := by
  have hH := measurable_hit T n F hF
  have hFx : Measurable fun x => ∫⁻ ω, F (x, ω) ∂(ideal T.N) := hF.lintegral_prod_right'
  have hmeas : Measurable fun ω => hit T (n + 1) F (scons a ω) :=
    (measurable_hit T (n + 1) F hF).comp (measurable_scons.comp (measurable_const.prodMk measurable_id))
  unfold tripI
  by_cases h1 : a.2.2 * T.x (a.2.1 + 1) < T.x a.2.1
  · rw [if_pos h1]
    refine lintegral_congr fun ω => ?_
    rw [hit_succ]
    exact if_pos h1
  · rw [if_neg h1]
    by_cases h2 : (a.2.1 : ℕ) ≠ T.N - 1
    · rw [if_pos h2]
      rw [← lintegral_raw_num T.N (fun y => if T.y a.2.1 + (T.y (a.2.1 + 1) - T.y a.2.1) * y
          < bell (a.2.2 * T.x (a.2.1 + 1)) then
          ∫⁻ ω, F (sgn a.1 * (a.2.2 * T.x (a.2.1 + 1)), ω) ∂(ideal T.N)
          else ∫⁻ ω, hit T n F ω ∂(ideal T.N))
        (Measurable.ite (measurableSet_lt (by fun_prop) measurable_const) measurable_const
          measurable_const)]
      refine (lintegral_stream (rawLaw T.N) _ hmeas).trans ?_
      refine lintegral_congr fun b => ?_
      change ∫⁻ ω, _ ∂(ideal T.N) = _
      have e : ∀ ω, hit T (n + 1) F (scons a (scons b ω))
          = if T.y a.2.1 + (T.y (a.2.1 + 1) - T.y a.2.1) * b.2.2
            < bell (a.2.2 * T.x (a.2.1 + 1)) then F (sgn a.1 * (a.2.2 * T.x (a.2.1 + 1)), ω)
            else hit T n F ω := by
        intro ω
        rw [hit_succ]
        exact (if_neg h1).trans (if_pos h2)
      simp only [e]
      split_ifs <;> rfl
    · rw [if_neg h2]
      have hm2 : Measurable fun z : ℝ × ℝ =>
          if z.1 * Real.exp (-T.R * ((T.R - (1 / T.R) * Real.log z.2) - (1 / 2) * T.R))
            < bell (T.R - (1 / T.R) * Real.log z.2)
          then ∫⁻ ω, F (sgn a.1 * (T.R - (1 / T.R) * Real.log z.2), ω) ∂(ideal T.N)
          else ∫⁻ ω, hit T n F ω ∂(ideal T.N) := by
        refine Measurable.ite (measurableSet_lt ?_ ?_) ?_ measurable_const
        · fun_prop
        · exact measurable_bell.comp (by fun_prop)
        · exact hFx.comp (by fun_prop)
      rw [← lintegral_raw_num T.N _ hm2.lintegral_prod_right']
      refine (lintegral_stream (rawLaw T.N) _ hmeas).trans ?_
      refine lintegral_congr fun b => ?_
      refine Eq.trans ?_ (lintegral_raw_num T.N _ (hm2.comp (measurable_const.prodMk measurable_id)))
      refine (lintegral_stream (rawLaw T.N) _ (hmeas.comp
        (measurable_scons.comp (measurable_const.prodMk measurable_id)))).trans ?_
      refine lintegral_congr fun c => ?_
      change ∫⁻ ω, _ ∂(ideal T.N) = _
      have e : ∀ ω, hit T (n + 1) F (scons a (scons b (scons c ω)))
          = if b.2.2 * Real.exp (-T.R * ((T.R - (1 / T.R) * Real.log c.2.2) - (1 / 2) * T.R))
            < bell (T.R - (1 / T.R) * Real.log c.2.2)
            then F (sgn a.1 * (T.R - (1 / T.R) * Real.log c.2.2), ω) else hit T n F ω := by
        intro ω
        rw [hit_succ]
        exact (if_neg h1).trans (if_neg h2)
      simp only [Function.comp_def, id, e]
      split_ifs <;> rfl

/-- The law of the loop with at most `n` trips. -/
lemma lintegral_hit (T : Table) (h : Exact T) [NeZero T.N] (n : ℕ) (F : ℝ × Raws T.N → ℝ≥0∞)
    (hF : Measurable F) (hF1 : ∀ z, F z ≤ 1) :
    (∫⁻ ω, hit T n F ω ∂(ideal T.N)) + T.q ^ n * ∫⁻ z, F z ∂((gaussianReal 0 1).prod (ideal T.N))
      = ∫⁻ z, F z ∂((gaussianReal 0 1).prod (ideal T.N)) := by
  induction n with
  | zero => simp [hit, randn]
  | succ n ih =>
    have hFx : Measurable fun x => ∫⁻ ω, F (x, ω) ∂(ideal T.N) := hF.lintegral_prod_right'
    have hfin : ∫⁻ ω, hit T n F ω ∂(ideal T.N) ≠ ⊤ := by
      have : ∫⁻ ω, hit T n F ω ∂(ideal T.N) ≤ ∫⁻ _, 1 ∂(ideal T.N) := by
        refine lintegral_mono fun ω => ?_
        unfold hit
        split
        · exact hF1 _
        · simp
      rw [lintegral_one, measure_univ] at this
      exact (this.trans_lt ENNReal.one_lt_top).ne
    have h1 : ∫⁻ ω, hit T (n + 1) F ω ∂(ideal T.N)
        = ENNReal.ofReal T.p * (∫⁻ z, F z ∂((gaussianReal 0 1).prod (ideal T.N)))
          + T.q * ∫⁻ ω, hit T n F ω ∂(ideal T.N) := by
      unfold ideal
      rw [lintegral_stream (rawLaw T.N) _ (measurable_hit T (n + 1) F hF)]
      change ∫⁻ a, ∫⁻ ω, hit T (n + 1) F (scons a ω) ∂(ideal T.N) ∂(rawLaw T.N) = _
      simp only [lintegral_hit_cons T n F hF]
      rw [lintegral_congr fun a => tripI_split T _ hFx _ hfin a,
        lintegral_add_left (measurable_tripI T _ hFx 0), tripI_accept T h _ hFx,
        lintegral_mul_const' _ _ hfin]
      congr 2
      exact (lintegral_prod _ hF.aemeasurable).symm
    rw [h1, pow_succ', mul_assoc, add_assoc, ← mul_add, ih, ← add_mul, p_add_q T h, one_mul]

end Verif.Normal
