import Verif.Normal.Near

/-! The law of the ziggurat with a table that is not exact. -/
namespace Verif.Normal

open MeasureTheory Measure Set ENNReal ProbabilityTheory

lemma measurable_d (T : Table) (i : ℕ) : Measurable (T.d i) := by
  unfold Table.d
  refine Measurable.ite measurableSet_Iic ?_ measurable_const
  refine measurable_const.mul (Measurable.ite measurableSet_Iio measurable_const ?_)
  exact ((measurable_bell.min measurable_const).sub (measurable_bell.min measurable_const)).div_const _

lemma measurable_db (T : Table) : Measurable T.db := by
  unfold Table.db
  exact Measurable.ite measurableSet_Iio measurable_const (measurable_bell.const_mul _)

/-- The density of a trip for one sign. -/
lemma Near.half {T : Table} {η : ℝ} (h : Near T η) (g : ℝ → ℝ≥0∞) (hg : Measurable g) (s : Bool) :
    ∑ i : Fin T.N, ∫⁻ t in Ioc (0 : ℝ) 1, tripI T g 0 (s, i, t)
      = ∫⁻ x in Ioi (0 : ℝ), g (sgn s * x) *
        ENNReal.ofReal (∑ i ∈ Finset.range (T.N - 1), T.d i x + T.db x) := by
  obtain ⟨n, hn⟩ : ∃ n, T.N = n + 1 := ⟨T.N - 1, by have := h.two; omega⟩
  have hk : Measurable fun x => g (sgn s * x) := hg.comp (by fun_prop)
  rw [Finset.sum_fin_eq_sum_range, show Finset.range T.N = Finset.range (n + 1) by rw [hn],
    Finset.sum_range_succ, dif_pos (by omega), show T.N - 1 = n by omega]
  have e1 : ∀ i ∈ Finset.range n, (if hi : i < T.N then
        ∫⁻ t in Ioc (0 : ℝ) 1, tripI T g 0 (s, (⟨i, hi⟩ : Fin T.N), t) else 0)
      = ∫⁻ x in Ioi (0 : ℝ), g (sgn s * x) * ENNReal.ofReal (T.d i x) := by
    intro i hi
    rw [Finset.mem_range] at hi
    rw [dif_pos (by omega), ← h.strip i (by omega) fun x => g (sgn s * x)]
    refine lintegral_congr fun t => ?_
    unfold tripI
    dsimp only
    rw [if_pos (show i ≠ T.N - 1 by omega)]
  have e2 : ∫⁻ t in Ioc (0 : ℝ) 1, tripI T g 0 (s, (⟨n, by omega⟩ : Fin T.N), t)
      = ∫⁻ x in Ioi (0 : ℝ), g (sgn s * x) * ENNReal.ofReal (T.db x) := by
    have := h.base_strip (fun x => g (sgn s * x)) hk
    rw [show T.N - 1 = n by omega] at this
    rw [← this]
    refine lintegral_congr fun t => ?_
    unfold tripI
    dsimp only
    rw [if_neg (show ¬ n ≠ T.N - 1 by omega), show T.x (n + 1) = T.x T.N by rw [hn]]
  rw [Finset.sum_congr rfl e1, e2]
  rw [← lintegral_finset_sum _ (fun i _ => by exact hk.mul (measurable_d T i).ennreal_ofReal),
    ← lintegral_add_right _ (by exact hk.mul (measurable_db T).ennreal_ofReal)]
  refine setLIntegral_congr_fun measurableSet_Ioi fun x hx => ?_
  have hx' : 0 < x := hx
  have hd : ∀ i ∈ Finset.range n, 0 ≤ T.d i x := fun i hi =>
    (h.d_bounds i (by rw [Finset.mem_range] at hi; omega) x hx').1
  rw [← Finset.mul_sum, ← mul_add, ← ENNReal.ofReal_sum_of_nonneg hd,
    ← ENNReal.ofReal_add (Finset.sum_nonneg hd) (h.db_bounds x hx').1]

lemma two_sides (g : ℝ → ℝ≥0∞) (hg : Measurable g) :
    (∫⁻ x in Ioi (0 : ℝ), g (-x) * ENNReal.ofReal (bell x))
      + ∫⁻ x in Ioi (0 : ℝ), g x * ENNReal.ofReal (bell x)
      = ENNReal.ofReal (Real.sqrt (2 * Real.pi)) * ∫⁻ x, g x ∂(gaussianReal 0 1) := by
  rw [add_comm, gaussianReal_of_var_ne_zero _ one_ne_zero,
    lintegral_withDensity_eq_lintegral_mul _ (by fun_prop) hg,
    ← lintegral_const_mul' _ _ ENNReal.ofReal_ne_top]
  have := lintegral_line fun x => g x * ENNReal.ofReal (bell x)
  simp only [bell_neg] at this
  rw [← this]
  refine lintegral_congr fun x => ?_
  rw [bell_gauss, Pi.mul_apply]
  ring

/-- The share of the trips that end the loop, and where, compared with the normal distribution. -/
lemma Near.accept {T : Table} {η : ℝ} (h : Near T η) [NeZero T.N] (g : ℝ → ℝ≥0∞) (hg : Measurable g) :
    ENNReal.ofReal (T.p * (1 - 3 * η)) * ∫⁻ x, g x ∂(gaussianReal 0 1)
      ≤ ∫⁻ a, tripI T g 0 a ∂(rawLaw T.N) ∧
    ∫⁻ a, tripI T g 0 a ∂(rawLaw T.N)
      ≤ ENNReal.ofReal (T.p * (1 + 5 * η)) * ∫⁻ x, g x ∂(gaussianReal 0 1) := by
  have hN : (0 : ℝ) < T.N := by have := h.two; positivity
  have hv := h.v_pos
  have he := h.eta
  have hs := h.small
  have c1 : (2 : ℝ≥0∞)⁻¹ = ENNReal.ofReal (2 : ℝ)⁻¹ := by
    rw [ENNReal.ofReal_inv_of_pos (by norm_num)]; simp
  have c2 : (T.N : ℝ≥0∞)⁻¹ = ENNReal.ofReal (T.N : ℝ)⁻¹ := by
    rw [ENNReal.ofReal_inv_of_pos hN]; simp
  have lhs : ∫⁻ a, tripI T g 0 a ∂(rawLaw T.N) = ENNReal.ofReal (2 : ℝ)⁻¹ * (ENNReal.ofReal (T.N : ℝ)⁻¹ *
      ((∫⁻ x in Ioi (0 : ℝ), g (-x) *
        ENNReal.ofReal (∑ i ∈ Finset.range (T.N - 1), T.d i x + T.db x)) +
      ∫⁻ x in Ioi (0 : ℝ), g x *
        ENNReal.ofReal (∑ i ∈ Finset.range (T.N - 1), T.d i x + T.db x))) := by
    rw [lintegral_raw _ _ (measurable_tripI T g hg 0), Finset.sum_congr rfl fun s _ => by rw [h.half g hg s],
      ← Finset.mul_sum, Fintype.sum_bool]
    simp only [sgn, if_true, Bool.false_eq_true, if_false, one_mul, neg_mul]
    rw [c1, c2]
  have rhs : ∀ c : ℝ, 0 ≤ c → ENNReal.ofReal (T.p * c) * ∫⁻ x, g x ∂(gaussianReal 0 1)
      = ENNReal.ofReal (2 : ℝ)⁻¹ * (ENNReal.ofReal (T.N : ℝ)⁻¹ *
        ((∫⁻ x in Ioi (0 : ℝ), g (-x) * ENNReal.ofReal (T.v⁻¹ * (c * bell x))) +
        ∫⁻ x in Ioi (0 : ℝ), g x * ENNReal.ofReal (T.v⁻¹ * (c * bell x)))) := by
    intro c hc
    have e : ∀ k : ℝ → ℝ≥0∞, ∫⁻ x in Ioi (0 : ℝ), k x * ENNReal.ofReal (T.v⁻¹ * (c * bell x))
        = ENNReal.ofReal (T.v⁻¹ * c) * ∫⁻ x in Ioi (0 : ℝ), k x * ENNReal.ofReal (bell x) := by
      intro k
      rw [← lintegral_const_mul' _ _ ENNReal.ofReal_ne_top]
      refine lintegral_congr fun x => ?_
      rw [← mul_assoc T.v⁻¹, ENNReal.ofReal_mul (by positivity)]
      ring
    rw [e fun x => g (-x), e g, ← mul_add, two_sides g hg, ← mul_assoc, ← mul_assoc, ← mul_assoc]
    congr 1
    rw [← ENNReal.ofReal_mul (by positivity), ← ENNReal.ofReal_mul (by positivity),
      ← ENNReal.ofReal_mul (by positivity)]
    congr 1
    unfold Table.p
    field_simp
  have hle1 : ∀ x, 0 < x → ENNReal.ofReal (T.v⁻¹ * ((1 - 3 * η) * bell x))
      ≤ ENNReal.ofReal (∑ i ∈ Finset.range (T.N - 1), T.d i x + T.db x) := by
    intro x hx
    apply ENNReal.ofReal_le_ofReal
    rw [inv_mul_le_iff₀ hv]
    exact (h.density x hx).1
  have hle2 : ∀ x, 0 < x → ENNReal.ofReal (∑ i ∈ Finset.range (T.N - 1), T.d i x + T.db x)
      ≤ ENNReal.ofReal (T.v⁻¹ * ((1 + 5 * η) * bell x)) := by
    intro x hx
    apply ENNReal.ofReal_le_ofReal
    rw [le_inv_mul_iff₀ hv]
    exact (h.density x hx).2
  rw [lhs, rhs _ (by linarith), rhs _ (by linarith)]
  constructor
  · gcongr ENNReal.ofReal _ * (ENNReal.ofReal _ * (?_ + ?_))
    · exact setLIntegral_mono' measurableSet_Ioi fun x hx => mul_le_mul_right (hle1 x hx) _
    · exact setLIntegral_mono' measurableSet_Ioi fun x hx => mul_le_mul_right (hle1 x hx) _
  · gcongr ENNReal.ofReal _ * (ENNReal.ofReal _ * (?_ + ?_))
    · exact setLIntegral_mono' measurableSet_Ioi fun x hx => mul_le_mul_right (hle2 x hx) _
    · exact setLIntegral_mono' measurableSet_Ioi fun x hx => mul_le_mul_right (hle2 x hx) _

/-- The probability that a trip ends the loop. -/
noncomputable def ends (T : Table) : ℝ≥0∞ := ∫⁻ a, tripI T (fun _ => 1) 0 a ∂(rawLaw T.N)

lemma ends_add_q (T : Table) [NeZero T.N] : ends T + T.q = 1 := by
  unfold ends Table.q
  rw [← lintegral_add_left (measurable_tripI T _ measurable_const 0)]
  have : ∀ a, tripI T (fun _ => 1) 0 a + tripI T (fun _ => 0) 1 a = 1 := by
    intro a
    have := tripI_split T (fun _ => 1) measurable_const 1 ENNReal.one_ne_top a
    rw [mul_one] at this
    rw [← this, tripI_one]
  simp only [this]
  simp

/-- One more trip, whatever the table. -/
lemma hit_step (T : Table) [NeZero T.N] (n : ℕ) (F : ℝ × Raws T.N → ℝ≥0∞)
    (hF : Measurable F) (hF1 : ∀ z, F z ≤ 1) :
    ∫⁻ ω, hit T (n + 1) F ω ∂(ideal T.N)
      = (∫⁻ a, tripI T (fun x => ∫⁻ ω, F (x, ω) ∂(ideal T.N)) 0 a ∂(rawLaw T.N))
        + T.q * ∫⁻ ω, hit T n F ω ∂(ideal T.N) := by
  have hFx : Measurable fun x => ∫⁻ ω, F (x, ω) ∂(ideal T.N) := hF.lintegral_prod_right'
  have hfin : ∫⁻ ω, hit T n F ω ∂(ideal T.N) ≠ ⊤ := by
    have : ∫⁻ ω, hit T n F ω ∂(ideal T.N) ≤ ∫⁻ _, 1 ∂(ideal T.N) := by
      refine lintegral_mono fun ω => ?_
      unfold hit
      split
      · exact hF1 _
      · simp
    rw [lintegral_one, measure_univ] at this
    exact (this.trans_lt ENNReal.one_lt_top).ne
  have e0 : ∫⁻ ω, hit T (n + 1) F ω ∂(ideal T.N)
      = ∫⁻ a, ∫⁻ ω, hit T (n + 1) F (scons a ω) ∂(ideal T.N) ∂(rawLaw T.N) :=
    lintegral_stream (rawLaw T.N) _ (measurable_hit T (n + 1) F hF)
  rw [e0]
  simp only [lintegral_hit_cons T n F hF]
  rw [lintegral_congr fun a => tripI_split T _ hFx _ hfin a,
    lintegral_add_left (measurable_tripI T _ hFx 0), lintegral_mul_const' _ _ hfin]
  rfl

end Verif.Normal
