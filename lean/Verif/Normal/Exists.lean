import Verif.Normal.Props
import Mathlib.Analysis.SpecialFunctions.Log.Deriv
import Mathlib.Analysis.SpecialFunctions.Gaussian.GaussianIntegral

/-! An exact ziggurat exists for every number of strips. -/
namespace Verif.Normal

open Filter Topology

/-- Height of the bell curve to place. -/
noncomputable def place (y : ℝ) : ℝ := Real.sqrt (-2 * Real.log y)

/-- Area of a strip that ends at `r`. -/
noncomputable def areaOf (r : ℝ) : ℝ := (r + 1 / r) * bell r

/-- Heights from the bottom, with strips of equal area. -/
noncomputable def height (r : ℝ) : ℕ → ℝ
  | 0 => bell r
  | k + 1 => height r k + areaOf r / place (height r k)

lemma place_bell {r : ℝ} (hr : 0 ≤ r) : place (bell r) = r := by
  unfold place bell
  rw [Real.log_exp, show -2 * (-(1 / 2) * r * r) = r ^ 2 by ring, Real.sqrt_sq hr]

lemma bell_place {y : ℝ} (h0 : 0 < y) (h1 : y ≤ 1) : Real.exp (-(place y) ^ 2 / 2) = y := by
  unfold place
  have := Real.log_nonpos h0.le h1
  rw [Real.sq_sqrt (by linarith), show -(-2 * Real.log y) / 2 = Real.log y by ring, Real.exp_log h0]

lemma place_pos {y : ℝ} (h0 : 0 < y) (h1 : y < 1) : 0 < place y := by
  unfold place
  have := Real.log_neg h0 h1
  exact Real.sqrt_pos.mpr (by linarith)

lemma place_anti {y y' : ℝ} (h0 : 0 < y) (h : y < y') (h1 : y' ≤ 1) : place y' < place y := by
  unfold place
  have h2 := Real.log_lt_log h0 h
  have h3 := Real.log_nonpos (h0.trans h).le h1
  exact Real.sqrt_lt_sqrt (by linarith) (by linarith)

lemma areaOf_pos {r : ℝ} (hr : 0 < r) : 0 < areaOf r := by
  have := bell_pos r
  unfold areaOf
  positivity

lemma height_pos {r : ℝ} (hr : 0 < r) (k : ℕ) : 0 < height r k := by
  induction k with
  | zero => exact bell_pos r
  | succ k ih =>
    have h1 := areaOf_pos hr
    have h2 : 0 ≤ place (height r k) := Real.sqrt_nonneg _
    have : 0 ≤ areaOf r / place (height r k) := div_nonneg h1.le h2
    exact add_pos_of_pos_of_nonneg ih this

lemma continuousAt_areaOf {r : ℝ} (hr : 0 < r) : ContinuousAt areaOf r := by
  unfold areaOf bell
  have : r ≠ 0 := hr.ne'
  fun_prop (disch := assumption)

lemma continuousAt_place {y : ℝ} (hy : 0 < y) : ContinuousAt place y := by
  unfold place
  have : y ≠ 0 := hy.ne'
  fun_prop (disch := assumption)

lemma continuousAt_height_succ {r : ℝ} (hr : 0 < r) (k : ℕ) (h1 : height r k < 1)
    (hc : ContinuousAt (fun r => height r k) r) : ContinuousAt (fun r => height r (k + 1)) r := by
  have hp := height_pos hr k
  have h2 : ContinuousAt (fun r => place (height r k)) r :=
    ContinuousAt.comp (f := fun r => height r k) (g := place) (continuousAt_place hp) hc
  exact hc.add ((continuousAt_areaOf hr).div h2 (place_pos hp h1).ne')

lemma tendsto_bell : Tendsto bell atTop (𝓝 0) := by
  unfold bell
  apply Real.tendsto_exp_atBot.comp
  have : Tendsto (fun x : ℝ => x * x) atTop atTop := tendsto_id.atTop_mul_atTop₀ tendsto_id
  have h2 := this.const_mul_atTop_of_neg (show (-(1 / 2) : ℝ) < 0 by norm_num)
  refine h2.congr fun x => by ring

lemma tendsto_areaOf : Tendsto areaOf atTop (𝓝 0) := by
  have h1 : Tendsto (fun r : ℝ => r * Real.exp (-r)) atTop (𝓝 0) := by
    simpa using Real.tendsto_pow_mul_exp_neg_atTop_nhds_zero 1
  have h2 : Tendsto (fun r : ℝ => 2 * (r * Real.exp (-r))) atTop (𝓝 0) := by
    simpa using h1.const_mul 2
  refine tendsto_of_tendsto_of_tendsto_of_le_of_le' tendsto_const_nhds h2 ?_ ?_
  · filter_upwards [eventually_gt_atTop (0 : ℝ)] with r hr
    exact (areaOf_pos hr).le
  · filter_upwards [eventually_ge_atTop (2 : ℝ)] with r hr
    unfold areaOf
    have h3 : bell r ≤ Real.exp (-r) := by
      unfold bell; rw [Real.exp_le_exp]; nlinarith
    have h4 : 1 / r ≤ r := by rw [div_le_iff₀ (by linarith)]; nlinarith
    have h5 := bell_pos r
    have h6 := Real.exp_pos (-r)
    calc (r + 1 / r) * bell r ≤ (2 * r) * bell r := by
          apply mul_le_mul_of_nonneg_right _ h5.le; linarith
      _ ≤ (2 * r) * Real.exp (-r) := by apply mul_le_mul_of_nonneg_left h3; linarith
      _ = 2 * (r * Real.exp (-r)) := by ring

lemma tendsto_height (k : ℕ) : Tendsto (fun r => height r k) atTop (𝓝 0) := by
  induction k with
  | zero => exact tendsto_bell
  | succ k ih =>
    have h1 : Tendsto (fun r => height r k) atTop (𝓝[>] 0) := by
      rw [tendsto_nhdsWithin_iff]
      refine ⟨ih, ?_⟩
      filter_upwards [eventually_gt_atTop (0 : ℝ)] with r hr
      exact height_pos hr k
    have h2 : Tendsto (fun r => place (height r k)) atTop atTop := by
      unfold place
      apply Real.tendsto_sqrt_atTop.comp
      have := (Real.tendsto_log_nhdsGT_zero.comp h1).const_mul_atBot_of_neg
        (show (-2 : ℝ) < 0 by norm_num)
      exact this
    have h3 : Tendsto (fun r => areaOf r / place (height r k)) atTop (𝓝 0) :=
      tendsto_areaOf.div_atTop h2
    simpa [height] using ih.add h3

/-- The smallest end `ρ` of the lowest strip for which `k` more strips fit below 1. -/
def Fits (k : ℕ) (ρ : ℝ) : Prop :=
  0 < ρ ∧ height ρ k = 1 ∧ (∀ j < k, height ρ j < 1) ∧ (∀ r, ρ < r → height r k < 1) ∧
  ∀ r, ρ ≤ r → ContinuousAt (fun r => height r k) r

lemma largest (f : ℝ → ℝ) (ρ b : ℝ) (hb : ρ < b) (hfb : 1 ≤ f b)
    (hc : ∀ r, ρ < r → ContinuousAt f r) (hinf : ∀ᶠ r in atTop, f r < 1) :
    ∃ s, ρ < s ∧ f s = 1 ∧ ∀ r, s < r → f r < 1 := by
  obtain ⟨M, hM⟩ := eventually_atTop.mp hinf
  let B := {r | ρ < r ∧ 1 ≤ f r}
  have hne : B.Nonempty := ⟨b, hb, hfb⟩
  have hbd : BddAbove B := ⟨M, by
    rintro r ⟨_, h⟩
    by_contra hc
    exact absurd h (not_le.mpr (hM r (not_le.mp hc).le))⟩
  have hsb : b ≤ sSup B := le_csSup hbd ⟨hb, hfb⟩
  have hs : ρ < sSup B := hb.trans_le hsb
  have hup : ∀ r, sSup B < r → f r < 1 := by
    intro r hr
    by_contra hcon
    have : r ≤ sSup B := le_csSup hbd ⟨hs.trans hr, not_lt.mp hcon⟩
    linarith
  refine ⟨sSup B, hs, le_antisymm ?_ ?_, hup⟩
  · by_contra hcon
    rw [not_le] at hcon
    have h1 := (hc _ hs).eventually (lt_mem_nhds hcon)
    obtain ⟨ε, hε, h2⟩ := Metric.eventually_nhds_iff.mp h1
    have h3 : dist (sSup B + ε / 2) (sSup B) < ε := by
      rw [Real.dist_eq, add_sub_cancel_left, abs_of_pos (by linarith)]; linarith
    have := h2 h3
    have := hup (sSup B + ε / 2) (by linarith)
    linarith
  · by_contra hcon
    rw [not_le] at hcon
    have h1 := (hc _ hs).eventually (gt_mem_nhds hcon)
    obtain ⟨ε, hε, h2⟩ := Metric.eventually_nhds_iff.mp h1
    obtain ⟨c, hcB, hc2⟩ := exists_lt_of_lt_csSup hne (show sSup B - ε < sSup B by linarith)
    have hc3 : c ≤ sSup B := le_csSup hbd hcB
    have h3 : dist c (sSup B) < ε := by
      rw [Real.dist_eq, abs_sub_comm, abs_of_nonneg (by linarith)]; linarith
    have := h2 h3
    have := hcB.2
    linarith

lemma height_mono {r : ℝ} (hr : 0 < r) (k : ℕ) : height r k ≤ height r (k + 1) := by
  have h2 : 0 ≤ place (height r k) := Real.sqrt_nonneg _
  have : 0 ≤ areaOf r / place (height r k) := div_nonneg (areaOf_pos hr).le h2
  simp only [height]; linarith

lemma height_mono_le {r : ℝ} (hr : 0 < r) {j k : ℕ} (h : j ≤ k) : height r j ≤ height r k := by
  induction k, h using Nat.le_induction with
  | base => exact le_rfl
  | succ k _ ih => exact ih.trans (height_mono hr k)

lemma continuousAt_bell (r : ℝ) : ContinuousAt bell r := by unfold bell; fun_prop

lemma exists_fits (k : ℕ) : ∃ ρ, Fits (k + 1) ρ := by
  induction k with
  | zero =>
    have hb1 : ∀ r : ℝ, 0 < r → bell r < 1 := by
      intro r hr
      unfold bell
      exact Real.exp_lt_one_iff.mpr (by nlinarith)
    have hc : ∀ r : ℝ, 0 < r → ContinuousAt (fun r => height r 1) r := fun r hr =>
      continuousAt_height_succ hr 0 (hb1 r hr) (continuousAt_bell r)
    have hhalf : 1 ≤ height (1 / 2) 1 := by
      simp only [height]
      rw [place_bell (by norm_num)]
      unfold areaOf
      have h1 : 1 / 2 ≤ bell (1 / 2) := by
        unfold bell
        have := Real.add_one_le_exp (-(1 / 2) * (1 / 2 : ℝ) * (1 / 2))
        linarith
      norm_num at h1 ⊢
      linarith
    obtain ⟨s, h0, h1, h2⟩ := largest (fun r => height r 1) 0 (1 / 2) (by norm_num) hhalf hc
      ((tendsto_height 1).eventually (gt_mem_nhds (by norm_num)))
    refine ⟨s, h0, h1, ?_, h2, fun r hr => hc r (h0.trans_le hr)⟩
    intro j hj
    obtain rfl : j = 0 := by omega
    exact hb1 s h0
  | succ k ih =>
    obtain ⟨ρ, hρ, h1, h2, h3, h4⟩ := ih
    have hc : ∀ r, ρ < r → ContinuousAt (fun r => height r (k + 1 + 1)) r := fun r hr =>
      continuousAt_height_succ (hρ.trans hr) (k + 1) (h3 r hr) (h4 r hr.le)
    -- close to `ρ` the next strip is as high as we like
    have hplace : ContinuousAt (fun r => place (height r (k + 1))) ρ :=
      ContinuousAt.comp (f := fun r => height r (k + 1)) (g := place)
        (continuousAt_place (height_pos hρ _)) (h4 ρ le_rfl)
    have hzero : place (height ρ (k + 1)) = 0 := by rw [h1]; simp [place]
    have ha := areaOf_pos hρ
    have e1 : ∀ᶠ r in 𝓝 ρ, place (height r (k + 1)) < areaOf ρ / 2 :=
      hplace.eventually (gt_mem_nhds (by dsimp only; rw [hzero]; linarith))
    have e2 : ∀ᶠ r in 𝓝 ρ, areaOf ρ / 2 < areaOf r :=
      (continuousAt_areaOf hρ).eventually (lt_mem_nhds (by linarith))
    obtain ⟨ε, hε, he⟩ := Metric.eventually_nhds_iff.mp (e1.and e2)
    have hd : dist (ρ + ε / 2) ρ < ε := by
      rw [Real.dist_eq, add_sub_cancel_left, abs_of_pos (by linarith)]; linarith
    obtain ⟨p1, p2⟩ := he hd
    have hlt : ρ < ρ + ε / 2 := by linarith
    have hb : 1 ≤ height (ρ + ε / 2) (k + 1 + 1) := by
      have q1 := height_pos (hρ.trans hlt) (k + 1)
      have q2 := place_pos q1 (h3 _ hlt)
      have : 1 ≤ areaOf (ρ + ε / 2) / place (height (ρ + ε / 2) (k + 1)) := by
        rw [le_div_iff₀ q2]; linarith
      change 1 ≤ height (ρ + ε / 2) (k + 1) + _
      linarith
    obtain ⟨s, hs, hs1, hs2⟩ := largest (fun r => height r (k + 1 + 1)) ρ (ρ + ε / 2) hlt hb hc
      ((tendsto_height _).eventually (gt_mem_nhds (by norm_num)))
    refine ⟨s, hρ.trans hs, hs1, ?_, hs2, fun r hr => hc r (hs.trans_le hr)⟩
    intro j hj
    exact (height_mono_le (hρ.trans hs) (show j ≤ k + 1 by omega)).trans_lt (h3 s hs)

/-- The ziggurat with `N` strips. -/
noncomputable def tableOf (N : ℕ) (r : ℝ) : Table where
  N := N
  x i := if i = N then r + 1 / r else place (height r (N - 1 - i))
  y i := height r (N - 1 - i)
  R := r

/-- For every number of strips from two on there is an exact table, so that the hypothesis of the
theorems on normal numbers can be met with 64 and with 256 strips. -/
theorem exact_table_exists (N : ℕ) (hN : 2 ≤ N) : ∃ T : Table, T.N = N ∧ Exact T := by
  obtain ⟨r, hr, h1, h2, _, _⟩ := exists_fits (N - 2)
  rw [show N - 2 + 1 = N - 1 by omega] at h1 h2
  refine ⟨tableOf N r, rfl, ?_⟩
  have hle : ∀ k ≤ N - 1, height r k ≤ 1 := by
    intro k hk
    rcases Nat.lt_or_ge k (N - 1) with h | h
    · exact (h2 k h).le
    · rw [show k = N - 1 by omega, h1]
  have hstep : ∀ k, k + 1 ≤ N - 1 → place (height r (k + 1)) < place (height r k) := by
    intro k hk
    refine place_anti (height_pos hr k) ?_ (hle _ hk)
    have := div_pos (areaOf_pos hr) (place_pos (height_pos hr k) (h2 k (by omega)))
    change height r k < height r k + _
    linarith
  refine ⟨hN, ?_, ?_, ?_, ?_, ?_, ?_⟩
  · simp only [tableOf]
    rw [if_neg (by omega), Nat.sub_zero, h1]
    simp [place]
  · intro i hi
    have hi' : i < N := hi
    simp only [tableOf]
    rw [if_neg (by omega)]
    split_ifs with he
    · rw [show N - 1 - i = 0 by omega]
      simp only [height]
      rw [place_bell hr.le]
      have : 0 < 1 / r := by positivity
      linarith
    · have := hstep (N - 1 - (i + 1)) (by omega)
      rwa [show N - 1 - (i + 1) + 1 = N - 1 - i by omega] at this
  · intro i hi
    have hi' : i < N := hi
    simp only [tableOf]
    rw [if_neg (by omega), bell_place (height_pos hr _) (hle _ (by omega))]
  · simp only [tableOf]
    rw [if_neg (by omega), Nat.sub_self]
    simp only [height]
    rw [place_bell hr.le]
  · intro i hi
    have hi' : i + 1 < N := hi
    simp only [tableOf]
    rw [if_neg (by omega), if_true, Nat.sub_self]
    obtain ⟨k, hk⟩ : ∃ k, N - 1 - (i + 1) = k := ⟨_, rfl⟩
    rw [show N - 1 - i = k + 1 by omega, hk]
    simp only [height]
    have := place_pos (height_pos hr k) (h2 k (by omega))
    unfold areaOf
    field_simp
    ring
  · simp only [tableOf]
    rw [if_true, Nat.sub_self]
    simp only [height]
    field_simp

end Verif.Normal
