import Verif.Normal.NearLaw
import Verif.Normal.Tables

/-!
# C90: the normal numbers of the tables in the code
-/
namespace Verif.Normal

open MeasureTheory Measure Set ENNReal ProbabilityTheory

/-- Specification: every event has the probability `μ` within the share `κ`. -/
def Within {X : Type*} [MeasurableSpace X] (κ : ℝ) (μ ν : Set X → ℝ≥0∞) : Prop :=
  ∀ C, MeasurableSet C → ENNReal.ofReal (1 - κ) * μ C ≤ ν C ∧ ν C ≤ ENNReal.ofReal (1 + κ) * μ C

lemma measure_hit (T : Table) [NeZero T.N] (C : Set (ℝ × Raws T.N)) (hC : MeasurableSet C) (n : ℕ) :
    ideal T.N {ω | ∃ z, randn T n ω = some z ∧ z ∈ C}
      = ∫⁻ ω, hit T n (C.indicator fun _ => 1) ω ∂(ideal T.N) := by
  have h2 : hit T n (C.indicator fun _ => 1)
      = {ω | ∃ z, randn T n ω = some z ∧ z ∈ C}.indicator fun _ => 1 := by
    funext ω
    unfold hit
    cases hr : randn T n ω with
    | none => simp [indicator_apply, hr]
    | some z =>
      have hiff : ω ∈ {ω | ∃ z, randn T n ω = some z ∧ z ∈ C} ↔ z ∈ C := by
        rw [mem_setOf_eq, hr]
        constructor
        · rintro ⟨z', hz, hc⟩
          rw [Option.some.injEq] at hz
          exact hz ▸ hc
        · intro hc; exact ⟨z, rfl, hc⟩
      by_cases hz : z ∈ C
      · rw [indicator_of_mem (hiff.mpr hz)]
        exact indicator_of_mem hz _
      · rw [indicator_of_notMem (fun hc => hz (hiff.mp hc))]
        exact indicator_of_notMem hz _
  have hm : MeasurableSet {ω : Raws T.N | ∃ z, randn T n ω = some z ∧ z ∈ C} := by
    have := measurableSet_randn T (Y := Unit) n (Prod.snd ⁻¹' C) (measurable_snd hC)
    exact (measurable_const.prodMk measurable_id : Measurable fun ω : Raws T.N => ((), ω)) this
  rw [h2, lintegral_indicator hm, setLIntegral_one]

/-- The probability of a result in `C` is that of one trip, renormalised. -/
lemma returns_eq (T : Table) [NeZero T.N] (C : Set (ℝ × Raws T.N)) (hC : MeasurableSet C) :
    ends T * ideal T.N (returns T C)
      = ∫⁻ a, tripI T (fun x => ideal T.N (Prod.mk x ⁻¹' C)) 0 a ∂(rawLaw T.N) := by
  have hU : returns T C = ⋃ n, {ω | ∃ z, randn T n ω = some z ∧ z ∈ C} := by
    ext ω; simp [returns]
  have hmono : Monotone fun n => {ω : Raws T.N | ∃ z, randn T n ω = some z ∧ z ∈ C} := by
    rintro n m hnm ω ⟨z, hz, hc⟩
    exact ⟨z, randn_mono T n m hnm ω z hz, hc⟩
  set A := ∫⁻ a, tripI T (fun x => ideal T.N (Prod.mk x ⁻¹' C)) 0 a ∂(rawLaw T.N) with hA
  have hone : ∀ x, ∫⁻ ω, C.indicator (fun _ => (1 : ℝ≥0∞)) (x, ω) ∂(ideal T.N)
      = ideal T.N (Prod.mk x ⁻¹' C) := by
    intro x
    have : (fun ω => C.indicator (fun _ => (1 : ℝ≥0∞)) (x, ω))
        = (Prod.mk x ⁻¹' C).indicator fun _ => 1 := rfl
    rw [this, lintegral_indicator (measurable_prodMk_left hC), setLIntegral_one]
  have hstep : ∀ n, ideal T.N {ω | ∃ z, randn T (n + 1) ω = some z ∧ z ∈ C}
      = A + T.q * ideal T.N {ω | ∃ z, randn T n ω = some z ∧ z ∈ C} := by
    intro n
    rw [measure_hit T C hC, measure_hit T C hC,
      hit_step T n _ (measurable_const.indicator hC) (fun z => indicator_le_self' (fun _ _ => by simp) z), hA]
    simp only [hone]
  have hq : T.q ≠ ⊤ := by
    have := ends_add_q T
    intro hc
    rw [hc] at this
    simp at this
  have l1 := tendsto_measure_iUnion_atTop (μ := ideal T.N) hmono
  rw [← hU] at l1
  have l2 := (Filter.tendsto_add_atTop_iff_nat 1).mpr l1
  have l3 : Filter.Tendsto (fun n => A + T.q * ideal T.N {ω | ∃ z, randn T n ω = some z ∧ z ∈ C})
      Filter.atTop (nhds (A + T.q * ideal T.N (returns T C))) :=
    tendsto_const_nhds.add (ENNReal.Tendsto.const_mul l1 (Or.inr hq))
  have l4 : ideal T.N (returns T C) = A + T.q * ideal T.N (returns T C) := by
    refine tendsto_nhds_unique l2 (l3.congr fun n => ?_)
    exact (hstep n).symm
  have hP : T.q * ideal T.N (returns T C) ≠ ⊤ := ENNReal.mul_ne_top hq (measure_ne_top _ _)
  have l5 : ends T * ideal T.N (returns T C) + T.q * ideal T.N (returns T C)
      = A + T.q * ideal T.N (returns T C) := by
    rw [← add_mul, ends_add_q, one_mul]; exact l4
  exact (ENNReal.add_left_inj hP).mp l5

lemma Near.p_pos {T : Table} {η : ℝ} (h : Near T η) : 0 < T.p := by
  have := h.v_pos
  have := h.two
  unfold Table.p
  positivity

/-- **C90.** With a table that meets the conditions within a share `η`, every event about the number and the generator
left behind has the probability it should have, within the share `10 η`. -/
theorem randn_near (T : Table) (η : ℝ) (h : Near T η) [NeZero T.N] :
    Within (10 * η) ((gaussianReal 0 1).prod (ideal T.N)) fun C => ideal T.N (returns T C) := by
  intro C hC
  dsimp only
  have hg : Measurable fun x => ideal T.N (Prod.mk x ⁻¹' C) := measurable_measure_prodMk_left hC
  obtain ⟨a1, a2⟩ := h.accept _ hg
  obtain ⟨b1, b2⟩ := h.accept (fun _ => 1) measurable_const
  rw [lintegral_const, measure_univ, mul_one, mul_one] at b1 b2
  rw [← returns_eq T C hC, ← Measure.prod_apply hC] at a1 a2
  change _ ≤ ends T at b1
  change ends T ≤ _ at b2
  set G := ((gaussianReal 0 1).prod (ideal T.N)) C
  set P := ideal T.N (returns T C)
  have hp := h.p_pos
  have he := h.eta
  have hs := h.small
  have hpos : ∀ c : ℝ, 0 < c → ENNReal.ofReal (T.p * c) ≠ 0 := fun c hc => by
    simpa using mul_pos hp hc
  constructor
  · have k1 : ENNReal.ofReal (T.p * (1 - 3 * η)) * G ≤ ENNReal.ofReal (T.p * (1 + 5 * η)) * P :=
      a1.trans (mul_le_mul_left b2 _)
    have k2 : ENNReal.ofReal (T.p * (1 + 5 * η)) * (ENNReal.ofReal (1 - 10 * η) * G)
        ≤ ENNReal.ofReal (T.p * (1 - 3 * η)) * G := by
      rw [← mul_assoc, ← ENNReal.ofReal_mul (by positivity)]
      refine mul_le_mul_left (ENNReal.ofReal_le_ofReal ?_) _
      rw [mul_assoc]
      exact mul_le_mul_of_nonneg_left (by nlinarith) hp.le
    exact (ENNReal.mul_le_mul_iff_right (hpos _ (by linarith)) ENNReal.ofReal_ne_top).mp (k2.trans k1)
  · have k1 : ENNReal.ofReal (T.p * (1 - 3 * η)) * P ≤ ENNReal.ofReal (T.p * (1 + 5 * η)) * G :=
      (mul_le_mul_left b1 _).trans a2
    have k2 : ENNReal.ofReal (T.p * (1 + 5 * η)) * G
        ≤ ENNReal.ofReal (T.p * (1 - 3 * η)) * (ENNReal.ofReal (1 + 10 * η) * G) := by
      rw [← mul_assoc, ← ENNReal.ofReal_mul (mul_nonneg hp.le (by linarith))]
      refine mul_le_mul_left (ENNReal.ofReal_le_ofReal ?_) _
      rw [mul_assoc]
      exact mul_le_mul_of_nonneg_left (by nlinarith) hp.le
    exact (ENNReal.mul_le_mul_iff_right (hpos _ (by linarith)) ENNReal.ofReal_ne_top).mp (k1.trans k2)

/-- **C90.** The same for numbers that are written by `frandn_fill`/`drandn_fill` or drawn one after the other: they are
independent and standard normal within the share `10 η` for each of them. -/
theorem fill_near (T : Table) (η : ℝ) (h : Near T η) [NeZero T.N] (k : ℕ)
    (C : Set ((Fin k → ℝ) × Raws T.N)) (hC : MeasurableSet C) :
    ENNReal.ofReal (1 - 10 * η) ^ k * ((Measure.pi fun _ : Fin k => gaussianReal 0 1).prod (ideal T.N)) C
      ≤ ideal T.N {ω | ∃ fuel z, fill T fuel k ω = some z ∧ z ∈ C} ∧
    ideal T.N {ω | ∃ fuel z, fill T fuel k ω = some z ∧ z ∈ C}
      ≤ ENNReal.ofReal (1 + 10 * η) ^ k
        * ((Measure.pi fun _ : Fin k => gaussianReal 0 1).prod (ideal T.N)) C := by
  induction k with
  | zero =>
    have e : {ω : Raws T.N | ∃ fuel z, fill T fuel 0 ω = some z ∧ z ∈ C}
        = Prod.mk (Fin.elim0 : Fin 0 → ℝ) ⁻¹' C := by
      ext ω; simp [fill]
    have : (Measure.pi fun _ : Fin 0 => gaussianReal 0 1) = dirac (Fin.elim0 : Fin 0 → ℝ) :=
      Measure.pi_of_empty _ _
    rw [e, Measure.prod_apply hC, this, lintegral_dirac' _ (measurable_measure_prodMk_left hC)]
    simp
  | succ k ih =>
    let C1 : Set (ℝ × ((Fin k → ℝ) × Raws T.N)) :=
      (fun q => ((Fin.cons q.1 q.2.1 : Fin (k + 1) → ℝ), q.2.2)) ⁻¹' C
    have hcons : Measurable fun q : ℝ × (Fin k → ℝ) => (Fin.cons q.1 q.2 : Fin (k + 1) → ℝ) := by
      rw [measurable_pi_iff]
      intro a
      refine Fin.cases ?_ (fun a => ?_) a
      · simp only [Fin.cons_zero]; fun_prop
      · simp only [Fin.cons_succ]; fun_prop
    have hC1 : MeasurableSet C1 :=
      ((hcons.comp (measurable_fst.prodMk (measurable_fst.comp measurable_snd))).prodMk
        (measurable_snd.comp measurable_snd)) hC
    let C2 : Set (ℝ × Raws T.N) :=
      {q | ∃ fuel z, fill T fuel k q.2 = some z ∧ (q.1, z) ∈ C1}
    have hC2 : MeasurableSet C2 := measurableSet_fill T k C1 hC1
    have e : {ω : Raws T.N | ∃ fuel z, fill T fuel (k + 1) ω = some z ∧ z ∈ C} = returns T C2 := by
      ext ω
      simp only [mem_setOf_eq, returns, C2, C1, mem_preimage]
      constructor
      · rintro ⟨n, z, hz, hc⟩
        simp only [fill, Option.bind_eq_some_iff, Option.map_eq_some_iff] at hz
        obtain ⟨q, hq, l, hl, rfl⟩ := hz
        exact ⟨n, q, hq, n, l, hl, hc⟩
      · rintro ⟨n, q, hq, m, l, hl, hc⟩
        refine ⟨max n m, (Fin.cons q.1 l.1, l.2), ?_, hc⟩
        simp only [fill, Option.bind_eq_some_iff, Option.map_eq_some_iff]
        exact ⟨q, randn_mono T n _ (le_max_left _ _) ω q hq, l,
          fill_mono T m _ (le_max_right _ _) k _ _ hl, rfl⟩
    have mp := (measurePreserving_piFinSuccAbove (fun _ : Fin (k + 1) => gaussianReal 0 1) 0).symm
    have mp2 : MeasurePreserving (fun q : ℝ × (Fin k → ℝ) => (Fin.cons q.1 q.2 : Fin (k + 1) → ℝ))
        ((gaussianReal 0 1).prod (Measure.pi fun _ : Fin k => gaussianReal 0 1))
        (Measure.pi fun _ : Fin (k + 1) => gaussianReal 0 1) := by
      convert mp using 1
      funext q
      simp [MeasurableEquiv.piFinSuccAbove, Fin.insertNthEquiv, Fin.insertNth_zero]
    have mp3 := mp2.prod (MeasurePreserving.id (ideal T.N))
    have ha := (measurePreserving_prodAssoc (gaussianReal 0 1)
      (Measure.pi fun _ : Fin k => gaussianReal 0 1) (ideal T.N)).symm
    have hb := mp3.comp ha
    have eG : ((Measure.pi fun _ : Fin (k + 1) => gaussianReal 0 1).prod (ideal T.N)) C
        = ∫⁻ x, ((Measure.pi fun _ : Fin k => gaussianReal 0 1).prod (ideal T.N)) (Prod.mk x ⁻¹' C1)
          ∂(gaussianReal 0 1) := by
      rw [← Measure.prod_apply hC1, ← hb.measure_preimage hC.nullMeasurableSet]
      rfl
    obtain ⟨r1, r2⟩ := randn_near T η h C2 hC2
    have hx := fun x => ih (Prod.mk x ⁻¹' C1) (measurable_prodMk_left hC1)
    rw [e, eG, pow_succ', pow_succ', mul_assoc, mul_assoc,
      ← lintegral_const_mul' _ _ (ENNReal.pow_ne_top ENNReal.ofReal_ne_top),
      ← lintegral_const_mul' _ _ (ENNReal.pow_ne_top ENNReal.ofReal_ne_top)]
    rw [Measure.prod_apply hC2] at r1 r2
    constructor
    · exact (mul_le_mul_right (lintegral_mono fun x => (hx x).1) _).trans r1
    · exact r2.trans (mul_le_mul_right (lintegral_mono fun x => (hx x).2) _)

/-! ## The tables of the code -/

lemma bell_eq (x : ℝ) : bell x = Real.exp (-x ^ 2 / 2) := by unfold bell; congr 1; ring

/-- Closeness in absolute terms is closeness in relative terms. -/
lemma Close.near {T : Table} {δ ε η : ℝ} (h : Close T δ ε) (hd : 0 ≤ δ) (hη : 0 < η) (h20 : η ≤ 1 / 20)
    (hε : ε ≤ η) (hY : 0 < T.y (T.N - 1)) (hN : T.N * δ ≤ η * T.y (T.N - 1) / 2)
    (hR : δ * T.R ≤ η) : Near T η := by
  have two := h.two
  have hN2 : (2 : ℝ) ≤ T.N := by exact_mod_cast two
  have hx : ∀ i, i ≤ T.N → ∀ j, i ≤ j → j ≤ T.N → T.x i ≤ T.x j := by
    intro i hi j hij
    induction j, hij using Nat.le_induction with
    | base => intro _; exact le_rfl
    | succ j hij ih => intro hj; exact (ih (by omega)).trans (h.mono j (by omega)).le
  have hpos : ∀ i, 0 < i → i ≤ T.N → 0 < T.x i := by
    intro i hi hiN
    have h1 := h.mono 0 (by omega)
    rw [h.x0] at h1
    exact h1.trans_le (hx 1 (by omega) i hi hiN)
  have hXN := hpos T.N (by omega) le_rfl
  have hRpos : 0 < T.R := by rw [h.R]; exact hpos _ (by omega) (by omega)
  have hv : 0 < T.v := mul_pos hXN hY
  have harea : ∀ i, i + 1 < T.N → (1 - η) * T.v ≤ T.x (i + 1) * (T.y i - T.y (i + 1)) ∧
      T.x (i + 1) * (T.y i - T.y (i + 1)) ≤ (1 + η) * T.v := by
    intro i hi
    have := abs_le.mp (h.area i hi)
    change -(ε * T.v) ≤ _ - T.v ∧ _ - T.v ≤ ε * T.v at this
    constructor <;> nlinarith [this.1, this.2]
  have hheight : ∀ i ≤ T.N, T.y i - δ ≤ bell (T.x i) ∧ bell (T.x i) ≤ T.y i + δ := by
    intro i hi
    have := abs_le.mp (h.y i hi)
    rw [← bell_eq] at this
    constructor <;> linarith [this.1, this.2]
  have hδY : δ ≤ η / 2 * T.y (T.N - 1) := by nlinarith
  refine ⟨two, hη.le, h20, h.x0, h.mono, h.y0, fun i hi => h.anti i (by omega), hY, h.R, ?_, ?_, harea, ?_, ?_⟩
  · intro i hi
    have hb := (hheight i (by omega)).1
    have hX := hpos (i + 1) (by omega) (by omega)
    have hXX := hx (i + 1) (by omega) T.N (by omega) le_rfl
    have hgap : (1 - η) * T.y (T.N - 1) ≤ T.y i - T.y (i + 1) := by
      have k1 := (harea i hi).1
      have k2 : T.x (i + 1) * ((1 - η) * T.y (T.N - 1)) ≤ (1 - η) * T.v := by
        have : (1 - η) * T.v = T.x T.N * ((1 - η) * T.y (T.N - 1)) := by unfold Table.v; ring
        rw [this]
        exact mul_le_mul_of_nonneg_right hXX (mul_nonneg (by linarith) hY.le)
      exact le_of_mul_le_mul_left (k2.trans k1) hX
    have k3 : δ ≤ η * (T.y i - T.y (i + 1)) := by
      have : η / 2 * T.y (T.N - 1) ≤ η * ((1 - η) * T.y (T.N - 1)) := by
        have : (1 / 2 : ℝ) ≤ 1 - η := by linarith
        have := mul_le_mul_of_nonneg_right this (mul_pos hη hY).le
        nlinarith
      have := mul_le_mul_of_nonneg_left hgap hη.le
      linarith
    linarith
  · intro i hi
    have hb := (hheight (i + 1) (by omega)).2
    have : δ ≤ η / T.N * T.y (T.N - 1) := by
      have hNpos : (0 : ℝ) < T.N := by linarith
      have : η / T.N * T.y (T.N - 1) = η * T.y (T.N - 1) / T.N := by ring
      rw [this, le_div_iff₀ hNpos]
      have := mul_pos hη hY
      linarith
    linarith
  · have := hheight (T.N - 1) (by omega)
    rw [← h.R] at this
    have := mul_pos hη hY
    constructor <;> nlinarith
  · have := abs_le.mp h.base
    have e : (T.x T.N - T.R) * T.R - 1 = (T.x T.N - (T.R + 1 / T.R)) * T.R := by field_simp; ring
    have k1 := mul_le_mul_of_nonneg_right this.1 hRpos.le
    have k2 := mul_le_mul_of_nonneg_right this.2 hRpos.le
    constructor <;> linarith

lemma frandn_near : Near frandnTable (10 ^ (-13 : ℤ)) := by
  have hY : (1 : ℚ) / 1000 ≤ lit frandnY 63 := by decide +kernel
  have hY' : (1 : ℝ) / 1000 ≤ frandnTable.y (frandnTable.N - 1) := by
    show (1 : ℝ) / 1000 ≤ ((lit frandnY 63 : ℚ) : ℝ)
    have := (Rat.cast_le (K := ℝ)).mpr hY
    push_cast at this
    exact this
  have hR : ((frandnR : ℚ) / 10 ^ 44 : ℚ) ≤ 10 := by decide +kernel
  have hR' : frandnTable.R ≤ 10 := by
    show (((frandnR : ℚ) / 10 ^ 44 : ℚ) : ℝ) ≤ 10
    exact_mod_cast hR
  have hN : ((frandnTable.N : ℕ) : ℝ) = 64 := by simp [frandnTable]
  refine frandn_table.near (by positivity) (by positivity) (by norm_num) (by norm_num)
    (by linarith) ?_ ?_
  · rw [hN]; norm_num [zpow_neg]; linarith
  · norm_num [zpow_neg]; linarith

lemma drandn_near : Near drandnTable (10 ^ (-13 : ℤ)) := by
  have hY : (12 : ℚ) / 10000 ≤ lit drandnY 255 := by decide +kernel
  have hY' : (12 : ℝ) / 10000 ≤ drandnTable.y (drandnTable.N - 1) := by
    show (12 : ℝ) / 10000 ≤ ((lit drandnY 255 : ℚ) : ℝ)
    have := (Rat.cast_le (K := ℝ)).mpr hY
    push_cast at this
    exact this
  have hR : ((drandnR : ℚ) / 10 ^ 44 : ℚ) ≤ 10 := by decide +kernel
  have hR' : drandnTable.R ≤ 10 := by
    show (((drandnR : ℚ) / 10 ^ 44 : ℚ) : ℝ) ≤ 10
    exact_mod_cast hR
  have hN : ((drandnTable.N : ℕ) : ℝ) = 256 := by simp [drandnTable]
  refine drandn_table.near (by positivity) (by positivity) (by norm_num) (by norm_num)
    (by linarith) ?_ ?_
  · rw [hN]; norm_num [zpow_neg]; linarith
  · norm_num [zpow_neg]; linarith

instance : NeZero frandnTable.N := ⟨by simp [frandnTable]⟩
instance : NeZero drandnTable.N := ⟨by simp [drandnTable]⟩

/-- **C90.** With the table in the code, every event about the number that `frandn` returns has its probability under the
standard normal distribution, within the share 10^-12. -/
theorem frandn_law : Within (10 ^ (-12 : ℤ)) ((gaussianReal 0 1).prod (ideal 64))
    fun C => ideal 64 (returns frandnTable C) := by
  have := randn_near frandnTable _ frandn_near
  rwa [show (10 : ℝ) * 10 ^ (-13 : ℤ) = 10 ^ (-12 : ℤ) by norm_num] at this

/-- **C90.** The same for `drandn`. -/
theorem drandn_law : Within (10 ^ (-12 : ℤ)) ((gaussianReal 0 1).prod (ideal 256))
    fun C => ideal 256 (returns drandnTable C) := by
  have := randn_near drandnTable _ drandn_near
  rwa [show (10 : ℝ) * 10 ^ (-13 : ℤ) = 10 ^ (-12 : ℤ) by norm_num] at this

end Verif.Normal
