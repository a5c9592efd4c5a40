import Verif.Normal.Law
import Mathlib.Probability.Distributions.Exponential

/-!
# C90: normal and exponential random numbers
-/
namespace Verif.Normal

open MeasureTheory Measure Set ENNReal ProbabilityTheory

/-! ## More trips do not change a result -/

lemma randn_mono (T : Table) (n m : ℕ) (hnm : n ≤ m) (ω : Raws T.N) (z : ℝ × Raws T.N)
    (h : randn T n ω = some z) : randn T m ω = some z := by
  induction n generalizing m ω with
  | zero => simp [randn] at h
  | succ n ih =>
    obtain ⟨m, rfl⟩ : ∃ m', m = m' + 1 := ⟨m - 1, by omega⟩
    rw [randn] at h ⊢
    cases ht : (trip T ω).1 with
    | some x =>
      have e : trip T ω = (some x, (trip T ω).2) := by rw [← ht]
      rw [e] at h ⊢
      exact h
    | none =>
      have e : trip T ω = (none, (trip T ω).2) := by rw [← ht]
      rw [e] at h ⊢
      exact ih m (by omega) _ h

lemma fill_mono (T : Table) (n m : ℕ) (hnm : n ≤ m) (k : ℕ) (ω : Raws T.N)
    (z : (Fin k → ℝ) × Raws T.N) (h : fill T n k ω = some z) : fill T m k ω = some z := by
  induction k generalizing ω with
  | zero => exact h
  | succ k ih =>
    simp only [fill, Option.bind_eq_some_iff, Option.map_eq_some_iff] at h ⊢
    obtain ⟨q, hq, l, hl, rfl⟩ := h
    exact ⟨q, randn_mono T n m hnm ω q hq, l, ih _ _ hl, rfl⟩

/-! ## Measurability -/

/-- The result, or `d` if there is none. -/
noncomputable def res (T : Table) (d : ℝ × Raws T.N) (n : ℕ) (ω : Raws T.N) : ℝ × Raws T.N :=
  (randn T n ω).getD d

lemma res_succ (T : Table) (d : ℝ × Raws T.N) (n : ℕ) (ω : Raws T.N) :
    res T d (n + 1) ω =
      if (ω 0).2.2 * T.x ((ω 0).2.1 + 1) < T.x (ω 0).2.1 then
        (sgn (ω 0).1 * ((ω 0).2.2 * T.x ((ω 0).2.1 + 1)), next ω)
      else if ((ω 0).2.1 : ℕ) ≠ T.N - 1 then
        if T.y (ω 0).2.1 + (T.y ((ω 0).2.1 + 1) - T.y (ω 0).2.1) * (ω 1).2.2
          < bell ((ω 0).2.2 * T.x ((ω 0).2.1 + 1)) then
          (sgn (ω 0).1 * ((ω 0).2.2 * T.x ((ω 0).2.1 + 1)), next (next ω))
        else res T d n (next (next ω))
      else if (ω 1).2.2 * Real.exp (-T.R * ((T.R - (1 / T.R) * Real.log (ω 2).2.2) - (1 / 2) * T.R))
          < bell (T.R - (1 / T.R) * Real.log (ω 2).2.2) then
          (sgn (ω 0).1 * (T.R - (1 / T.R) * Real.log (ω 2).2.2), next (next (next ω)))
        else res T d n (next (next (next ω))) := by
  unfold res
  rw [randn, trip]
  dsimp only
  by_cases h1 : (ω 0).2.2 * T.x ((ω 0).2.1 + 1) < T.x (ω 0).2.1
  · simp only [h1, if_true, Option.getD_some]
  · simp only [h1, if_false]
    by_cases h2 : ((ω 0).2.1 : ℕ) ≠ T.N - 1
    · rw [if_pos h2, if_pos h2]
      by_cases h3 : T.y (ω 0).2.1 + (T.y ((ω 0).2.1 + 1) - T.y (ω 0).2.1) * (ω 1).2.2
          < bell ((ω 0).2.2 * T.x ((ω 0).2.1 + 1))
      · rw [if_pos h3]
        have h3' := h3
        unfold bell at h3'
        simp only [next, zero_add, h3', if_true, Option.getD_some]
      · rw [if_neg h3]
        have h3' := h3
        unfold bell at h3'
        simp only [next, zero_add, h3', if_false]
    · rw [if_neg h2, if_neg h2]
      by_cases h3 : (ω 1).2.2 * Real.exp (-T.R * ((T.R - (1 / T.R) * Real.log (ω 2).2.2) - (1 / 2) * T.R))
          < bell (T.R - (1 / T.R) * Real.log (ω 2).2.2)
      · rw [if_pos h3]
        have h3' := h3
        unfold bell at h3'
        simp only [next, zero_add, Nat.reduceAdd, h3', if_true, Option.getD_some]
      · rw [if_neg h3]
        have h3' := h3
        unfold bell at h3'
        simp only [next, zero_add, Nat.reduceAdd, h3', if_false]

lemma measurable_res (T : Table) (d : ℝ × Raws T.N) (n : ℕ) : Measurable (res T d n) := by
  induction n with
  | zero => exact measurable_const
  | succ n ih =>
    have hx1 : Measurable fun i : Fin T.N => T.x (i + 1) := Measurable.of_discrete
    have hx : Measurable fun i : Fin T.N => T.x i := Measurable.of_discrete
    have hy1 : Measurable fun i : Fin T.N => T.y (i + 1) := Measurable.of_discrete
    have hy : Measurable fun i : Fin T.N => T.y i := Measurable.of_discrete
    have e (k : ℕ) : Measurable fun ω : Raws T.N => ω k := measurable_pi_apply k
    have eI : Measurable fun ω : Raws T.N => (ω 0).2.1 := measurable_fst.comp (measurable_snd.comp (e 0))
    have eF (k : ℕ) : Measurable fun ω : Raws T.N => (ω k).2.2 :=
      measurable_snd.comp (measurable_snd.comp (e k))
    have hX : Measurable fun ω : Raws T.N => (ω 0).2.2 * T.x ((ω 0).2.1 + 1) :=
      (eF 0).mul (hx1.comp eI)
    have hs : Measurable fun ω : Raws T.N => sgn (ω 0).1 :=
      measurable_sgn.comp (measurable_fst.comp (e 0))
    have hT : Measurable fun ω : Raws T.N => T.R - (1 / T.R) * Real.log (ω 2).2.2 := by
      have := Real.measurable_log.comp (eF 2)
      exact measurable_const.sub (this.const_mul _)
    rw [funext (res_succ T d n)]
    refine Measurable.ite (measurableSet_lt hX (hx.comp eI)) ((hs.mul hX).prodMk measurable_next) ?_
    refine Measurable.ite ?_ ?_ ?_
    · exact eI (MeasurableSet.of_discrete (s := {i : Fin T.N | (i : ℕ) ≠ T.N - 1}))
    · refine Measurable.ite (measurableSet_lt ?_ (measurable_bell.comp hX))
        ((hs.mul hX).prodMk (measurable_next.comp measurable_next))
        (ih.comp (measurable_next.comp measurable_next))
      exact (hy.comp eI).add (((hy1.comp eI).sub (hy.comp eI)).mul (eF 1))
    · refine Measurable.ite (measurableSet_lt ?_ (measurable_bell.comp hT))
        ((hs.mul hT).prodMk (measurable_next.comp (measurable_next.comp measurable_next)))
        (ih.comp (measurable_next.comp (measurable_next.comp measurable_next)))
      exact (eF 1).mul (Real.measurable_exp.comp ((hT.sub measurable_const).const_mul _))

lemma measurableSet_done (T : Table) (n : ℕ) : MeasurableSet {ω : Raws T.N | ∃ z, randn T n ω = some z} := by
  have h := measurable_hit T n (fun _ => 1) measurable_const
  have : {ω : Raws T.N | ∃ z, randn T n ω = some z} = hit T n (fun _ => 1) ⁻¹' {1} := by
    ext ω
    simp only [mem_setOf_eq, mem_preimage, mem_singleton_iff, hit]
    cases h : randn T n ω <;> simp
  rw [this]
  exact h (measurableSet_singleton 1)

/-- Events about a result within `n` trips and a parameter are measurable. -/
lemma measurableSet_randn (T : Table) [NeZero T.N] {Y : Type*} [MeasurableSpace Y] (n : ℕ)
    (C : Set (Y × (ℝ × Raws T.N))) (hC : MeasurableSet C) :
    MeasurableSet {q : Y × Raws T.N | ∃ z, randn T n q.2 = some z ∧ (q.1, z) ∈ C} := by
  let d : ℝ × Raws T.N := (0, fun _ => (false, 0, 0))
  have : {q : Y × Raws T.N | ∃ z, randn T n q.2 = some z ∧ (q.1, z) ∈ C}
      = (Prod.snd ⁻¹' {ω : Raws T.N | ∃ z, randn T n ω = some z}) ∩
        ((fun q : Y × Raws T.N => (q.1, res T d n q.2)) ⁻¹' C) := by
    ext ⟨y, ω⟩
    simp only [mem_setOf_eq, mem_inter_iff, mem_preimage, res]
    constructor
    · rintro ⟨z, hz, hC⟩
      exact ⟨⟨z, hz⟩, by rw [hz]; exact hC⟩
    · rintro ⟨⟨z, hz⟩, hC⟩
      rw [hz] at hC
      exact ⟨z, hz, hC⟩
  rw [this]
  exact (measurable_snd (measurableSet_done T n)).inter
    ((measurable_fst.prodMk ((measurable_res T d n).comp measurable_snd)) hC)

/-- Specification: some number of trips gives a result in `C`. -/
def returns (T : Table) (C : Set (ℝ × Raws T.N)) : Set (Raws T.N) :=
  {ω | ∃ fuel z, randn T fuel ω = some z ∧ z ∈ C}

lemma measure_within (T : Table) (h : Exact T) [NeZero T.N] (C : Set (ℝ × Raws T.N))
    (hC : MeasurableSet C) (n : ℕ) :
    ideal T.N {ω | ∃ z, randn T n ω = some z ∧ z ∈ C}
      + T.q ^ n * ((gaussianReal 0 1).prod (ideal T.N)) C = ((gaussianReal 0 1).prod (ideal T.N)) C := by
  have h1 := lintegral_hit T h n (C.indicator fun _ => 1) (measurable_const.indicator hC)
    (fun z => indicator_le_self' (fun _ _ => by simp) z)
  have hone : ∀ {X : Type} [MeasurableSpace X] (μ : Measure X) (A : Set X), MeasurableSet A →
      ∫⁻ z, A.indicator (fun _ => (1 : ℝ≥0∞)) z ∂μ = μ A := by
    intro X _ μ A hA
    rw [lintegral_indicator hA, setLIntegral_one]
  rw [hone _ _ hC] at h1
  have h2 : hit T n (C.indicator fun _ => 1)
      = {ω | ∃ z, randn T n ω = some z ∧ z ∈ C}.indicator fun _ => 1 := by
    funext ω
    unfold hit
    cases hr : randn T n ω with
    | none => simp [indicator_apply, hr]
    | some z =>
      have hiff : ω ∈ {ω | ∃ z, randn T n ω = some z ∧ z ∈ C} ↔ z ∈ C := by
        rw [mem_setOf_eq, hr]
        constructor
        · rintro ⟨z', hz, hc⟩
          rw [Option.some.injEq] at hz
          exact hz ▸ hc
        · intro hc; exact ⟨z, rfl, hc⟩
      by_cases hz : z ∈ C
      · rw [indicator_of_mem (hiff.mpr hz)]
        exact indicator_of_mem hz _
      · rw [indicator_of_notMem (fun hc => hz (hiff.mp hc))]
        exact indicator_of_notMem hz _
  have hm : MeasurableSet {ω : Raws T.N | ∃ z, randn T n ω = some z ∧ z ∈ C} := by
    have := measurableSet_randn T (Y := Unit) n (Prod.snd ⁻¹' C) (measurable_snd hC)
    exact (measurable_const.prodMk measurable_id : Measurable fun ω : Raws T.N => ((), ω)) this
  rw [h2, hone _ _ hm] at h1
  exact h1

/-- **C90.** With an exact table and a generator of independent uniform raw numbers, the number that
`frandn`/`drandn` returns is standard normal, and the generator it leaves behind again gives
independent uniform raw numbers, independent of the number. -/
theorem randn_normal (T : Table) (h : Exact T) [NeZero T.N] (C : Set (ℝ × Raws T.N))
    (hC : MeasurableSet C) :
    ideal T.N (returns T C) = ((gaussianReal 0 1).prod (ideal T.N)) C := by
  have hU : returns T C = ⋃ n, {ω | ∃ z, randn T n ω = some z ∧ z ∈ C} := by
    ext ω; simp [returns]
  have hmono : Monotone fun n => {ω : Raws T.N | ∃ z, randn T n ω = some z ∧ z ∈ C} := by
    rintro n m hnm ω ⟨z, hz, hc⟩
    exact ⟨z, randn_mono T n m hnm ω z hz, hc⟩
  set G := ((gaussianReal 0 1).prod (ideal T.N)) C with hG
  have hGfin : G ≠ ⊤ := measure_ne_top _ _
  have l1 := tendsto_measure_iUnion_atTop (μ := ideal T.N) hmono
  rw [← hU] at l1
  have l2 : Filter.Tendsto (fun n => T.q ^ n * G) Filter.atTop (nhds 0) := by
    have := ENNReal.Tendsto.mul_const (b := G)
      (ENNReal.tendsto_pow_atTop_nhds_zero_of_lt_one (q_lt_one T h)) (Or.inr hGfin)
    rwa [zero_mul] at this
  have l3 := l1.add l2
  rw [add_zero] at l3
  have l4 : Filter.Tendsto (fun _ : ℕ => G) Filter.atTop (nhds (ideal T.N (returns T C))) := by
    refine l3.congr fun n => ?_
    exact measure_within T h C hC n
  exact tendsto_nhds_unique l4 tendsto_const_nhds |>.symm ▸ rfl

/-- **C90.** The loop of `frandn`/`drandn` ends with probability one; more than `n` trips are needed
with probability `(1 - p)^n`, `p = √(2π) / (2 N v)`, `v` the area of half a strip. -/
theorem randn_ends (T : Table) (h : Exact T) [NeZero T.N] :
    (∀ᵐ ω ∂(ideal T.N), ∃ fuel z, randn T fuel ω = some z) ∧
    ∀ n, ideal T.N {ω | randn T n ω = none}
      = ENNReal.ofReal (1 - Real.sqrt (2 * Real.pi) / (2 * T.N * (T.x T.N * T.y (T.N - 1)))) ^ n := by
  constructor
  · have h1 := randn_normal T h univ MeasurableSet.univ
    rw [measure_univ] at h1
    have h2 : MeasurableSet (returns T univ) := by
      have : returns T univ = ⋃ n, {ω | ∃ z, randn T n ω = some z} := by ext ω; simp [returns]
      rw [this]
      exact MeasurableSet.iUnion fun n => measurableSet_done T n
    have h3 := (prob_compl_eq_zero_iff h2).mpr h1
    rw [ae_iff]
    convert h3 using 2
    ext ω
    simp [returns]
  · intro n
    have h1 := measure_within T h univ MeasurableSet.univ n
    rw [measure_univ, mul_one] at h1
    have h2 := prob_compl_eq_one_sub (μ := ideal T.N) (measurableSet_done T n)
    have h3 : {ω : Raws T.N | randn T n ω = none} = {ω | ∃ z, randn T n ω = some z}ᶜ := by
      ext ω
      simp only [mem_setOf_eq, mem_compl_iff]
      cases randn T n ω <;> simp
    have h4 : {ω : Raws T.N | ∃ z, randn T n ω = some z ∧ z ∈ univ} = {ω | ∃ z, randn T n ω = some z} := by
      ext ω; simp
    rw [h4] at h1
    rw [h3, h2, ← h1, ENNReal.add_sub_cancel_left (measure_ne_top _ _), q_eq T h]
    rfl

/-! ## Several numbers -/

/-- Events about `k` numbers and a parameter are measurable. -/
lemma measurableSet_fill (T : Table) [NeZero T.N] (k : ℕ) :
    ∀ {Y : Type} [MeasurableSpace Y] (C : Set (Y × ((Fin k → ℝ) × Raws T.N))), MeasurableSet C →
    MeasurableSet {q : Y × Raws T.N | ∃ fuel z, fill T fuel k q.2 = some z ∧ (q.1, z) ∈ C} := by
  induction k with
  | zero =>
    intro Y _ C hC
    have : {q : Y × Raws T.N | ∃ fuel z, fill T fuel 0 q.2 = some z ∧ (q.1, z) ∈ C}
        = (fun q : Y × Raws T.N => (q.1, ((Fin.elim0 : Fin 0 → ℝ), q.2))) ⁻¹' C := by
      ext q; simp [fill]
    rw [this]
    exact (measurable_fst.prodMk (measurable_const.prodMk measurable_snd)) hC
  | succ k ih =>
    intro Y _ C hC
    let C1 : Set ((Y × ℝ) × ((Fin k → ℝ) × Raws T.N)) :=
      (fun q => (q.1.1, ((Fin.cons q.1.2 q.2.1 : Fin (k + 1) → ℝ), q.2.2))) ⁻¹' C
    have hcons : Measurable fun q : (Y × ℝ) × ((Fin k → ℝ) × Raws T.N) =>
        (Fin.cons q.1.2 q.2.1 : Fin (k + 1) → ℝ) := by
      rw [measurable_pi_iff]
      intro a
      refine Fin.cases ?_ (fun a => ?_) a
      · simp only [Fin.cons_zero]; fun_prop
      · simp only [Fin.cons_succ]; fun_prop
    have hC1 : MeasurableSet C1 :=
      ((measurable_fst.comp measurable_fst).prodMk (hcons.prodMk (measurable_snd.comp measurable_snd))) hC
    have hC2 := ih C1 hC1
    let C3 : Set (Y × (ℝ × Raws T.N)) := (fun q => ((q.1, q.2.1), q.2.2)) ⁻¹'
      {q : (Y × ℝ) × Raws T.N | ∃ fuel z, fill T fuel k q.2 = some z ∧ (q.1, z) ∈ C1}
    have hC3 : MeasurableSet C3 :=
      ((measurable_fst.prodMk (measurable_fst.comp measurable_snd)).prodMk
        (measurable_snd.comp measurable_snd)) hC2
    have : {q : Y × Raws T.N | ∃ fuel z, fill T fuel (k + 1) q.2 = some z ∧ (q.1, z) ∈ C}
        = ⋃ n, {q : Y × Raws T.N | ∃ z, randn T n q.2 = some z ∧ (q.1, z) ∈ C3} := by
      ext ⟨y, ω⟩
      simp only [mem_setOf_eq, mem_iUnion, C3, C1, mem_preimage]
      constructor
      · rintro ⟨n, z, hz, hc⟩
        simp only [fill, Option.bind_eq_some_iff, Option.map_eq_some_iff] at hz
        obtain ⟨q, hq, l, hl, rfl⟩ := hz
        exact ⟨n, q, hq, n, l, hl, hc⟩
      · rintro ⟨n, q, hq, m, l, hl, hc⟩
        refine ⟨max n m, (Fin.cons q.1 l.1, l.2), ?_, hc⟩
        simp only [fill, Option.bind_eq_some_iff, Option.map_eq_some_iff]
        exact ⟨q, randn_mono T n _ (le_max_left _ _) ω q hq, l,
          fill_mono T m _ (le_max_right _ _) k _ _ hl, rfl⟩
    rw [this]
    exact MeasurableSet.iUnion fun n => measurableSet_randn T n C3 hC3

/-- **C90.** The numbers that `frandn_fill`/`drandn_fill` writes, and so any number of consecutive
normal numbers of a generator, are independent and standard normal, whatever the loop of each of them
consumes; the generator left behind is independent of all of them. -/
theorem fill_normal (T : Table) (h : Exact T) [NeZero T.N] (k : ℕ)
    (C : Set ((Fin k → ℝ) × Raws T.N)) (hC : MeasurableSet C) :
    ideal T.N {ω | ∃ fuel z, fill T fuel k ω = some z ∧ z ∈ C}
      = ((Measure.pi fun _ : Fin k => gaussianReal 0 1).prod (ideal T.N)) C := by
  induction k with
  | zero =>
    have e : {ω : Raws T.N | ∃ fuel z, fill T fuel 0 ω = some z ∧ z ∈ C}
        = Prod.mk (Fin.elim0 : Fin 0 → ℝ) ⁻¹' C := by
      ext ω; simp [fill]
    rw [e, Measure.prod_apply hC]
    have : (Measure.pi fun _ : Fin 0 => gaussianReal 0 1) = dirac (Fin.elim0 : Fin 0 → ℝ) :=
      Measure.pi_of_empty _ _
    rw [this, lintegral_dirac' _ (measurable_measure_prodMk_left hC)]
  | succ k ih =>
    let C1 : Set (ℝ × ((Fin k → ℝ) × Raws T.N)) :=
      (fun q => ((Fin.cons q.1 q.2.1 : Fin (k + 1) → ℝ), q.2.2)) ⁻¹' C
    have hcons : Measurable fun q : ℝ × (Fin k → ℝ) => (Fin.cons q.1 q.2 : Fin (k + 1) → ℝ) := by
      rw [measurable_pi_iff]
      intro a
      refine Fin.cases ?_ (fun a => ?_) a
      · simp only [Fin.cons_zero]; fun_prop
      · simp only [Fin.cons_succ]; fun_prop
    have hC1 : MeasurableSet C1 :=
      ((hcons.comp (measurable_fst.prodMk (measurable_fst.comp measurable_snd))).prodMk
        (measurable_snd.comp measurable_snd)) hC
    let C2 : Set (ℝ × Raws T.N) :=
      {q | ∃ fuel z, fill T fuel k q.2 = some z ∧ (q.1, z) ∈ C1}
    have hC2 : MeasurableSet C2 := measurableSet_fill T k C1 hC1
    have e : {ω : Raws T.N | ∃ fuel z, fill T fuel (k + 1) ω = some z ∧ z ∈ C} = returns T C2 := by
      ext ω
      simp only [mem_setOf_eq, returns, C2, C1, mem_preimage]
      constructor
      · rintro ⟨n, z, hz, hc⟩
        simp only [fill, Option.bind_eq_some_iff, Option.map_eq_some_iff] at hz
        obtain ⟨q, hq, l, hl, rfl⟩ := hz
        exact ⟨n, q, hq, n, l, hl, hc⟩
      · rintro ⟨n, q, hq, m, l, hl, hc⟩
        refine ⟨max n m, (Fin.cons q.1 l.1, l.2), ?_, hc⟩
        simp only [fill, Option.bind_eq_some_iff, Option.map_eq_some_iff]
        exact ⟨q, randn_mono T n _ (le_max_left _ _) ω q hq, l,
          fill_mono T m _ (le_max_right _ _) k _ _ hl, rfl⟩
    rw [e, randn_normal T h C2 hC2, Measure.prod_apply hC2]
    have hx : ∀ x, ideal T.N (Prod.mk x ⁻¹' C2)
        = ((Measure.pi fun _ : Fin k => gaussianReal 0 1).prod (ideal T.N)) (Prod.mk x ⁻¹' C1) :=
      fun x => ih (Prod.mk x ⁻¹' C1) (measurable_prodMk_left hC1)
    simp only [hx]
    rw [← Measure.prod_apply hC1]
    have mp := (measurePreserving_piFinSuccAbove (fun _ : Fin (k + 1) => gaussianReal 0 1) 0).symm
    have mp2 : MeasurePreserving (fun q : ℝ × (Fin k → ℝ) => (Fin.cons q.1 q.2 : Fin (k + 1) → ℝ))
        ((gaussianReal 0 1).prod (Measure.pi fun _ : Fin k => gaussianReal 0 1))
        (Measure.pi fun _ : Fin (k + 1) => gaussianReal 0 1) := by
      convert mp using 1
      funext q
      simp [MeasurableEquiv.piFinSuccAbove, Fin.insertNthEquiv, Fin.insertNth_zero]
    have mp3 := mp2.prod (MeasurePreserving.id (ideal T.N))
    have ha := (measurePreserving_prodAssoc (gaussianReal 0 1)
      (Measure.pi fun _ : Fin k => gaussianReal 0 1) (ideal T.N)).symm
    have hb := mp3.comp ha
    rw [← hb.measure_preimage hC.nullMeasurableSet]
    rfl

/-! ## Exponential numbers -/

/-- **C90.** `frande`/`drande` of a uniform number in (0,1] is exponential with mean one. -/
theorem rande_exponential : unif.map rande = expMeasure 1 := by
  ext A hA
  have hm : Measurable rande := by unfold rande; fun_prop
  have himg : (fun x : ℝ => Real.exp (-x)) '' Ici 0 = Ioc 0 1 := by
    ext w
    constructor
    · rintro ⟨x, hx, rfl⟩
      rw [mem_Ici] at hx
      exact ⟨Real.exp_pos _, Real.exp_le_one_iff.mpr (by linarith)⟩
    · rintro ⟨h0, h1⟩
      refine ⟨-Real.log w, ?_, ?_⟩
      · have := Real.log_nonpos h0.le h1
        rw [mem_Ici]; linarith
      · simp [Real.exp_log h0]
  have h := lintegral_image_eq_lintegral_abs_deriv_mul (s := Ici (0 : ℝ))
    (f := fun x => Real.exp (-x)) (f' := fun x => Real.exp (-x) * (-1))
    measurableSet_Ici (fun x _ => (hasDerivAt_neg x).exp.hasDerivWithinAt)
    (fun a _ b _ hab => neg_injective (Real.exp_injective hab))
    (A.indicator (fun _ => 1) ∘ rande)
  rw [himg] at h
  rw [Measure.map_apply hm hA]
  have h1 : unif (rande ⁻¹' A) = ∫⁻ w in Ioc (0 : ℝ) 1, (A.indicator (fun _ => 1) ∘ rande) w := by
    have : (A.indicator (fun _ => (1 : ℝ≥0∞)) ∘ rande) = (rande ⁻¹' A).indicator fun _ => 1 := by
      rfl
    rw [this, lintegral_indicator (hm hA), setLIntegral_one]
    rfl
  rw [h1, h]
  unfold expMeasure gammaMeasure
  rw [withDensity_apply _ hA, ← lintegral_indicator hA, ← lintegral_indicator measurableSet_Ici]
  refine lintegral_congr fun x => ?_
  have hpdf : gammaPDF 1 1 x = ENNReal.ofReal (if 0 ≤ x then Real.exp (-x) else 0) := by
    have := exponentialPDF_eq 1 x
    simp only [one_mul] at this
    exact this
  by_cases hx : 0 ≤ x
  · by_cases hxA : x ∈ A
    · simp [hx, hxA, hpdf, rande]
    · simp [hx, hxA, hpdf, rande]
  · by_cases hxA : x ∈ A
    · simp [hx, hxA, hpdf, rande]
    · simp [hx, hxA, hpdf, rande]

end Verif.Normal
