import Mathlib.Probability.ProductMeasure

/-! Streams of independent equally distributed values. -/
namespace Verif.Normal

open MeasureTheory Measure Set

variable {X : Type*} [MeasurableSpace X]

/-- Put a value in front of a stream. -/
def scons (a : X) (ω : ℕ → X) : ℕ → X
  | 0 => a
  | k + 1 => ω k

lemma measurable_scons : Measurable fun q : X × (ℕ → X) => scons q.1 q.2 := by
  rw [measurable_pi_iff]
  intro k
  cases k with
  | zero => exact measurable_fst
  | succ k => exact (measurable_pi_apply k).comp measurable_snd

lemma pi_enlarge (s : Finset ℕ) (t : ℕ → Set X) (n : ℕ) (hn : ∀ i ∈ s, i < n) :
    Set.pi (s : Set ℕ) t = Set.pi (Finset.range n : Set ℕ) fun i => if i ∈ s then t i else univ := by
  ext ω
  simp only [Set.mem_pi, Finset.mem_coe, Finset.mem_range]
  constructor
  · intro h i _
    split_ifs with hi
    · exact h i hi
    · trivial
  · intro h i hi
    have := h i (hn i hi)
    rwa [if_pos hi] at this

/-- The first value and the rest of a stream are independent, and the rest is a stream again. -/
lemma stream_cons (D : Measure X) [IsProbabilityMeasure D] :
    (D.prod (infinitePi fun _ : ℕ => D)).map (fun q => scons q.1 q.2) = infinitePi fun _ : ℕ => D := by
  classical
  apply eq_infinitePi
  intro s t ht
  obtain ⟨n, hn⟩ : ∃ n, ∀ i ∈ s, i < n + 1 := ⟨s.sup id, fun i hi => by
    have : id i ≤ s.sup id := Finset.le_sup hi
    simp only [id] at this; omega⟩
  rw [pi_enlarge s t (n + 1) hn, Measure.map_apply measurable_scons]
  · have hset : (fun q : X × (ℕ → X) => scons q.1 q.2) ⁻¹'
        (Set.pi (Finset.range (n + 1) : Set ℕ) fun i => if i ∈ s then t i else univ)
        = (if 0 ∈ s then t 0 else univ) ×ˢ
          (Set.pi (Finset.range n : Set ℕ) fun i => if i + 1 ∈ s then t (i + 1) else univ) := by
      ext ⟨a, ω⟩
      simp only [Set.mem_preimage, Set.mem_pi, Finset.mem_coe, Finset.mem_range, Set.mem_prod]
      constructor
      · intro h
        exact ⟨h 0 (by omega), fun i hi => h (i + 1) (by omega)⟩
      · rintro ⟨h0, h1⟩ i hi
        cases i with
        | zero => exact h0
        | succ i => exact h1 i (by omega)
    have hprod : ∏ i ∈ s, D (t i) = ∏ i ∈ Finset.range (n + 1), D (if i ∈ s then t i else univ) := by
      have hsub : s ⊆ Finset.range (n + 1) := fun i hi => Finset.mem_range.mpr (hn i hi)
      rw [← Finset.prod_subset hsub]
      · exact Finset.prod_congr rfl fun i hi => by rw [if_pos hi]
      · intro i _ hi
        rw [if_neg hi, measure_univ]
    rw [hset, Measure.prod_prod, hprod, Finset.prod_range_succ', mul_comm]
    congr 1
    rw [infinitePi_pi]
    intro i _
    split_ifs
    · exact ht _
    · exact MeasurableSet.univ
  · refine MeasurableSet.pi (Finset.countable_toSet _) fun i _ => ?_
    split_ifs
    · exact ht _
    · exact MeasurableSet.univ

/-- Integration over the first value and the rest. -/
lemma lintegral_stream (D : Measure X) [IsProbabilityMeasure D] (G : (ℕ → X) → ENNReal)
    (hG : Measurable G) :
    ∫⁻ ω, G ω ∂(infinitePi fun _ : ℕ => D)
      = ∫⁻ a, ∫⁻ ω, G (scons a ω) ∂(infinitePi fun _ : ℕ => D) ∂D := by
  conv_lhs => rw [← stream_cons D]
  rw [lintegral_map hG measurable_scons]
  exact lintegral_prod _ (hG.comp measurable_scons).aemeasurable

end Verif.Normal
