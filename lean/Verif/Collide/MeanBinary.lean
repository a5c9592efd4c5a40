import Verif.Collide.MeanProps

/-!
# C119 for the binary collision model: one pair
-/
namespace Verif.Collide
open Verif.Collision Verif.SortP MeasureTheory

variable {T : Type}

lemma integral_step' (ρ X Y : ℝ) (h0 : 0 ≤ ρ) (h1 : ρ ≤ 1) :
    ∫ r in (0 : ℝ)..1, (if r < ρ then Y else X) = ρ * Y + (1 - ρ) * X := by
  rw [← integral_step ρ X Y h0 h1]
  refine intervalIntegral.integral_congr_ae ?_
  have : ∀ᵐ r : ℝ, r ≠ ρ := by
    rw [ae_iff]
    simp
  filter_upwards [this] with r hr _
  rcases lt_or_gt_of_ne hr with h | h
  · rw [if_pos h, if_neg (not_lt.2 h.le)]
  · rw [if_neg (not_lt.2 h.le), if_pos h]

/-- The average of a sum over the particles after one collision. -/
lemma binPair_mean (E : Bin T ℝ) (F : Finset Loc) (mem : Mem T ℝ) (k l : ℕ) (b : ℝ × ℝ) (hk : (E.a, k) ∈ F)
    (hl : (E.b, l) ∈ F) (hne : (E.a, k) ≠ (E.b, l)) (wk : 0 ≤ (mem (E.a, k)).w) (wl : 0 ≤ (mem (E.b, l)).w)
    (h : ℕ → (Fin 3 → ℝ) → ℝ)
    (hf : h E.a (applyTransfer (E.m E.a) (E.m E.b) 3 (E.xfer b.1 b.2 fun i => (mem (E.a, k)).u i - (mem (E.b, l)).u i)
            (mem (E.a, k)).u (mem (E.b, l)).u).1 +
          h E.b (applyTransfer (E.m E.a) (E.m E.b) 3 (E.xfer b.1 b.2 fun i => (mem (E.a, k)).u i - (mem (E.b, l)).u i)
            (mem (E.a, k)).u (mem (E.b, l)).u).2 ≤ h E.a (mem (E.a, k)).u + h E.b (mem (E.b, l)).u) :
    ∫ r in (0 : ℝ)..1, obs h F (binPair E mem k l (updateType (mem (E.a, k)).w (mem (E.b, l)).w r) b) ≤ obs h F mem := by
  obtain ⟨p, hp⟩ : ∃ p, p = applyTransfer (E.m E.a) (E.m E.b) 3 (E.xfer b.1 b.2 fun i => (mem (E.a, k)).u i - (mem (E.b, l)).u i)
            (mem (E.a, k)).u (mem (E.b, l)).u := ⟨_, rfl⟩
  rw [← hp] at hf
  have e3 : binPair E mem k l 3 b = setU (setU mem (E.a, k) p.1) (E.b, l) p.2 := by
    rw [hp]
    unfold binPair applyTransfer
    simp only [Nat.reduceMod, Nat.reduceDiv, if_true]
    congr 1
    funext i
    congr 2
    unfold setU
    rw [if_neg (Ne.symm hne)]
  have e1 : binPair E mem k l 1 b = setU mem (E.a, k) p.1 := by
    rw [hp]
    unfold binPair applyTransfer
    simp
  have e2 : binPair E mem k l 2 b = setU mem (E.b, l) p.2 := by
    rw [hp]
    unfold binPair applyTransfer
    simp
  have o3 : obs h F (binPair E mem k l 3 b) = obs h F mem + (mem (E.a, k)).w * (h E.a p.1 - h E.a (mem (E.a, k)).u) +
      (mem (E.b, l)).w * (h E.b p.2 - h E.b (mem (E.b, l)).u) := by rw [e3, obs_pair h F mem _ _ hk hl hne]
  have o1 : obs h F (binPair E mem k l 1 b) = obs h F mem + (mem (E.a, k)).w * (h E.a p.1 - h E.a (mem (E.a, k)).u) := by
    rw [e1, obs_setU h F mem _ hk]
  have o2 : obs h F (binPair E mem k l 2 b) = obs h F mem + (mem (E.b, l)).w * (h E.b p.2 - h E.b (mem (E.b, l)).u) := by
    rw [e2, obs_setU h F mem _ hl]
  rcases lt_trichotomy (mem (E.a, k)).w (mem (E.b, l)).w with hlt | heq | hgt
  · have hpos : 0 < (mem (E.b, l)).w := lt_of_le_of_lt wk hlt
    have ht : ∀ r, obs h F (binPair E mem k l (updateType (mem (E.a, k)).w (mem (E.b, l)).w r) b) =
        if r < (mem (E.a, k)).w / (mem (E.b, l)).w then obs h F (binPair E mem k l 3 b) else obs h F (binPair E mem k l 1 b) := by
      intro r
      unfold updateType
      simp only
      rw [if_neg (not_lt.2 hlt.le), if_neg (not_lt.2 hlt.le), if_neg hlt.ne']
      have : r < (mem (E.a, k)).w / (mem (E.b, l)).w ↔ (mem (E.b, l)).w * r < (mem (E.a, k)).w := by
        rw [lt_div_iff₀ hpos, mul_comm]
      by_cases hr : r < (mem (E.a, k)).w / (mem (E.b, l)).w
      · rw [if_pos hr, if_pos (Or.inr (this.1 hr))]
      · rw [if_neg hr, if_neg]
        rintro (h | h)
        · exact hlt.ne' h
        · exact hr (this.2 h)
    simp only [ht]
    rw [integral_step' _ _ _ (div_nonneg wk wl) ((div_le_one hpos).2 hlt.le), o3, o1]
    have e : (mem (E.a, k)).w / (mem (E.b, l)).w * (mem (E.b, l)).w = (mem (E.a, k)).w := div_mul_cancel₀ _ hpos.ne'
    have h2 := mul_nonneg wk (sub_nonneg.2 hf)
    generalize (mem (E.a, k)).w / (mem (E.b, l)).w = ρ at e
    rw [← e] at h2 ⊢
    nlinarith
  · have ht : ∀ r, updateType (mem (E.a, k)).w (mem (E.b, l)).w r = 3 := fun r =>
      (lighter_updated (mem (E.a, k)).w (mem (E.b, l)).w r).2.2 heq
    simp only [ht]
    rw [o3, ← heq, intervalIntegral.integral_const]
    have h2 := mul_nonneg wk (sub_nonneg.2 hf)
    simp only [sub_zero, one_smul]
    nlinarith
  · have hpos : 0 < (mem (E.a, k)).w := lt_of_le_of_lt wl hgt
    have ht : ∀ r, obs h F (binPair E mem k l (updateType (mem (E.a, k)).w (mem (E.b, l)).w r) b) =
        if r < (mem (E.b, l)).w / (mem (E.a, k)).w then obs h F (binPair E mem k l 3 b) else obs h F (binPair E mem k l 2 b) := by
      intro r
      unfold updateType
      simp only
      rw [if_pos hgt, if_pos hgt, if_pos rfl]
      have : r < (mem (E.b, l)).w / (mem (E.a, k)).w ↔ (mem (E.a, k)).w * r < (mem (E.b, l)).w := by
        rw [lt_div_iff₀ hpos, mul_comm]
      by_cases hr : r < (mem (E.b, l)).w / (mem (E.a, k)).w
      · rw [if_pos hr, if_pos (Or.inr (this.1 hr))]
      · rw [if_neg hr, if_neg]
        rintro (h | h)
        · exact hgt.ne' h
        · exact hr (this.2 h)
    simp only [ht]
    rw [integral_step' _ _ _ (div_nonneg wl wk) ((div_le_one hpos).2 hgt.le), o3, o2]
    have e : (mem (E.b, l)).w / (mem (E.a, k)).w * (mem (E.a, k)).w = (mem (E.b, l)).w := div_mul_cancel₀ _ hpos.ne'
    have h2 := mul_nonneg wl (sub_nonneg.2 hf)
    generalize (mem (E.b, l)).w / (mem (E.a, k)).w = ρ at e
    rw [← e] at h2 ⊢
    nlinarith

/-- **C119, binary model.**  One collision of two different particles of any weights in the hard sphere or large angle
Coulomb model: averaged over the number that decides whether the heavier particle is scattered, momentum and energy are
conserved. -/
theorem binary_pair_mean (E : Bin T ℝ) (eps : ℝ) (rt : ℝ → ℝ) (hrt : IsSqrt rt) (heps : 0 ≤ eps)
    (ha : 0 < E.m E.a) (hb : 0 < E.m E.b) (cc : ℝ) (hker : E.xfer = hsTransfer rt eps ∨ E.xfer = lacTransfer rt eps cc)
    (F : Finset Loc) (mem : Mem T ℝ) (k l : ℕ) (b : ℝ × ℝ) (hdisc : b.1 * b.1 + b.2 * b.2 < 1) (hk : (E.a, k) ∈ F)
    (hl : (E.b, l) ∈ F) (hne : (E.a, k) ≠ (E.b, l)) (wk : 0 ≤ (mem (E.a, k)).w) (wl : 0 ≤ (mem (E.b, l)).w) :
    (∀ i, ∫ r in (0 : ℝ)..1, momAt E.m F (binPair E mem k l (updateType (mem (E.a, k)).w (mem (E.b, l)).w r) b) i =
      momAt E.m F mem i) ∧
    ∫ r in (0 : ℝ)..1, enAt E.m F (binPair E mem k l (updateType (mem (E.a, k)).w (mem (E.b, l)).w r) b) ≤ enAt E.m F mem ∧
    (eps = 0 → ∫ r in (0 : ℝ)..1, enAt E.m F (binPair E mem k l (updateType (mem (E.a, k)).w (mem (E.b, l)).w r) b) =
      enAt E.m F mem) := by
  have hE : E.Ok eps := by
    rcases hker with h | h
    · exact hardSphere_ok E rt hrt eps heps ha hb h
    · exact largeAngle_ok E rt hrt eps cc heps ha hb h
  obtain ⟨c1, c2, c3⟩ := hE.kernel b.1 b.2 (mem (E.a, k)).u (mem (E.b, l)).u hdisc
  have cm : ∀ (x : Mem T ℝ) i, momAt E.m F x i = obs (fun c u => E.m c * u i) F x := by
    intro x i
    unfold momAt obs
    exact Finset.sum_congr rfl fun l _ => by ring
  have ce : ∀ x : Mem T ℝ, enAt E.m F x = obs (fun c u => E.m c * (u 0 ^ 2 + u 1 ^ 2 + u 2 ^ 2)) F x := by
    intro x
    unfold enAt obs
    exact Finset.sum_congr rfl fun l _ => by ring
  have main := binPair_mean E F mem k l b hk hl hne wk wl
  have neg : ∀ h : ℕ → (Fin 3 → ℝ) → ℝ, h E.a (mem (E.a, k)).u + h E.b (mem (E.b, l)).u ≤
      h E.a (applyTransfer (E.m E.a) (E.m E.b) 3 (E.xfer b.1 b.2 fun i => (mem (E.a, k)).u i - (mem (E.b, l)).u i)
            (mem (E.a, k)).u (mem (E.b, l)).u).1 +
          h E.b (applyTransfer (E.m E.a) (E.m E.b) 3 (E.xfer b.1 b.2 fun i => (mem (E.a, k)).u i - (mem (E.b, l)).u i)
            (mem (E.a, k)).u (mem (E.b, l)).u).2 →
      obs h F mem ≤ ∫ r in (0 : ℝ)..1, obs h F (binPair E mem k l (updateType (mem (E.a, k)).w (mem (E.b, l)).w r) b) := by
    intro h hf
    have := main (fun c u => -h c u) (by linarith)
    simp only [obs_neg, intervalIntegral.integral_neg] at this
    linarith
  simp only [energy] at c2 c3
  simp only [cm, ce]
  refine ⟨fun i => ?_, main _ c2, fun h0 => le_antisymm (main _ c2) (neg _ ?_)⟩
  · have := congrFun c1 i
    simp only [momentum] at this
    exact le_antisymm (main _ this.le) (neg _ this.ge)
  · rw [h0] at c3
    simp only [mul_zero, sub_zero] at c3
    exact c3

end Verif.Collide
