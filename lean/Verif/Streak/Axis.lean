import Verif.Streak.Lemmas

/-!
# Streaks with rounding: one axis, both directions, and the choice of the axis
-/
namespace Verif.Streak
open Verif.Place

lemma log_double {r : ℚ} (h : 0 < r) : Int.log 2 (r * 2) = Int.log 2 r + 1 := by
  have h1 := Int.zpow_log_le_self (b := 2) (by norm_num) h
  have h2 := Int.lt_zpow_succ_log_self (b := 2) (by norm_num) r
  push_cast at h1 h2
  have hr : 0 < r * 2 := by linarith
  apply le_antisymm
  · have : Int.log 2 (r * 2) < Int.log 2 r + 1 + 1 := by
      rw [← Int.lt_zpow_iff_log_lt (by norm_num) hr]
      push_cast
      rw [zpow_add₀ (by norm_num : (2 : ℚ) ≠ 0) _ 1, zpow_one]
      linarith
    omega
  · rw [← Int.zpow_le_iff_le_log (by norm_num) hr]
    push_cast
    rw [zpow_add₀ (by norm_num : (2 : ℚ) ≠ 0) _ 1, zpow_one]
    linarith

lemma r_two (y : ℚ) : rnd32 (y * 2) = rnd32 y * 2 := by
  by_cases h : y = 0
  · simp [h, r_zero]
  · have hu : unitB 23 (y * 2) = unitB 23 y * 2 := by
      unfold unitB
      rw [abs_mul, abs_of_pos (by norm_num : (0 : ℚ) < 2), log_double (abs_pos.mpr h),
        show Int.log 2 |y| + 1 - ((23 : ℕ) : ℤ) = Int.log 2 |y| - ((23 : ℕ) : ℤ) + 1 by ring, zpow_add₀ (by norm_num), zpow_one]
    unfold rnd32 rndB
    rw [if_neg h, if_neg (mul_ne_zero h (by norm_num)), hu, mul_div_mul_right _ _ (by norm_num : (2 : ℚ) ≠ 0)]
    ring

/-- The offset after a streak of length `v`. -/
def nx (x d v : ℚ) : ℚ := rnd32 (x + rnd32 (part d v + part d v))

/-- The displacement left. -/
def nd (d v : ℚ) : ℚ := rnd32 (d - part d v)

lemma part_eq {d v : ℚ} (hv : rnd32 v = v) : part d v = rnd32 (d * (v * (1 / 2))) := by unfold part; rw [r_half hv]

lemma part_twice {d v : ℚ} (hv : rnd32 v = v) : rnd32 (part d v + part d v) = rnd32 (d * v) := by
  have h1 : rnd32 (part d v) = part d v := r_idem _
  rw [r_double h1, part_eq hv, ← mul_two, ← r_two]
  congr 1
  ring

lemma part_neg (d v : ℚ) : part (-d) v = -part d v := by unfold part; rw [neg_mul, r_neg]

lemma nx_neg (x d v : ℚ) : nx (-x) (-d) v = -nx x d v := by
  unfold nx
  rw [part_neg, show -part d v + -part d v = -(part d v + part d v) by ring, r_neg, ← neg_add, r_neg]

lemma nd_neg (d v : ℚ) : nd (-d) v = -nd d v := by
  unfold nd
  rw [part_neg, show -d - -part d v = -(d - part d v) by ring, r_neg]

lemma dir_neg {d : ℚ} (h : d ≠ 0) : dir (-d) = -dir d := by
  unfold dir
  rcases lt_or_gt_of_ne h with h1 | h1
  · rw [if_pos (by linarith), if_neg (by linarith)]; norm_num
  · rw [if_neg (by linarith), if_pos (by linarith)]

lemma reach_neg (x d : ℚ) : reach (-x) (-d) = reach x d := by
  unfold reach
  by_cases h : d = 0
  · simp [h]
  · rw [if_neg h, if_neg (neg_ne_zero.mpr h), dir_neg h, show -dir d - -x = -(dir d - x) by ring, r_neg, neg_div_neg_eq]

lemma reach_pos {x d : ℚ} (h : 0 < d) : reach x d = some (rnd32 (rnd32 (1 - x) / d)) := by
  unfold reach dir
  rw [if_neg h.ne', if_pos h]

lemma nd_float (d v : ℚ) : rnd32 (nd d v) = nd d v := r_idem _
lemma nx_float (x d v : ℚ) : rnd32 (nx x d v) = nx x d v := r_idem _

lemma float_two : rnd32 2 = 2 := by
  have := r_double rnd32_one
  rwa [show (1 : ℚ) + 1 = 2 by norm_num] at this

/-- The last streak, one axis. -/
lemma end_axis {x d : ℚ} (hx : rnd32 x = x) (hd : rnd32 d = d) (h : |x| ≤ 1) (hr : ∀ v, reach x d = some v → 2 ≤ v) :
    |nx x d 2| ≤ 1 := by
  have key : ∀ x d : ℚ, rnd32 x = x → rnd32 d = d → |x| ≤ 1 → (∀ v, reach x d = some v → 2 ≤ v) → 0 < d → |nx x d 2| ≤ 1 := by
    intro x d hx hd h hr hp
    obtain ⟨h0, h1⟩ := abs_le.mp h
    have := end_pos hx hd h0 h1 hp (hr _ (reach_pos hp))
    unfold nx
    rw [part_twice float_two, show d * 2 = d + d by ring, r_double hd]
    exact abs_le.mpr this
  rcases lt_trichotomy d 0 with hd0 | hd0 | hd0
  · have := key (-x) (-d) (by rw [r_neg, hx]) (by rw [r_neg, hd]) (by rwa [abs_neg]) (by rwa [reach_neg]) (by linarith)
    rwa [nx_neg, abs_neg] at this
  · subst hd0
    have : nx x 0 2 = x := by unfold nx part; simp [r_zero, hx]
    rwa [this]
  · exact key x d hx hd h hr hd0

/-- A streak that ends at a face, one axis. -/
lemma cross_axis {x d v : ℚ} (hx : rnd32 x = x) (hd : rnd32 d = d) (hv : rnd32 v = v) (h : |x| ≤ 1) (hd1 : |d| ≤ 1) (hv0 : 0 ≤ v)
    (hv2 : v < 2) (hr : ∀ w, reach x d = some w → v ≤ w) :
    |nx x d v| ≤ 1 + 1 / 2 ^ 23 ∧ |nd d v| ≤ 1 ∧ (1 < |nx x d v| → 0 < nx x d v * nd d v) := by
  have key : ∀ x d : ℚ, rnd32 x = x → rnd32 d = d → |x| ≤ 1 → |d| ≤ 1 → (∀ w, reach x d = some w → v ≤ w) → 0 < d →
      (|nx x d v| ≤ 1 + 1 / 2 ^ 23 ∧ |nd d v| ≤ 1 ∧ (1 < |nx x d v| → 0 < nx x d v * nd d v)) := by
    intro x d hx hd h hd1 hr hp
    obtain ⟨h0, h1⟩ := abs_le.mp h
    obtain ⟨_, hd1⟩ := abs_le.mp hd1
    obtain ⟨c0, c1⟩ := cross_pos hd h0 h1 hx hp hd1 hv0 hv2.le (hr _ (reach_pos hp))
    have hn : nx x d v = rnd32 (x + rnd32 (d * v)) := by unfold nx; rw [part_twice hv]
    rw [← hn] at c0 c1
    have hpl : part d v < d := by
      rw [part_eq hv]
      exact left_pos hd (r_half hv) hp (by linarith) (by linarith)
    have hp0 : 0 ≤ part d v := by rw [part_eq hv]; exact r_nonneg (by positivity)
    have hnd : 0 < nd d v := r_pos (by linarith)
    have hnd1 : nd d v ≤ 1 := by
      have := rnd32_mono (show d - part d v ≤ 1 by linarith)
      rwa [rnd32_one] at this
    have p23 : (0 : ℚ) ≤ 1 / 2 ^ 23 := by norm_num
    refine ⟨abs_le.mpr ⟨by linarith, c1⟩, abs_le.mpr ⟨by linarith, hnd1⟩, fun hlt => ?_⟩
    rcases lt_abs.mp hlt with hlt | hlt
    · exact mul_pos (by linarith) hnd
    · linarith
  rcases lt_trichotomy d 0 with hd0 | hd0 | hd0
  · have := key (-x) (-d) (by rw [r_neg, hx]) (by rw [r_neg, hd]) (by rwa [abs_neg]) (by rwa [abs_neg]) (by rwa [reach_neg])
      (by linarith)
    rwa [nx_neg, abs_neg, nd_neg, abs_neg, neg_mul_neg] at this
  · subst hd0
    have e1 : nx x 0 v = x := by unfold nx part; simp [r_zero, hx]
    have e2 : nd 0 v = 0 := by unfold nd part; simp [r_zero]
    rw [e1, e2]
    have p23 : (0 : ℚ) ≤ 1 / 2 ^ 23 := by norm_num
    exact ⟨by linarith, by simp, fun hlt => absurd hlt (not_lt.mpr h)⟩
  · exact key x d hx hd h hd1 hr hd0

/-- The distance to the face ahead is not negative inside. -/
lemma reach_nonneg {x d v : ℚ} (h : |x| ≤ 1) (hr : reach x d = some v) : 0 ≤ v := by
  have key : ∀ x d : ℚ, |x| ≤ 1 → reach x d = some v → 0 < d → 0 ≤ v := by
    intro x d h hr hp
    rw [reach_pos hp, Option.some_inj] at hr
    rw [← hr]
    exact r_nonneg (div_nonneg (r_nonneg (by linarith [(abs_le.mp h).2])) hp.le)
  rcases lt_trichotomy d 0 with hd0 | hd0 | hd0
  · exact key (-x) (-d) (by rwa [abs_neg]) (by rwa [reach_neg]) (by linarith)
  · subst hd0; simp [reach] at hr
  · exact key x d h hr hd0

/-- Outside and moving on outwards, the face is not ahead. -/
lemma reach_outside {x d : ℚ} (h : 1 < |x|) (hm : 0 < x * d) : ∃ v, reach x d = some v ∧ v ≤ 0 := by
  have key : ∀ x d : ℚ, 1 < |x| → 0 < x * d → 0 < d → ∃ v, reach x d = some v ∧ v ≤ 0 := by
    intro x d h hm hp
    have hx : 0 < x := pos_of_mul_pos_left hm hp.le
    rw [abs_of_pos hx] at h
    refine ⟨_, reach_pos hp, ?_⟩
    have h1 : rnd32 (1 - x) ≤ 0 := by
      have := rnd32_mono (show 1 - x ≤ 0 by linarith)
      rwa [r_zero] at this
    have := rnd32_mono (div_nonpos_of_nonpos_of_nonneg h1 hp.le)
    rwa [r_zero] at this
  rcases lt_trichotomy d 0 with hd0 | hd0 | hd0
  · have := key (-x) (-d) (by rwa [abs_neg]) (by rwa [neg_mul_neg]) (by linarith)
    rwa [reach_neg] at this
  · subst hd0; simp at hm
  · exact key x d h hm hd0

/-- What `choose` returns. -/
lemma choose_spec (s : St) :
    ((choose s).2 = none ∧ (choose s).1 = 2 ∧ ∀ k v, reach (s.x k) (s.d k) = some v → 2 ≤ v) ∨
    (∃ k, (choose s).2 = some k ∧ reach (s.x k) (s.d k) = some (choose s).1 ∧ (choose s).1 < 2 ∧
      ∀ j v, reach (s.x j) (s.d j) = some v → (choose s).1 ≤ v) := by
  have step : ∀ (l : List (Fin 3)) (c : ℚ × Option (Fin 3)) (done : List (Fin 3)),
      ((c.2 = none ∧ c.1 = 2 ∧ ∀ k ∈ done, ∀ v, reach (s.x k) (s.d k) = some v → 2 ≤ v) ∨
       (∃ k, c.2 = some k ∧ reach (s.x k) (s.d k) = some c.1 ∧ c.1 < 2 ∧
        ∀ j ∈ done, ∀ v, reach (s.x j) (s.d j) = some v → c.1 ≤ v)) →
      (let c' := l.foldl (closer s) c
       (c'.2 = none ∧ c'.1 = 2 ∧ ∀ k ∈ done ++ l, ∀ v, reach (s.x k) (s.d k) = some v → 2 ≤ v) ∨
       (∃ k, c'.2 = some k ∧ reach (s.x k) (s.d k) = some c'.1 ∧ c'.1 < 2 ∧
        ∀ j ∈ done ++ l, ∀ v, reach (s.x j) (s.d j) = some v → c'.1 ≤ v)) := by
    intro l
    induction l with
    | nil => intro c done h; simpa using h
    | cons i l ih =>
      intro c done h
      have := ih (closer s c i) (done ++ [i]) (by
        unfold closer
        cases hri : reach (s.x i) (s.d i) with
        | none =>
          rcases h with ⟨h1, h2, h3⟩ | ⟨k, h1, h2, h3, h4⟩
          · left
            refine ⟨h1, h2, fun k hk v hv => ?_⟩
            rcases List.mem_append.mp hk with hk | hk
            · exact h3 k hk v hv
            · rw [List.mem_singleton.mp hk, hri] at hv; cases hv
          · right
            refine ⟨k, h1, h2, h3, fun j hj v hv => ?_⟩
            rcases List.mem_append.mp hj with hj | hj
            · exact h4 j hj v hv
            · rw [List.mem_singleton.mp hj, hri] at hv; cases hv
        | some w =>
          simp only
          split_ifs with hw
          · right
            refine ⟨i, rfl, hri, ?_, fun j hj v hv => ?_⟩
            · rcases h with ⟨h1, h2, h3⟩ | ⟨k, h1, h2, h3, h4⟩
              · rwa [h2] at hw
              · exact hw.trans h3
            · rcases List.mem_append.mp hj with hj | hj
              · rcases h with ⟨h1, h2, h3⟩ | ⟨k, h1, h2, h3, h4⟩
                · have := h3 j hj v hv
                  rw [h2] at hw
                  exact hw.le.trans this
                · exact hw.le.trans (h4 j hj v hv)
              · rw [List.mem_singleton.mp hj, hri] at hv
                cases hv
                exact le_rfl
          · rcases h with ⟨h1, h2, h3⟩ | ⟨k, h1, h2, h3, h4⟩
            · left
              refine ⟨h1, h2, fun j hj v hv => ?_⟩
              rcases List.mem_append.mp hj with hj | hj
              · exact h3 j hj v hv
              · rw [List.mem_singleton.mp hj, hri] at hv
                cases hv
                rw [h2] at hw
                exact not_lt.mp hw
            · right
              refine ⟨k, h1, h2, h3, fun j hj v hv => ?_⟩
              rcases List.mem_append.mp hj with hj | hj
              · exact h4 j hj v hv
              · rw [List.mem_singleton.mp hj, hri] at hv
                cases hv
                exact not_lt.mp hw)
      rw [List.append_assoc] at this
      exact this
  have := step [0, 1, 2] (2, none) [] (Or.inl ⟨rfl, rfl, by simp⟩)
  have mem : ∀ k : Fin 3, k ∈ ([] : List (Fin 3)) ++ [0, 1, 2] := by decide
  rcases this with ⟨h1, h2, h3⟩ | ⟨k, h1, h2, h3, h4⟩
  · exact Or.inl ⟨h1, h2, fun k => h3 k (mem k)⟩
  · exact Or.inr ⟨k, h1, h2, h3, fun j => h4 j (mem j)⟩

end Verif.Streak
