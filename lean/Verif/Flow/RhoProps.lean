import Verif.Flow.RhoModel
import Mathlib.Algebra.BigOperators.Fin

/-!
# Property C125: the charge density of particles with all roundings
-/
namespace Verif.Flow
open Verif.Place Verif.Streak

/-- Specification: the side of a node along a direction, lower or upper; nodes are numbered by x first. -/
def side (k : Fin 8) (a : Fin 3) : ℚ := if k.val / 2 ^ a.val % 2 = 0 then -1 else 1

/-- Specification: the share of a node. -/
def nodeShare (d : Fin 3 → ℚ) (k : Fin 8) : ℚ := (1 + side k 0 * d 0) * (1 + side k 1 * d 1) * (1 + side k 2 * d 2)

/-- One direction, lower or upper half. -/
def half (s t w : ℚ) : ℚ := rnd32 (w + s * rnd32 (t * w))

lemma weights_eq (c : ℚ) (d : Fin 3 → ℚ) (k : Fin 8) :
    weights c d k = half (side k 2) (d 2) (half (side k 1) (d 1) (half (side k 0) (d 0) c)) := by
  have l : ∀ t w, half (-1) t w = fnms t w w := fun t w => by unfold half fnms; congr 1; ring
  have u : ∀ t w, half 1 t w = fma t w w := fun t w => by unfold half fma; congr 1; ring
  fin_cases k <;> simp [weights, side, l, u]

lemma side_abs (k : Fin 8) (a : Fin 3) : |side k a| = 1 := by unfold side; split_ifs <;> norm_num

lemma half_nonneg {s t w : ℚ} (hs : |s| = 1) (ht : |t| ≤ 1) (hw : rnd32 w = w) (h0 : 0 ≤ w) : 0 ≤ half s t w := by
  unfold half
  apply r_nonneg
  have h1 : |rnd32 (t * w)| ≤ w := by
    obtain ⟨a, b⟩ := abs_le.mp ht
    have u := rnd32_mono (show t * w ≤ w from mul_le_of_le_one_left h0 b)
    have l := rnd32_mono (show -w ≤ t * w by have := mul_le_mul_of_nonneg_right a h0; linarith)
    rw [hw] at u
    rw [r_neg, hw] at l
    exact abs_le.mpr ⟨l, u⟩
  have h2 : |s * rnd32 (t * w)| ≤ w := by rwa [abs_mul, hs, one_mul]
  linarith [(abs_le.mp h2).1]

lemma half_float (s t w : ℚ) : rnd32 (half s t w) = half s t w := r_idem _

/-- **C125 (the sign).** No node gets a share of the wrong sign, however close the particle is to a face. -/
theorem weight_nonneg {c : ℚ} {d : Fin 3 → ℚ} (hc : rnd32 c = c) (h0 : 0 ≤ c) (hd : ∀ a, |d a| ≤ 1) (k : Fin 8) :
    0 ≤ weights c d k := by
  rw [weights_eq]
  exact half_nonneg (side_abs k 2) (hd 2) (half_float _ _ _)
    (half_nonneg (side_abs k 1) (hd 1) (half_float _ _ _) (half_nonneg (side_abs k 0) (hd 0) hc h0))

lemma half_neg (s t w : ℚ) : half s t (-w) = -half s t w := by
  unfold half
  rw [mul_neg, r_neg, mul_neg, ← neg_add, r_neg]

lemma weights_neg (c : ℚ) (d : Fin 3 → ℚ) (k : Fin 8) : weights (-c) d k = -weights c d k := by
  simp only [weights_eq, half_neg]

/-- **C125 (faces).** A particle exactly on a face gives nothing to the nodes of the opposite face. -/
theorem weight_face {c : ℚ} {d : Fin 3 → ℚ} (hc : rnd32 c = c) (k : Fin 8) (a : Fin 3) (h : d a = -side k a) :
    weights c d k = 0 := by
  have z : ∀ s t w : ℚ, |s| = 1 → rnd32 w = w → t = -s → half s t w = 0 := by
    intro s t w hs hw ht
    have hss : s * s = 1 := by rw [← abs_mul_abs_self, hs, one_mul]
    have h1 : rnd32 (t * w) = t * w := by
      rcases (abs_eq zero_le_one).mp hs with rfl | rfl
      · rw [ht, neg_one_mul, r_neg, hw]
      · rw [ht, neg_neg, one_mul, hw]
    unfold half
    rw [h1, ht]
    have e : w + s * (-s * w) = w - s * s * w := by ring
    rw [e, hss, one_mul, sub_self, r_zero]
  have z0 : ∀ s t : ℚ, half s t 0 = 0 := by intro s t; unfold half; simp [r_zero]
  rw [weights_eq]
  have ha : a = 0 ∨ a = 1 ∨ a = 2 := by omega
  rcases ha with rfl | rfl | rfl
  · rw [z _ _ _ (side_abs k 0) hc h, z0, z0]
  · rw [z _ _ _ (side_abs k 1) (half_float _ _ _) h, z0]
  · rw [z _ _ _ (side_abs k 2) (half_float _ _ _) h]

/-- One direction: the error doubles and three roundings are added. -/
lemma half_near {s t w W e Q n m : ℚ} (hs : |s| = 1) (ht : |t| ≤ 1) (h : |w - W| ≤ n / 2 ^ 24 * Q) (hW : |W| ≤ e * Q) (hQ : 0 ≤ Q)
    (hm : 2 * n + (e + n / 2 ^ 24) + (2 * e + (2 * n + (e + n / 2 ^ 24)) / 2 ^ 24) ≤ m) :
    |half s t w - W * (1 + s * t)| ≤ m / 2 ^ 24 * Q ∧ |W * (1 + s * t)| ≤ 2 * e * Q := by
  have h1 : |t * w - t * W| ≤ n / 2 ^ 24 * Q := by
    rw [← mul_sub, abs_mul]
    exact (mul_le_of_le_one_left (abs_nonneg _) ht).trans h
  have hB : |t * W| ≤ e * Q := by
    rw [abs_mul]
    exact (mul_le_of_le_one_left (abs_nonneg _) ht).trans hW
  have h2 := rnd_near h1 (abs_of_near h1 hB)
  have h3 : |s * rnd32 (t * w) - s * (t * W)| ≤ n / 2 ^ 24 * Q + (e * Q + n / 2 ^ 24 * Q) / 2 ^ 24 := by
    rw [← mul_sub, abs_mul, hs, one_mul]
    exact h2
  have h4 : |w + s * rnd32 (t * w) - W * (1 + s * t)| ≤ (2 * n + (e + n / 2 ^ 24)) / 2 ^ 24 * Q := by
    have e1 : w + s * rnd32 (t * w) - W * (1 + s * t) = (w - W) + (s * rnd32 (t * w) - s * (t * W)) := by ring
    rw [e1]
    refine (abs_add_le _ _).trans ((add_le_add h h3).trans (le_of_eq ?_))
    ring
  have h5 : |W * (1 + s * t)| ≤ 2 * e * Q := by
    rw [abs_mul]
    have h6 : |1 + s * t| ≤ 2 := by
      refine (abs_add_le _ _).trans ?_
      rw [abs_one, abs_mul, hs, one_mul]
      linarith
    refine (mul_le_mul hW h6 (abs_nonneg _) ((abs_nonneg _).trans hW)).trans (le_of_eq ?_)
    ring
  refine ⟨?_, h5⟩
  refine (rnd_near h4 (abs_of_near h4 h5)).trans ?_
  have e2 : (2 * n + (e + n / 2 ^ 24)) / 2 ^ 24 * Q + (2 * e * Q + (2 * n + (e + n / 2 ^ 24)) / 2 ^ 24 * Q) / 2 ^ 24 =
      (2 * n + (e + n / 2 ^ 24) + (2 * e + (2 * n + (e + n / 2 ^ 24)) / 2 ^ 24)) * Q / 2 ^ 24 := by ring
  rw [e2]
  have e3 : m / 2 ^ 24 * Q = m * Q / 2 ^ 24 := by ring
  rw [e3]
  exact div_le_div_of_nonneg_right (mul_le_mul_of_nonneg_right hm hQ) (by norm_num)

/-- **C125 (the shares).** What each node gets is the charge times the trilinear share, within 2^-18 of the charge. -/
theorem weight_near {c : ℚ} {d : Fin 3 → ℚ} (hd : ∀ a, |d a| ≤ 1) (k : Fin 8) :
    |weights c d k - c * nodeShare d k| ≤ 1 / 2 ^ 18 * |c| := by
  rw [weights_eq]
  have hQ := abs_nonneg c
  have h0 : |c - c| ≤ 0 / 2 ^ 24 * |c| := by simp
  obtain ⟨a1, b1⟩ := half_near (e := 1) (m := 4) (side_abs k 0) (hd 0) h0 (by rw [one_mul]) hQ (by norm_num)
  obtain ⟨a2, b2⟩ := half_near (e := 2) (m := 15) (side_abs k 1) (hd 1) a1 (b1.trans (le_of_eq (by ring))) hQ (by norm_num)
  obtain ⟨a3, -⟩ := half_near (e := 4) (m := 64) (side_abs k 2) (hd 2) a2 (b2.trans (le_of_eq (by ring))) hQ (by norm_num)
  have e : c * nodeShare d k = c * (1 + side k 0 * d 0) * (1 + side k 1 * d 1) * (1 + side k 2 * d 2) := by
    unfold nodeShare; ring
  rw [e]
  refine a3.trans (le_of_eq ?_)
  norm_num

/-- **C125 (no charge is lost).** The eight shares together are eight times the charge, within 2^-15 of it. -/
theorem weight_total {c : ℚ} {d : Fin 3 → ℚ} (hd : ∀ a, |d a| ≤ 1) : |∑ k, weights c d k - 8 * c| ≤ 1 / 2 ^ 15 * |c| := by
  have e : 8 * c = ∑ k, c * nodeShare d k := by
    simp [nodeShare, side, Fin.sum_univ_eight]
    ring
  rw [e, ← Finset.sum_sub_distrib]
  refine (Finset.abs_sum_le_sum_abs _ _).trans ((Finset.sum_le_sum fun k _ => weight_near hd k).trans (le_of_eq ?_))
  simp
  ring

lemma fold_grows {α : Type*} (n : α → ℕ) (w : α → ℚ) (hw : ∀ k, 0 ≤ w k) (l : List α) : ∀ f : ℕ → ℚ, (∀ j, rnd32 (f j) = f j) →
    (∀ j, rnd32 (l.foldl (fun f k => Function.update f (n k) (rnd32 (f (n k) + w k))) f j) =
      l.foldl (fun f k => Function.update f (n k) (rnd32 (f (n k) + w k))) f j) ∧
    ∀ j, f j ≤ l.foldl (fun f k => Function.update f (n k) (rnd32 (f (n k) + w k))) f j := by
  induction l with
  | nil => intro f hf; exact ⟨hf, fun j => le_rfl⟩
  | cons a l ih =>
    intro f hf
    have hf' : ∀ j, rnd32 (Function.update f (n a) (rnd32 (f (n a) + w a)) j) = Function.update f (n a) (rnd32 (f (n a) + w a)) j := by
      intro j
      by_cases hj : j = n a
      · subst hj; rw [Function.update_self, r_idem]
      · rw [Function.update_of_ne hj, hf]
    obtain ⟨h1, h2⟩ := ih _ hf'
    refine ⟨h1, fun j => le_trans ?_ (h2 j)⟩
    by_cases hj : j = n a
    · subst hj
      rw [Function.update_self]
      have := rnd32_mono (show f (n a) ≤ f (n a) + w a by linarith [hw a])
      rwa [hf] at this
    · rw [Function.update_of_ne hj]

/-- **C125 (all particles).** Particles of a species of positive charge never lower the charge density of a node, whatever their number
and order. -/
theorem rho_grows {q r8V : ℚ} (hq : 0 ≤ q) (hr : 0 ≤ r8V) (sy sz : ℕ) : ∀ (ps : List Part) (f : ℕ → ℚ), (∀ j, rnd32 (f j) = f j) →
    (∀ p ∈ ps, 0 ≤ p.w ∧ ∀ a, |p.d a| ≤ 1) → ∀ j, f j ≤ accumulateRho q r8V sy sz f ps j := by
  intro ps
  induction ps with
  | nil => intro f hf hp j; exact le_rfl
  | cons p ps ih =>
    intro f hf hp j
    obtain ⟨hw, hd⟩ := hp p (by simp)
    have hc : 0 ≤ rnd32 (p.w * rnd32 (q * r8V)) := r_nonneg (mul_nonneg hw (r_nonneg (mul_nonneg hq hr)))
    obtain ⟨h1, h2⟩ := fold_grows (nodes sy sz p.i) (weights (rnd32 (p.w * rnd32 (q * r8V))) p.d)
      (fun k => weight_nonneg (r_idem _) hc hd k) (List.finRange 8) f hf
    exact (h2 j).trans (ih (addPart (rnd32 (q * r8V)) sy sz f p) h1 (fun p' hp' => hp p' (by simp [hp'])) j)

/-- Specification: the node `k` of voxel `v`, with strides 1, `sy` and `sz`. -/
def nodeOf (sy sz v : ℕ) (k : Fin 8) : ℕ := v + k.val % 2 + k.val / 2 % 2 * sy + k.val / 4 % 2 * sz

lemma nodes_eq (sy sz v : ℕ) (k : Fin 8) : nodes sy sz v k = nodeOf sy sz v k := by
  fin_cases k <;> simp [nodes, nodeOf] <;> omega

lemma nodes_inj {sy sz : ℕ} (h1 : 2 ≤ sy) (h2 : 2 * sy ≤ sz) (v : ℕ) : Function.Injective (nodes sy sz v) := by
  intro a b h
  fin_cases a <;> fin_cases b <;> simp [nodes] at h ⊢ <;> omega

lemma fold_other {α : Type*} (n : α → ℕ) (w : α → ℚ) (l : List α) (j : ℕ) (hj : ∀ k ∈ l, n k ≠ j) : ∀ f : ℕ → ℚ,
    l.foldl (fun f k => Function.update f (n k) (rnd32 (f (n k) + w k))) f j = f j := by
  induction l with
  | nil => intro f; rfl
  | cons a l ih =>
    intro f
    rw [List.foldl_cons, ih (fun k hk => hj k (by simp [hk])), Function.update_of_ne (hj a (by simp)).symm]

lemma fold_at {α : Type*} {n : α → ℕ} (hn : Function.Injective n) (w : α → ℚ) (l : List α) (hl : l.Nodup) (k : α) (hk : k ∈ l) :
    ∀ f : ℕ → ℚ, l.foldl (fun f k => Function.update f (n k) (rnd32 (f (n k) + w k))) f (n k) = rnd32 (f (n k) + w k) := by
  induction l with
  | nil => cases hk
  | cons a l ih =>
    intro f
    rw [List.foldl_cons]
    rw [List.nodup_cons] at hl
    by_cases h : k = a
    · subst h
      rw [fold_other n w l (n k) (fun b hb e => hl.1 (hn e ▸ hb)), Function.update_self]
    · have hk' : k ∈ l := by
        rcases List.mem_cons.mp hk with h' | h'
        · exact absurd h' h
        · exact h'
      rw [ih hl.2 hk', Function.update_of_ne (fun e => h (hn e))]

/-- **C125 (the nodes).** A particle adds its eight shares to the eight nodes of its voxel and changes no other. -/
theorem part_nodes {sy sz : ℕ} (h1 : 2 ≤ sy) (h2 : 2 * sy ≤ sz) (q8V : ℚ) (f : ℕ → ℚ) (p : Part) :
    (∀ k, addPart q8V sy sz f p (nodeOf sy sz p.i k) = rnd32 (f (nodeOf sy sz p.i k) + weights (rnd32 (p.w * q8V)) p.d k)) ∧
    ∀ j, (∀ k, nodeOf sy sz p.i k ≠ j) → addPart q8V sy sz f p j = f j := by
  refine ⟨fun k => ?_, fun j hj => ?_⟩
  · rw [← nodes_eq]
    exact fold_at (nodes_inj h1 h2 p.i) _ _ (List.nodup_finRange 8) k (List.mem_finRange k) f
  · exact fold_other _ _ _ j (fun k _ => by rw [nodes_eq]; exact hj k) f

/-- **C125 (every particle).** No particle changes nothing, and one particle more adds its shares to the nodes of its voxel. -/
theorem rho_particles {sy sz : ℕ} (h1 : 2 ≤ sy) (h2 : 2 * sy ≤ sz) (q r8V : ℚ) (f : ℕ → ℚ) :
    accumulateRho q r8V sy sz f [] = f ∧ ∀ (ps : List Part) (p : Part),
    (∀ k, accumulateRho q r8V sy sz f (ps ++ [p]) (nodeOf sy sz p.i k) =
      rnd32 (accumulateRho q r8V sy sz f ps (nodeOf sy sz p.i k) + weights (rnd32 (p.w * rnd32 (q * r8V))) p.d k)) ∧
    ∀ j, (∀ k, nodeOf sy sz p.i k ≠ j) → accumulateRho q r8V sy sz f (ps ++ [p]) j = accumulateRho q r8V sy sz f ps j := by
  refine ⟨rfl, fun ps p => ?_⟩
  have e : accumulateRho q r8V sy sz f (ps ++ [p]) = addPart (rnd32 (q * r8V)) sy sz (accumulateRho q r8V sy sz f ps) p := by
    unfold accumulateRho
    rw [List.foldl_append]
    rfl
  rw [e]
  exact part_nodes h1 h2 _ _ p

/-- A particle in the middle of voxel `i`, with weight 1. -/
def unitPart (i : ℕ) : Part := ⟨fun _ => 0, i, 1⟩

/-- **C125 (charge that is lost).** Where the density is large already, particles can be added without end and the density does not
change: here 2^28 and particles that ought to add 1 to each of their nodes. -/
theorem rho_stalls {sy sz : ℕ} (h1 : 2 ≤ sy) (h2 : 2 * sy ≤ sz) (i n : ℕ) :
    (∀ k, weights (rnd32 ((unitPart i).w * rnd32 (1 * 1))) (unitPart i).d k = 1) ∧
    accumulateRho 1 1 sy sz (fun _ => 2 ^ 28) (List.replicate n (unitPart i)) = fun _ => 2 ^ 28 := by
  have hw : ∀ k, weights (rnd32 ((1 : ℚ) * rnd32 (1 * 1))) (fun _ => 0) k = 1 := by decide +kernel
  have hr : rnd32 (2 ^ 28 + 1) = 2 ^ 28 := by decide +kernel
  have one : addPart (rnd32 (1 * 1)) sy sz (fun _ => 2 ^ 28) (unitPart i) = fun _ => 2 ^ 28 := by
    obtain ⟨a, b⟩ := part_nodes h1 h2 (rnd32 (1 * 1)) (fun _ => 2 ^ 28) (unitPart i)
    funext j
    by_cases hj : ∃ k, nodeOf sy sz (unitPart i).i k = j
    · obtain ⟨k, rfl⟩ := hj
      rw [a k]
      show rnd32 (2 ^ 28 + weights (rnd32 (1 * rnd32 (1 * 1))) (fun _ => 0) k) = _
      rw [hw k, hr]
    · exact b j (fun k e => hj ⟨k, e⟩)
  refine ⟨hw, ?_⟩
  induction n with
  | zero => rfl
  | succ n ih =>
    unfold accumulateRho at ih ⊢
    rw [List.replicate_succ, List.foldl_cons, one, ih]

/-- The hypotheses are met, and the roundings are seen: the eight shares do not add up exactly. -/
example : (∀ a, |(![rnd32 (1 / 3), rnd32 (-1 / 7), rnd32 (1 / 5)] : Fin 3 → ℚ) a| ≤ 1) ∧
    ∑ k, weights (rnd32 (1 / 10)) ![rnd32 (1 / 3), rnd32 (-1 / 7), rnd32 (1 / 5)] k ≠ 8 * rnd32 (1 / 10) :=
  ⟨by decide +kernel, by decide +kernel⟩

end Verif.Flow
