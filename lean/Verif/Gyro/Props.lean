import Verif.Gyro.Lemmas
import Mathlib.Tactic.LinearCombination

/-!
# Property C127: the magnetic rotation with all roundings
-/
namespace Verif.Gyro
open Verif.Place Verif.Streak Verif.Flow

/-- The square of the length. -/
def sq (u : Fin 3 → ℚ) : ℚ := u 0 ^ 2 + u 1 ^ 2 + u 2 ^ 2

/-- Specification: the rotation without roundings, by twice the angle whose tangent is `tau` times the field. -/
def exactRot (tau : ℚ) (b u : Fin 3 → ℚ) (k : Fin 3) : ℚ :=
  u k + 2 * tau / (1 + tau ^ 2 * sq b) * cross (fun i => u i + tau * cross u b i) b k

/-- The exact rotation keeps the length. -/
lemma exact_sq (tau : ℚ) (b u : Fin 3 → ℚ) : sq (exactRot tau b u) = sq u := by
  have h0 : 0 < 1 + tau ^ 2 * sq b := by unfold sq; positivity
  set s := 2 * tau / (1 + tau ^ 2 * sq b) with hs
  have h1 : s * (1 + tau ^ 2 * sq b) = 2 * tau := by rw [hs]; field_simp
  unfold sq at h1 ⊢
  simp only [exactRot, ← hs]
  have i1 : (0 : Fin 3) + 1 = 1 := rfl
  have i2 : (0 : Fin 3) + 2 = 2 := rfl
  have i3 : (1 : Fin 3) + 1 = 2 := rfl
  have i4 : (1 : Fin 3) + 2 = 0 := rfl
  have i5 : (2 : Fin 3) + 1 = 0 := rfl
  have i6 : (2 : Fin 3) + 2 = 1 := rfl
  simp only [cross, i1, i2, i3, i4, i5, i6]
  linear_combination (s * ((u 1 * b 2 - u 2 * b 1) ^ 2 + (u 2 * b 0 - u 0 * b 2) ^ 2 + (u 0 * b 1 - u 1 * b 0) ^ 2)) * h1

/-- The largest component. -/
lemma exists_max (f : Fin 3 → ℚ) : ∃ S, (∀ i, |f i| ≤ S) ∧ S ^ 2 ≤ sq f ∧ 0 ≤ S := by
  obtain ⟨i, -, hi⟩ := Finset.exists_max_image Finset.univ (fun i => |f i|) ⟨0, Finset.mem_univ 0⟩
  refine ⟨|f i|, fun j => hi j (Finset.mem_univ j), ?_, abs_nonneg _⟩
  rw [sq_abs]
  unfold sq
  have h0 := sq_nonneg (f 0)
  have h1 := sq_nonneg (f 1)
  have h2 := sq_nonneg (f 2)
  have : i = 0 ∨ i = 1 ∨ i = 2 := by omega
  rcases this with rfl | rfl | rfl <;> linarith

/-- **C127 (the rotation).** Whatever the field and the tangent, every component after the rotation is within 2^-16 of the largest
component of the momentum from the exact one. -/
theorem rotate_near (tau : ℚ) (b u : Fin 3 → ℚ) {U : ℚ} (hU : ∀ i, |u i| ≤ U) (k : Fin 3) :
    |rotate tau b u k - exactRot tau b u k| ≤ 1 / 2 ^ 16 * U := by
  have hU0 : 0 ≤ U := (abs_nonneg _).trans (hU 0)
  obtain ⟨S, hS, hS2, hS0⟩ := exists_max (fun i => tau * b i)
  have ht : tau ^ 2 * sq b = sq (fun i => tau * b i) := by unfold sq; ring
  set t := tau ^ 2 * sq b with htdef
  rw [← ht] at hS2
  have ht0 : 0 ≤ t := (sq_nonneg S).trans hS2
  have hT : 0 < 1 + t := by linarith
  have hSS : 0 < 1 + S ^ 2 := by positivity
  set P := S / (1 + S ^ 2) with hP
  have hP0 : 0 ≤ P := div_nonneg hS0 hSS.le
  have hP1 : P ≤ 1 / 2 := by rw [hP, div_le_iff₀ hSS]; nlinarith [sq_nonneg (S - 1)]
  have hPS : P * S ≤ 1 := by rw [hP, div_mul_eq_mul_div, div_le_iff₀ hSS]; nlinarith
  set s := 2 * tau / (1 + t) with hs
  have hsb : ∀ i, |s * b i| ≤ 2 * P := by
    intro i
    have e : s * b i = 2 * (tau * b i) / (1 + t) := by rw [hs]; ring
    rw [e, abs_div, abs_mul, abs_of_pos hT, abs_of_pos (show (0 : ℚ) < 2 by norm_num), hP, ← mul_div_assoc]
    exact div_le_div₀ (by positivity) (by have := hS i; linarith) hSS (by linarith)
  -- the first step
  have st1 := fun i => crossAdd_near (a := u) (w := u) hS hU hU i
  set w := crossAdd tau u u b with hw
  set W : Fin 3 → ℚ := fun i => u i + tau * cross u b i with hW
  set δ := (U + 9 * (S * U)) / 2 ^ 24 with hδ
  have hδ0 : 0 ≤ δ := by rw [hδ]; positivity
  have hwW : ∀ i, |w i - W i| ≤ δ := fun i => (st1 i).1
  have hWm : ∀ i, |W i| ≤ U + 2 * (S * U) := fun i => (abs_add_le _ _).trans (add_le_add (hU i) (st1 i).2)
  set m := U + 2 * (S * U) + δ with hm
  have hm0 : 0 ≤ m := by rw [hm]; positivity
  have hwm : ∀ i, |w i| ≤ m := fun i => abs_of_near (hwW i) (hWm i)
  -- bounds of the products with P
  have hPd : P * δ ≤ 95 / 10 / 2 ^ 24 * U := by
    have e : P * δ = (P + 9 * (P * S)) * U / 2 ^ 24 := by rw [hδ]; ring
    have e2 : 95 / 10 / 2 ^ 24 * U = 95 / 10 * U / 2 ^ 24 := by ring
    rw [e, e2]
    exact div_le_div_of_nonneg_right (mul_le_mul_of_nonneg_right (by linarith) hU0) (by norm_num)
  have hPm : P * m ≤ 26 / 10 * U := by
    have e : P * m = (P + 2 * (P * S)) * U + P * δ := by rw [hm]; ring
    have h1 : (P + 2 * (P * S)) * U ≤ 25 / 10 * U := mul_le_mul_of_nonneg_right (by linarith) hU0
    have h2 : 95 / 10 / 2 ^ 24 * U ≤ 1 / 10 * U := mul_le_mul_of_nonneg_right (by norm_num) hU0
    rw [e]; linarith
  -- the second step
  have hc := coef_near tau b t (by rw [htdef]; unfold sq; ring)
  rw [← hs] at hc
  set κ := coef tau b with hκ
  have hκb : ∀ i, |κ * b i| ≤ 21 / 10 * P := by
    intro i
    have h1 : |κ * b i - s * b i| ≤ 9 / 2 ^ 24 * (2 * P) := by
      rw [← sub_mul, abs_mul]
      refine (mul_le_mul_of_nonneg_right hc (abs_nonneg _)).trans ?_
      rw [mul_assoc, ← abs_mul]
      exact mul_le_mul_of_nonneg_left (hsb i) (by norm_num)
    refine (abs_of_near h1 (hsb i)).trans ?_
    have e : 2 * P + 9 / 2 ^ 24 * (2 * P) = (2 + 9 / 2 ^ 24 * 2) * P := by ring
    rw [e]
    exact mul_le_mul_of_nonneg_right (by norm_num) hP0
  have st2 := (crossAdd_near (a := u) (w := w) (b := b) hκb hwm hU k).1
  -- the exact second step of the rounded vector
  have sc : ∀ z : Fin 3 → ℚ, ∀ d, (∀ i, |z i| ≤ d) → |s * cross z b k| ≤ 4 * (P * d) := by
    intro z d hz
    have h := (crossAdd_near (a := u) (w := z) (b := b) hsb hz hU k).2
    refine h.trans (le_of_eq (by ring))
  have x1 : |(κ - s) * cross w b k| ≤ 36 / 2 ^ 24 * (P * m) := by
    rw [abs_mul]
    refine (mul_le_mul_of_nonneg_right hc (abs_nonneg _)).trans ?_
    rw [mul_assoc, ← abs_mul]
    refine (mul_le_mul_of_nonneg_left (sc w m hwm) (by norm_num)).trans (le_of_eq (by ring))
  have x2 : |s * cross (fun i => w i - W i) b k| ≤ 4 * (P * δ) := sc _ _ hwW
  have hrot : rotate tau b u k = crossAdd κ u w b k := rfl
  have hex : exactRot tau b u k = u k + s * cross W b k := rfl
  rw [hrot, hex]
  have e : crossAdd κ u w b k - (u k + s * cross W b k) =
      (crossAdd κ u w b k - (u k + κ * cross w b k)) + ((κ - s) * cross w b k + s * cross (fun i => w i - W i) b k) := by
    simp only [cross]; ring
  rw [e]
  refine (abs_add_le _ _).trans ((add_le_add st2 ((abs_add_le _ _).trans (add_le_add x1 x2))).trans ?_)
  have y1 : (U + 9 * (21 / 10 * P * m)) / 2 ^ 24 ≤ (1 + 9 * (21 / 10) * (26 / 10)) / 2 ^ 24 * U := by
    have e1 : (U + 9 * (21 / 10 * P * m)) / 2 ^ 24 = (U + 9 * (21 / 10) * (P * m)) / 2 ^ 24 := by ring
    have e2 : (1 + 9 * (21 / 10) * (26 / 10)) / 2 ^ 24 * U = (U + 9 * (21 / 10) * (26 / 10 * U)) / 2 ^ 24 := by ring
    rw [e1, e2]
    exact div_le_div_of_nonneg_right (by linarith) (by norm_num)
  have y2 : 36 / 2 ^ 24 * (P * m) ≤ 36 / 2 ^ 24 * (26 / 10 * U) := mul_le_mul_of_nonneg_left hPm (by norm_num)
  refine (add_le_add y1 (add_le_add y2 (mul_le_mul_of_nonneg_left hPd (by norm_num)))).trans ?_
  have e3 : (1 + 9 * (21 / 10) * (26 / 10)) / 2 ^ 24 * U + (36 / 2 ^ 24 * (26 / 10 * U) + 4 * (95 / 10 / 2 ^ 24 * U)) =
    ((1 + 9 * (21 / 10) * (26 / 10)) / 2 ^ 24 + (36 / 2 ^ 24 * (26 / 10) + 4 * (95 / 10 / 2 ^ 24))) * U := by ring
  rw [e3]
  exact mul_le_mul_of_nonneg_right (by norm_num) hU0

/-- **C127 (no heating).** A magnetic field, however strong, changes the square of the momentum in a step by at most 2^-12 of it. -/
theorem rotate_sq (tau : ℚ) (b u : Fin 3 → ℚ) : |sq (rotate tau b u) - sq u| ≤ 1 / 2 ^ 12 * sq u := by
  obtain ⟨U, hU, hU2, hU0⟩ := exists_max u
  have hn := fun k => rotate_near tau b u hU k
  rw [← exact_sq tau b u]
  have hx : ∀ k, |exactRot tau b u k| ≤ 2 * U := by
    intro k
    refine abs_le_of_sq_le_sq ?_ (by positivity)
    have h1 : exactRot tau b u k ^ 2 ≤ sq (exactRot tau b u) := by
      unfold sq
      have h0 := sq_nonneg (exactRot tau b u 0)
      have h1 := sq_nonneg (exactRot tau b u 1)
      have h2 := sq_nonneg (exactRot tau b u 2)
      have : k = 0 ∨ k = 1 ∨ k = 2 := by omega
      rcases this with rfl | rfl | rfl <;> linarith
    rw [exact_sq] at h1
    have h2 : sq u ≤ 3 * U ^ 2 := by
      unfold sq
      have q : ∀ i, u i ^ 2 ≤ U ^ 2 := fun i => sq_le_sq' (by linarith [(abs_le.mp (hU i)).1]) (abs_le.mp (hU i)).2
      linarith [q 0, q 1, q 2]
    have h3 : (2 * U) ^ 2 = 4 * U ^ 2 := by ring
    rw [h3]
    linarith [sq_nonneg U]
  have hk : ∀ k, |rotate tau b u k ^ 2 - exactRot tau b u k ^ 2| ≤ 5 / 2 ^ 16 * U ^ 2 := by
    intro k
    have e : rotate tau b u k ^ 2 - exactRot tau b u k ^ 2 =
      (rotate tau b u k - exactRot tau b u k) * (rotate tau b u k + exactRot tau b u k) := by ring
    rw [e, abs_mul]
    have h1 : |rotate tau b u k + exactRot tau b u k| ≤ 5 * U := by
      have e2 : rotate tau b u k + exactRot tau b u k = (rotate tau b u k - exactRot tau b u k) + 2 * exactRot tau b u k := by ring
      rw [e2]
      refine (abs_add_le _ _).trans ?_
      rw [abs_mul, abs_of_pos (show (0 : ℚ) < 2 by norm_num)]
      have h3 : 1 / 2 ^ 16 * U ≤ 1 * U := mul_le_mul_of_nonneg_right (by norm_num) hU0
      linarith [hn k, hx k]
    refine (mul_le_mul (hn k) h1 (abs_nonneg _) (by positivity)).trans (le_of_eq (by ring))
  have e : sq (rotate tau b u) - sq (exactRot tau b u) = (rotate tau b u 0 ^ 2 - exactRot tau b u 0 ^ 2) +
      (rotate tau b u 1 ^ 2 - exactRot tau b u 1 ^ 2) + (rotate tau b u 2 ^ 2 - exactRot tau b u 2 ^ 2) := by unfold sq; ring
  rw [e, exact_sq]
  refine (abs_add_le _ _).trans ((add_le_add ((abs_add_le _ _).trans (add_le_add (hk 0) (hk 1))) (hk 2)).trans ?_)
  have e2 : 5 / 2 ^ 16 * U ^ 2 + 5 / 2 ^ 16 * U ^ 2 + 5 / 2 ^ 16 * U ^ 2 = 15 / 2 ^ 16 * U ^ 2 := by ring
  rw [e2]
  calc 15 / 2 ^ 16 * U ^ 2 ≤ 1 / 2 ^ 12 * U ^ 2 := mul_le_mul_of_nonneg_right (by norm_num) (sq_nonneg U)
    _ ≤ 1 / 2 ^ 12 * sq u := mul_le_mul_of_nonneg_left hU2 (by norm_num)

/-- **C127 (a particle).** The same for the tangent that the pusher computes. -/
theorem boris_sq (rt : ℚ → ℚ) (qdt : ℚ) (b u : Fin 3 → ℚ) : |sq (boris rt qdt b u) - sq u| ≤ 1 / 2 ^ 12 * sq u :=
  rotate_sq _ b u

/-- **C127 (many steps).** Without electric field the square of the momentum grows or decays at most by a factor of `1 ± 2^-12` in each
step, whatever the fields on the way. -/
theorem many_sq (rt : ℚ → ℚ) (qdt : ℚ) (u : Fin 3 → ℚ) (bs : List (Fin 3 → ℚ)) :
    (1 - 1 / 2 ^ 12) ^ bs.length * sq u ≤ sq (bs.foldl (fun u b => boris rt qdt b u) u) ∧
    sq (bs.foldl (fun u b => boris rt qdt b u) u) ≤ (1 + 1 / 2 ^ 12) ^ bs.length * sq u := by
  induction bs generalizing u with
  | nil => simp
  | cons b bs ih =>
    obtain ⟨h1, h2⟩ := ih (boris rt qdt b u)
    obtain ⟨g1, g2⟩ := abs_le.mp (boris_sq rt qdt b u)
    rw [List.foldl_cons, List.length_cons, pow_succ _ bs.length, pow_succ _ bs.length]
    constructor
    · refine le_trans ?_ h1
      rw [mul_assoc]
      refine mul_le_mul_of_nonneg_left ?_ (pow_nonneg (by norm_num) _)
      have e : (1 - 1 / 2 ^ 12) * sq u = sq u - 1 / 2 ^ 12 * sq u := by ring
      rw [e]; linarith
    · refine h2.trans ?_
      rw [mul_assoc]
      refine mul_le_mul_of_nonneg_left ?_ (pow_nonneg (by norm_num) _)
      have e : (1 + 1 / 2 ^ 12) * sq u = sq u + 1 / 2 ^ 12 * sq u := by ring
      rw [e]; linarith

/-- A case in which the roundings are seen: the length changes, and the momentum turns. -/
example : sq (rotate (rnd32 (1 / 3)) ![rnd32 (1 / 7), 2, rnd32 (-1 / 5)] ![1, rnd32 (1 / 10), 3]) ≠ sq ![1, rnd32 (1 / 10), 3] ∧
    rotate (rnd32 (1 / 3)) ![rnd32 (1 / 7), 2, rnd32 (-1 / 5)] ![1, rnd32 (1 / 10), 3] 2 < 5 / 2 := by
  constructor <;> decide +kernel

end Verif.Gyro
