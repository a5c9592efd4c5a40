import Verif.Gyro.SeenModel
import Verif.Drift.Props

/-!
# Property C128: the fields a particle sees and the momentum after a step, with all roundings
-/
namespace Verif.Gyro
open Verif.Place Verif.Streak Verif.Flow Verif.Drift

/-- Specification: from `a` at -1 to `b` at 1. -/
def lerp (a b s : ℚ) : ℚ := ((1 - s) * a + (1 + s) * b) / 2

/-- Specification: the electric field at offset `d` in voxel `i j k`.  A component is constant along its own edge and linear in the other
two directions. -/
def trueE (e : El) (i j k : ℤ) (d : Fin 3 → ℚ) : Fin 3 → ℚ :=
  ![lerp (lerp (e.x i j k) (e.x i (j + 1) k) (d 1)) (lerp (e.x i j (k + 1)) (e.x i (j + 1) (k + 1)) (d 1)) (d 2),
    lerp (lerp (e.y i j k) (e.y (i + 1) j k) (d 0)) (lerp (e.y i j (k + 1)) (e.y (i + 1) j (k + 1)) (d 0)) (d 2),
    lerp (lerp (e.z i j k) (e.z (i + 1) j k) (d 0)) (lerp (e.z i (j + 1) k) (e.z (i + 1) (j + 1) k) (d 0)) (d 1)]

/-- Specification: the magnetic field.  A component is linear along the normal of its face. -/
def trueB (b : Mag) (i j k : ℤ) (d : Fin 3 → ℚ) : Fin 3 → ℚ :=
  ![lerp (b.x i j k) (b.x (i + 1) j k) (d 0), lerp (b.y i j k) (b.y i (j + 1) k) (d 1), lerp (b.z i j k) (b.z i j (k + 1)) (d 2)]

lemma near_step {z y e B m : ℚ} (h : |z - y| ≤ e) (hy : |y| ≤ B) (hm : e + (B + e) / 2 ^ 24 ≤ m) : |rnd32 z - y| ≤ m :=
  (rnd_near h (abs_of_near h hy)).trans hm

lemma near_self {y B m : ℚ} (hy : |y| ≤ B) (hm : B / 2 ^ 24 ≤ m) : |rnd32 y - y| ≤ m :=
  near_step (by simp : |y - y| ≤ 0) hy (by linarith)

lemma near_add {a b x y e f : ℚ} (h : |a - x| ≤ e) (h' : |b - y| ≤ f) : |a + b - (x + y)| ≤ e + f := by
  have : a + b - (x + y) = (a - x) + (b - y) := by ring
  rw [this]
  exact (abs_add_le _ _).trans (add_le_add h h')

lemma near_mul {c a x e : ℚ} (hc : |c| ≤ 1) (h : |a - x| ≤ e) : |c * a - c * x| ≤ e := by
  have : c * a - c * x = c * (a - x) := by ring
  rw [this, abs_mul]
  calc |c| * |a - x| ≤ 1 * |a - x| := mul_le_mul_of_nonneg_right hc (abs_nonneg _)
    _ ≤ e := by linarith

lemma coef_quarter {a b M : ℚ} (hM : 0 ≤ M) (ha : |a| ≤ 2 * M) (hb : |b| ≤ 2 * M) :
    |rnd32 (1 / 4 * rnd32 (rnd32 a + rnd32 b)) - 1 / 4 * (a + b)| ≤ 4 / 2 ^ 24 * M := by
  have h1 := near_add (near_self ha le_rfl) (near_self hb le_rfl)
  have hab : |a + b| ≤ 4 * M := (abs_add_le _ _).trans (by linarith)
  have h2 := near_step h1 hab (le_refl _)
  have h3 : |1 / 4 * rnd32 (rnd32 a + rnd32 b) - 1 / 4 * (a + b)| ≤ 9 / 4 / 2 ^ 24 * M := by
    have e : 1 / 4 * rnd32 (rnd32 a + rnd32 b) - 1 / 4 * (a + b) = 1 / 4 * (rnd32 (rnd32 a + rnd32 b) - (a + b)) := by ring
    rw [e, abs_mul, abs_of_pos (by norm_num : (0 : ℚ) < 1 / 4)]
    norm_num at h2 ⊢
    linarith
  refine near_step (B := M) h3 ?_ (by norm_num; linarith)
  rw [abs_mul, abs_of_pos (by norm_num : (0 : ℚ) < 1 / 4)]
  linarith

lemma abs_mul_le_one {s c M : ℚ} (hs : |s| ≤ 1) (hc : |c| ≤ M) : |s * c| ≤ M := by
  rw [abs_mul]
  calc |s| * |c| ≤ 1 * |c| := mul_le_mul_of_nonneg_right hs (abs_nonneg _)
    _ ≤ M := by linarith

lemma seenE_near {w : Fin 4 → ℚ} {M s t : ℚ} (hw : ∀ n, |w n| ≤ M) (hs : |s| ≤ 1) (ht : |t| ≤ 1) :
    |seenE w s t - lerp (lerp (w 0) (w 1) s) (lerp (w 2) (w 3) s) t| ≤ 1 / 2 ^ 18 * M := by
  have hM : 0 ≤ M := (abs_nonneg _).trans (hw 0)
  have add2 : ∀ m n, |w m + w n| ≤ 2 * M := fun m n => (abs_add_le _ _).trans (by linarith [hw m, hw n])
  have sub2 : ∀ m n, |w m - w n| ≤ 2 * M := fun m n => (abs_sub _ _).trans (by linarith [hw m, hw n])
  have k0 : |c0 w - 1 / 4 * (w 3 + w 0 + (w 1 + w 2))| ≤ 4 / 2 ^ 24 * M := coef_quarter hM (add2 3 0) (add2 1 2)
  have k1 : |c1 w - 1 / 4 * (w 3 - w 0 + (w 1 - w 2))| ≤ 4 / 2 ^ 24 * M := coef_quarter hM (sub2 3 0) (sub2 1 2)
  have k2 : |c2 w - 1 / 4 * (w 3 - w 0 + -(w 1 - w 2))| ≤ 4 / 2 ^ 24 * M := by
    have := coef_quarter (a := w 3 - w 0) (b := -(w 1 - w 2)) hM (sub2 3 0) (by rw [abs_neg]; exact sub2 1 2)
    rwa [r_neg, ← sub_eq_add_neg] at this
  have k3 : |c3 w - 1 / 4 * (w 3 + w 0 + -(w 1 + w 2))| ≤ 4 / 2 ^ 24 * M := by
    have := coef_quarter (a := w 3 + w 0) (b := -(w 1 + w 2)) hM (add2 3 0) (by rw [abs_neg]; exact add2 1 2)
    rwa [r_neg, ← sub_eq_add_neg] at this
  have quarter : ∀ a b : ℚ, |a| ≤ 2 * M → |b| ≤ 2 * M → |1 / 4 * (a + b)| ≤ M := by
    intro a b ha hb
    rw [abs_mul, abs_of_pos (by norm_num : (0 : ℚ) < 1 / 4)]
    linarith [abs_add_le a b]
  have q0 := quarter _ _ (add2 3 0) (add2 1 2)
  have q1 := quarter _ _ (sub2 3 0) (sub2 1 2)
  have q2 := quarter (w 3 - w 0) (-(w 1 - w 2)) (sub2 3 0) (by rw [abs_neg]; exact sub2 1 2)
  have q3 := quarter (w 3 + w 0) (-(w 1 + w 2)) (add2 3 0) (by rw [abs_neg]; exact add2 1 2)
  have e : lerp (lerp (w 0) (w 1) s) (lerp (w 2) (w 3) s) t = (1 / 4 * (w 3 + w 0 + (w 1 + w 2)) + s * (1 / 4 * (w 3 - w 0 + (w 1 - w 2)))) +
      t * (1 / 4 * (w 3 - w 0 + -(w 1 - w 2)) + s * (1 / 4 * (w 3 + w 0 + -(w 1 + w 2)))) := by unfold lerp; ring
  rw [e]
  unfold seenE
  generalize c0 w = C0 at *
  generalize c1 w = C1 at *
  generalize c2 w = C2 at *
  generalize c3 w = C3 at *
  generalize 1 / 4 * (w 3 + w 0 + (w 1 + w 2)) = a0 at *
  generalize 1 / 4 * (w 3 - w 0 + (w 1 - w 2)) = a1 at *
  generalize 1 / 4 * (w 3 - w 0 + -(w 1 - w 2)) = a2 at *
  generalize 1 / 4 * (w 3 + w 0 + -(w 1 + w 2)) = a3 at *
  have p1 : |rnd32 (s * C1) - s * a1| ≤ 6 / 2 ^ 24 * M := near_step (near_mul hs k1) (abs_mul_le_one hs q1) (by norm_num; linarith)
  have p3 : |rnd32 (s * C3) - s * a3| ≤ 6 / 2 ^ 24 * M := near_step (near_mul hs k3) (abs_mul_le_one hs q3) (by norm_num; linarith)
  have b1 : |a0 + s * a1| ≤ 2 * M := (abs_add_le _ _).trans (by linarith [abs_mul_le_one hs q1])
  have b3 : |a2 + s * a3| ≤ 2 * M := (abs_add_le _ _).trans (by linarith [abs_mul_le_one hs q3])
  have r1 : |rnd32 (C0 + rnd32 (s * C1)) - (a0 + s * a1)| ≤ 13 / 2 ^ 24 * M := near_step (near_add k0 p1) b1 (by norm_num; linarith)
  have r3 : |rnd32 (C2 + rnd32 (s * C3)) - (a2 + s * a3)| ≤ 13 / 2 ^ 24 * M := near_step (near_add k2 p3) b3 (by norm_num; linarith)
  have bt := abs_mul_le_one ht b3
  have r4 : |rnd32 (t * rnd32 (C2 + rnd32 (s * C3))) - t * (a2 + s * a3)| ≤ 16 / 2 ^ 24 * M :=
    near_step (near_mul ht r3) bt (by norm_num; linarith)
  exact near_step (B := 4 * M) (near_add r1 r4) ((abs_add_le _ _).trans (by linarith)) (by norm_num; linarith)

lemma seenB_near {w0 w1 s M : ℚ} (h0 : |w0| ≤ M) (h1 : |w1| ≤ M) (hs : |s| ≤ 1) :
    |seenB w0 w1 s - lerp w0 w1 s| ≤ 1 / 2 ^ 20 * M := by
  have hM : 0 ≤ M := (abs_nonneg _).trans h0
  have half : ∀ a : ℚ, |a| ≤ 2 * M → |rnd32 (1 / 2 * rnd32 a) - 1 / 2 * a| ≤ 3 / 2 ^ 24 * M ∧ |1 / 2 * a| ≤ M := by
    intro a ha
    have hb : |1 / 2 * a| ≤ M := by
      rw [abs_mul, abs_of_pos (by norm_num : (0 : ℚ) < 1 / 2)]
      linarith
    refine ⟨near_step (e := 1 / 2 ^ 24 * M) ?_ hb (by norm_num; linarith), hb⟩
    have e : 1 / 2 * rnd32 a - 1 / 2 * a = 1 / 2 * (rnd32 a - a) := by ring
    rw [e, abs_mul, abs_of_pos (by norm_num : (0 : ℚ) < 1 / 2)]
    have := near_self ha (le_refl _)
    norm_num at this ⊢
    linarith
  obtain ⟨k0, q0⟩ := half (w1 + w0) ((abs_add_le _ _).trans (by linarith))
  obtain ⟨k1, q1⟩ := half (w1 - w0) ((abs_sub _ _).trans (by linarith))
  have e : lerp w0 w1 s = 1 / 2 * (w1 + w0) + s * (1 / 2 * (w1 - w0)) := by unfold lerp; ring
  rw [e]
  unfold seenB
  have qs := abs_mul_le_one hs q1
  have p1 : |rnd32 (s * rnd32 (1 / 2 * rnd32 (w1 - w0))) - s * (1 / 2 * (w1 - w0))| ≤ 5 / 2 ^ 24 * M :=
    near_step (near_mul hs k1) qs (by norm_num; linarith)
  exact near_step (B := 2 * M) (near_add k0 p1) ((abs_add_le _ _).trans (by linarith)) (by norm_num; linarith)

/-- **C128 (the electric field).** A particle sees the field of the edges of its voxel, linear across and constant along, up to `2^-18` of
the largest. -/
theorem eAt_near {e : El} {M : ℚ} (he : Below M e.x e.y e.z) (i j k : ℤ) {d : Fin 3 → ℚ} (hd : ∀ n, |d n| ≤ 1) (n : Fin 3) :
    |eAt e i j k d n - trueE e i j k d n| ≤ 1 / 2 ^ 18 * M := by
  have b4 : ∀ a b c f : ℚ, |a| ≤ M → |b| ≤ M → |c| ≤ M → |f| ≤ M → ∀ n, |(![a, b, c, f] : Fin 4 → ℚ) n| ≤ M := by
    intro a b c f ha hb hc hf n
    fin_cases n <;> assumption
  fin_cases n
  · exact seenE_near (b4 _ _ _ _ (he _ _ _).1 (he _ _ _).1 (he _ _ _).1 (he _ _ _).1) (hd 1) (hd 2)
  · have := seenE_near (b4 (e.y i j k) (e.y i j (k + 1)) (e.y (i + 1) j k) (e.y (i + 1) j (k + 1)) (he _ _ _).2.1 (he _ _ _).2.1 (he _ _ _).2.1
      (he _ _ _).2.1) (hd 2) (hd 0)
    have c : ∀ a b c f s t : ℚ, lerp (lerp a b s) (lerp c f s) t = lerp (lerp a c t) (lerp b f t) s := by intros; unfold lerp; ring
    rw [c] at this
    exact this
  · exact seenE_near (b4 _ _ _ _ (he _ _ _).2.2 (he _ _ _).2.2 (he _ _ _).2.2 (he _ _ _).2.2) (hd 0) (hd 1)

/-- **C128 (the magnetic field).** -/
theorem bAt_near {b : Mag} {N : ℚ} (hb : Below N b.x b.y b.z) (i j k : ℤ) {d : Fin 3 → ℚ} (hd : ∀ n, |d n| ≤ 1) (n : Fin 3) :
    |bAt b i j k d n - trueB b i j k d n| ≤ 1 / 2 ^ 20 * N := by
  fin_cases n
  · exact seenB_near (hb _ _ _).1 (hb _ _ _).1 (hd 0)
  · exact seenB_near (hb _ _ _).2.1 (hb _ _ _).2.1 (hd 1)
  · exact seenB_near (hb _ _ _).2.2 (hb _ _ _).2.2 (hd 2)

/-- **C128 (a uniform field).** A particle in a uniform field sees it without any error, wherever it is. -/
theorem eAt_uniform {E : Fin 3 → ℚ} (hE : ∀ n, rnd32 (E n) = E n) (i j k : ℤ) (d : Fin 3 → ℚ) :
    eAt ⟨fun _ _ _ => E 0, fun _ _ _ => E 1, fun _ _ _ => E 2⟩ i j k d = E := by
  have one : ∀ a s t : ℚ, rnd32 a = a → seenE ![a, a, a, a] s t = a := by
    intro a s t ha
    have h2 := r_double ha
    have h4 := r_double h2
    have e : (1 : ℚ) / 4 * (a + a + (a + a)) = a := by ring
    have e0 : c0 ![a, a, a, a] = a := by
      simp only [c0, Matrix.cons_val]
      rw [h2, h4, e, ha]
    have e1 : c1 ![a, a, a, a] = 0 := by simp [c1, Matrix.cons_val, r_zero]
    have e2 : c2 ![a, a, a, a] = 0 := by simp [c2, Matrix.cons_val, r_zero]
    have e3 : c3 ![a, a, a, a] = 0 := by simp [c3, Matrix.cons_val, r_zero]
    unfold seenE
    rw [e0, e1, e2, e3]
    simp [r_zero, ha]
  funext n
  fin_cases n <;> simp only [eAt] <;> exact one _ _ _ (hE _)

end Verif.Gyro
