import Verif.Drift.MarderModel

/-!
# Property C133: the errors of the divergences and their cleaning with all roundings
-/
namespace Verif.Drift
open Verif.Place Verif.Streak Verif.Flow

lemma slope_acc (p a b : ℚ) : Acc 2 (p * (a - b)) (|p| * (|a| + |b|)) (slope p a b) := by
  have h0 : Acc 0 (a - b) (|a| + |b|) (a - b) := by
    refine ⟨by simp, abs_sub _ _⟩
  exact (h0.rnd.scale p).rnd

/-- Specification: the sum of the absolute values of what enters the flux out of a voxel. -/
def sizeB (p : Ratio) (b : Mag) (i j k : ℤ) : ℚ :=
  |p.x| * (|b.x (i + 1) j k| + |b.x i j k|) + |p.y| * (|b.y i (j + 1) k| + |b.y i j k|) + |p.z| * (|b.z i j (k + 1)| + |b.z i j k|)

/-- Specification: the sum of the absolute values of what enters the flux out of a dual voxel. -/
def sizeE (p : Ratio) (e : El) (i j k : ℤ) : ℚ :=
  |p.x| * (|e.x i j k| + |e.x (i - 1) j k|) + |p.y| * (|e.y i j k| + |e.y i (j - 1) k|) + |p.z| * (|e.z i j k| + |e.z i j (k - 1)|)

/-- **C133 (magnetic).** The reported divergence of the magnetic field is the true one up to four roundings of the sum of the absolute
values of its six terms. -/
theorem divBErr_near (p : Ratio) (b : Mag) (i j k : ℤ) :
    |divBErr p b i j k - flux p b i j k| ≤ ((1 + 1 / 2 ^ 24) ^ 4 - 1) * sizeB p b i j k := by
  have h := ((((slope_acc p.x (b.x (i + 1) j k) (b.x i j k)).plus (slope_acc p.y (b.y i (j + 1) k) (b.y i j k))).rnd.plus
    ((slope_acc p.z (b.z i j (k + 1)) (b.z i j k)).mono (by norm_num))).rnd).1
  unfold divBErr flux sizeB
  simpa only [Nat.reduceAdd] using h

/-- **C133 (electric).** The reported error of Gauss's law is the true one up to six roundings of the sum of the absolute values of its
terms. -/
theorem divEErr_near (nc cj : ℚ) (p : Ratio) (e : El) (rhof rhob : Comp) (i j k : ℤ) :
    |divEErr nc cj p e rhof rhob i j k - nc * (divE p e i j k - cj * (rhof i j k + rhob i j k))| ≤
      ((1 + 1 / 2 ^ 24) ^ 6 - 1) * (|nc| * (sizeE p e i j k + |cj| * (|rhof i j k| + |rhob i j k|))) := by
  have s := ((((slope_acc p.x (e.x i j k) (e.x (i - 1) j k)).plus (slope_acc p.y (e.y i j k) (e.y i (j - 1) k))).rnd.plus
    ((slope_acc p.z (e.z i j k) (e.z i j (k - 1))).mono (by norm_num))).rnd)
  have h0 : Acc 0 (rhof i j k + rhob i j k) (|rhof i j k| + |rhob i j k|) (rhof i j k + rhob i j k) := ⟨by simp, abs_add_le _ _⟩
  have r := (((h0.rnd.scale cj).rnd).mono (show 2 ≤ 4 by norm_num)).scale (-1)
  have t := (((s.plus r).rnd).scale nc).rnd
  have e1 := t.1
  have m : |(-1 : ℚ)| = 1 := by norm_num
  rw [m] at e1
  unfold divEErr divE sizeE
  simpa only [neg_mul, one_mul, ← sub_eq_add_neg, Nat.reduceAdd] using e1

/-- **C133 (a conductor).** Where the material is not to be cleaned (`nc = 0`) the reported error is exactly 0. -/
theorem divEErr_conductor (cj : ℚ) (p : Ratio) (e : El) (rhof rhob : Comp) (i j k : ℤ) : divEErr 0 cj p e rhof rhob i j k = 0 := by
  unfold divEErr
  rw [zero_mul, r_zero]

/-- **C133 (cleaning).** A pass adds the gradient of the reported divergence to the magnetic field, up to three roundings. -/
theorem cleanB_near (p : Ratio) (d : Comp) (b : Mag) (i j k : ℤ) :
    |(cleanB p d b).x i j k - (b.x i j k + p.x * (d i j k - d (i - 1) j k))| ≤
      ((1 + 1 / 2 ^ 24) ^ 3 - 1) * (|b.x i j k| + |p.x| * (|d i j k| + |d (i - 1) j k|)) ∧
    |(cleanB p d b).y i j k - (b.y i j k + p.y * (d i j k - d i (j - 1) k))| ≤
      ((1 + 1 / 2 ^ 24) ^ 3 - 1) * (|b.y i j k| + |p.y| * (|d i j k| + |d i (j - 1) k|)) ∧
    |(cleanB p d b).z i j k - (b.z i j k + p.z * (d i j k - d i j (k - 1)))| ≤
      ((1 + 1 / 2 ^ 24) ^ 3 - 1) * (|b.z i j k| + |p.z| * (|d i j k| + |d i j (k - 1)|)) := by
  have key : ∀ b p a c : ℚ, |rnd32 (b + slope p a c) - (b + p * (a - c))| ≤ ((1 + 1 / 2 ^ 24) ^ 3 - 1) * (|b| + |p| * (|a| + |c|)) :=
    fun b p a c => ((((Acc.leaf b).mono (Nat.zero_le 2)).plus (slope_acc p a c)).rnd).1
  exact ⟨by simpa only [cleanB] using key (b.x i j k) p.x (d i j k) (d (i - 1) j k),
    by simpa only [cleanB] using key (b.y i j k) p.y (d i j k) (d i (j - 1) k),
    by simpa only [cleanB] using key (b.z i j k) p.z (d i j k) (d i j (k - 1))⟩

/-- **C133 (cleaning the electric field).** A pass adds the gradient of the reported error to the electric field, up to three roundings. -/
theorem cleanE_near (p : Ratio) (d : Comp) (e : El) (i j k : ℤ) :
    |(cleanE p d e).x i j k - (e.x i j k + p.x * (d (i + 1) j k - d i j k))| ≤
      ((1 + 1 / 2 ^ 24) ^ 3 - 1) * (|e.x i j k| + |p.x| * (|d (i + 1) j k| + |d i j k|)) ∧
    |(cleanE p d e).y i j k - (e.y i j k + p.y * (d i (j + 1) k - d i j k))| ≤
      ((1 + 1 / 2 ^ 24) ^ 3 - 1) * (|e.y i j k| + |p.y| * (|d i (j + 1) k| + |d i j k|)) ∧
    |(cleanE p d e).z i j k - (e.z i j k + p.z * (d i j (k + 1) - d i j k))| ≤
      ((1 + 1 / 2 ^ 24) ^ 3 - 1) * (|e.z i j k| + |p.z| * (|d i j (k + 1)| + |d i j k|)) := by
  have key : ∀ b p a c : ℚ, |rnd32 (b + slope p a c) - (b + p * (a - c))| ≤ ((1 + 1 / 2 ^ 24) ^ 3 - 1) * (|b| + |p| * (|a| + |c|)) :=
    fun b p a c => ((((Acc.leaf b).mono (Nat.zero_le 2)).plus (slope_acc p a c)).rnd).1
  exact ⟨by simpa only [cleanE] using key (e.x i j k) p.x (d (i + 1) j k) (d i j k),
    by simpa only [cleanE] using key (e.y i j k) p.y (d i (j + 1) k) (d i j k),
    by simpa only [cleanE] using key (e.z i j k) p.z (d i j (k + 1)) (d i j k)⟩

/-- **C133 (nothing to clean).** If the reported divergence is the same everywhere, any number of passes leave the magnetic field the same in
every bit. -/
theorem clean_quiet (p : Ratio) {b : Mag}
    (hb : ∀ i j k, rnd32 (b.x i j k) = b.x i j k ∧ rnd32 (b.y i j k) = b.y i j k ∧ rnd32 (b.z i j k) = b.z i j k) (q : Ratio) {c : ℚ}
    (hd : ∀ i j k, divBErr q b i j k = c) (n : ℕ) : (fun b => cleanB p (divBErr q b) b)^[n] b = b := by
  have one : cleanB p (divBErr q b) b = b := by
    have s : ∀ p c : ℚ, slope p c c = 0 := by
      intro p c
      unfold slope
      rw [sub_self, r_zero, mul_zero, r_zero]
    obtain ⟨x, y, z⟩ := b
    unfold cleanB
    congr 1 <;> funext i j k <;> simp only [hd, s, add_zero]
    · exact (hb i j k).1
    · exact (hb i j k).2.1
    · exact (hb i j k).2.2
  exact Function.iterate_fixed (f := fun b => cleanB p (divBErr q b) b) one n

/-- **C133 (uniform fields).** A uniform magnetic field has a reported divergence of exactly 0. -/
theorem divBErr_uniform (p : Ratio) (B : Fin 3 → ℚ) (i j k : ℤ) :
    divBErr p ⟨fun _ _ _ => B 0, fun _ _ _ => B 1, fun _ _ _ => B 2⟩ i j k = 0 := by
  simp [divBErr, slope, r_zero]

/-- The hypotheses of `clean_quiet` are met by a uniform field, and a field that varies has a divergence and is changed by cleaning. -/
example : (∀ i j k, divBErr ratio ⟨fun _ _ _ => rnd32 (1 / 3), fun _ _ _ => rnd32 (1 / 7), fun _ _ _ => 1⟩ i j k = 0) ∧
    (rnd32 (rnd32 (1 / 3)) = rnd32 (1 / 3) ∧ rnd32 (rnd32 (1 / 7)) = rnd32 (1 / 7) ∧ rnd32 1 = 1) ∧
    divBErr ratio waveB 0 0 0 ≠ 0 ∧ (cleanB ratio (divBErr ratio waveB) waveB).x 0 0 0 ≠ waveB.x 0 0 0 :=
  ⟨fun i j k => divBErr_uniform ratio ![rnd32 (1 / 3), rnd32 (1 / 7), 1] i j k, by decide +kernel, by decide +kernel, by decide +kernel⟩

end Verif.Drift
