import Verif.Gyro.FieldModel
import Verif.Drift.ElProps

/-!
# Property C131: the energy of the fields with all roundings
-/
namespace Verif.Gyro
open Verif.Place Verif.Streak Verif.Flow Verif.Drift

/-- Specification: the six energies of a voxel, each the weight times the sum of the squares on the four edges or the two faces of a component. -/
def trueVoxel (c : Weights) (e : El) (b : Mag) (i j k : ℤ) : Fin 6 → ℚ :=
  ![c.qeps 0 * ∑ y ∈ {j, j + 1}, ∑ z ∈ {k, k + 1}, e.x i y z ^ 2,
    c.qeps 1 * ∑ x ∈ {i, i + 1}, ∑ z ∈ {k, k + 1}, e.y x j z ^ 2,
    c.qeps 2 * ∑ x ∈ {i, i + 1}, ∑ y ∈ {j, j + 1}, e.z x y k ^ 2,
    c.hrmu 0 * ∑ x ∈ {i, i + 1}, b.x x j k ^ 2,
    c.hrmu 1 * ∑ y ∈ {j, j + 1}, b.y i y k ^ 2,
    c.hrmu 2 * ∑ z ∈ {k, k + 1}, b.z i j z ^ 2]

lemma four_near {w : ℚ} (hw : 0 ≤ w) (a b c d : ℚ) : Btw 5 (w * (a * a + b * b + c * c + d * d)) (four w a b c d) := by
  have na := mul_self_nonneg a
  have nb := mul_self_nonneg b
  have nc := mul_self_nonneg c
  have nd := mul_self_nonneg d
  have h1 : ∀ {x : ℚ}, 0 ≤ x → Btw 1 x (rnd32 x) := fun hx => (Btw.refl _).rnd hx
  have h2 := ((h1 na).add (h1 nb)).rnd (add_nonneg na nb)
  have h3 := (h2.add ((h1 nc).up nc)).rnd (by linarith)
  have h4 := (h3.add (Btw_le nd (h1 nd) (by norm_num : 1 ≤ 3))).rnd (by linarith)
  have h5 := Btw_mul hw (by linarith) (Btw.refl w) h4
  exact h5.rnd (mul_nonneg hw (by linarith))

lemma two_near {w : ℚ} (hw : 0 ≤ w) (a b : ℚ) : Btw 5 (w * (a * a + b * b)) (two w a b) := by
  have na := mul_self_nonneg a
  have nb := mul_self_nonneg b
  have h1 : ∀ {x : ℚ}, 0 ≤ x → Btw 1 x (rnd32 x) := fun hx => (Btw.refl _).rnd hx
  have h2 := ((h1 na).add (h1 nb)).rnd (add_nonneg na nb)
  have h5 := (Btw_mul hw (add_nonneg na nb) (Btw.refl w) h2).rnd (mul_nonneg hw (add_nonneg na nb))
  exact Btw_le (mul_nonneg hw (add_nonneg na nb)) h5 (by norm_num)

lemma pair_sum (n : ℤ) (f : ℤ → ℚ) : ∑ x ∈ {n, n + 1}, f x = f n + f (n + 1) := Finset.sum_pair (by omega)

/-- **C131 (one voxel).** What a voxel adds to each of the six energies has a relative error of at most five roundings. -/
theorem voxel_near {c : Weights} (h1 : ∀ a, 0 ≤ c.qeps a) (h2 : ∀ a, 0 ≤ c.hrmu a) (e : El) (b : Mag) (v : ℤ × ℤ × ℤ) (s : Fin 6) :
    0 ≤ trueVoxel c e b v.1 v.2.1 v.2.2 s ∧ Btw 5 (trueVoxel c e b v.1 v.2.1 v.2.2 s) (voxelEn c e b v s) := by
  obtain ⟨i, j, k⟩ := v
  have f : ∀ {w a b c d t : ℚ}, 0 ≤ w → t = w * (a * a + b * b + c * c + d * d) → 0 ≤ t ∧ Btw 5 t (four w a b c d) := by
    intro w a b c d t hw ht
    rw [ht]
    exact ⟨mul_nonneg hw (by nlinarith [mul_self_nonneg a, mul_self_nonneg b, mul_self_nonneg c, mul_self_nonneg d]), four_near hw a b c d⟩
  have g : ∀ {w a b t : ℚ}, 0 ≤ w → t = w * (a * a + b * b) → 0 ≤ t ∧ Btw 5 t (two w a b) := by
    intro w a b t hw ht
    rw [ht]
    exact ⟨mul_nonneg hw (by nlinarith [mul_self_nonneg a, mul_self_nonneg b]), two_near hw a b⟩
  fin_cases s
  · exact f (h1 0) (by simp only [trueVoxel, Fin.mk_zero, Fin.zero_eta, Fin.mk_one, Fin.reduceFinMk, Matrix.cons_val, pair_sum]; ring)
  · exact f (h1 1) (by simp only [trueVoxel, Fin.mk_zero, Fin.zero_eta, Fin.mk_one, Fin.reduceFinMk, Matrix.cons_val, pair_sum]; ring)
  · exact f (h1 2) (by simp only [trueVoxel, Fin.mk_zero, Fin.zero_eta, Fin.mk_one, Fin.reduceFinMk, Matrix.cons_val, pair_sum]; ring)
  · exact g (h2 0) (by simp only [trueVoxel, Fin.mk_zero, Fin.zero_eta, Fin.mk_one, Fin.reduceFinMk, Matrix.cons_val, pair_sum]; ring)
  · exact g (h2 1) (by simp only [trueVoxel, Fin.mk_zero, Fin.zero_eta, Fin.mk_one, Fin.reduceFinMk, Matrix.cons_val, pair_sum]; ring)
  · exact g (h2 2) (by simp only [trueVoxel, Fin.mk_zero, Fin.zero_eta, Fin.mk_one, Fin.reduceFinMk, Matrix.cons_val, pair_sum]; ring)

/-- **C131 (the domain).** Each of the six energies is the sum over the voxels, up to five roundings in single precision and one in
double precision for each voxel of the longest pipeline and each pipeline.  None is ever negative. -/
theorem field_near {c : Weights} (h1 : ∀ a, 0 ≤ c.qeps a) (h2 : ∀ a, 0 ≤ c.hrmu a) (e : El) (b : Mag) {ls : List (List (ℤ × ℤ × ℤ))} {n : ℕ}
    (hn : ∀ l ∈ ls, l.length ≤ n) (s : Fin 6) :
    0 ≤ fieldEn c e b ls s ∧
    (ls.flatten.map fun v => trueVoxel c e b v.1 v.2.1 v.2.2 s).sum * (1 - 1 / 2 ^ 24) ^ 5 * (1 - 1 / 2 ^ 53) ^ (n + ls.length) ≤ fieldEn c e b ls s ∧
    fieldEn c e b ls s ≤ (ls.flatten.map fun v => trueVoxel c e b v.1 v.2.1 v.2.2 s).sum * (1 + 1 / 2 ^ 24) ^ 5 * (1 + 1 / 2 ^ 53) ^ (n + ls.length) := by
  have hmap : fieldEn c e b ls s = addUp ((ls.map fun l => l.map fun v => voxelEn c e b v s).map addUp) := by
    unfold fieldEn
    rw [List.map_map]
    rfl
  have hpos : ∀ v, 0 ≤ voxelEn c e b v s := by
    intro v
    obtain ⟨t0, t1⟩ := voxel_near h1 h2 e b v s
    exact le_trans (mul_nonneg t0 (by norm_num)) t1.1
  have h0 : ∀ l ∈ ls.map (fun l => l.map fun v => voxelEn c e b v s), ∀ x ∈ l, 0 ≤ x := by
    intro l hl x hx
    obtain ⟨l', -, rfl⟩ := List.mem_map.mp hl
    obtain ⟨v, -, rfl⟩ := List.mem_map.mp hx
    exact hpos v
  have hn' : ∀ l ∈ ls.map (fun l => l.map fun v => voxelEn c e b v s), l.length ≤ n := by
    intro l hl
    obtain ⟨l', hl', rfl⟩ := List.mem_map.mp hl
    rw [List.length_map]
    exact hn l' hl'
  obtain ⟨a1, a2⟩ := addUp_two h0 hn'
  rw [← hmap, List.length_map] at a1 a2
  have hfl : (ls.map fun l => l.map fun v => voxelEn c e b v s).flatten = ls.flatten.map fun v => voxelEn c e b v s := List.map_flatten.symm
  rw [hfl] at a1 a2
  have each : ∀ l : List (ℤ × ℤ × ℤ), Btw 5 (l.map fun v => trueVoxel c e b v.1 v.2.1 v.2.2 s).sum (l.map fun v => voxelEn c e b v s).sum := by
    intro l
    induction l with
    | nil => constructor <;> simp
    | cons v l ih =>
      simp only [List.map_cons, List.sum_cons]
      exact (voxel_near h1 h2 e b v s).2.add ih
  obtain ⟨b1, b2⟩ := each ls.flatten
  refine ⟨?_, (mul_le_mul_of_nonneg_right b1 (pow_nonneg (by norm_num) _)).trans a1, a2.trans (mul_le_mul_of_nonneg_right b2 (pow_nonneg (by norm_num) _))⟩
  rw [hmap]
  refine addUp_nonneg ?_
  intro x hx
  obtain ⟨l, hl, rfl⟩ := List.mem_map.mp hx
  exact addUp_nonneg (h0 l hl)

/-- Vacuum and three voxels on two pipelines meet the hypotheses, and the energy of a field is not zero. -/
example : (∀ a : Fin 3, (0 : ℚ) ≤ (fun _ => 1 / 4) a) ∧ (∀ l ∈ [[((0 : ℤ), (0 : ℤ), (0 : ℤ)), (1, 0, 0)], [(0, 1, 0)]], l.length ≤ 2) ∧
    0 < fieldEn ⟨fun _ => 1 / 4, fun _ => 1 / 2⟩ wave waveB [[(0, 0, 0), (1, 0, 0)], [(0, 1, 0)]] 0 := by
  refine ⟨fun a => by norm_num, by simp, by decide +kernel⟩

end Verif.Gyro
