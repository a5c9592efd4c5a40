import Verif.Poynting.Model
import Mathlib.Algebra.BigOperators.Group.Finset.Basic
import Mathlib.Algebra.BigOperators.Field
import Mathlib.Algebra.BigOperators.Ring.Finset
import Mathlib.Algebra.CharZero.Defs
import Mathlib.Data.Nat.Cast.Field
import Mathlib.Tactic.Ring
import Mathlib.Tactic.FieldSimp

/-! # C117: the diagnostic `poynting_flux` -/
namespace Verif.Poynting

open Finset

variable {K : Type} [Field K] [DecidableEq K]

/-! ### What it shall be -/

/-- The component along x of `E × B`, with `B` in the middle of two planes. -/
def alongX (f1 f2 : Fields K) : K := f2.ey * ((f1.cbz + f2.cbz) / 2) - f2.ez * ((f1.cby + f2.cby) / 2)

/-- The mean over the domains at the left side and over the lines (`y`, `z`) from 2 to `ny`, `nz` of the flux through plane 2, over `(cvac e0)²`. -/
def Box.meanFlux (b : Box K) (fields : ℕ → ℕ → Fields K) (e0 : K) : K :=
  (∑ i ∈ range (b.py * b.pz), ∑ j ∈ range (b.ny - 1), ∑ k ∈ range (b.nz - 1),
    alongX (fields (b.px * i) (b.index 1 (j + 2) (k + 2))) (fields (b.px * i) (b.index 2 (j + 2) (k + 2))) / (b.cvac * e0) ^ 2) /
  (((b.ny - 1) * (b.nz - 1) * (b.py * b.pz) : ℕ) : K)

/-! ### Lemmas -/

theorem fold_none (l : List ℕ) (g : ℕ → Option K) : l.foldl (fun s i => do return (← s) + (← g i)) (none : Option K) = none := by
  induction l with
  | nil => rfl
  | cons a l ih => exact ih

/-- A sum of values. -/
theorem fold_some (g : ℕ → Option K) (h : ℕ → K) : ∀ n, (∀ i < n, g i = some (h i)) →
    (List.range n).foldl (fun s i => do return (← s) + (← g i)) (some 0) = some (∑ i ∈ range n, h i)
  | 0, _ => by simp
  | n + 1, hg => by
    rw [List.range_succ, List.foldl_append, fold_some g h n fun i hi => hg i (by omega), sum_range_succ]
    simp only [List.foldl_cons, List.foldl_nil, hg n (by omega)]
    rfl

/-- A sum with a term that has no value. -/
theorem fold_bad (g : ℕ → Option K) : ∀ n, (∃ i < n, g i = none) → ∀ s : Option K,
    (List.range n).foldl (fun s i => do return (← s) + (← g i)) s = none
  | 0, h, _ => by obtain ⟨i, hi, _⟩ := h; omega
  | n + 1, h, s => by
    obtain ⟨i, hi, hn⟩ := h
    rw [List.range_succ, List.foldl_append]
    simp only [List.foldl_cons, List.foldl_nil]
    by_cases h : i = n
    · subst h
      rw [hn]
      cases (List.range i).foldl (fun s i => do return (← s) + (← g i)) s <;> rfl
    · rw [fold_bad g n ⟨i, by omega, hn⟩ s]; rfl

/-- Rows of words. -/
theorem fold_put (c : ℕ → Option K) (p : ℕ) : ∀ n (m : ℕ → Option K) i,
    (List.range' 1 n).foldl (fun m k => put m (p + k - 1) (c k)) m i = if p ≤ i ∧ i < p + n then c (i - p + 1) else m i
  | 0, m, i => by rw [if_neg (by omega)]; rfl
  | n + 1, m, i => by
    rw [List.range'_concat, List.foldl_append]
    simp only [List.foldl_cons, List.foldl_nil, put, Nat.one_mul]
    rw [fold_put c p n m i]
    by_cases h : i = p + (1 + n) - 1
    · rw [if_pos h, if_pos (by omega)]; congr 1; omega
    · rw [if_neg h]
      by_cases h' : p ≤ i ∧ i < p + n
      · rw [if_pos h', if_pos (by omega)]
      · rw [if_neg h', if_neg (by omega)]

theorem fill_row (b : Box K) (f : ℕ → Fields K) (e0 : K) (w : ℕ) : ∀ n (m : ℕ → Option K) j k, k < w →
    ((List.range' 1 n).foldl (fun m j => (List.range' 1 (w)).foldl (fun m k =>
      put m ((j - 1) * (w) + k - 1) (contribution b f e0 j k)) m) m) (j * w + k) =
    if j < n then contribution b f e0 (j + 1) (k + 1) else m (j * w + k)
  | 0, m, j, k, _ => by rw [if_neg (by omega)]; rfl
  | n + 1, m, j, k, hk => by
    rw [List.range'_concat, List.foldl_append]
    simp only [List.foldl_cons, List.foldl_nil, Nat.one_mul]
    refine (fold_put (contribution b f e0 (1 + n)) ((1 + n - 1) * (w)) (w) _ (j * w + k)).trans ?_
    rw [fill_row b f e0 w n m j k hk, Nat.add_sub_cancel_left]
    rcases Nat.lt_trichotomy j n with h | h | h
    · have : j * w + w ≤ n * w := by rw [← Nat.succ_mul]; exact Nat.mul_le_mul_right w h
      rw [if_neg (by omega), if_pos h, if_pos (by omega)]
    · subst h
      rw [if_pos (by omega), if_pos (by omega)]
      congr 1 <;> omega
    · have : n * w + w ≤ j * w := by rw [← Nat.succ_mul]; exact Nat.mul_le_mul_right w h
      rw [if_neg (by omega), if_neg (by omega), if_neg (by omega)]

theorem sum_rows (h : ℕ → K) (w : ℕ) : ∀ n, ∑ i ∈ range (n * w), h i = ∑ j ∈ range n, ∑ k ∈ range w, h (j * w + k)
  | 0 => by simp
  | n + 1 => by rw [Nat.succ_mul, sum_range_add, sum_rows h w n, sum_range_succ]

theorem column_zero (b : Box K) (r : ℕ) : b.column r = r % b.px := by
  unfold Box.column
  have := Nat.div_add_mod r b.px
  rw [Nat.mul_comm] at this
  show r - r / b.px * b.px = _
  omega

/-- The share of a domain at the left side. -/
theorem local_left (b : Box K) (f : ℕ → Fields K) (e0 : K) (r : ℕ) (hr : b.column r = 0) (h0 : b.cvac * b.cvac * e0 * e0 ≠ 0) :
    local_ b f e0 r = some (∑ j ∈ range (b.ny - 1), ∑ k ∈ range (b.nz - 1),
      alongX (f (b.index 1 (j + 2) (k + 2))) (f (b.index 2 (j + 2) (k + 2))) / (b.cvac * e0) ^ 2) := by
  unfold local_
  simp only [hr, if_true]
  unfold total Box.stride
  have hc : ∀ j k, contribution b f e0 (j + 1) (k + 1) = some (alongX (f (b.index 1 (j + 2) (k + 2))) (f (b.index 2 (j + 2) (k + 2))) / (b.cvac * e0) ^ 2) :=
    fun j k => by
      unfold contribution quotient alongX
      simp only
      rw [if_neg h0]
      congr 1
      rw [show b.cvac * b.cvac * e0 * e0 = (b.cvac * e0) ^ 2 by ring]
      congr 1
      ring
  refine (fold_some _ (fun i => alongX (f (b.index 1 (i / (b.nz - 1) + 2) (i % (b.nz - 1) + 2))) (f (b.index 2 (i / (b.nz - 1) + 2) (i % (b.nz - 1) + 2))) /
    (b.cvac * e0) ^ 2) _ fun i hi => ?_).trans ?_
  · have hw : 0 < b.nz - 1 := Nat.pos_of_ne_zero fun h => by rw [h] at hi; omega
    have hd : i = i / (b.nz - 1) * (b.nz - 1) + i % (b.nz - 1) := by rw [Nat.mul_comm]; exact (Nat.div_add_mod _ _).symm
    have hj : i / (b.nz - 1) < b.ny - 1 := Nat.div_lt_of_lt_mul (by rwa [Nat.mul_comm])
    conv_lhs => rw [hd]
    exact (fill_row b f e0 _ (b.ny - 1) _ _ _ (Nat.mod_lt _ hw)).trans ((if_pos hj).trans (hc _ _))
  · rw [sum_rows]
    congr 1
    refine sum_congr rfl fun j _ => sum_congr rfl fun k hk => ?_
    have hk := mem_range.1 hk
    have e1 : (j * (b.nz - 1) + k) / (b.nz - 1) = j := by
      rw [Nat.mul_comm, Nat.mul_add_div (by omega), Nat.div_eq_of_lt hk, Nat.add_zero]
    have e2 : (j * (b.nz - 1) + k) % (b.nz - 1) = k := by rw [Nat.mul_comm, Nat.mul_add_mod, Nat.mod_eq_of_lt hk]
    rw [e1, e2]

/-- A domain that is not at the left side sums words nobody has written. -/
theorem local_other (b : Box K) (f : ℕ → Fields K) (e0 : K) (r : ℕ) (hr : b.column r ≠ 0) (hs : 0 < b.stride) : local_ b f e0 r = none := by
  unfold local_ total
  simp only [if_neg hr]
  refine fold_bad _ _ ⟨b.stride - 1, by omega, ?_⟩ _
  unfold cleared
  rw [if_neg (by omega)]

/-! ### What it is -/

/-- With one domain along x it is the mean flux. -/
theorem flux_partial (b : Box K) [CharZero K] (fields : ℕ → ℕ → Fields K) (e0 : K) (hx : b.px = 1) (hy : 2 ≤ b.ny) (hz : 2 ≤ b.nz) (hpy : 1 ≤ b.py)
    (hpz : 1 ≤ b.pz) (hc : b.cvac ≠ 0) (he : e0 ≠ 0) : flux b fields e0 = some (b.meanFlux fields e0) := by
  unfold flux Box.meanFlux
  have h0 : b.cvac * b.cvac * e0 * e0 ≠ 0 := mul_ne_zero (mul_ne_zero (mul_ne_zero hc hc) he) he
  have hsum := fold_some (fun r => local_ b (fields r) e0 r) _ (b.px * b.py * b.pz) fun r _ =>
    local_left b (fields r) e0 r (by rw [column_zero, hx, Nat.mod_one]) h0
  rw [hsum]
  have hs : (b.ny - 1) * (b.nz - 1) ≠ 0 := Nat.mul_ne_zero (by omega) (by omega)
  have hd : (b.stride : K) * b.py * b.pz = (((b.ny - 1) * (b.nz - 1) * (b.py * b.pz) : ℕ) : K) := by
    unfold Box.stride; push_cast; ring
  have hn : (((b.ny - 1) * (b.nz - 1) * (b.py * b.pz) : ℕ) : K) ≠ 0 := Nat.cast_ne_zero.2 (Nat.mul_ne_zero hs (Nat.mul_ne_zero (by omega) (by omega)))
  show quotient _ _ = _
  rw [hd]
  unfold quotient
  rw [if_neg hn, hx]
  simp only [Nat.one_mul]

/-- With several domains along x it has no value, whatever the fields: the other domains sum memory that was not written, because `memset` is given the number of
words instead of the number of bytes. -/
theorem flux_undefined (b : Box K) (fields : ℕ → ℕ → Fields K) (e0 : K) (hx : 2 ≤ b.px) (hpy : 1 ≤ b.py) (hpz : 1 ≤ b.pz) (hy : 2 ≤ b.ny) (hz : 2 ≤ b.nz) :
    flux b fields e0 = none := by
  have h1 : 1 < b.px * b.py * b.pz := by
    have : b.px * 1 * 1 ≤ b.px * b.py * b.pz := Nat.mul_le_mul (Nat.mul_le_mul_left _ hpy) hpz
    omega
  have hb := fold_bad (fun r => local_ b (fields r) e0 r) (b.px * b.py * b.pz) ⟨1, h1, local_other b (fields 1) e0 1
    (by rw [column_zero, Nat.mod_eq_of_lt (by omega)]; omega) (Nat.mul_pos (by omega) (by omega))⟩ (some 0)
  unfold flux
  rw [hb]
  rfl

/-- In a box with one cell along y or z it divides by zero. -/
theorem flux_flat (b : Box K) (fields : ℕ → ℕ → Fields K) (e0 : K) (h : b.ny = 1 ∨ b.nz = 1) : flux b fields e0 = none := by
  have hs : b.stride = 0 := by unfold Box.stride; rcases h with h | h <;> rw [h] <;> simp
  unfold flux
  cases (List.range (b.px * b.py * b.pz)).foldl (fun s r => do return (← s) + (← local_ b (fields r) e0 r)) (some 0) with
  | none => rfl
  | some g =>
    show quotient _ _ = _
    unfold quotient
    rw [hs, if_pos (by simp)]

/-- The flux of uniform fields is that of one line. -/
theorem flux_uniform_partial (b : Box K) [CharZero K] (fields : ℕ → ℕ → Fields K) (e0 : K) (hx : b.px = 1) (hy : 2 ≤ b.ny) (hz : 2 ≤ b.nz) (hpy : 1 ≤ b.py)
    (hpz : 1 ≤ b.pz) (hc : b.cvac ≠ 0) (he : e0 ≠ 0) (u : Fields K)
    (hu : ∀ r < b.py * b.pz, ∀ x ∈ [1, 2], ∀ y ≤ b.ny, ∀ z ≤ b.nz, fields r (b.index x y z) = u) :
    flux b fields e0 = some ((u.ey * u.cbz - u.ez * u.cby) / (b.cvac * e0) ^ 2) := by
  rw [flux_partial b fields e0 hx hy hz hpy hpz hc he]
  congr 1
  unfold Box.meanFlux
  have hn : (((b.ny - 1) * (b.nz - 1) * (b.py * b.pz) : ℕ) : K) ≠ 0 :=
    Nat.cast_ne_zero.2 (Nat.mul_ne_zero (Nat.mul_ne_zero (by omega) (by omega)) (Nat.mul_ne_zero (by omega) (by omega)))
  rw [div_eq_iff hn]
  have hu' : ∀ i ∈ range (b.py * b.pz), (∑ j ∈ range (b.ny - 1), ∑ k ∈ range (b.nz - 1),
      alongX (fields (b.px * i) (b.index 1 (j + 2) (k + 2))) (fields (b.px * i) (b.index 2 (j + 2) (k + 2))) / (b.cvac * e0) ^ 2) =
      ((b.ny - 1 : ℕ) : K) * (((b.nz - 1 : ℕ) : K) * ((u.ey * u.cbz - u.ez * u.cby) / (b.cvac * e0) ^ 2)) := fun i hi => by
    have hi := mem_range.1 hi
    rw [hx, Nat.one_mul]
    refine (sum_congr rfl fun j hj => (sum_congr rfl fun k hk => ?_).trans (by rw [sum_const, card_range, nsmul_eq_mul])).trans
      (by rw [sum_const, card_range, nsmul_eq_mul])
    have hj := mem_range.1 hj
    have hk := mem_range.1 hk
    rw [hu i hi 1 (by simp) (j + 2) (by omega) (k + 2) (by omega), hu i hi 2 (by simp) (j + 2) (by omega) (k + 2) (by omega)]
    unfold alongX
    have : (2 : K) ≠ 0 := by exact_mod_cast (Nat.cast_ne_zero (R := K) (n := 2)).2 (by decide)
    congr 1
    field_simp
    ring
  rw [sum_congr rfl hu', sum_const, card_range, nsmul_eq_mul]
  push_cast
  ring

/-- What it should be in every box is false. -/
theorem flux_not_right [CharZero K] : ¬ ∀ (b : Box K) (fields : ℕ → ℕ → Fields K) (e0 : K), 1 ≤ b.px → 2 ≤ b.ny → 2 ≤ b.nz → 1 ≤ b.py → 1 ≤ b.pz → b.cvac ≠ 0 →
    e0 ≠ 0 → flux b fields e0 = some (b.meanFlux fields e0) := fun h => by
  have h1 := h ⟨1, 2, 2, 2, 1, 1, 1⟩ (fun _ _ => ⟨0, 0, 0, 0⟩) 1 (Nat.le_succ 1) le_rfl le_rfl le_rfl le_rfl one_ne_zero one_ne_zero
  rw [flux_undefined _ _ _ le_rfl le_rfl le_rfl le_rfl le_rfl] at h1
  exact absurd h1 (by simp)

end Verif.Poynting
