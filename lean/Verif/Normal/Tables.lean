import Verif.Normal.Data
import Verif.Normal.Exists
import Mathlib.Analysis.Complex.ExponentialBounds
import Mathlib.Tactic.NormNum.BigOperators

/-!
# C90: the tables of the code
-/
namespace Verif.Normal

/-- A literal in units of 10^-44. -/
def lit (L : List ℕ) (i : ℕ) : ℚ := (L.getD i 0 : ℚ) / 10 ^ 44

/-- The table of `frandn` (as written; the compiler rounds it to single precision).  Entries past
the end are not used, `Rng.ziggurat_indices`. -/
noncomputable def frandnTable : Table where
  N := 64
  x i := (lit frandnX i : ℚ)
  y i := (lit frandnY i : ℚ)
  R := ((frandnR : ℚ) / 10 ^ 44 : ℚ)

/-- The table of `drandn`. -/
noncomputable def drandnTable : Table where
  N := 256
  x i := (lit drandnX i : ℚ)
  y i := (lit drandnY i : ℚ)
  R := ((drandnR : ℚ) / 10 ^ 44 : ℚ)

/-- Specification: like `Exact`, with the heights within `δ`, the areas within the share `ε` and the
place of the tail within `δ`. -/
structure Close (T : Table) (δ ε : ℝ) : Prop where
  two : 2 ≤ T.N
  x0 : T.x 0 = 0
  y0 : T.y 0 = 1
  mono : ∀ i < T.N, T.x i < T.x (i + 1)
  anti : ∀ i < T.N, T.y (i + 1) < T.y i
  y : ∀ i ≤ T.N, |T.y i - Real.exp (-(T.x i) ^ 2 / 2)| ≤ δ
  R : T.R = T.x (T.N - 1)
  area : ∀ i, i + 1 < T.N →
    |T.x (i + 1) * (T.y i - T.y (i + 1)) - T.x T.N * T.y (T.N - 1)| ≤ ε * (T.x T.N * T.y (T.N - 1))
  base : |T.x T.N - (T.R + 1 / T.R)| ≤ δ

/-! ## Bounds for the exponential function -/

/-- The first terms of the series of `exp (-z)`. -/
def series (z : ℚ) : ℕ → ℚ
  | 0 => 0
  | n + 1 => series z n + (-z) ^ n / (n.factorial : ℚ)

/-- What is left of it. -/
def rest (z : ℚ) : ℚ := z ^ 14 * (15 / ((Nat.factorial 14 : ℚ) * 14))

lemma series_eq (z : ℚ) (n : ℕ) :
    ((series z n : ℚ) : ℝ) = ∑ m ∈ Finset.range n, (-(z : ℝ)) ^ m / (m.factorial : ℝ) := by
  induction n with
  | zero => simp [series]
  | succ n ih => rw [Finset.sum_range_succ, ← ih, series]; push_cast; ring

lemma exp_between (z : ℚ) (h0 : 0 ≤ z) (h1 : z ≤ 1) :
    ((series z 14 - rest z : ℚ) : ℝ) ≤ Real.exp (-(z : ℝ)) ∧
    Real.exp (-(z : ℝ)) ≤ ((series z 14 + rest z : ℚ) : ℝ) := by
  have h0' : (0 : ℝ) ≤ z := by exact_mod_cast h0
  have h1' : (z : ℝ) ≤ 1 := by exact_mod_cast h1
  have h := Real.exp_bound (x := -(z : ℝ)) (by rw [abs_neg, abs_of_nonneg h0']; exact h1') (n := 14)
    (by norm_num)
  rw [abs_neg, abs_of_nonneg h0', ← series_eq, abs_le] at h
  have e : ((rest z : ℚ) : ℝ) = (z : ℝ) ^ 14 * ((Nat.succ 14 : ℕ) / ((Nat.factorial 14 : ℝ) * (14 : ℕ))) := by
    unfold rest; push_cast; norm_num
  push_cast at h e ⊢
  rw [e]
  constructor <;> linarith [h.1, h.2]

/-- One entry of the table of heights is right. -/
def okHeight (x y δ : ℚ) : Bool :=
  let z := x ^ 2 / 128
  decide (0 ≤ x) && decide (z ≤ 1) && decide (0 ≤ series z 14 - rest z) &&
    decide (y - δ ≤ (series z 14 - rest z) ^ 64) && decide ((series z 14 + rest z) ^ 64 ≤ y + δ)

lemma okHeight_sound (x y δ : ℚ) (h : okHeight x y δ = true) :
    |(y : ℝ) - Real.exp (-(x : ℝ) ^ 2 / 2)| ≤ (δ : ℝ) := by
  unfold okHeight at h
  simp only [Bool.and_eq_true, decide_eq_true_eq] at h
  obtain ⟨⟨⟨⟨h0, h1⟩, h2⟩, h3⟩, h4⟩ := h
  have hz : 0 ≤ x ^ 2 / 128 := by positivity
  obtain ⟨a, b⟩ := exp_between _ hz h1
  have e : Real.exp (-(x : ℝ) ^ 2 / 2) = Real.exp (-((x ^ 2 / 128 : ℚ) : ℝ)) ^ 64 := by
    rw [← Real.exp_nat_mul]
    congr 1
    push_cast
    ring
  have h2' : (0 : ℝ) ≤ ((series (x ^ 2 / 128) 14 - rest (x ^ 2 / 128) : ℚ) : ℝ) := by exact_mod_cast h2
  have h3' : ((y - δ : ℚ) : ℝ) ≤ ((series (x ^ 2 / 128) 14 - rest (x ^ 2 / 128) : ℚ) : ℝ) ^ 64 := by
    exact_mod_cast h3
  have h4' : ((series (x ^ 2 / 128) 14 + rest (x ^ 2 / 128) : ℚ) : ℝ) ^ 64 ≤ ((y + δ : ℚ) : ℝ) := by
    exact_mod_cast h4
  have c1 := pow_le_pow_left₀ h2' a 64
  have c2 := pow_le_pow_left₀ (Real.exp_pos _).le b 64
  rw [e, abs_le]
  push_cast at h3' h4' c1 c2 ⊢
  constructor <;> linarith

/-- All conditions on a table of literals. -/
def okTable (N : ℕ) (X Y : List ℕ) (R : ℕ) (δ ε : ℚ) : Bool :=
  decide (2 ≤ N) && decide (X.getD 0 0 = 0) && decide (Y.getD 0 0 = 10 ^ 44) && decide (R = X.getD (N - 1) 0) &&
  ((List.range N).all fun i => decide (X.getD i 0 < X.getD (i + 1) 0)) &&
  ((List.range N).all fun i => decide (Y.getD (i + 1) 0 < Y.getD i 0)) &&
  ((List.range (N + 1)).all fun i => okHeight (lit X i) (lit Y i) δ) &&
  ((List.range (N - 1)).all fun i =>
    decide (|lit X (i + 1) * (lit Y i - lit Y (i + 1)) - lit X N * lit Y (N - 1)|
      ≤ ε * (lit X N * lit Y (N - 1)))) &&
  decide (|lit X N - ((R : ℚ) / 10 ^ 44 + 1 / ((R : ℚ) / 10 ^ 44))| ≤ δ)

lemma okTable_sound (N : ℕ) (X Y : List ℕ) (R : ℕ) (δ ε : ℚ) (h : okTable N X Y R δ ε = true) :
    Close ⟨N, fun i => (lit X i : ℚ), fun i => (lit Y i : ℚ), ((R : ℚ) / 10 ^ 44 : ℚ)⟩ (δ : ℝ) (ε : ℝ) := by
  unfold okTable at h
  simp only [Bool.and_eq_true, decide_eq_true_eq, List.all_eq_true, List.mem_range] at h
  obtain ⟨⟨⟨⟨⟨⟨⟨⟨h1, h2⟩, h2y⟩, h3⟩, h4⟩, h5⟩, h6⟩, h7⟩, h8⟩ := h
  refine ⟨h1, ?_, ?_, ?_, ?_, ?_, ?_, ?_, ?_⟩
  · show ((lit X 0 : ℚ) : ℝ) = 0
    unfold lit; rw [h2]; simp
  · show ((lit Y 0 : ℚ) : ℝ) = 1
    unfold lit; rw [h2y]; norm_num
  · intro i hi
    have : lit X i < lit X (i + 1) := by
      unfold lit
      have := h4 i hi
      gcongr
    show ((lit X i : ℚ) : ℝ) < ((lit X (i + 1) : ℚ) : ℝ)
    exact_mod_cast this
  · intro i hi
    have : lit Y (i + 1) < lit Y i := by
      unfold lit
      have := h5 i hi
      gcongr
    show ((lit Y (i + 1) : ℚ) : ℝ) < ((lit Y i : ℚ) : ℝ)
    exact_mod_cast this
  · intro i hi
    exact okHeight_sound _ _ _ (h6 i (by have : i ≤ N := hi; omega))
  · simp only [lit, h3]
  · intro i hi
    have := h7 i (by have : i + 1 < N := hi; omega)
    dsimp only
    exact_mod_cast this
  · dsimp only
    exact_mod_cast h8

/-- **C90.** The tables of `frandn`: heights on the bell curve and place of the tail within
2·10^-19, strips of equal area within 3·10^-14 of it. -/
theorem frandn_table : Close frandnTable (2 * 10 ^ (-19 : ℤ)) (3 * 10 ^ (-14 : ℤ)) := by
  have h : okTable 64 frandnX frandnY frandnR (2 / 10 ^ 19) (3 / 10 ^ 14) = true := by decide +kernel
  have := okTable_sound _ _ _ _ _ _ h
  convert this using 1 <;> norm_num [zpow_neg, frandnTable]

/-- **C90.** The same for `drandn`. -/
theorem drandn_table : Close drandnTable (2 * 10 ^ (-19 : ℤ)) (3 * 10 ^ (-14 : ℤ)) := by
  have h : okTable 256 drandnX drandnY drandnR (2 / 10 ^ 19) (3 / 10 ^ 14) = true := by decide +kernel
  have := okTable_sound _ _ _ _ _ _ h
  convert this using 1 <;> norm_num [zpow_neg, drandnTable]

end Verif.Normal
