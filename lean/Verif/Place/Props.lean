import Verif.Place.Lemmas

/-!
# Property C122: where a particle is injected, with rounding
-/
namespace Verif.Place
open Verif.Uniform

/-- The position, in cells from the lower end of the domain, of a particle with offset `o` in cell `i`. -/
def cellPos (i : ℤ) (o : ℚ) : ℚ := (i - 1) + (o + 1) / 2

/-- **C122 (where the particle is put).** Whatever the rounding does, a particle that a rank injects is put into one of its cells,
with an offset in the closed cell: in double precision below 1 unless it is the last cell. -/
theorem placed_inside {n : ℤ} (hn : 0 < n) (hn' : n < 2 ^ 31) {x x0 x1 : ℚ} (h : x0 < x1) (h0 : x0 ≤ x) (h1 : x ≤ x1) :
    (1 ≤ (place n x x0 x1).1 ∧ (place n x x0 x1).1 ≤ n) ∧
      (-1 ≤ (place n x x0 x1).2 ∧ (place n x x0 x1).2 ≤ 1 ∧ ((place n x x0 x1).1 < n → (place n x x0 x1).2 < 1)) ∧
      (-1 ≤ stored n x x0 x1 ∧ stored n x x0 x1 ≤ 1) := by
  obtain ⟨X0, X1⟩ := scaled_bounds hn hn' h h0 h1
  set X := rnd64 (n * rnd64 (rnd64 (x - x0) / rnd64 (x1 - x0))) with hXdef
  have hX : rnd64 X = X := by rw [hXdef, rnd_idem]
  obtain ⟨e, o0, o1⟩ := offset_bounds X0 hX
  have ht : Inject.trunc X = ⌊X⌋ := by unfold Inject.trunc; rw [if_pos X0]
  have fl0 : 0 ≤ ⌊X⌋ := Int.floor_nonneg.mpr X0
  have fl1 : ⌊X⌋ ≤ n := by
    have := Int.floor_le_floor X1
    rwa [Int.floor_intCast] at this
  have hp : place n x x0 x1 = if ⌊X⌋ = n then (n - 1 + 1, 1) else (⌊X⌋ + 1, rnd64 (2 * (X - ⌊X⌋) - 1)) := by
    unfold place
    simp only
    rw [← hXdef, ht, e]
  have main : (1 ≤ (place n x x0 x1).1 ∧ (place n x x0 x1).1 ≤ n) ∧
      (-1 ≤ (place n x x0 x1).2 ∧ (place n x x0 x1).2 ≤ 1 ∧ ((place n x x0 x1).1 < n → (place n x x0 x1).2 < 1)) := by
    rw [hp]
    split_ifs with hc
    · refine ⟨⟨by simp only; omega, by simp only; omega⟩, by norm_num, by norm_num, fun hlt => ?_⟩
      simp only at hlt
      omega
    · exact ⟨⟨by simp only; omega, by simp only; omega⟩, o0, o1.le, fun _ => o1⟩
  refine ⟨main.1, main.2, ?_, ?_⟩
  · have := rnd32_mono main.2.1
    rwa [rnd32_neg_one] at this
  · have := rnd32_mono main.2.2.1
    rwa [rnd32_one] at this

lemma scaled_near {n : ℤ} (hn : 0 < n) {x x0 x1 : ℚ} (h : x0 < x1) (h0 : x0 ≤ x) (h1 : x ≤ x1) :
    |rnd64 (n * rnd64 (rnd64 (x - x0) / rnd64 (x1 - x0))) - n * ((x - x0) / (x1 - x0))| ≤ n / 2 ^ 50 := by
  obtain ⟨q0, q1⟩ := quot_bounds h h0 h1
  have hnq : (0 : ℚ) < n := by exact_mod_cast hn
  have hd := abs_le.mp (rnd_err (x - x0))
  have hD := abs_le.mp (rnd_err (x1 - x0))
  rw [abs_of_nonneg (by linarith : 0 ≤ x - x0)] at hd
  rw [abs_of_pos (by linarith : 0 < x1 - x0)] at hD
  have hDp : 0 < rnd64 (x1 - x0) := rnd64_pos (by linarith)
  have hdn : 0 ≤ rnd64 (x - x0) := rnd_nonneg (by linarith)
  have hle : rnd64 (x - x0) ≤ rnd64 (x1 - x0) := rnd_mono (by linarith)
  have hq := rnd_err (rnd64 (x - x0) / rnd64 (x1 - x0))
  have hX := rnd_err (n * rnd64 (rnd64 (x - x0) / rnd64 (x1 - x0)))
  rw [abs_of_nonneg (mul_nonneg hnq.le q0)] at hX
  rw [abs_of_nonneg (div_nonneg hdn hDp.le)] at hq
  have r1 : rnd64 (x - x0) / rnd64 (x1 - x0) ≤ 1 := (div_le_one hDp).mpr hle
  have ep : 0 < x1 - x0 := by linarith
  have hr : |rnd64 (x - x0) / rnd64 (x1 - x0) - (x - x0) / (x1 - x0)| ≤ 3 / 2 ^ 53 := by
    have key : rnd64 (x - x0) / rnd64 (x1 - x0) - (x - x0) / (x1 - x0) =
        (rnd64 (x - x0) - rnd64 (x - x0) / rnd64 (x1 - x0) * rnd64 (x1 - x0) +
          rnd64 (x - x0) / rnd64 (x1 - x0) * (x1 - x0) - (x - x0)) / (x1 - x0) := by
      field_simp
      ring
    rw [key, abs_div, abs_of_pos ep, div_le_iff₀ ep]
    set r := rnd64 (x - x0) / rnd64 (x1 - x0) with hrdef
    have r0 : 0 ≤ r := div_nonneg hdn hDp.le
    have e2 : rnd64 (x - x0) - r * rnd64 (x1 - x0) + r * (x1 - x0) - (x - x0) =
        (rnd64 (x - x0) - (x - x0)) - r * (rnd64 (x1 - x0) - (x1 - x0)) := by ring
    have b1 : |rnd64 (x - x0) - (x - x0)| ≤ (x1 - x0) / 2 ^ 53 := by
      rw [abs_le]
      have : (x - x0) / 2 ^ 53 ≤ (x1 - x0) / 2 ^ 53 := div_le_div_of_nonneg_right (by linarith) (by norm_num)
      constructor <;> linarith [hd.1, hd.2]
    have b2 : |r * (rnd64 (x1 - x0) - (x1 - x0))| ≤ (x1 - x0) / 2 ^ 53 := by
      rw [abs_mul, abs_of_nonneg r0]
      have := abs_le.mpr hD
      calc r * |rnd64 (x1 - x0) - (x1 - x0)| ≤ 1 * |rnd64 (x1 - x0) - (x1 - x0)| :=
            mul_le_mul_of_nonneg_right r1 (abs_nonneg _)
        _ ≤ _ := by rw [one_mul]; exact this
    rw [e2]
    refine (abs_sub _ _).trans ?_
    have : 0 ≤ (x1 - x0) / 2 ^ 53 := by positivity
    have e3 : 3 / 2 ^ 53 * (x1 - x0) = 3 * ((x1 - x0) / 2 ^ 53) := by ring
    rw [e3]
    linarith
  generalize rnd64 (x - x0) / rnd64 (x1 - x0) = r at *
  generalize (x - x0) / (x1 - x0) = t at *
  generalize rnd64 r = q at *
  generalize rnd64 (n * q) = X at *
  have hqt : |q - t| ≤ 4 / 2 ^ 53 := by
    have e : q - t = (q - r) + (r - t) := by ring
    rw [e]
    refine (abs_add_le _ _).trans ?_
    have : r / 2 ^ 53 ≤ 1 / 2 ^ 53 := div_le_div_of_nonneg_right r1 (by norm_num)
    have e4 : (4 : ℚ) / 2 ^ 53 = 1 / 2 ^ 53 + 3 / 2 ^ 53 := by norm_num
    rw [e4]
    linarith
  have e : X - n * t = (X - n * q) + n * (q - t) := by ring
  rw [e]
  refine (abs_add_le _ _).trans ?_
  rw [abs_mul, abs_of_pos hnq]
  have h3 : (n : ℚ) * |q - t| ≤ n * (4 / 2 ^ 53) := mul_le_mul_of_nonneg_left hqt hnq.le
  have h4 : (n : ℚ) * q / 2 ^ 53 ≤ n / 2 ^ 53 := div_le_div_of_nonneg_right (mul_le_of_le_one_right hnq.le q1) (by norm_num)
  have h5 : (n : ℚ) / 2 ^ 50 = n / 2 ^ 53 + n * (4 / 2 ^ 53) + 3 * (n / 2 ^ 53) := by ring
  have h6 : 0 ≤ (n : ℚ) / 2 ^ 53 := by positivity
  linarith

/-- **C122 (how far it is from where it was to be put).** The cell and the stored offset give the position, measured in cells,
within the rounding of the offset to `float` and a few units of `double` for the whole domain. -/
theorem placed_near {n : ℤ} (hn : 0 < n) (hn' : n < 2 ^ 31) {x x0 x1 : ℚ} (h : x0 < x1) (h0 : x0 ≤ x) (h1 : x ≤ x1) :
    |cellPos (place n x x0 x1).1 (stored n x x0 x1) - n * ((x - x0) / (x1 - x0))| ≤ 1 / 2 ^ 24 + n / 2 ^ 50 := by
  have hs := scaled_near hn h h0 h1
  obtain ⟨X0, X1⟩ := scaled_bounds hn hn' h h0 h1
  unfold stored
  have hp : place n x x0 x1 =
      (let X := rnd64 (n * rnd64 (rnd64 (x - x0) / rnd64 (x1 - x0)))
       if ⌊X⌋ = n then (n - 1 + 1, 1) else (⌊X⌋ + 1, rnd64 (2 * (X - ⌊X⌋) - 1))) := by
    have hX := rnd_idem (n * rnd64 (rnd64 (x - x0) / rnd64 (x1 - x0)))
    obtain ⟨e, -, -⟩ := offset_bounds X0 hX
    unfold place
    simp only
    rw [show Inject.trunc (rnd64 (n * rnd64 (rnd64 (x - x0) / rnd64 (x1 - x0)))) =
      ⌊rnd64 (n * rnd64 (rnd64 (x - x0) / rnd64 (x1 - x0)))⌋ by unfold Inject.trunc; rw [if_pos X0], e]
  rw [hp]
  simp only
  generalize rnd64 (n * rnd64 (rnd64 (x - x0) / rnd64 (x1 - x0))) = X at *
  generalize (n : ℚ) * ((x - x0) / (x1 - x0)) = t at *
  have fl := Int.floor_le X
  have fl' := Int.lt_floor_add_one X
  have main : |cellPos (if ⌊X⌋ = n then ((n - 1 + 1 : ℤ), (1 : ℚ)) else (⌊X⌋ + 1, rnd64 (2 * (X - ⌊X⌋) - 1))).1
      (rnd32 (if ⌊X⌋ = n then ((n - 1 + 1 : ℤ), (1 : ℚ)) else (⌊X⌋ + 1, rnd64 (2 * (X - ⌊X⌋) - 1))).2) - X| ≤ 1 / 2 ^ 24 := by
    split_ifs with hc
    · have : X = n := le_antisymm X1 (by rw [← hc]; exact fl)
      simp only [cellPos, rnd32_one]
      rw [this]
      push_cast
      norm_num
    · simp only [cellPos]
      set y := 2 * (X - ⌊X⌋) - 1 with hy
      have y1 : |y| ≤ 1 := by rw [abs_le, hy]; constructor <;> linarith
      have a1 := rnd_err y
      have o1 : |rnd64 y| ≤ 1 := by
        rw [abs_le] at y1 ⊢
        have u1 := rnd_mono y1.1
        have u2 := rnd_mono y1.2
        rw [rnd_neg, rnd64_one] at u1
        rw [rnd64_one] at u2
        exact ⟨u1, u2⟩
      have a2 : |rnd32 (rnd64 y) - rnd64 y| ≤ |rnd64 y| / 2 ^ 24 := rnd_errB (b := 23) (rnd64 y)
      have a1' : |rnd64 y - y| ≤ 1 / 2 ^ 53 := a1.trans (div_le_div_of_nonneg_right y1 (by norm_num))
      have a2' : |rnd32 (rnd64 y) - rnd64 y| ≤ 1 / 2 ^ 24 := a2.trans (div_le_div_of_nonneg_right o1 (by norm_num))
      generalize rnd32 (rnd64 y) = s at *
      generalize rnd64 y = o at *
      have e : ((⌊X⌋ + 1 : ℤ) : ℚ) - 1 + (s + 1) / 2 - X = ((s - o) + (o - y)) / 2 := by rw [hy]; push_cast; ring
      rw [e, abs_div, abs_of_pos (by norm_num : (0 : ℚ) < 2)]
      have h3 := abs_add_le (s - o) (o - y)
      have h4 : (1 : ℚ) / 2 ^ 53 ≤ 1 / 2 ^ 24 := by norm_num
      rw [div_le_iff₀ (by norm_num)]
      linarith
  have := abs_add_le (cellPos (if ⌊X⌋ = n then ((n - 1 + 1 : ℤ), (1 : ℚ)) else (⌊X⌋ + 1, rnd64 (2 * (X - ⌊X⌋) - 1))).1
      (rnd32 (if ⌊X⌋ = n then ((n - 1 + 1 : ℤ), (1 : ℚ)) else (⌊X⌋ + 1, rnd64 (2 * (X - ⌊X⌋) - 1))).2) - X) (X - t)
  rw [sub_add_sub_cancel] at this
  linarith

/-! ## Which ranks inject it -/

lemma takes_iff {per : Bool} {lo hi : ℚ} {gp p : ℕ} {x : ℚ} : takes per lo hi gp p x ↔
    edge lo hi gp p ≤ x ∧ x ≤ edge lo hi gp (p + 1) ∧ (x = edge lo hi gp (p + 1) → ¬ (p + 1 < gp ∨ per = true)) := by
  unfold takes Inject.skip farBc
  simp only [gt_iff_lt, not_or, not_lt, not_and, ge_iff_le, not_le]
  refine and_congr_right fun _ => and_congr_right fun _ => imp_congr_right fun _ => ?_
  split_ifs with hc
  · exact iff_of_false (by norm_num) fun h => hc.elim (fun a => absurd a (not_lt.mpr h.1)) h.2
  · exact iff_of_true (by norm_num) ⟨not_lt.mp fun a => hc (Or.inl a), fun a => hc (Or.inr a)⟩

lemma edge_first {lo hi : ℚ} (h : rnd64 lo = lo) (gp : ℕ) : edge lo hi gp 0 = rnd32 lo := by
  simp [edge, rnd_zero, rnd64_one, h]

lemma edge_last {lo hi : ℚ} (h : rnd64 hi = hi) {gp : ℕ} (hg : 0 < gp) : edge lo hi gp gp = rnd32 hi := by
  have : ((gp : ℚ)) / gp = 1 := div_self (by exact_mod_cast hg.ne')
  simp [edge, this, rnd_zero, rnd64_one, h]

lemma between (e : ℕ → ℚ) (x : ℚ) : ∀ g, e 0 ≤ x → x < e g → ∃ p < g, e p ≤ x ∧ x < e (p + 1)
  | 0, h0, h1 => absurd h1 (not_lt.mpr h0)
  | g + 1, h0, h1 => by
    rcases le_or_gt (e g) x with h | h
    · exact ⟨g, by omega, h, h1⟩
    · obtain ⟨p, hp, h2⟩ := between e x g h0 h
      exact ⟨p, by omega, h2⟩

lemma edge_mono {lo hi : ℚ} (hlo : lo ≤ 0) (hhi : 0 ≤ hi) (gp : ℕ) {p q : ℕ} (h : p ≤ q) : edge lo hi gp p ≤ edge lo hi gp q := by
  have hf : rnd64 ((p : ℚ) / gp) ≤ rnd64 ((q : ℚ) / gp) :=
    rnd_mono (div_le_div_of_nonneg_right (by exact_mod_cast h) (by positivity))
  have h1 : rnd64 (1 - rnd64 ((q : ℚ) / gp)) ≤ rnd64 (1 - rnd64 ((p : ℚ) / gp)) := rnd_mono (by linarith)
  have h2 : rnd64 (lo * rnd64 (1 - rnd64 ((p : ℚ) / gp))) ≤ rnd64 (lo * rnd64 (1 - rnd64 ((q : ℚ) / gp))) :=
    rnd_mono (mul_le_mul_of_nonpos_left h1 hlo)
  have h3 : rnd64 (hi * rnd64 ((p : ℚ) / gp)) ≤ rnd64 (hi * rnd64 ((q : ℚ) / gp)) :=
    rnd_mono (mul_le_mul_of_nonneg_left hf hhi)
  exact rnd32_mono (rnd_mono (add_le_add h2 h3))

/-- The rounded expression for the end of a domain differs from the exact one by less than 8 units of `double`. -/
lemma end_near {lo hi M : ℚ} (hl : |lo| ≤ M) (hh : |hi| ≤ M) {gp p : ℕ} (hg : 0 < gp) (hp : p ≤ gp) :
    |rnd64 (rnd64 (lo * rnd64 (1 - rnd64 ((p : ℚ) / gp))) + rnd64 (hi * rnd64 ((p : ℚ) / gp))) - (lo + (hi - lo) * (p / gp))| ≤
      8 * (M / 2 ^ 53) := by
  have hgq : (0 : ℚ) < gp := by exact_mod_cast hg
  have hM : 0 ≤ M := (abs_nonneg _).trans hl
  have t0 : (0 : ℚ) ≤ p / gp := by positivity
  have t1 : (p : ℚ) / gp ≤ 1 := by rw [div_le_one hgq]; exact_mod_cast hp
  generalize (p : ℚ) / gp = t at *
  have u0 : (0 : ℚ) < 1 / 2 ^ 53 := by norm_num
  have f0 := rnd_nonneg t0
  have f1 := rnd_mono t1
  rw [rnd64_one] at f1
  have ef : |rnd64 t - t| ≤ 1 / 2 ^ 53 := by
    refine (rnd_err t).trans (div_le_div_of_nonneg_right ?_ (by norm_num))
    rwa [abs_of_nonneg t0]
  generalize rnd64 t = f at *
  have g0 : 0 ≤ rnd64 (1 - f) := rnd_nonneg (by linarith)
  have g1 := rnd_mono (show 1 - f ≤ 1 by linarith)
  rw [rnd64_one] at g1
  have eg : |rnd64 (1 - f) - (1 - f)| ≤ 1 / 2 ^ 53 := by
    refine (rnd_err _).trans (div_le_div_of_nonneg_right ?_ (by norm_num))
    rw [abs_of_nonneg (by linarith)]
    linarith
  generalize rnd64 (1 - f) = g at *
  have m1 : |lo * g| ≤ M := by
    rw [abs_mul, abs_of_nonneg g0]
    exact (mul_le_of_le_one_right (abs_nonneg _) g1).trans hl
  have m2 : |hi * f| ≤ M := by
    rw [abs_mul, abs_of_nonneg f0]
    exact (mul_le_of_le_one_right (abs_nonneg _) f1).trans hh
  have e1 : |rnd64 (lo * g) - lo * g| ≤ M / 2 ^ 53 := (rnd_err _).trans (div_le_div_of_nonneg_right m1 (by norm_num))
  have e2 : |rnd64 (hi * f) - hi * f| ≤ M / 2 ^ 53 := (rnd_err _).trans (div_le_div_of_nonneg_right m2 (by norm_num))
  generalize rnd64 (lo * g) = a at *
  generalize rnd64 (hi * f) = c at *
  have e3 := rnd_err (a + c)
  have hab : |a + c| ≤ 3 * M := by
    have h1 : |a + c| ≤ |a - lo * g| + |lo * g| + (|c - hi * f| + |hi * f|) := by
      have := abs_add_le a c
      have h2 := abs_add_le (a - lo * g) (lo * g)
      have h3 := abs_add_le (c - hi * f) (hi * f)
      rw [sub_add_cancel] at h2 h3
      linarith
    have : M / 2 ^ 53 ≤ M / 2 := div_le_div_of_nonneg_left hM (by norm_num) (by norm_num)
    linarith
  have e3' : |rnd64 (a + c) - (a + c)| ≤ 3 * (M / 2 ^ 53) := by
    refine e3.trans ?_
    rw [← mul_div_assoc]
    exact div_le_div_of_nonneg_right hab (by norm_num)
  have e4 : |lo * (g - (1 - f))| ≤ M / 2 ^ 53 := by
    rw [abs_mul]
    calc |lo| * |g - (1 - f)| ≤ M * (1 / 2 ^ 53) := mul_le_mul hl eg (abs_nonneg _) hM
      _ = _ := by ring
  have e5 : |(hi - lo) * (f - t)| ≤ 2 * (M / 2 ^ 53) := by
    rw [abs_mul]
    have : |hi - lo| ≤ 2 * M := by
      rw [abs_le] at *
      constructor <;> linarith [hl.1, hl.2, hh.1, hh.2]
    calc |hi - lo| * |f - t| ≤ 2 * M * (1 / 2 ^ 53) := mul_le_mul this ef (abs_nonneg _) (by linarith)
      _ = _ := by ring
  generalize rnd64 (a + c) = r at *
  have e : r - (lo + (hi - lo) * t) =
      (r - (a + c)) + (a - lo * g) + (c - hi * f) + lo * (g - (1 - f)) + (hi - lo) * (f - t) := by ring
  rw [e]
  rw [abs_le] at *
  constructor <;> linarith [e1.1, e1.2, e2.1, e2.2, e3'.1, e3'.2, e4.1, e4.2, e5.1, e5.2]

/-- The box contains the origin, or the domains are not narrower than 2^-49 of the distance of its ends from the origin: then the
ends of the domains do not decrease. -/
def Regular (lo hi : ℚ) (gp : ℕ) : Prop := (lo ≤ 0 ∧ 0 ≤ hi) ∨ max |lo| |hi| * gp ≤ 2 ^ 49 * (hi - lo)

lemma edge_regular {lo hi : ℚ} {gp : ℕ} (h : Regular lo hi gp) {p q : ℕ} (hpq : p ≤ q) (hq : q ≤ gp) :
    edge lo hi gp p ≤ edge lo hi gp q := by
  rcases h with ⟨h1, h2⟩ | h
  · exact edge_mono h1 h2 gp hpq
  · rcases hpq.eq_or_lt with rfl | hlt
    · exact le_rfl
    · have hg : 0 < gp := by omega
      have hgq : (0 : ℚ) < gp := by exact_mod_cast hg
      have a := end_near (le_max_left |lo| |hi|) (le_max_right |lo| |hi|) hg (hlt.le.trans hq)
      have c := end_near (le_max_left |lo| |hi|) (le_max_right |lo| |hi|) hg hq
      apply rnd32_mono
      rw [abs_le] at a c
      have hM : 0 ≤ max |lo| |hi| := (abs_nonneg lo).trans (le_max_left _ _)
      have hw : 0 ≤ hi - lo := by
        by_contra hc
        have : 0 ≤ max |lo| |hi| * gp := by positivity
        have h49 : (0 : ℚ) < 2 ^ 49 := by norm_num
        nlinarith
      have hstep : (p : ℚ) / gp + 1 / gp ≤ q / gp := by
        rw [← add_div]
        apply div_le_div_of_nonneg_right _ hgq.le
        exact_mod_cast hlt
      have h3 := mul_le_mul_of_nonneg_left hstep hw
      have h4 : 16 * (max |lo| |hi| / 2 ^ 53) ≤ (hi - lo) * (1 / gp) := by
        rw [mul_one_div, le_div_iff₀ hgq]
        have e : 16 * (max |lo| |hi| / 2 ^ 53) * gp = max |lo| |hi| * gp / 2 ^ 49 := by ring
        rw [e, div_le_iff₀ (by norm_num)]
        linarith
      rw [mul_add] at h3
      linarith [a.1, a.2, c.1, c.2]

/-- **C122 (at least one rank).** For any box and any number of ranks, a particle between the ends of the box, converted to
`float`, is injected by some rank, and the domain of that rank is not empty. -/
theorem some_rank_partial {lo hi : ℚ} (hlo : rnd64 lo = lo) (hhi : rnd64 hi = hi) {gp : ℕ} (hg : 0 < gp) (per : Bool) {x : ℚ}
    (h0 : rnd32 lo ≤ x) (h1 : x < rnd32 hi) :
    ∃ p < gp, takes per lo hi gp p x ∧ edge lo hi gp p < edge lo hi gp (p + 1) := by
  obtain ⟨p, hp, h2, h3⟩ := between (edge lo hi gp) x gp (by rwa [edge_first hlo]) (by rwa [edge_last hhi hg])
  exact ⟨p, hp, takes_iff.mpr ⟨h2, h3.le, fun h => absurd h h3.ne⟩, lt_of_le_of_lt h2 h3⟩

/-- **C122 (exactly one rank).** If the ends of the box are of single precision, every particle in the box is
injected by exactly one rank, which puts it into one of its cells, near to where it was to be put. A particle at the upper end of a
box that is not periodic is injected by the last rank and no other. -/
theorem one_rank_partial {lo hi : ℚ} (hlo : rnd64 lo = lo) (hhi : rnd64 hi = hi) (hl : rnd32 lo = lo) (hh : rnd32 hi = hi)
    {gp : ℕ} (hg : 0 < gp) (hr : Regular lo hi gp) {n : ℤ} (hn : 0 < n) (hn' : n < 2 ^ 31) :
    (∀ per x, lo ≤ x → x < hi → ∃! p, p < gp ∧ takes per lo hi gp p x) ∧
    (∀ per x p, lo ≤ x → x < hi → p < gp → takes per lo hi gp p x →
      let x0 := edge lo hi gp p
      let x1 := edge lo hi gp (p + 1)
      (1 ≤ (place n x x0 x1).1 ∧ (place n x x0 x1).1 ≤ n) ∧ (-1 ≤ stored n x x0 x1 ∧ stored n x x0 x1 ≤ 1) ∧
        |cellPos (place n x x0 x1).1 (stored n x x0 x1) - n * ((x - x0) / (x1 - x0))| ≤ 1 / 2 ^ 24 + n / 2 ^ 50) ∧
    (∀ p, p < gp → (takes false lo hi gp p hi ↔ p + 1 = gp)) := by
  have strict : ∀ per x p, lo ≤ x → x < hi → p < gp → takes per lo hi gp p x → edge lo hi gp p ≤ x ∧ x < edge lo hi gp (p + 1) := by
    intro per x p h0 h1 hp ht
    obtain ⟨a, b, c⟩ := takes_iff.mp ht
    refine ⟨a, lt_of_le_of_ne b fun he => ?_⟩
    have := c he
    have hpg : p + 1 = gp := by
      by_contra hne
      exact this (Or.inl (by omega))
    rw [hpg, edge_last hhi hg, hh] at he
    exact h1.ne he
  refine ⟨fun per x h0 h1 => ?_, fun per x p h0 h1 hp ht => ?_, fun p hp => ?_⟩
  · obtain ⟨p, hp, ht, -⟩ := some_rank_partial hlo hhi hg per (by rwa [hl] : rnd32 lo ≤ x) (by rwa [hh])
    refine ⟨p, ⟨hp, ht⟩, ?_⟩
    rintro q ⟨hq, hq'⟩
    obtain ⟨a, b⟩ := strict per x p h0 h1 hp ht
    obtain ⟨c, d⟩ := strict per x q h0 h1 hq hq'
    rcases lt_trichotomy q p with h | h | h
    · have := edge_regular hr (show q + 1 ≤ p from h) hp.le
      linarith
    · exact h
    · have := edge_regular hr (show p + 1 ≤ q from h) hq.le
      linarith
  · obtain ⟨a, b⟩ := strict per x p h0 h1 hp ht
    have hx := lt_of_le_of_lt a b
    obtain ⟨i, _, s⟩ := placed_inside hn hn' hx a b.le
    exact ⟨i, s, placed_near hn hn' hx a b.le⟩
  · have e : edge lo hi gp gp = hi := by rw [edge_last hhi hg, hh]
    rw [takes_iff]
    constructor
    · rintro ⟨a, b, c⟩
      have h2 := edge_regular hr (show p + 1 ≤ gp from hp) le_rfl
      rw [e] at h2
      have := c (le_antisymm b h2)
      by_contra hne
      exact this (Or.inl (by omega))
    · intro h
      rw [h, e]
      refine ⟨?_, le_rfl, fun _ => by simp⟩
      have := edge_regular hr hp.le le_rfl
      rwa [e] at this

/-- **C122 (a particle that is lost).** The ends of the domains are stored in `float`: in a box of length 1 + 2^-30, which is a
number of double precision, the particle at 1 + 2^-31 is in the box but no rank injects it, however many there are. -/
theorem inject_lost : ∃ hi x : ℚ, rnd64 hi = hi ∧ rnd64 x = x ∧ 0 ≤ x ∧ x < hi ∧
    ∀ per gp p, p < gp → ¬ takes per 0 hi gp p x := by
  refine ⟨1 + 1 / 2 ^ 30, 1 + 1 / 2 ^ 31, ?_, ?_, by norm_num, by norm_num, ?_⟩
  · have := rnd_exact (2 ^ 30 + 1) (-30) (by norm_num)
    have e : (((2 ^ 30 + 1 : ℤ)) : ℚ) * 2 ^ (-30 : ℤ) = 1 + 1 / 2 ^ 30 := by norm_num
    rwa [e] at this
  · have := rnd_exact (2 ^ 31 + 1) (-31) (by norm_num)
    have e : (((2 ^ 31 + 1 : ℤ)) : ℚ) * 2 ^ (-31 : ℤ) = 1 + 1 / 2 ^ 31 := by norm_num
    rwa [e] at this
  · intro per gp p hp ht
    obtain ⟨-, h, -⟩ := takes_iff.mp ht
    have hh : rnd64 (1 + 1 / 2 ^ 30) = 1 + 1 / 2 ^ 30 := by
      have := rnd_exact (2 ^ 30 + 1) (-30) (by norm_num)
      have e : (((2 ^ 30 + 1 : ℤ)) : ℚ) * 2 ^ (-30 : ℤ) = 1 + 1 / 2 ^ 30 := by norm_num
      rwa [e] at this
    have h2 := edge_mono (lo := 0) (hi := 1 + 1 / 2 ^ 30) le_rfl (by norm_num) gp (show p + 1 ≤ gp from hp)
    rw [edge_last hh (by omega)] at h2
    have h3 : rnd32 (1 + 1 / 2 ^ 30) = 1 := by decide +kernel
    rw [h3] at h2
    have : (0 : ℚ) < 1 / 2 ^ 31 := by norm_num
    linarith

end Verif.Place
