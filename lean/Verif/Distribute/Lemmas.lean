import Verif.Distribute.Model
import Mathlib.Tactic.FieldSimp
import Mathlib.Tactic.LinearCombination
import Mathlib.Data.List.Range

namespace Verif.Distribute

/-- Relative error at most `2^-53` (IEEE double round-to-nearest has it on the normal range; the
exact function has it too). -/
def RelErr (f : ℚ → ℚ) : Prop := ∀ x, |f x - x| ≤ |x| / 2 ^ 53

/-- All three operations are accurate. -/
structure Rounding.Accurate (R : Rounding) : Prop where
  fd : RelErr R.fd
  fm : RelErr R.fm
  fa : RelErr R.fa

/-- Error of the argument of the cast: within `2^-18` of `K*p/P + 1/2`. -/
lemma arg_err (R : Rounding) (hR : R.Accurate) (K P p : ℕ) (hP : 0 < P) (hp : p ≤ P)
    (hK : K < 2 ^ 31) :
    |R.fa (R.fm (R.fd ((K : ℚ) / P) * p) + 1 / 2) - ((K : ℚ) * p / P + 1 / 2)| ≤ 1 / 2 ^ 18 := by
  have hPq : (0 : ℚ) < P := by exact_mod_cast hP
  have hpq : (p : ℚ) ≤ P := by exact_mod_cast hp
  have hp0 : (0 : ℚ) ≤ p := by positivity
  have hK0 : (0 : ℚ) ≤ K := by positivity
  have hKq : (K : ℚ) ≤ 2 ^ 31 := by exact_mod_cast hK.le
  set x : ℚ := (K : ℚ) / P with hx
  have hx0 : 0 ≤ x := by positivity
  have hxp : x * p ≤ 2 ^ 31 := by
    calc x * p ≤ x * P := by gcongr
      _ = K := by rw [hx]; field_simp
      _ ≤ _ := hKq
  have hxp0 : 0 ≤ x * p := by positivity
  have e1 := hR.fd x
  set t := R.fd x
  rw [abs_of_nonneg hx0] at e1
  -- t*p vs x*p
  have e1p : |t * p - x * p| ≤ x * p / 2 ^ 53 := by
    rw [← sub_mul, abs_mul, abs_of_nonneg hp0]
    calc |t - x| * p ≤ x / 2 ^ 53 * p := by gcongr
      _ = _ := by ring
  have e2 := hR.fm (t * p)
  set m := R.fm (t * p)
  have e3 := hR.fa (m + 1 / 2)
  set a := R.fa (m + 1 / 2)
  have b1 := abs_le.mp e1p
  have c1 : |t * p| ≤ 2 ^ 32 := by
    rw [abs_le]; constructor <;> nlinarith [b1.1, b1.2]
  have e2' : |m - t * p| ≤ 2 ^ 32 / 2 ^ 53 := e2.trans (by gcongr)
  have b2 := abs_le.mp e2'
  have c1' := abs_le.mp c1
  have c2 : |m + 1 / 2| ≤ 2 ^ 33 := by
    rw [abs_le]; constructor
    · have := b2.1; have := c1'.1; norm_num at *; linarith
    · have := b2.2; have := c1'.2; norm_num at *; linarith
  have e3' : |a - (m + 1 / 2)| ≤ 2 ^ 33 / 2 ^ 53 := e3.trans (by gcongr)
  have b3 := abs_le.mp e3'
  have hxe : (K : ℚ) * p / P = x * p := by rw [hx]; ring
  rw [hxe, abs_le]
  have b1l := b1.1
  have b1r := b1.2
  have b2l := b2.1
  have b2r := b2.2
  have b3l := b3.1
  have b3r := b3.2
  norm_num at *
  constructor <;> linarith

lemma cInt_of_nonneg {x : ℚ} (h : 0 ≤ x) : cInt x = ⌊x⌋ := by simp [cInt, h]

lemma cut_zero (R : Rounding) (hR : R.Accurate) (K P : ℕ) (hP : 0 < P) (hK : K < 2 ^ 31) :
    cut R K P 0 = 0 := by
  have h := arg_err R hR K P 0 hP (Nat.zero_le _) hK
  have h' := abs_le.mp h
  unfold cut
  have l := h'.1; have r := h'.2
  norm_num at l r
  rw [cInt_of_nonneg (by norm_num; linarith), Int.floor_eq_iff]
  constructor <;> norm_num <;> linarith

lemma cut_last (R : Rounding) (hR : R.Accurate) (K P : ℕ) (hP : 0 < P) (hK : K < 2 ^ 31) :
    cut R K P P = K := by
  have h := arg_err R hR K P P hP le_rfl hK
  have hPq : (0 : ℚ) < P := by exact_mod_cast hP
  have hK0 : (0 : ℚ) ≤ K := by positivity
  rw [mul_div_assoc, div_self hPq.ne', mul_one] at h
  have h' := abs_le.mp h
  unfold cut
  have l := h'.1; have r := h'.2
  norm_num at l r
  rw [cInt_of_nonneg (by norm_num; linarith), Int.floor_eq_iff]
  constructor
  · push_cast; norm_num; linarith
  · push_cast; norm_num; linarith

lemma cut_mono (R : Rounding) (hR : R.Accurate) (K P p : ℕ) (hP : 0 < P) (hp : p < P)
    (hK : K < 2 ^ 31) (hP2 : P ≤ 2 ^ 16) :
    cut R K P p ≤ cut R K P (p + 1) := by
  have h1 := abs_le.mp (arg_err R hR K P p hP hp.le hK)
  have h2 := abs_le.mp (arg_err R hR K P (p + 1) hP hp hK)
  have hPq : (0 : ℚ) < P := by exact_mod_cast hP
  have hPu : (P : ℚ) ≤ 2 ^ 16 := by exact_mod_cast hP2
  have hp0 : (0 : ℚ) ≤ p := by positivity
  rcases Nat.eq_zero_or_pos K with hK0 | hK0
  · subst hK0
    have a1 := h1.1; have a2 := h1.2; have a3 := h2.1; have a4 := h2.2
    unfold cut
    norm_num at a1 a2 a3 a4
    have f1 : ∀ y : ℚ, |y - 1/2| ≤ 1 / 2^18 → cInt y = 0 := by
      intro y hy
      have := abs_le.mp hy
      have l := this.1; have r := this.2
      norm_num at l r
      rw [cInt_of_nonneg (by linarith), Int.floor_eq_iff]
      constructor <;> norm_num <;> linarith
    rw [f1, f1]
    · rw [abs_le]; norm_num; constructor <;> linarith
    · rw [abs_le]; norm_num; constructor <;> linarith
  · have hK1 : (1 : ℚ) ≤ K := by exact_mod_cast hK0
    have gap : (1 : ℚ) / 2 ^ 16 ≤ (K : ℚ) * ((p + 1 : ℕ) : ℚ) / P - (K : ℚ) * p / P := by
      have : (K : ℚ) * ((p + 1 : ℕ) : ℚ) / P - (K : ℚ) * p / P = K / P := by
        push_cast; field_simp; ring
      rw [this]
      calc (1 : ℚ) / 2 ^ 16 ≤ 1 / P := by gcongr
        _ ≤ K / P := by gcongr
    have hKp : (0 : ℚ) ≤ (K : ℚ) * p / P := by positivity
    unfold cut
    have l1 := h1.1; have r1 := h1.2; have l2 := h2.1; have r2 := h2.2
    norm_num at l1 r1 l2 r2 gap
    rw [cInt_of_nonneg (by norm_num; linarith), cInt_of_nonneg (by norm_num; linarith)]
    apply Int.floor_le_floor
    norm_num
    linarith

lemma cut_nonneg (R : Rounding) (hR : R.Accurate) (K P p : ℕ) (hP : 0 < P) (hp : p ≤ P)
    (hK : K < 2 ^ 31) : 0 ≤ cut R K P p := by
  have h1 := abs_le.mp (arg_err R hR K P p hP hp hK)
  have hPq : (0 : ℚ) < P := by exact_mod_cast hP
  have hKp : (0 : ℚ) ≤ (K : ℚ) * p / P := by positivity
  have l1 := h1.1
  unfold cut
  norm_num at l1
  rw [cInt_of_nonneg (by norm_num; linarith)]
  apply Int.floor_nonneg.mpr
  norm_num; linarith

/-- Consecutive integers from `a`, `n` of them. -/
def iota (a : ℤ) (n : ℕ) : List ℤ := (List.range n).map fun (k : ℕ) => a + (k : ℤ)

lemma iota_append (a : ℤ) (m n : ℕ) : iota a m ++ iota (a + m) n = iota a (m + n) := by
  unfold iota
  rw [List.range_add, List.map_append, List.map_map]
  congr 1
  apply List.map_congr_left
  intro k _
  simp; ring

/-- Telescoping: consecutive pieces of a monotone sequence of cut points concatenate. -/
lemma iota_telescope (f : ℕ → ℤ) (P : ℕ) (h : ∀ p < P, f p ≤ f (p + 1)) :
    f 0 ≤ f P ∧
    ((List.range P).map fun p => iota (f p) (f (p + 1) - f p).toNat).flatten
      = iota (f 0) (f P - f 0).toNat := by
  induction P with
  | zero => simp [iota]
  | succ P ih =>
    obtain ⟨ih0, ih⟩ := ih (fun p hp => h p (Nat.lt_succ_of_lt hp))
    have hl := h P (Nat.lt_succ_self P)
    refine ⟨ih0.trans hl, ?_⟩
    rw [List.range_succ, List.map_append, List.flatten_append, ih]
    simp only [List.map_cons, List.map_nil, List.flatten_cons, List.flatten_nil, List.append_nil]
    have : f P = f 0 + ((f P - f 0).toNat : ℤ) := by omega
    rw [this]
    rw [← this, show iota (f P) (f (P+1) - f P).toNat
        = iota (f 0 + ((f P - f 0).toNat : ℤ)) (f (P+1) - f P).toNat by rw [← this], iota_append]
    congr 1
    omega

lemma mapM_some {α β : Type*} (l : List α) (f : α → Option β) (g : α → β)
    (h : ∀ a ∈ l, f a = some (g a)) : l.mapM f = some (l.map g) := by
  induction l with
  | nil => rfl
  | cons a l ih =>
    rw [List.mapM_cons, h a (by simp), ih (fun b hb => h b (by simp [hb]))]
    rfl

end Verif.Distribute

namespace Verif.Distribute

/-- Position number `k` of a box in FORTRAN order. -/
def dec (nx ny : ℤ) (B : Box) (k : ℤ) : VPos :=
  let w := B.xh - B.xl + 1
  let h := B.yh - B.yl + 1
  let x := k - k / w * w + B.xl
  let y := k / w - k / w / h * h + B.yl
  let z := k / w / h + B.zl
  { v := voxel nx ny x y z, x, y, z }

lemma div_carry (k w : ℤ) (hw : 0 < w) :
    (k - k / w * w + 1 < w ∧ (k + 1) / w = k / w) ∨
    (k - k / w * w + 1 = w ∧ (k + 1) / w = k / w + 1) := by
  have h1 := Int.emod_nonneg k hw.ne'
  have h2 := Int.emod_lt_of_pos k hw
  have h3 := Int.mul_ediv_add_emod k w
  have e : k - k / w * w = k % w := by linarith [mul_comm w (k / w)]
  rw [e]
  rcases lt_or_eq_of_le (show k % w + 1 ≤ w by omega) with h | h
  · left
    refine ⟨h, ?_⟩
    rw [show k + 1 = (k % w + 1) + w * (k / w) by linarith, Int.add_mul_ediv_left _ _ hw.ne',
      Int.ediv_eq_zero_of_lt (by omega) h]
    simp
  · right
    refine ⟨h, ?_⟩
    rw [show k + 1 = w * (k / w + 1) by linarith, Int.mul_ediv_cancel_left _ hw.ne']

lemma nextVoxel_dec (nx ny : ℤ) (B : Box) (hw : 0 < B.xh - B.xl + 1) (hh : 0 < B.yh - B.yl + 1)
    (k : ℤ) : nextVoxel nx ny B (dec nx ny B k) = dec nx ny B (k + 1) := by
  set w := B.xh - B.xl + 1 with hwd
  set h := B.yh - B.yl + 1 with hhd
  have hx1 : B.xh = B.xl + w - 1 := by omega
  have hy1 : B.yh = B.yl + h - 1 := by omega
  simp only [dec, nextVoxel, ← hwd, ← hhd]
  rcases div_carry k w hw with ⟨a, b⟩ | ⟨a, b⟩
  · rw [b]
    have c1 : ¬ (k - k / w * w + B.xl + 1 > B.xh) := by omega
    have c2 : ¬ (k / w - k / w / h * h + B.yl > B.yh) := by
      have h2 := Int.emod_lt_of_pos (k / w) hh
      have h3 := Int.mul_ediv_add_emod (k / w) h
      have : k / w - k / w / h * h = k / w % h := by linarith [mul_comm h (k / w / h)]
      omega
    simp only [c1, c2, if_false]
    simp only [voxel, VPos.mk.injEq]
    refine ⟨?_, ?_, trivial, trivial⟩ <;> ring
  · rw [b]
    have c1 : (k - k / w * w + B.xl + 1 > B.xh) := by omega
    have a' : k = k / w * w + w - 1 := by omega
    simp only [c1, if_true]
    rcases div_carry (k / w) h hh with ⟨a2, b2⟩ | ⟨a2, b2⟩
    · rw [b2]
      have c2 : ¬ (k / w - k / w / h * h + B.yl + 1 > B.yh) := by omega
      simp only [c2, if_false]
      simp only [voxel, VPos.mk.injEq]
      refine ⟨?_, ?_, ?_, trivial⟩
      · rw [hx1]; ring
      · linarith [add_mul (k / w) 1 w]
      · ring
    · rw [b2]
      have c2 : (k / w - k / w / h * h + B.yl + 1 > B.yh) := by omega
      simp only [c2, if_true]
      have a2' : k / w = k / w / h * h + h - 1 := by omega
      simp only [voxel, VPos.mk.injEq]
      refine ⟨?_, ?_, ?_, ?_⟩
      · rw [hx1, hy1]
        have e1 : k + 1 = (k / w + 1) * w := by linarith [add_mul (k / w) 1 w]
        have e2 : k / w + 1 = (k / w / h + 1) * h := by linarith [add_mul (k / w / h) 1 h]
        ring
      · linarith [add_mul (k / w) 1 w]
      · linarith [add_mul (k / w / h) 1 h]
      · ring

lemma walk_dec (nx ny : ℤ) (B : Box) (hw : 0 < B.xh - B.xl + 1) (hh : 0 < B.yh - B.yl + 1)
    (n : ℕ) (k : ℤ) : walk nx ny B n (dec nx ny B k) = (iota k n).map (dec nx ny B) := by
  induction n generalizing k with
  | zero => simp [walk, iota]
  | succ n ih =>
    rw [walk, nextVoxel_dec nx ny B hw hh, ih, ← List.map_cons]
    congr 1
    have := iota_append k 1 n
    rw [show 1 + n = n + 1 from Nat.add_comm _ _] at this
    rw [← this]
    simp [iota]

lemma iota_mem (a : ℤ) (n : ℕ) (x : ℤ) : x ∈ iota a n ↔ a ≤ x ∧ x < a + n := by
  simp only [iota, List.mem_map, List.mem_range]
  constructor
  · rintro ⟨k, hk, rfl⟩; omega
  · rintro ⟨h1, h2⟩; exact ⟨(x - a).toNat, by omega, by omega⟩

lemma iota_nodup (a : ℤ) (n : ℕ) : (iota a n).Nodup := by
  unfold iota
  refine List.Nodup.map ?_ List.nodup_range
  intro i j h
  simpa using h

end Verif.Distribute
