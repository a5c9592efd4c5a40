import Verif.Distribute.Lemmas
import Mathlib.Data.Int.Log
import Mathlib.Algebra.Order.Round

/-!
# C01, C02, C56 (part): work is split exactly once

Specification vocabulary: an item list is "all of `0..N-1`, each once, in order" iff it equals
`0, 1, …, N-1`; a list of visited voxels covers a box exactly once iff it has no duplicates and its
members are exactly the positions of the box.
-/
namespace Verif.Distribute

/-- Spec: the integers `0 … N-1` in increasing order. -/
def upTo (N : ℕ) : List ℤ := (List.range N).map fun (k : ℕ) => (k : ℤ)

/-- Spec: position `(x,y,z)` lies in the box. -/
def Box.Has (B : Box) (x y z : ℤ) : Prop :=
  B.xl ≤ x ∧ x ≤ B.xh ∧ B.yl ≤ y ∧ y ≤ B.yh ∧ B.zl ≤ z ∧ z ≤ B.zh

/-! ## A concrete double-like rounding meets the hypothesis -/

/-- Round to 53 significant bits, ties up. -/
def rnd53 (x : ℚ) : ℚ :=
  let e : ℤ := Int.log 2 |x| - 52
  (round (x / 2 ^ e) : ℚ) * 2 ^ e

theorem rnd53_relErr : RelErr rnd53 := by
  intro x
  by_cases hx : x = 0
  · subst hx; simp [rnd53]
  have hax : 0 < |x| := abs_pos.mpr hx
  simp only [rnd53]
  set e : ℤ := Int.log 2 |x| - 52 with he
  have h2e : (0 : ℚ) < 2 ^ e := zpow_pos (by norm_num) e
  have hr := abs_sub_round (x / 2 ^ e)
  have hlog : (2 : ℚ) ^ Int.log 2 |x| ≤ |x| := by
    have := Int.zpow_log_le_self (b := 2) (r := |x|) (by norm_num) hax
    exact_mod_cast this
  have h52 : (2 : ℚ) ^ e * 2 ^ 52 ≤ |x| := by
    calc (2 : ℚ) ^ e * 2 ^ 52 = 2 ^ (e + 52) := by
          rw [zpow_add₀ (by norm_num : (2 : ℚ) ≠ 0)]; norm_cast
      _ = 2 ^ Int.log 2 |x| := by rw [he]; congr 1; ring
      _ ≤ _ := hlog
  have : (round (x / 2 ^ e) : ℚ) * 2 ^ e - x = -((x / 2 ^ e - round (x / 2 ^ e)) * 2 ^ e) := by
    field_simp; ring
  rw [this, abs_neg, abs_mul, abs_of_pos h2e]
  calc |x / 2 ^ e - round (x / 2 ^ e)| * 2 ^ e ≤ 1 / 2 * 2 ^ e := by gcongr
    _ = (2 ^ e * 2 ^ 52) / 2 ^ 53 := by ring
    _ ≤ |x| / 2 ^ 53 := by gcongr

/-- Plain double arithmetic (each operation rounded). -/
def doubleRounding : Rounding := ⟨rnd53, rnd53, rnd53⟩

/-- Fused multiply-add arithmetic. -/
def fmaRounding : Rounding := ⟨rnd53, id, rnd53⟩

theorem doubleRounding_accurate : doubleRounding.Accurate :=
  ⟨rnd53_relErr, rnd53_relErr, rnd53_relErr⟩

theorem fmaRounding_accurate : fmaRounding.Accurate :=
  ⟨rnd53_relErr, fun x => by
    show |x - x| ≤ _
    rw [sub_self, abs_zero]; positivity, rnd53_relErr⟩

/-! ## C01 -/

/-- **C01.** For every item count, block size, number of pipelines (up to 2^16; the code's maximum is
`MAX_PIPELINE` = 272) and accurate rounding, the items handed to pipelines `0,…,P-1` and then the
host, concatenated, are exactly `0, 1, …, N-1`. -/
theorem distribute_exact (R : Rounding) (hR : R.Accurate) (N b P : ℕ)
    (hN : N < 2 ^ 31) (hb : 0 < b) (hP : 0 < P) (hP2 : P ≤ 2 ^ 16) :
    allItems R N b P = some (upTo N) := by
  have hK : N / b < 2 ^ 31 := lt_of_le_of_lt (Nat.div_le_self _ _) hN
  unfold allItems
  set f : ℕ → ℤ := fun p => b * cut R (N / b) P p with hf
  have hd : ∀ p, items (distribute R N b p P)
      = some (iota (f p) (if p = P then N % b else (f (p + 1) - f p).toNat)) := by
    intro p
    have : ¬ (b = 0 ∨ P = 0) := by omega
    simp only [items, distribute, this, if_false, Option.map_some, iota, hf]
    split
    · rw [Int.toNat_natCast]
    · rfl
  rw [mapM_some _ _ _ (fun p _ => hd p)]
  simp only [Option.map_some, Option.some.injEq]
  rw [List.range_succ, List.map_append, List.flatten_append]
  have hmono : ∀ p < P, f p ≤ f (p + 1) := by
    intro p hp
    have := cut_mono R hR (N / b) P p hP hp hK hP2
    simp only [hf]
    exact mul_le_mul_of_nonneg_left this (by positivity)
  have htel := (iota_telescope f P hmono).2
  have hcong : (List.map (fun p => iota (f p) (if p = P then N % b else (f (p + 1) - f p).toNat))
      (List.range P)) = (List.range P).map fun p => iota (f p) (f (p + 1) - f p).toNat := by
    apply List.map_congr_left
    intro p hp
    have : p ≠ P := by simp at hp; omega
    simp [this]
  rw [hcong, htel]
  have f0 : f 0 = 0 := by simp [hf, cut_zero R hR _ P hP hK]
  have fP : f P = ((b * (N / b) : ℕ) : ℤ) := by simp [hf, cut_last R hR _ P hP hK]
  simp only [List.map_cons, List.map_nil, List.flatten_cons, List.flatten_nil, List.append_nil,
    if_true, f0, fP, sub_zero, Int.toNat_natCast]
  have := iota_append 0 (b * (N / b)) (N % b)
  rw [zero_add] at this
  rw [this, Nat.div_add_mod]
  simp [iota, upTo]

/-- **C01**, alignment: each pipeline (not the host) starts on a multiple of the block size and
gets a multiple of it; the host gets the remainder `N mod b`. -/
theorem distribute_aligned (R : Rounding) (N b p P : ℕ) (hb : 0 < b) (hP : 0 < P) (i n : ℤ)
    (h : distribute R N b p P = some (i, n)) :
    (b : ℤ) ∣ i ∧ (p < P → (b : ℤ) ∣ n) ∧ (p = P → n = ((N % b : ℕ) : ℤ)) := by
  have hc : ¬ (b = 0 ∨ P = 0) := by omega
  simp only [distribute, hc, if_false, Option.some.injEq, Prod.mk.injEq] at h
  obtain ⟨rfl, rfl⟩ := h
  refine ⟨Dvd.intro _ rfl, fun hp => ?_, fun hp => by simp [hp]⟩
  have : p ≠ P := by omega
  simp only [this, if_false]
  exact dvd_sub (Dvd.intro _ rfl) (Dvd.intro _ rfl)

/-- Load balance: a pipeline never gets more than one block more than the average share
(`n ≤ (share + 2)·b`, where `share` is the average number of blocks rounded down). -/
theorem distribute_balanced (R : Rounding) (hR : R.Accurate) (N b p P : ℕ)
    (hN : N < 2 ^ 31) (hb : 0 < b) (hP : 0 < P) (hp : p < P) (hP2 : P ≤ 2 ^ 16) (i n : ℤ)
    (h : distribute R N b p P = some (i, n)) :
    n ≤ b * ((N / b / P : ℕ) + 2) := by
  have hK : N / b < 2 ^ 31 := lt_of_le_of_lt (Nat.div_le_self _ _) hN
  have hc : ¬ (b = 0 ∨ P = 0) := by omega
  have hpP : p ≠ P := by omega
  simp only [distribute, hc, if_false, hpP, Option.some.injEq, Prod.mk.injEq] at h
  obtain ⟨rfl, rfl⟩ := h
  rw [← mul_sub]
  apply mul_le_mul_of_nonneg_left _ (by positivity)
  set K := N / b
  have h1 := abs_le.mp (arg_err R hR K P p hP hp.le hK)
  have h2 := abs_le.mp (arg_err R hR K P (p + 1) hP hp hK)
  have hPq : (0 : ℚ) < P := by exact_mod_cast hP
  have hKp : (0 : ℚ) ≤ (K : ℚ) * p / P := by positivity
  have hKp1 : (0 : ℚ) ≤ (K : ℚ) * ((p + 1 : ℕ) : ℚ) / P := by positivity
  have l1 := h1.1; have r1 := h1.2; have l2 := h2.1; have r2 := h2.2
  unfold cut
  set A := R.fa (R.fm (R.fd ((K : ℚ) / P) * p) + 1 / 2)
  set B := R.fa (R.fm (R.fd ((K : ℚ) / P) * ((p + 1 : ℕ) : ℚ)) + 1 / 2)
  have hA : 0 ≤ A := by norm_num at l1; linarith
  have hB : 0 ≤ B := by norm_num at l2; push_cast at hKp1; linarith
  rw [cInt_of_nonneg hA, cInt_of_nonneg hB]
  have hq : (K : ℚ) < P * ((K / P : ℕ) + 1) := by
    have := Nat.lt_mul_div_succ K hP
    exact_mod_cast this
  have gap : (K : ℚ) * ((p + 1 : ℕ) : ℚ) / P - (K : ℚ) * p / P = K / P := by
    push_cast; field_simp; ring
  have hKP : (K : ℚ) / P ≤ ((K / P : ℕ) : ℚ) + 1 - 1 / P := by
    rw [div_le_iff₀ hPq, sub_mul, div_mul_cancel₀ _ hPq.ne']
    have := Nat.lt_mul_div_succ K hP
    have h3 : K + 1 ≤ P * (K / P + 1) := this
    have h4 : (K : ℚ) + 1 ≤ P * ((K / P : ℕ) + 1) := by exact_mod_cast h3
    linarith
  have h16 : (1 : ℚ) / 2 ^ 16 ≤ 1 / P := by
    have hPu : (P : ℚ) ≤ 2 ^ 16 := by exact_mod_cast hP2
    gcongr
  have hBA : B < A + ((K / P : ℕ) : ℚ) + 1 := by
    norm_num at l1 r1 l2 r2 h16 gap hKP ⊢; linarith
  have : ⌊B⌋ < ⌊A⌋ + 1 + ((K / P : ℕ) : ℤ) + 1 := by
    rw [Int.floor_lt]
    have := Int.lt_floor_add_one A
    have e : (((K / P : ℕ) : ℤ) : ℚ) = ((K / P : ℕ) : ℚ) := by norm_cast
    rw [Int.cast_add, Int.cast_add, Int.cast_add, e, Int.cast_one]
    linarith
  omega

/-- Non-vacuity: an odd-sized case under genuine double rounding. -/
example : allItems doubleRounding 1003 16 7 = some (upTo 1003) :=
  distribute_exact _ doubleRounding_accurate _ _ _ (by norm_num) (by norm_num) (by norm_num)
    (by norm_num)

/-- **C01 / C56** for the unary and Langevin collision operators: the `P` pipelines together
process particles `0 … np-1`, each exactly once. -/
theorem unary_split_exact (R : Rounding) (hR : R.Accurate) (np P : ℕ) (hN : np < 2 ^ 31)
    (hP : 0 < P) (hP2 : P ≤ 2 ^ 16) :
    ((List.range P).map (unaryItems R np P)).flatten = upTo np := by
  have hmono : ∀ p < P, cut R np P p ≤ cut R np P (p + 1) :=
    fun p hp => cut_mono R hR np P p hP hp hN hP2
  have htel := (iota_telescope (cut R np P) P hmono).2
  have : (List.range P).map (unaryItems R np P)
      = (List.range P).map fun p => iota (cut R np P p) (cut R np P (p + 1) - cut R np P p).toNat :=
    rfl
  rw [this, htel, cut_zero R hR _ P hP hN, cut_last R hR _ P hP hN]
  simp [iota, upTo]

example : ((List.range 3).map (unaryItems fmaRounding 10 3)).flatten = upTo 10 :=
  unary_split_exact _ fmaRounding_accurate _ _ (by norm_num) (by norm_num) (by norm_num)

/-! ## C02 -/

/-- **C02.** For every box (extents ≥ 0, so possibly empty), block size, pipeline count and accurate
rounding, the voxels visited by all pipelines and the host are exactly the voxels of the box, each
visited exactly once, and the running voxel index equals the voxel number of the position. -/
theorem distribute_voxels_exact (R : Rounding) (hR : R.Accurate) (nx ny : ℤ) (B : Box) (b P : ℕ)
    (hx : B.xl ≤ B.xh + 1) (hy : B.yl ≤ B.yh + 1) (hz : B.zl ≤ B.zh + 1)
    (hN : (B.xh - B.xl + 1) * (B.yh - B.yl + 1) * (B.zh - B.zl + 1) < 2 ^ 31)
    (hb : 0 < b) (hP : 0 < P) (hP2 : P ≤ 2 ^ 16) :
    ∃ L, allVisits R nx ny B b P = some L ∧ L.Nodup ∧
      ∀ s : VPos, s ∈ L ↔ B.Has s.x s.y s.z ∧ s.v = s.x + (nx + 2) * (s.y + (ny + 2) * s.z) := by
  set w := B.xh - B.xl + 1 with hw
  set h := B.yh - B.yl + 1 with hh
  set d := B.zh - B.zl + 1 with hd
  have hw0 : 0 ≤ w := by omega
  have hh0 : 0 ≤ h := by omega
  have hd0 : 0 ≤ d := by omega
  have hV0 : 0 ≤ w * h * d := mul_nonneg (mul_nonneg hw0 hh0) hd0
  set N := (w * h * d).toNat with hNdef
  have hNV : (N : ℤ) = w * h * d := Int.toNat_of_nonneg hV0
  have hN' : N < 2 ^ 31 := by
    have : (N : ℤ) < 2 ^ 31 := by rw [hNV]; exact hN
    exact_mod_cast this
  have hK : N / b < 2 ^ 31 := lt_of_le_of_lt (Nat.div_le_self _ _) hN'
  set f : ℕ → ℤ := fun p => if p ≤ P then b * cut R (N / b) P p else N with hf
  have f0 : f 0 = 0 := by simp [hf, cut_zero R hR _ P hP hK]
  have fP : f P = ((b * (N / b) : ℕ) : ℤ) := by simp [hf, cut_last R hR _ P hP hK]
  have fP1 : f (P + 1) = N := by simp [hf]
  have hmono : ∀ p < P + 1, f p ≤ f (p + 1) := by
    intro p hp
    rcases Nat.lt_succ_iff_lt_or_eq.mp hp with hp' | hp'
    · have := cut_mono R hR (N / b) P p hP hp' hK hP2
      simp only [hf, hp'.le, Nat.succ_le_of_lt hp', if_true]
      exact mul_le_mul_of_nonneg_left this (by positivity)
    · subst hp'
      rw [fP, fP1]
      exact_mod_cast Nat.mul_div_le N b
  have hdist : ∀ p ≤ P, ∃ q, distributeVoxels R B b p P = some (q, f (p + 1) - f p) ∧
      (0 < w → 0 < h → q = (f p - f p / w * w + B.xl, f p / w - f p / w / h * h + B.yl,
        f p / w / h + B.zl)) := by
    intro p hp
    have hc : ¬ (b = 0 ∨ P = 0 ∨ w < 0 ∨ h < 0 ∨ w * h * d < 0) := by omega
    simp only [distributeVoxels, ← hw, ← hh, ← hd, hc, if_false, ← hNdef]
    have hfp : f p = b * cut R (N / b) P p := by simp [hf, hp]
    have hfp1 : (if p < P then (b : ℤ) * cut R (N / b) P (p + 1) else w * h * d) = f (p + 1) := by
      by_cases hpP : p < P
      · simp [hf, hpP, Nat.succ_le_of_lt hpP]
      · have : p = P := by omega
        rw [this, fP1, hNV]; simp
    rw [hfp1, ← hfp]
    refine ⟨_, rfl, ?_⟩
    intro hw1 hh1
    simp [hw1.ne', hh1.ne']
  by_cases hpos : 0 < w ∧ 0 < h
  · obtain ⟨hw1, hh1⟩ := hpos
    have hvis : ∀ p ∈ List.range (P + 1), visits R nx ny B b p P
        = some ((iota (f p) (f (p + 1) - f p).toNat).map (dec nx ny B)) := by
      intro p hp
      obtain ⟨q, hq, hq2⟩ := hdist p (by simp at hp; omega)
      rw [hq2 hw1 hh1] at hq
      rw [visits, hq, Option.map_some, ← walk_dec nx ny B hw1 hh1]
      rfl
    refine ⟨(iota 0 N).map (dec nx ny B), ?_, ?_, ?_⟩
    · rw [allVisits, mapM_some _ _ _ hvis, Option.map_some]
      congr 1
      have := (iota_telescope f (P + 1) hmono).2
      rw [f0, fP1, sub_zero, Int.toNat_natCast] at this
      rw [← this, List.map_flatten, List.map_map]
      rfl
    · refine List.Nodup.map_on ?_ (iota_nodup _ _)
      intro k hk k' hk' he
      simp only [dec, ← hw, ← hh, VPos.mk.injEq] at he
      obtain ⟨-, e1, e2, e3⟩ := he
      have e4 : k / w / h = k' / w / h := by omega
      rw [e4] at e2
      have e5 : k / w = k' / w := by omega
      rw [e5] at e1
      omega
    · intro s
      simp only [List.mem_map, iota_mem]
      constructor
      · rintro ⟨k, ⟨hk0, hk1⟩, rfl⟩
        rw [zero_add, hNV] at hk1
        refine ⟨?_, rfl⟩
        simp only [dec, ← hw, ← hh, Box.Has]
        have m1 := Int.emod_nonneg k hw1.ne'
        have m2 := Int.emod_lt_of_pos k hw1
        have m3 := Int.mul_ediv_add_emod k w
        have n1 := Int.emod_nonneg (k / w) hh1.ne'
        have n2 := Int.emod_lt_of_pos (k / w) hh1
        have n3 := Int.mul_ediv_add_emod (k / w) h
        have q0 : 0 ≤ k / w / h := Int.ediv_nonneg (Int.ediv_nonneg hk0 hw0) hh0
        have q1 : k / w / h < d := by
          rw [Int.ediv_lt_iff_lt_mul hh1, Int.ediv_lt_iff_lt_mul hw1]
          calc k < _ := hk1
            _ = d * h * w := by ring
        rw [mul_comm] at m3 n3
        refine ⟨?_, ?_, ?_, ?_, ?_, ?_⟩ <;> omega
      · rintro ⟨⟨a1, a2, a3, a4, a5, a6⟩, hv⟩
        obtain ⟨v, x, y, z⟩ := s
        simp only at a1 a2 a3 a4 a5 a6 hv
        have X0 : 0 ≤ x - B.xl := by omega
        have X1 : x - B.xl < w := by omega
        have Y0 : 0 ≤ y - B.yl := by omega
        have Y1 : y - B.yl < h := by omega
        have Z0 : 0 ≤ z - B.zl := by omega
        have Z1 : z - B.zl < d := by omega
        have d1 : ((x - B.xl) + w * ((y - B.yl) + h * (z - B.zl))) / w
            = (y - B.yl) + h * (z - B.zl) := by
          rw [Int.add_mul_ediv_left _ _ hw1.ne', Int.ediv_eq_zero_of_lt X0 X1, zero_add]
        have d2 : ((y - B.yl) + h * (z - B.zl)) / h = z - B.zl := by
          rw [Int.add_mul_ediv_left _ _ hh1.ne', Int.ediv_eq_zero_of_lt Y0 Y1, zero_add]
        refine ⟨(x - B.xl) + w * ((y - B.yl) + h * (z - B.zl)), ⟨by positivity, ?_⟩, ?_⟩
        · rw [zero_add, hNV]
          have s1 : (y - B.yl) + h * (z - B.zl) + 1 ≤ h * d := by nlinarith
          have s2 : w * ((y - B.yl) + h * (z - B.zl) + 1) ≤ w * (h * d) :=
            mul_le_mul_of_nonneg_left s1 hw0
          nlinarith
        · simp only [dec, ← hw, ← hh, d1, d2, VPos.mk.injEq]
          refine ⟨?_, ?_, ?_, ?_⟩
          · rw [hv]; unfold voxel; ring
          · ring
          · ring
          · ring
  · have hN0 : (N : ℤ) = 0 := by
      rw [hNV]
      rcases not_and_or.mp hpos with h1 | h1
      · have : w = 0 := by omega
        simp [this]
      · have : h = 0 := by omega
        simp [this]
    have hN0' : N = 0 := by exact_mod_cast hN0
    have hall : ∀ p ≤ P + 1, f p = 0 := by
      have hle : ∀ p ≤ P + 1, 0 ≤ f p := by
        intro p hp
        simp only [hf]
        split
        · rename_i hpP
          exact mul_nonneg (by positivity) (cut_nonneg R hR _ P p hP hpP hK)
        · positivity
      have hup : ∀ k p, p + k = P + 1 → f p ≤ f (P + 1) := by
        intro k
        induction k with
        | zero => intro p hp; rw [show p = P + 1 by omega]
        | succ k ih => intro p hp; exact (hmono p (by omega)).trans (ih (p + 1) (by omega))
      intro p hp
      have := hup (P + 1 - p) p (by omega)
      rw [fP1, hN0] at this
      exact le_antisymm this (hle p hp)
    have hvis : ∀ p ∈ List.range (P + 1), visits R nx ny B b p P = some [] := by
      intro p hp
      obtain ⟨q, hq, -⟩ := hdist p (by simp at hp; omega)
      rw [hall p (by simp at hp; omega), hall (p + 1) (by simp at hp; omega)] at hq
      rw [visits, hq]
      rfl
    refine ⟨[], ?_, List.nodup_nil, ?_⟩
    · rw [allVisits, mapM_some _ _ (fun _ => []) hvis, Option.map_some]
      simp
    · intro s
      simp only [List.not_mem_nil, false_iff, not_and]
      rintro ⟨a1, a2, a3, a4, a5, a6⟩
      exfalso
      apply hpos
      omega

/-- Non-vacuity: a 3×1×2 box (one flat direction) in a mesh, block size 2, five pipelines. -/
example : ∃ L, allVisits doubleRounding 8 8 ⟨2, 4, 1, 1, 3, 4⟩ 2 5 = some L ∧ L.Nodup ∧
    ∀ s : VPos, s ∈ L ↔ (⟨2, 4, 1, 1, 3, 4⟩ : Box).Has s.x s.y s.z ∧
      s.v = s.x + (8 + 2) * (s.y + (8 + 2) * s.z) :=
  distribute_voxels_exact _ doubleRounding_accurate 8 8 _ 2 5 (by norm_num) (by norm_num)
    (by norm_num) (by norm_num) (by norm_num) (by norm_num) (by norm_num)

end Verif.Distribute
