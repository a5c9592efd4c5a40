import Verif.Gyro.EnModel

/-!
# Property C130: the kinetic energy of a species with all roundings
-/
namespace Verif.Gyro
open Verif.Place Verif.Streak Verif.Flow Verif.Drift

lemma lenSq_near (v : Fin 3 → ℚ) : Btw 3 (sq v) (lenSq v) := by
  have n0 := mul_self_nonneg (v 0)
  have n1 := mul_self_nonneg (v 1)
  have n2 := mul_self_nonneg (v 2)
  have hab : Btw 2 (v 0 * v 0 + v 1 * v 1) (rnd32 (rnd32 (v 0 * v 0) + rnd32 (v 1 * v 1))) :=
    (((Btw.refl _).rnd n0).add ((Btw.refl _).rnd n1)).rnd (by linarith)
  have h : Btw 3 (v 0 * v 0 + v 1 * v 1 + v 2 * v 2) (lenSq v) := (hab.add (((Btw.refl _).rnd n2).up n2)).rnd (by linarith)
  have e : sq v = v 0 * v 0 + v 1 * v 1 + v 2 * v 2 := by unfold sq; ring
  rwa [e]

/-- `1 + sqrtf( 1 + v² )` against `1 + gamma`. -/
lemma root_near {rt : ℚ → ℚ} (hrt : SqrtNear rt) (v : Fin 3 → ℚ) {g : ℝ} (g1 : 1 ≤ g) (hg : g ^ 2 = 1 + (sq v : ℝ)) :
    (1 + g) * (1 - 1 / 2 ^ 24) ^ 4 ≤ ((rnd32 (1 + rt (rnd32 (1 + lenSq v))) : ℚ) : ℝ) ∧
    ((rnd32 (1 + rt (rnd32 (1 + lenSq v))) : ℚ) : ℝ) ≤ (1 + g) * (1 + 1 / 2 ^ 24) ^ 4 := by
  have hb : 0 ≤ sq v := by unfold sq; positivity
  have hl := lenSq_near v
  have hl0 : 0 ≤ lenSq v := le_trans (mul_nonneg hb (by norm_num)) hl.1
  have h1 : Btw 3 1 1 := Btw_le zero_le_one (Btw.refl 1) (by norm_num)
  have hA : Btw 4 (1 + sq v) (rnd32 (1 + lenSq v)) := (h1.add hl).rnd (by linarith)
  have hA1 : 1 ≤ rnd32 (1 + lenSq v) := by
    have := rnd32_mono (show (1 : ℚ) ≤ 1 + lenSq v by linarith)
    rwa [rnd32_one] at this
  obtain ⟨r0, r1, r2⟩ := hrt _ hA1
  generalize rnd32 (1 + lenSq v) = A at *
  generalize rt A = r at *
  have s1 := (Rat.cast_le (K := ℝ)).mpr hA.1
  have s2 := (Rat.cast_le (K := ℝ)).mpr hA.2
  have s3 := (Rat.cast_le (K := ℝ)).mpr r1
  have s4 := (Rat.cast_le (K := ℝ)).mpr r2
  have s5 : (0 : ℝ) < r := by exact_mod_cast r0
  have s6 := (Rat.cast_le (K := ℝ)).mpr (r_ge (y := 1 + r) (by linarith))
  have s7 := (Rat.cast_le (K := ℝ)).mpr (r_le (y := 1 + r) (by linarith))
  push_cast at s1 s2 s3 s4 s6 s7
  rw [← hg] at s1 s2
  have q0 : (0 : ℝ) ≤ 1 - 1 / 2 ^ 24 := by norm_num
  have q1 : (1 : ℝ) - 1 / 2 ^ 24 ≤ 1 := by norm_num
  have p1 : (1 : ℝ) ≤ 1 + 1 / 2 ^ 24 := by norm_num
  generalize (1 : ℝ) - 1 / 2 ^ 24 = q at *
  generalize (1 : ℝ) + 1 / 2 ^ 24 = p at *
  have l1 : g * q ^ 3 ≤ r := by
    refine (le_abs_self _).trans (abs_le_of_sq_le_sq ?_ s5.le)
    calc (g * q ^ 3) ^ 2 = g ^ 2 * q ^ 4 * q ^ 2 := by ring
      _ ≤ A * q ^ 2 := mul_le_mul_of_nonneg_right s1 (sq_nonneg q)
      _ ≤ _ := s3
  have l2 : (r : ℝ) ≤ g * p ^ 3 := by
    refine (le_abs_self _).trans (abs_le_of_sq_le_sq ?_ (mul_nonneg (by linarith) (pow_nonneg (by linarith) 3)))
    calc (r : ℝ) ^ 2 ≤ A * p ^ 2 := s4
      _ ≤ g ^ 2 * p ^ 4 * p ^ 2 := mul_le_mul_of_nonneg_right s2 (sq_nonneg p)
      _ = _ := by ring
  have q3 : q ^ 3 ≤ 1 := pow_le_one₀ q0 q1
  have p3 : 1 ≤ p ^ 3 := one_le_pow₀ p1
  constructor
  · calc (1 + g) * q ^ 4 = (q ^ 3 + g * q ^ 3) * q := by ring
      _ ≤ (1 + r) * q := mul_le_mul_of_nonneg_right (add_le_add q3 l1) q0
      _ ≤ _ := s6
  · calc _ ≤ (1 + (r : ℝ)) * p := s7
      _ ≤ (p ^ 3 + g * p ^ 3) * p := mul_le_mul_of_nonneg_right (add_le_add p3 l2) (by linarith)
      _ = _ := by ring

lemma energyOf_nonneg {rt : ℚ → ℚ} (hrt : SqrtNear rt) {msp w : ℚ} (hm : 0 ≤ msp * w) (v : Fin 3 → ℚ) : 0 ≤ energyOf rt msp w v := by
  have hb : 0 ≤ sq v := by unfold sq; positivity
  have hl0 : 0 ≤ lenSq v := le_trans (mul_nonneg hb (by norm_num)) (lenSq_near v).1
  have hA1 : 1 ≤ rnd32 (1 + lenSq v) := by
    have := rnd32_mono (show (1 : ℚ) ≤ 1 + lenSq v by linarith)
    rwa [rnd32_one] at this
  have r0 := (hrt _ hA1).1
  exact r_nonneg (mul_nonneg (r_nonneg hm) (r_nonneg (div_nonneg hl0 (r_nonneg (by linarith)))))

/-- **C130 (one particle).** The energy of a particle is mass times weight times `gamma - 1`, up to a relative error of ten roundings,
however slow or fast it is. -/
theorem one_near {rt : ℚ → ℚ} (hrt : SqrtNear rt) {msp w : ℚ} (hm : 0 ≤ msp * w) (v : Fin 3 → ℚ) :
    ((msp * w : ℚ) : ℝ) * (√(1 + (sq v : ℝ)) - 1) * (1 - 1 / 2 ^ 20) ≤ (energyOf rt msp w v : ℝ) ∧
    (energyOf rt msp w v : ℝ) ≤ ((msp * w : ℚ) : ℝ) * (√(1 + (sq v : ℝ)) - 1) * (1 + 1 / 2 ^ 20) := by
  have hb : 0 ≤ sq v := by unfold sq; positivity
  have hbR : (0 : ℝ) ≤ (sq v : ℝ) := by exact_mod_cast hb
  have g1 : 1 ≤ √(1 + (sq v : ℝ)) := by
    rw [Real.one_le_sqrt]
    linarith
  have hg : √(1 + (sq v : ℝ)) ^ 2 = 1 + (sq v : ℝ) := Real.sq_sqrt (by linarith)
  obtain ⟨d1, d2⟩ := root_near hrt v g1 hg
  have hl := lenSq_near v
  have hl0 : 0 ≤ lenSq v := le_trans (mul_nonneg hb (by norm_num)) hl.1
  set g := √(1 + (sq v : ℝ))
  unfold energyOf
  set D := rnd32 (1 + rt (rnd32 (1 + lenSq v)))
  have hD : (0 : ℝ) < D := lt_of_lt_of_le (mul_pos (by linarith) (by norm_num)) d1
  have hDQ : 0 < D := by exact_mod_cast hD
  have hV : 0 ≤ lenSq v / D := div_nonneg hl0 hDQ.le
  have f1 := (Rat.cast_le (K := ℝ)).mpr (r_ge hV)
  have f2 := (Rat.cast_le (K := ℝ)).mpr (r_le hV)
  have hF := r_nonneg hV
  set F := rnd32 (lenSq v / D)
  have w1 := (Rat.cast_le (K := ℝ)).mpr (r_ge hm)
  have w2 := (Rat.cast_le (K := ℝ)).mpr (r_le hm)
  have hW := r_nonneg hm
  generalize rnd32 (msp * w) = W at *
  have e1 := (Rat.cast_le (K := ℝ)).mpr (r_ge (mul_nonneg hW hF))
  have e2 := (Rat.cast_le (K := ℝ)).mpr (r_le (mul_nonneg hW hF))
  have v1 := (Rat.cast_le (K := ℝ)).mpr hl.1
  have v2 := (Rat.cast_le (K := ℝ)).mpr hl.2
  have hmR : (0 : ℝ) ≤ ((msp * w : ℚ) : ℝ) := by exact_mod_cast hm
  have hFR : (0 : ℝ) ≤ F := by exact_mod_cast hF
  have hWR : (0 : ℝ) ≤ W := by exact_mod_cast hW
  push_cast at f1 f2 e1 e2 v1 v2
  rw [Rat.cast_mul, Rat.cast_sub, Rat.cast_one, Rat.cast_div, Rat.cast_one, Rat.cast_pow, Rat.cast_ofNat] at w1
  rw [Rat.cast_mul, Rat.cast_add, Rat.cast_one, Rat.cast_div, Rat.cast_one, Rat.cast_pow, Rat.cast_ofNat] at w2
  have hU : (sq v : ℝ) = (g - 1) * (1 + g) := by nlinarith [hg]
  rw [hU] at v1 v2
  generalize ((msp * w : ℚ) : ℝ) = m at *
  generalize ((rnd32 (W * F) : ℚ) : ℝ) = E at *
  generalize (W : ℝ) = W at *
  generalize (F : ℝ) = F at *
  generalize (D : ℝ) = D at *
  generalize (lenSq v : ℝ) = V at *
  have q0 : (0 : ℝ) < 1 - 1 / 2 ^ 24 := by norm_num
  have p0 : (0 : ℝ) < 1 + 1 / 2 ^ 24 := by norm_num
  have c1 : (1 - 1 / 2 ^ 20) * (1 + 1 / 2 ^ 24) ^ 4 ≤ (1 - 1 / 2 ^ 24 : ℝ) ^ 6 := by norm_num
  have c2 : (1 + 1 / 2 ^ 24 : ℝ) ^ 6 ≤ (1 + 1 / 2 ^ 20) * (1 - 1 / 2 ^ 24) ^ 4 := by norm_num
  generalize (1 : ℝ) - 1 / 2 ^ 24 = q at *
  generalize (1 : ℝ) + 1 / 2 ^ 24 = p at *
  have h1g : 0 < 1 + g := by linarith
  have hg0 : 0 ≤ g - 1 := by linarith
  -- F against gamma - 1
  have k1 : (g - 1) * q ^ 4 ≤ F * p ^ 4 := by
    have a : V * q ≤ F * D := by
      have := mul_le_mul_of_nonneg_right f1 hD.le
      calc V * q = V / D * q * D := by field_simp
        _ ≤ _ := this
    have b : F * D ≤ F * ((1 + g) * p ^ 4) := mul_le_mul_of_nonneg_left d2 hFR
    have c : (g - 1) * (1 + g) * q ^ 3 * q ≤ V * q := mul_le_mul_of_nonneg_right v1 q0.le
    refine le_of_mul_le_mul_right ?_ h1g
    calc (g - 1) * q ^ 4 * (1 + g) = (g - 1) * (1 + g) * q ^ 3 * q := by ring
      _ ≤ F * ((1 + g) * p ^ 4) := c.trans (a.trans b)
      _ = _ := by ring
  have k2 : F * q ^ 4 ≤ (g - 1) * p ^ 4 := by
    have a : F * D ≤ V * p := by
      have := mul_le_mul_of_nonneg_right f2 hD.le
      calc F * D ≤ V / D * p * D := this
        _ = V * p := by field_simp
    have b : F * ((1 + g) * q ^ 4) ≤ F * D := mul_le_mul_of_nonneg_left d1 hFR
    have c : V * p ≤ (g - 1) * (1 + g) * p ^ 3 * p := mul_le_mul_of_nonneg_right v2 p0.le
    refine le_of_mul_le_mul_right ?_ h1g
    calc F * q ^ 4 * (1 + g) = F * ((1 + g) * q ^ 4) := by ring
      _ ≤ (g - 1) * (1 + g) * p ^ 3 * p := b.trans (a.trans c)
      _ = _ := by ring
  constructor
  · have a : m * q * (g - 1) * q ^ 4 ≤ W * F * p ^ 4 := by
      calc m * q * (g - 1) * q ^ 4 = m * q * ((g - 1) * q ^ 4) := by ring
        _ ≤ W * (F * p ^ 4) := mul_le_mul w1 k1 (mul_nonneg hg0 (pow_nonneg q0.le 4)) hWR
        _ = _ := by ring
    refine le_of_mul_le_mul_right ?_ (pow_pos p0 4)
    calc m * (g - 1) * (1 - 1 / 2 ^ 20) * p ^ 4 = m * (g - 1) * ((1 - 1 / 2 ^ 20) * p ^ 4) := by ring
      _ ≤ m * (g - 1) * q ^ 6 := mul_le_mul_of_nonneg_left c1 (mul_nonneg hmR hg0)
      _ = m * q * (g - 1) * q ^ 4 * q := by ring
      _ ≤ W * F * p ^ 4 * q := mul_le_mul_of_nonneg_right a q0.le
      _ = W * F * q * p ^ 4 := by ring
      _ ≤ E * p ^ 4 := mul_le_mul_of_nonneg_right e1 (pow_nonneg p0.le 4)
  · have a : W * F * q ^ 4 ≤ m * p * (g - 1) * p ^ 4 := by
      calc W * F * q ^ 4 = W * (F * q ^ 4) := by ring
        _ ≤ m * p * ((g - 1) * p ^ 4) := mul_le_mul w2 k2 (mul_nonneg hFR (pow_nonneg q0.le 4)) (mul_nonneg hmR p0.le)
        _ = _ := by ring
    refine le_of_mul_le_mul_right ?_ (pow_pos q0 4)
    calc E * q ^ 4 ≤ W * F * p * q ^ 4 := mul_le_mul_of_nonneg_right e2 (pow_nonneg q0.le 4)
      _ = W * F * q ^ 4 * p := by ring
      _ ≤ m * p * (g - 1) * p ^ 4 * p := mul_le_mul_of_nonneg_right a p0.le
      _ = m * (g - 1) * p ^ 6 := by ring
      _ ≤ m * (g - 1) * ((1 + 1 / 2 ^ 20) * q ^ 4) := mul_le_mul_of_nonneg_left c2 (mul_nonneg hmR hg0)
      _ = _ := by ring

lemma d_near {x : ℚ} (hx : 0 ≤ x) : x * (1 - 1 / 2 ^ 53) ≤ rndD x ∧ rndD x ≤ x * (1 + 1 / 2 ^ 53) := by
  have h := rnd_errB (b := 52) x
  rw [abs_of_nonneg hx] at h
  obtain ⟨h1, h2⟩ := abs_le.mp h
  constructor <;> linarith

lemma fold_near : ∀ (l : List ℚ) (a : ℚ), 0 ≤ a → (∀ x ∈ l, 0 ≤ x) →
    (a + l.sum) * (1 - 1 / 2 ^ 53) ^ l.length ≤ l.foldl (fun en x => rndD (en + x)) a ∧
    l.foldl (fun en x => rndD (en + x)) a ≤ (a + l.sum) * (1 + 1 / 2 ^ 53) ^ l.length := by
  intro l
  induction l with
  | nil => intro a _ _; simp
  | cons x l ih =>
    intro a ha hl
    have hx := hl x (by simp)
    have hs : 0 ≤ l.sum := List.sum_nonneg fun y hy => hl y (by simp [hy])
    have hax : 0 ≤ a + x := add_nonneg ha hx
    obtain ⟨d1, d2⟩ := d_near hax
    obtain ⟨h1, h2⟩ := ih (rndD (a + x)) (rnd_nonnegB hax) (fun y hy => hl y (by simp [hy]))
    rw [List.foldl_cons, List.sum_cons, List.length_cons, pow_succ _ l.length, pow_succ _ l.length]
    have q0 : (0 : ℚ) ≤ 1 - 1 / 2 ^ 53 := by norm_num
    have q1 : (1 : ℚ) - 1 / 2 ^ 53 ≤ 1 := by norm_num
    have p1 : (1 : ℚ) ≤ 1 + 1 / 2 ^ 53 := by norm_num
    generalize (1 : ℚ) - 1 / 2 ^ 53 = q at *
    generalize (1 : ℚ) + 1 / 2 ^ 53 = p at *
    constructor
    · refine le_trans ?_ h1
      have : (a + (x + l.sum)) * q ≤ rndD (a + x) + l.sum := by nlinarith
      calc (a + (x + l.sum)) * (q ^ l.length * q) = (a + (x + l.sum)) * q * q ^ l.length := by ring
        _ ≤ _ := mul_le_mul_of_nonneg_right this (pow_nonneg q0 _)
    · refine h2.trans ?_
      have : rndD (a + x) + l.sum ≤ (a + (x + l.sum)) * p := by nlinarith
      calc _ ≤ (a + (x + l.sum)) * p * p ^ l.length := mul_le_mul_of_nonneg_right this (pow_nonneg (by linarith) _)
        _ = _ := by ring

lemma addUp_near {l : List ℚ} (hl : ∀ x ∈ l, 0 ≤ x) :
    l.sum * (1 - 1 / 2 ^ 53) ^ l.length ≤ addUp l ∧ addUp l ≤ l.sum * (1 + 1 / 2 ^ 53) ^ l.length := by
  have := fold_near l 0 le_rfl hl
  rwa [zero_add] at this

lemma addUp_nonneg {l : List ℚ} (hl : ∀ x ∈ l, 0 ≤ x) : 0 ≤ addUp l :=
  le_trans (mul_nonneg (List.sum_nonneg hl) (pow_nonneg (by norm_num) _)) (addUp_near hl).1

/-- Sums of sums that were rounded in double precision. -/
lemma addUp_two {ls : List (List ℚ)} (h0 : ∀ l ∈ ls, ∀ x ∈ l, 0 ≤ x) {n : ℕ} (hn : ∀ l ∈ ls, l.length ≤ n) :
    ls.flatten.sum * (1 - 1 / 2 ^ 53) ^ (n + ls.length) ≤ addUp (ls.map addUp) ∧
    addUp (ls.map addUp) ≤ ls.flatten.sum * (1 + 1 / 2 ^ 53) ^ (n + ls.length) := by
  have hm : ∀ x ∈ ls.map addUp, 0 ≤ x := by
    intro x hx
    obtain ⟨l, hl, rfl⟩ := List.mem_map.mp hx
    exact addUp_nonneg (h0 l hl)
  obtain ⟨a1, a2⟩ := addUp_near hm
  rw [List.length_map] at a1 a2
  have q0 : (0 : ℚ) ≤ 1 - 1 / 2 ^ 53 := by norm_num
  have q1 : (1 : ℚ) - 1 / 2 ^ 53 ≤ 1 := by norm_num
  have p1 : (1 : ℚ) ≤ 1 + 1 / 2 ^ 53 := by norm_num
  have inner : ls.flatten.sum * (1 - 1 / 2 ^ 53) ^ n ≤ (ls.map addUp).sum ∧ (ls.map addUp).sum ≤ ls.flatten.sum * (1 + 1 / 2 ^ 53) ^ n := by
    clear a1 a2 hm
    induction ls with
    | nil => simp
    | cons l ls ih =>
      obtain ⟨i1, i2⟩ := ih (fun l hl => h0 l (by simp [hl])) (fun l hl => hn l (by simp [hl]))
      obtain ⟨b1, b2⟩ := addUp_near (h0 l (by simp))
      have hs : 0 ≤ l.sum := List.sum_nonneg (h0 l (by simp))
      have hl := hn l (by simp)
      rw [List.flatten_cons, List.sum_append, List.map_cons, List.sum_cons, add_mul, add_mul]
      exact ⟨add_le_add ((mul_le_mul_of_nonneg_left (pow_le_pow_of_le_one q0 q1 hl) hs).trans b1) i1,
        add_le_add (b2.trans (mul_le_mul_of_nonneg_left (pow_le_pow_right₀ p1 hl) hs)) i2⟩
  rw [pow_add _ n, pow_add _ n, ← mul_assoc, ← mul_assoc]
  exact ⟨(mul_le_mul_of_nonneg_right inner.1 (pow_nonneg q0 _)).trans a1, a2.trans (mul_le_mul_of_nonneg_right inner.2 (pow_nonneg (by linarith) _))⟩

/-- Specification: the kinetic energy of a particle in units of `c²`, with the momentum in the middle of the step. -/
noncomputable def trueEnergy (msp qdt : ℚ) (p : Seen) : ℝ := ((msp * p.w : ℚ) : ℝ) * (√(1 + (sq (kicked qdt p.e p.u) : ℝ)) - 1)

/-- **C130 (a species).** The energy of any number of particles on any number of pipelines is the sum of theirs, up to 2^-20 and one
rounding in double precision for each particle of the longest pipeline and each pipeline.  It is never negative. -/
theorem all_near {rt : ℚ → ℚ} (hrt : SqrtNear rt) {msp qdt : ℚ} {ls : List (List Seen)} (hm : ∀ l ∈ ls, ∀ p ∈ l, 0 ≤ msp * p.w)
    {n : ℕ} (hn : ∀ l ∈ ls, l.length ≤ n) :
    0 ≤ energyAll rt msp qdt ls ∧
    (ls.flatten.map (trueEnergy msp qdt)).sum * (1 - 1 / 2 ^ 20) * (1 - 1 / 2 ^ 53) ^ (n + ls.length) ≤ (energyAll rt msp qdt ls : ℝ) ∧
    (energyAll rt msp qdt ls : ℝ) ≤ (ls.flatten.map (trueEnergy msp qdt)).sum * (1 + 1 / 2 ^ 20) * (1 + 1 / 2 ^ 53) ^ (n + ls.length) := by
  have hmap : energyAll rt msp qdt ls = addUp ((ls.map fun l => l.map (energyOne rt msp qdt)).map addUp) := by
    unfold energyAll
    rw [List.map_map]
    rfl
  have h0 : ∀ l ∈ ls.map (fun l => l.map (energyOne rt msp qdt)), ∀ x ∈ l, 0 ≤ x := by
    intro l hl x hx
    obtain ⟨l', hl', rfl⟩ := List.mem_map.mp hl
    obtain ⟨p, hp, rfl⟩ := List.mem_map.mp hx
    exact energyOf_nonneg hrt (hm l' hl' p hp) _
  have hn' : ∀ l ∈ ls.map (fun l => l.map (energyOne rt msp qdt)), l.length ≤ n := by
    intro l hl
    obtain ⟨l', hl', rfl⟩ := List.mem_map.mp hl
    rw [List.length_map]
    exact hn l' hl'
  obtain ⟨a1, a2⟩ := addUp_two h0 hn'
  rw [← hmap, List.length_map] at a1 a2
  have hfl : (ls.map fun l => l.map (energyOne rt msp qdt)).flatten = ls.flatten.map (energyOne rt msp qdt) := List.map_flatten.symm
  rw [hfl] at a1 a2
  have each : ∀ l : List Seen, (∀ p ∈ l, 0 ≤ msp * p.w) →
      (l.map (trueEnergy msp qdt)).sum * (1 - 1 / 2 ^ 20) ≤ (((l.map (energyOne rt msp qdt)).sum : ℚ) : ℝ) ∧
      (((l.map (energyOne rt msp qdt)).sum : ℚ) : ℝ) ≤ (l.map (trueEnergy msp qdt)).sum * (1 + 1 / 2 ^ 20) := by
    intro l
    induction l with
    | nil => intro _; simp
    | cons p l ih =>
      intro h
      obtain ⟨i1, i2⟩ := ih fun p hp => h p (by simp [hp])
      obtain ⟨o1, o2⟩ := one_near hrt (h p (by simp)) (kicked qdt p.e p.u)
      simp only [List.map_cons, List.sum_cons]
      rw [Rat.cast_add, add_mul, add_mul]
      exact ⟨add_le_add o1 i1, add_le_add o2 i2⟩
  have hflat : ∀ p ∈ ls.flatten, 0 ≤ msp * p.w := by
    intro p hp
    obtain ⟨l, hl, hpl⟩ := List.mem_flatten.mp hp
    exact hm l hl p hpl
  obtain ⟨b1, b2⟩ := each _ hflat
  have c1 := (Rat.cast_le (K := ℝ)).mpr a1
  have c2 := (Rat.cast_le (K := ℝ)).mpr a2
  rw [Rat.cast_mul, Rat.cast_pow, Rat.cast_sub, Rat.cast_one, Rat.cast_div, Rat.cast_one, Rat.cast_pow, Rat.cast_ofNat] at c1
  rw [Rat.cast_mul, Rat.cast_pow, Rat.cast_add, Rat.cast_one, Rat.cast_div, Rat.cast_one, Rat.cast_pow, Rat.cast_ofNat] at c2
  refine ⟨?_, (mul_le_mul_of_nonneg_right b1 (pow_nonneg (by norm_num) _)).trans c1, c2.trans (mul_le_mul_of_nonneg_right b2 (pow_nonneg (by norm_num) _))⟩
  rw [hmap]
  refine addUp_nonneg ?_
  intro x hx
  obtain ⟨l, hl, rfl⟩ := List.mem_map.mp hx
  exact addUp_nonneg (h0 l hl)

/-- Three particles on two pipelines meet the hypotheses. -/
example : (∀ l ∈ [[(⟨1, ![1, 2, 3], ![0, 1, 0]⟩ : Seen), ⟨2, ![0, 0, 1 / 2 ^ 20], ![0, 0, 0]⟩], [⟨3, ![5, 0, 0], ![1, 1, 1]⟩]], ∀ p ∈ l, 0 ≤ (2 : ℚ) * p.w) ∧
    ∀ l ∈ [[(⟨1, ![1, 2, 3], ![0, 1, 0]⟩ : Seen), ⟨2, ![0, 0, 1 / 2 ^ 20], ![0, 0, 0]⟩], [⟨3, ![5, 0, 0], ![1, 1, 1]⟩]], l.length ≤ 2 := by
  constructor <;> simp

end Verif.Gyro
