import Verif.Drift.ElModel

/-!
# Property C129: Gauss's law in a run, with all roundings
-/
namespace Verif.Drift
open Verif.Place Verif.Streak Verif.Flow

/-- Specification: the flux out of the dual voxel around a node, in units of the ratios. -/
def divE (p : Ratio) (e : El) (i j k : ℤ) : ℚ :=
  p.x * (e.x i j k - e.x (i - 1) j k) + p.y * (e.y i j k - e.y i (j - 1) k) + p.z * (e.z i j k - e.z i j (k - 1))

lemma scale_near {c a x e : ℚ} (hc : |c| ≤ 1) (h : |a - x| ≤ e) : |c * a - c * x| ≤ e := by
  rw [← mul_sub, abs_mul]
  exact (mul_le_of_le_one_left (abs_nonneg _) hc).trans h

lemma newT_near {damp t p a1 a0 q c1 c0 N T : ℚ} (hp : |p| ≤ 1) (hq : |q| ≤ 1) (h1 : |a1| ≤ N) (h0 : |a0| ≤ N) (g1 : |c1| ≤ N)
    (g0 : |c0| ≤ N) (hT : |damp * t| ≤ T) :
    |newT damp t p a1 a0 q c1 c0 - (p * (a1 - a0) - q * (c1 - c0) - damp * t)| ≤ (17 * N + 3 * T) / 2 ^ 24 ∧
    |p * (a1 - a0) - q * (c1 - c0) - damp * t| ≤ 4 * N + T := by
  have hN : 0 ≤ N := (abs_nonneg _).trans h1
  have hT0 : 0 ≤ T := (abs_nonneg _).trans hT
  obtain ⟨t1, m1⟩ := term_near hp h1 h0 hN
  obtain ⟨t2, m2⟩ := term_near hq g1 g0 hN
  unfold newT
  generalize rnd32 (p * rnd32 (a1 - a0)) = A at *
  generalize rnd32 (q * rnd32 (c1 - c0)) = C at *
  generalize p * (a1 - a0) = a at *
  generalize q * (c1 - c0) = c at *
  generalize damp * t = d at *
  have s1 : |A - C - (a - c)| ≤ 802 / 100 / 2 ^ 24 * N := by
    have e : A - C - (a - c) = (A - a) - (C - c) := by ring
    rw [e]
    exact (abs_sub _ _).trans ((add_le_add t1 t2).trans (le_of_eq (by ring)))
  have s2 : |a - c| ≤ 4 * N := (abs_sub _ _).trans (by linarith)
  have s3 : |rnd32 (A - C) - (a - c)| ≤ 121 / 10 / 2 ^ 24 * N := by
    refine (rnd_near s1 (abs_of_near s1 s2)).trans ?_
    norm_num
    linarith
  have s4 : |rnd32 d - d| ≤ 1 / 2 ^ 24 * T := (r_err d).trans (by linarith [div_le_div_of_nonneg_right hT (by norm_num : (0 : ℚ) ≤ 2 ^ 24)])
  have s5 : |rnd32 (A - C) - rnd32 d - (a - c - d)| ≤ 121 / 10 / 2 ^ 24 * N + 1 / 2 ^ 24 * T := by
    have e : rnd32 (A - C) - rnd32 d - (a - c - d) = (rnd32 (A - C) - (a - c)) - (rnd32 d - d) := by ring
    rw [e]
    exact (abs_sub _ _).trans (add_le_add s3 s4)
  have s6 : |a - c - d| ≤ 4 * N + T := (abs_sub _ _).trans (add_le_add s2 hT)
  refine ⟨(rnd_near s5 (abs_of_near s5 s6)).trans ?_, s6⟩
  norm_num
  linarith

lemma newE_near {decay drive cj e t j T0 M K S X : ℚ} (hd : |decay| ≤ 1) (hv : |drive| ≤ 1) (he : |e| ≤ M) (hj : |cj * j| ≤ K)
    (ht : |t - T0| ≤ S / 2 ^ 24) (hX : |T0| ≤ X) (hS : S ≤ 2 ^ 20 * X) :
    |newE decay drive cj e t j - (decay * e + drive * (T0 - cj * j))| ≤ (S + 4 * X + 5 * K + 3 * M) / 2 ^ 24 := by
  have hM : 0 ≤ M := (abs_nonneg _).trans he
  have hK : 0 ≤ K := (abs_nonneg _).trans hj
  have hX0 : 0 ≤ X := (abs_nonneg _).trans hX
  have hS0 : 0 ≤ S := by
    have := (abs_nonneg _).trans ht
    by_contra h
    push Not at h
    have : S / 2 ^ 24 < 0 := div_neg_of_neg_of_pos h (by norm_num)
    linarith
  unfold newE
  generalize cj * j = c at *
  have h1 : |rnd32 c - c| ≤ K / 2 ^ 24 := (r_err c).trans (div_le_div_of_nonneg_right hj (by norm_num))
  have h2 : |t - rnd32 c - (T0 - c)| ≤ S / 2 ^ 24 + K / 2 ^ 24 := by
    have e : t - rnd32 c - (T0 - c) = (t - T0) - (rnd32 c - c) := by ring
    rw [e]
    exact (abs_sub _ _).trans (add_le_add ht h1)
  have b2 : |T0 - c| ≤ X + K := (abs_sub _ _).trans (add_le_add hX hj)
  have h3 := rnd_near h2 (abs_of_near h2 b2)
  have h4 := scale_near hv h3
  have b4 : |drive * (T0 - c)| ≤ X + K := by
    rw [abs_mul]
    exact (mul_le_of_le_one_left (abs_nonneg _) hv).trans b2
  have h5 := rnd_near h4 (abs_of_near h4 b4)
  have b6 : |decay * e| ≤ M := by
    rw [abs_mul]
    exact (mul_le_of_le_one_left (abs_nonneg _) hd).trans he
  have h6 : |rnd32 (decay * e) - decay * e| ≤ M / 2 ^ 24 := (r_err _).trans (div_le_div_of_nonneg_right b6 (by norm_num))
  have h7 := (abs_add_le _ _).trans (add_le_add h6 h5)
  have e' : (rnd32 (decay * e) - decay * e) + (rnd32 (drive * rnd32 (t - rnd32 c)) - drive * (T0 - c)) =
      rnd32 (decay * e) + rnd32 (drive * rnd32 (t - rnd32 c)) - (decay * e + drive * (T0 - c)) := by ring
  rw [e'] at h7
  have b7 : |decay * e + drive * (T0 - c)| ≤ M + (X + K) := (abs_add_le _ _).trans (add_le_add b6 b4)
  refine (rnd_near h7 (abs_of_near h7 b7)).trans ?_
  norm_num at hS ⊢
  linarith

/-- One component: the error of the new electric field, with and without conductivity and damping. -/
lemma comp_near {decay drive damp cj e t j p a1 a0 q c1 c0 M N T K : ℚ} (hd : |decay| ≤ 1) (hv : |drive| ≤ 1) (he : |e| ≤ M)
    (hj : |cj * j| ≤ K) (hp : |p| ≤ 1) (hq : |q| ≤ 1) (h1 : |a1| ≤ N) (h0 : |a0| ≤ N) (g1 : |c1| ≤ N) (g0 : |c0| ≤ N)
    (hT : |damp * t| ≤ T) :
    |newE decay drive cj e (newT damp t p a1 a0 q c1 c0) j -
      (decay * e + drive * (p * (a1 - a0) - q * (c1 - c0) - damp * t - cj * j))| ≤ (33 * N + 7 * T + 5 * K + 3 * M) / 2 ^ 24 := by
  have hN : 0 ≤ N := (abs_nonneg _).trans h1
  have hT0 : 0 ≤ T := (abs_nonneg _).trans hT
  obtain ⟨k1, k2⟩ := newT_near hp hq h1 h0 g1 g0 hT
  have := newE_near hd hv he hj k1 k2 (by norm_num; linarith)
  refine this.trans (le_of_eq ?_)
  ring

/-- The ratios of a step, the factors of the old field and of the source are at most 1. -/
def Medium.Ok (m : Medium) : Prop :=
  (|m.p.x| ≤ 1 ∧ |m.p.y| ≤ 1 ∧ |m.p.z| ≤ 1) ∧ (∀ a, |m.decay a| ≤ 1) ∧ ∀ a, |m.drive a| ≤ 1

/-- A bound of the current in units of the field of a step. -/
def Source (m : Medium) (K : ℚ) (c : El) : Prop := Below K (fun i j k => m.cj * c.x i j k) (fun i j k => m.cj * c.y i j k) (fun i j k => m.cj * c.z i j k)

/-- **C129 (the curl and the current).** A step keeps `decay` of the electric field and adds `drive` times the curl of the magnetic field,
less `damp` times the old `tca` and the current, up to the roundings. -/
theorem stepE_near {m : Medium} (hm : m.Ok) {b : Mag} {c t e : El} {M N K T : ℚ} (he : Below M e.x e.y e.z) (hb : Below N b.x b.y b.z)
    (hc : Source m K c) (ht : Below T (fun i j k => m.damp * t.x i j k) (fun i j k => m.damp * t.y i j k) (fun i j k => m.damp * t.z i j k))
    (i j k : ℤ) :
    |(advanceE m b c t e).x i j k - (m.decay 0 * e.x i j k + m.drive 0 * (m.p.y * (b.z i j k - b.z i (j - 1) k) -
      m.p.z * (b.y i j k - b.y i j (k - 1)) - m.damp * t.x i j k - m.cj * c.x i j k))| ≤ (33 * N + 7 * T + 5 * K + 3 * M) / 2 ^ 24 ∧
    |(advanceE m b c t e).y i j k - (m.decay 1 * e.y i j k + m.drive 1 * (m.p.z * (b.x i j k - b.x i j (k - 1)) -
      m.p.x * (b.z i j k - b.z (i - 1) j k) - m.damp * t.y i j k - m.cj * c.y i j k))| ≤ (33 * N + 7 * T + 5 * K + 3 * M) / 2 ^ 24 ∧
    |(advanceE m b c t e).z i j k - (m.decay 2 * e.z i j k + m.drive 2 * (m.p.x * (b.y i j k - b.y (i - 1) j k) -
      m.p.y * (b.x i j k - b.x i (j - 1) k) - m.damp * t.z i j k - m.cj * c.z i j k))| ≤ (33 * N + 7 * T + 5 * K + 3 * M) / 2 ^ 24 := by
  obtain ⟨⟨hx, hy, hz⟩, hd, hv⟩ := hm
  exact ⟨comp_near (hd 0) (hv 0) (he _ _ _).1 (hc _ _ _).1 hy hz (hb _ _ _).2.2 (hb _ _ _).2.2 (hb _ _ _).2.1 (hb _ _ _).2.1 (ht _ _ _).1,
    comp_near (hd 1) (hv 1) (he _ _ _).2.1 (hc _ _ _).2.1 hz hx (hb _ _ _).1 (hb _ _ _).1 (hb _ _ _).2.2 (hb _ _ _).2.2 (ht _ _ _).2.1,
    comp_near (hd 2) (hv 2) (he _ _ _).2.2 (hc _ _ _).2.2 hx hy (hb _ _ _).2.1 (hb _ _ _).2.1 (hb _ _ _).1 (hb _ _ _).1 (ht _ _ _).2.2⟩

/-- Vacuum without damping of radiation. -/
def Medium.Vacuum (m : Medium) : Prop :=
  (|m.p.x| ≤ 1 ∧ |m.p.y| ≤ 1 ∧ |m.p.z| ≤ 1) ∧ (∀ a, m.decay a = 1) ∧ (∀ a, m.drive a = 1) ∧ m.damp = 0

/-- **C129 (one step).** In vacuum the flux of the electric field out of the dual voxel around every node changes by what flows out as
current, up to six roundings of the fields. -/
theorem step_gauss {m : Medium} (hm : m.Vacuum) {b : Mag} {c t e : El} {M N K : ℚ} (he : Below M e.x e.y e.z) (hb : Below N b.x b.y b.z)
    (hc : Source m K c) (i j k : ℤ) :
    |divE m.p (advanceE m b c t e) i j k - (divE m.p e i j k - m.cj * divE m.p c i j k)| ≤ 6 * ((33 * N + 5 * K + 3 * M) / 2 ^ 24) := by
  obtain ⟨hp, hd, hv, h0⟩ := hm
  have ok : m.Ok := ⟨hp, fun a => by rw [hd a]; norm_num, fun a => by rw [hv a]; norm_num⟩
  have ht : Below 0 (fun i j k => m.damp * t.x i j k) (fun i j k => m.damp * t.y i j k) (fun i j k => m.damp * t.z i j k) := by
    intro i j k
    simp [h0]
  have H := stepE_near ok he hb hc ht
  simp only [hd, hv, h0, zero_mul, mul_zero, add_zero, one_mul, sub_zero] at H
  obtain ⟨hx, hy, hz⟩ := hp
  have h := six hx hy hz (H i j k).1 (H (i - 1) j k).1 (H i j k).2.1 (H i (j - 1) k).2.1 (H i j k).2.2 (H i j (k - 1)).2.2
  refine le_trans (le_of_eq ?_) h
  congr 1
  unfold divE
  ring

/-- **C129 (any number of steps).** The flux of the electric field out of the dual voxel around every node stays what it was less what has
flown out as current, up to a drift in proportion to the number of steps. -/
theorem gauss_drift {m : Medium} (hm : m.Vacuum) {M N K : ℚ} : ∀ (l : List (Mag × El)) (s : El × El),
    (∀ bc ∈ l, Below N bc.1.x bc.1.y bc.1.z ∧ Source m K bc.2) →
    (∀ l1 l2, l = l1 ++ l2 → Below M (runE m s l1).2.x (runE m s l1).2.y (runE m s l1).2.z) → ∀ i j k,
    |divE m.p (runE m s l).2 i j k - (divE m.p s.2 i j k - m.cj * (l.map fun bc => divE m.p bc.2 i j k).sum)| ≤
      l.length * (6 * ((33 * N + 5 * K + 3 * M) / 2 ^ 24)) := by
  intro l
  induction l with
  | nil => intro s _ _ i j k; simp [runE]
  | cons bc l ih =>
    intro s hl hM i j k
    have h1 := step_gauss (t := s.1) hm (hM [] (bc :: l) rfl) (hl bc (by simp)).1 (hl bc (by simp)).2 i j k
    have h2 := ih (advanceT m bc.1 s.1, advanceE m bc.1 bc.2 s.1 s.2) (fun x h => hl x (by simp [h]))
      (fun l1 l2 h => hM (bc :: l1) l2 (by simp [h])) i j k
    have e1 : runE m s (bc :: l) = runE m (advanceT m bc.1 s.1, advanceE m bc.1 bc.2 s.1 s.2) l := rfl
    rw [e1, List.map_cons, List.sum_cons, List.length_cons]
    simp only at h1 h2
    have h3 := (abs_add_le _ _).trans (add_le_add h2 h1)
    refine le_trans (le_of_eq ?_) (h3.trans (le_of_eq ?_))
    · congr 1
      simp only [runE, List.foldl_nil]
      ring
    · push_cast
      ring

/-- Fields stay bounded in a step. -/
lemma below_stepE {m : Medium} (hm : m.Vacuum) {b : Mag} {c t e : El} {M N K : ℚ} (he : Below M e.x e.y e.z) (hb : Below N b.x b.y b.z)
    (hc : Source m K c) : Below (2 * M + 5 * N + 2 * K) (advanceE m b c t e).x (advanceE m b c t e).y (advanceE m b c t e).z := by
  obtain ⟨⟨hx, hy, hz⟩, hd, hv, h0⟩ := hm
  have key : ∀ {e t j p a1 a0 q c1 c0 : ℚ}, |e| ≤ M → |m.cj * j| ≤ K → |p| ≤ 1 → |q| ≤ 1 → |a1| ≤ N → |a0| ≤ N → |c1| ≤ N → |c0| ≤ N →
      |newE 1 1 m.cj e (newT 0 t p a1 a0 q c1 c0) j| ≤ 2 * M + 5 * N + 2 * K := by
    intro e t j p a1 a0 q c1 c0 he hj hp hq h1 h0 g1 g0
    have hN : 0 ≤ N := (abs_nonneg _).trans h1
    have hM : 0 ≤ M := (abs_nonneg _).trans he
    have hK : 0 ≤ K := (abs_nonneg _).trans hj
    have o : |(1 : ℚ)| ≤ 1 := by norm_num
    have hT : |0 * t| ≤ 0 := by simp
    have h := comp_near o o he hj hp hq h1 h0 g1 g0 hT
    have k := (newT_near hp hq h1 h0 g1 g0 hT).2
    have B : |1 * e + 1 * (p * (a1 - a0) - q * (c1 - c0) - 0 * t - m.cj * j)| ≤ M + (4 * N + 0 + K) := by
      rw [one_mul, one_mul]
      exact (abs_add_le _ _).trans (add_le_add he ((abs_sub _ _).trans (add_le_add k hj)))
    refine (abs_of_near h B).trans ?_
    norm_num
    linarith
  intro i j k
  simp only [advanceE, advanceT, hd, hv, h0]
  exact ⟨key (he _ _ _).1 (hc _ _ _).1 hy hz (hb _ _ _).2.2 (hb _ _ _).2.2 (hb _ _ _).2.1 (hb _ _ _).2.1,
    key (he _ _ _).2.1 (hc _ _ _).2.1 hz hx (hb _ _ _).1 (hb _ _ _).1 (hb _ _ _).2.2 (hb _ _ _).2.2,
    key (he _ _ _).2.2 (hc _ _ _).2.2 hx hy (hb _ _ _).2.1 (hb _ _ _).2.1 (hb _ _ _).1 (hb _ _ _).1⟩

/-- Vacuum with ratios that are not exact. -/
def vacuum : Medium := ⟨ratio, fun _ => 1, fun _ => 1, 0, rnd32 (1 / 10)⟩

/-- A magnetic field with amplitudes that are not exact. -/
def waveB : Mag := ⟨wave.x, wave.y, wave.z⟩

/-- The hypotheses of `gauss_drift` are met by a step with field and current, and the drift is not zero. -/
example : vacuum.Vacuum ∧ (∀ bc ∈ [(waveB, wave)], Below 1 bc.1.x bc.1.y bc.1.z ∧ Source vacuum 1 bc.2) ∧
    (∀ l1 l2, [(waveB, wave)] = l1 ++ l2 → Below 9 (runE vacuum (wave, wave) l1).2.x (runE vacuum (wave, wave) l1).2.y
      (runE vacuum (wave, wave) l1).2.z) ∧
    divE vacuum.p (runE vacuum (wave, wave) [(waveB, wave)]).2 0 0 0 ≠ divE vacuum.p wave 0 0 0 - vacuum.cj * divE vacuum.p wave 0 0 0 := by
  have hw : Below 1 wave.x wave.y wave.z := by
    intro i j k
    refine ⟨?_, ?_, ?_⟩
    · show |if (i + j + k) % 3 = 0 then rnd32 (1 / 10) else rnd32 (1 / 3)| ≤ 1
      split_ifs <;> decide +kernel
    · show |if (i + j * k) % 2 = 0 then rnd32 (1 / 7) else rnd32 (-2 / 5)| ≤ 1
      split_ifs <;> decide +kernel
    · show |if (i * j + k) % 4 = 0 then rnd32 (1 / 9) else rnd32 (3 / 11)| ≤ 1
      split_ifs <;> decide +kernel
  have hv : vacuum.Vacuum := ⟨by decide +kernel, fun _ => rfl, fun _ => rfl, rfl⟩
  have hj : |vacuum.cj| ≤ 1 := by decide +kernel
  have key : ∀ a, |a| ≤ 1 → |vacuum.cj * a| ≤ 1 := fun a ha => by
    rw [abs_mul]
    exact (mul_le_of_le_one_left (abs_nonneg _) hj).trans ha
  have hs : Source vacuum 1 wave := fun i j k => ⟨key _ (hw _ _ _).1, key _ (hw _ _ _).2.1, key _ (hw _ _ _).2.2⟩
  refine ⟨hv, ?_, ?_, by decide +kernel⟩
  · intro bc h
    rw [List.mem_singleton] at h
    subst h
    exact ⟨hw, hs⟩
  · intro l1 l2 h
    cases l1 with
    | nil => exact fun i j k => ⟨(hw i j k).1.trans (by norm_num), (hw i j k).2.1.trans (by norm_num), (hw i j k).2.2.trans (by norm_num)⟩
    | cons a l1 =>
      simp only [List.cons_append, List.cons.injEq] at h
      obtain ⟨rfl, h⟩ := h
      obtain ⟨rfl, -⟩ := List.append_eq_nil_iff.mp h.symm
      have := below_stepE (b := waveB) (t := wave) hv hw hw hs
      norm_num at this
      exact this

end Verif.Drift
