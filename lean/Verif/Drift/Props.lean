import Verif.Drift.Model

/-!
# Property C126: the divergence of the magnetic field with all roundings
-/
namespace Verif.Drift
open Verif.Place Verif.Streak Verif.Flow

/-- Specification: the flux out of a voxel, in units of the ratios. -/
def flux (p : Ratio) (b : Mag) (i j k : ℤ) : ℚ :=
  p.x * (b.x (i + 1) j k - b.x i j k) + p.y * (b.y i (j + 1) k - b.y i j k) + p.z * (b.z i j (k + 1) - b.z i j k)

/-- No component is above `m` anywhere. -/
def Below (m : ℚ) (f g h : Comp) : Prop := ∀ i j k, |f i j k| ≤ m ∧ |g i j k| ≤ m ∧ |h i j k| ≤ m

/-- One product of a ratio and a difference. -/
lemma term_near {p a1 a0 M : ℚ} (hp : |p| ≤ 1) (h1 : |a1| ≤ M) (h0 : |a0| ≤ M) (hM : 0 ≤ M) :
    |rnd32 (p * rnd32 (a1 - a0)) - p * (a1 - a0)| ≤ 401 / 100 / 2 ^ 24 * M ∧ |p * (a1 - a0)| ≤ 2 * M := by
  have hd : |a1 - a0| ≤ 2 * M := (abs_sub _ _).trans (by linarith)
  have r1 : |rnd32 (a1 - a0) - (a1 - a0)| ≤ 2 / 2 ^ 24 * M :=
    (r_err _).trans ((div_le_div_of_nonneg_right hd (by norm_num)).trans (le_of_eq (by ring)))
  have r2 : |p * rnd32 (a1 - a0) - p * (a1 - a0)| ≤ 2 / 2 ^ 24 * M := by
    rw [← mul_sub, abs_mul]
    exact (mul_le_of_le_one_left (abs_nonneg _) hp).trans r1
  have hB : |p * (a1 - a0)| ≤ 2 * M := by
    rw [abs_mul]
    exact (mul_le_of_le_one_left (abs_nonneg _) hp).trans hd
  refine ⟨(rnd_near r2 (abs_of_near r2 hB)).trans ?_, hB⟩
  have e : 2 / 2 ^ 24 * M + (2 * M + 2 / 2 ^ 24 * M) / 2 ^ 24 = (2 / 2 ^ 24 + (2 + 2 / 2 ^ 24) / 2 ^ 24) * M := by ring
  rw [e]
  exact mul_le_mul_of_nonneg_right (by norm_num) hM

/-- One face: the error of an update. -/
lemma upd_near {b p a1 a0 q c1 c0 M N : ℚ} (hp : |p| ≤ 1) (hq : |q| ≤ 1) (hb : |b| ≤ N) (h1 : |a1| ≤ M) (h0 : |a0| ≤ M)
    (g1 : |c1| ≤ M) (g0 : |c0| ≤ M) :
    |upd b p a1 a0 q c1 c0 - (b - (p * (a1 - a0) - q * (c1 - c0)))| ≤ (N + 17 * M) / 2 ^ 24 := by
  have hM : 0 ≤ M := (abs_nonneg _).trans h1
  obtain ⟨t1, m1⟩ := term_near hp h1 h0 hM
  obtain ⟨t2, m2⟩ := term_near hq g1 g0 hM
  unfold upd
  generalize rnd32 (p * rnd32 (a1 - a0)) = A at *
  generalize rnd32 (q * rnd32 (c1 - c0)) = C at *
  generalize p * (a1 - a0) = a at *
  generalize q * (c1 - c0) = c at *
  have s1 : |A - C - (a - c)| ≤ 802 / 100 / 2 ^ 24 * M := by
    have e : A - C - (a - c) = (A - a) - (C - c) := by ring
    rw [e]
    exact (abs_sub _ _).trans ((add_le_add t1 t2).trans (le_of_eq (by ring)))
  have s2 : |a - c| ≤ 4 * M := (abs_sub _ _).trans (by linarith)
  have s3 : |rnd32 (A - C) - (a - c)| ≤ 121 / 10 / 2 ^ 24 * M := by
    refine (rnd_near s1 (abs_of_near s1 s2)).trans ?_
    have e : 802 / 100 / 2 ^ 24 * M + (4 * M + 802 / 100 / 2 ^ 24 * M) / 2 ^ 24 =
      (802 / 100 / 2 ^ 24 + (4 + 802 / 100 / 2 ^ 24) / 2 ^ 24) * M := by ring
    rw [e]
    exact mul_le_mul_of_nonneg_right (by norm_num) hM
  have s4 : |b - rnd32 (A - C) - (b - (a - c))| ≤ 121 / 10 / 2 ^ 24 * M := by
    have e : b - rnd32 (A - C) - (b - (a - c)) = -(rnd32 (A - C) - (a - c)) := by ring
    rw [e, abs_neg]; exact s3
  have s5 : |b - (a - c)| ≤ N + 4 * M := (abs_sub _ _).trans (by linarith)
  refine (rnd_near s4 (abs_of_near s4 s5)).trans ?_
  have e : 121 / 10 / 2 ^ 24 * M + (N + 4 * M + 121 / 10 / 2 ^ 24 * M) / 2 ^ 24 =
    N / 2 ^ 24 + (121 / 10 + (4 + 121 / 10 / 2 ^ 24)) / 2 ^ 24 * M := by ring
  rw [e]
  have e2 : (N + 17 * M) / 2 ^ 24 = N / 2 ^ 24 + 17 / 2 ^ 24 * M := by ring
  rw [e2]
  exact add_le_add_right (mul_le_mul_of_nonneg_right (by norm_num) hM) _

/-- **C126 (the curl).** A half step subtracts the curl of the electric field from the magnetic one, up to the roundings. -/
theorem step_curl {p : Ratio} (hp : |p.x| ≤ 1 ∧ |p.y| ≤ 1 ∧ |p.z| ≤ 1) {e : El} {b : Mag} {M N : ℚ} (he : Below M e.x e.y e.z)
    (hb : Below N b.x b.y b.z) (i j k : ℤ) :
    |(advanceB p e b).x i j k - (b.x i j k - (p.y * (e.z i (j + 1) k - e.z i j k) - p.z * (e.y i j (k + 1) - e.y i j k)))| ≤
      (N + 17 * M) / 2 ^ 24 ∧
    |(advanceB p e b).y i j k - (b.y i j k - (p.z * (e.x i j (k + 1) - e.x i j k) - p.x * (e.z (i + 1) j k - e.z i j k)))| ≤
      (N + 17 * M) / 2 ^ 24 ∧
    |(advanceB p e b).z i j k - (b.z i j k - (p.x * (e.y (i + 1) j k - e.y i j k) - p.y * (e.x i (j + 1) k - e.x i j k)))| ≤
      (N + 17 * M) / 2 ^ 24 :=
  ⟨upd_near hp.2.1 hp.2.2 (hb i j k).1 (he i (j + 1) k).2.2 (he i j k).2.2 (he i j (k + 1)).2.1 (he i j k).2.1,
   upd_near hp.2.2 hp.1 (hb i j k).2.1 (he i j (k + 1)).1 (he i j k).1 (he (i + 1) j k).2.2 (he i j k).2.2,
   upd_near hp.1 hp.2.1 (hb i j k).2.2 (he (i + 1) j k).2.1 (he i j k).2.1 (he i (j + 1) k).1 (he i j k).1⟩

lemma six {px py pz a b c d e f m : ℚ} (hx : |px| ≤ 1) (hy : |py| ≤ 1) (hz : |pz| ≤ 1) (ha : |a| ≤ m) (hb : |b| ≤ m) (hc : |c| ≤ m)
    (hd : |d| ≤ m) (he : |e| ≤ m) (hf : |f| ≤ m) : |px * (a - b) + py * (c - d) + pz * (e - f)| ≤ 6 * m := by
  have t : ∀ p a b : ℚ, |p| ≤ 1 → |a| ≤ m → |b| ≤ m → |p * (a - b)| ≤ 2 * m := by
    intro p a b hp ha hb
    rw [abs_mul]
    have h1 : |a - b| ≤ 2 * m := (abs_sub _ _).trans (by linarith)
    exact (mul_le_of_le_one_left (abs_nonneg _) hp).trans h1
  have h1 := t px a b hx ha hb
  have h2 := t py c d hy hc hd
  have h3 := t pz e f hz he hf
  exact (abs_add_le _ _).trans ((add_le_add ((abs_add_le _ _).trans (add_le_add h1 h2)) h3).trans (by linarith))

/-- **C126 (one half step).** The flux out of every voxel changes by at most six roundings of the fields. -/
theorem step_flux {p : Ratio} (hp : |p.x| ≤ 1 ∧ |p.y| ≤ 1 ∧ |p.z| ≤ 1) {e : El} {b : Mag} {M N : ℚ} (he : Below M e.x e.y e.z)
    (hb : Below N b.x b.y b.z) (i j k : ℤ) :
    |flux p (advanceB p e b) i j k - flux p b i j k| ≤ 6 * ((N + 17 * M) / 2 ^ 24) := by
  obtain ⟨hx, hy, hz⟩ := hp
  have X := fun i j k => upd_near hy hz (hb i j k).1 (he i (j + 1) k).2.2 (he i j k).2.2 (he i j (k + 1)).2.1 (he i j k).2.1
  have Y := fun i j k => upd_near hz hx (hb i j k).2.1 (he i j (k + 1)).1 (he i j k).1 (he (i + 1) j k).2.2 (he i j k).2.2
  have Z := fun i j k => upd_near hx hy (hb i j k).2.2 (he (i + 1) j k).2.1 (he i j k).2.1 (he i (j + 1) k).1 (he i j k).1
  have h := six hx hy hz (X (i + 1) j k) (X i j k) (Y i (j + 1) k) (Y i j k) (Z i j (k + 1)) (Z i j k)
  refine le_trans (le_of_eq ?_) h
  congr 1
  unfold flux advanceB
  simp only
  ring

/-- **C126 (any number of half steps).** The flux out of every voxel drifts at most in proportion to the number of half steps: by
`6 (N + 17 M) / 2^24` in each, where `M` bounds the electric and `N` the magnetic field throughout. -/
theorem flux_drift {p : Ratio} (hp : |p.x| ≤ 1 ∧ |p.y| ≤ 1 ∧ |p.z| ≤ 1) {M N : ℚ} : ∀ (es : List El) (b : Mag),
    (∀ e ∈ es, Below M e.x e.y e.z) →
    (∀ l l', es = l ++ l' → Below N (run p b l).x (run p b l).y (run p b l).z) → ∀ i j k,
    |flux p (run p b es) i j k - flux p b i j k| ≤ es.length * (6 * ((N + 17 * M) / 2 ^ 24)) := by
  intro es
  induction es with
  | nil => intro b _ _ i j k; simp [run]
  | cons e es ih =>
    intro b he hb i j k
    have h1 := step_flux hp (he e (by simp)) (hb [] (e :: es) rfl) i j k
    have h2 := ih (advanceB p e b) (fun e' h => he e' (by simp [h])) (fun l l' h => hb (e :: l) l' (by simp [h])) i j k
    have e1 : run p b (e :: es) = run p (advanceB p e b) es := rfl
    rw [e1]
    have e2 : flux p (run p (advanceB p e b) es) i j k - flux p b i j k =
      (flux p (run p (advanceB p e b) es) i j k - flux p (advanceB p e b) i j k) + (flux p (advanceB p e b) i j k - flux p b i j k) := by
      ring
    rw [e2]
    refine (abs_add_le _ _).trans ((add_le_add h2 h1).trans (le_of_eq ?_))
    rw [List.length_cons]
    push_cast
    ring

/-- Fields stay bounded in a half step. -/
lemma below_step {p : Ratio} (hp : |p.x| ≤ 1 ∧ |p.y| ≤ 1 ∧ |p.z| ≤ 1) {e : El} {b : Mag} {M N : ℚ} (he : Below M e.x e.y e.z)
    (hb : Below N b.x b.y b.z) : Below (2 * N + 6 * M) (advanceB p e b).x (advanceB p e b).y (advanceB p e b).z := by
  obtain ⟨hx, hy, hz⟩ := hp
  have key : ∀ {b p a1 a0 q c1 c0 : ℚ}, |p| ≤ 1 → |q| ≤ 1 → |b| ≤ N → |a1| ≤ M → |a0| ≤ M → |c1| ≤ M → |c0| ≤ M →
      |upd b p a1 a0 q c1 c0| ≤ 2 * N + 6 * M := by
    intro b p a1 a0 q c1 c0 hp hq hb h1 h0 g1 g0
    have hM : 0 ≤ M := (abs_nonneg _).trans h1
    have hN : 0 ≤ N := (abs_nonneg _).trans hb
    have m1 := (term_near hp h1 h0 hM).2
    have m2 := (term_near hq g1 g0 hM).2
    have h := upd_near hp hq hb h1 h0 g1 g0
    have hB : |b - (p * (a1 - a0) - q * (c1 - c0))| ≤ N + 4 * M :=
      (abs_sub _ _).trans (add_le_add hb ((abs_sub _ _).trans (by linarith)))
    refine (abs_of_near h hB).trans ?_
    have e : (N + 17 * M) / 2 ^ 24 ≤ N + 2 * M := by
      rw [div_le_iff₀ (by norm_num)]
      have : (2 : ℚ) ^ 24 = 16777216 := by norm_num
      rw [this]
      linarith
    linarith
  intro i j k
  exact ⟨key hy hz (hb i j k).1 (he i (j + 1) k).2.2 (he i j k).2.2 (he i j (k + 1)).2.1 (he i j k).2.1,
    key hz hx (hb i j k).2.1 (he i j (k + 1)).1 (he i j k).1 (he (i + 1) j k).2.2 (he i j k).2.2,
    key hx hy (hb i j k).2.2 (he (i + 1) j k).2.1 (he i j k).2.1 (he i (j + 1) k).1 (he i j k).1⟩

/-- A field with amplitudes that are not exact. -/
def wave : El where
  x := fun i j k => if (i + j + k) % 3 = 0 then rnd32 (1 / 10) else rnd32 (1 / 3)
  y := fun i j k => if (i + j * k) % 2 = 0 then rnd32 (1 / 7) else rnd32 (-2 / 5)
  z := fun i j k => if (i * j + k) % 4 = 0 then rnd32 (1 / 9) else rnd32 (3 / 11)

/-- No magnetic field. -/
def none : Mag := ⟨fun _ _ _ => 0, fun _ _ _ => 0, fun _ _ _ => 0⟩

/-- Ratios of half a step. -/
def ratio : Ratio := ⟨rnd32 (1 / 6), rnd32 (1 / 7), rnd32 (1 / 5)⟩

/-- The hypotheses of `flux_drift` are met, and the drift is not zero: a flux appears out of no flux. -/
example : (|ratio.x| ≤ 1 ∧ |ratio.y| ≤ 1 ∧ |ratio.z| ≤ 1) ∧ (∀ e ∈ [wave], Below 1 e.x e.y e.z) ∧
    (∀ l l', [wave] = l ++ l' → Below 6 (run ratio none l).x (run ratio none l).y (run ratio none l).z) ∧
    flux ratio (run ratio none [wave]) 0 0 0 ≠ 0 := by
  have hr : |ratio.x| ≤ 1 ∧ |ratio.y| ≤ 1 ∧ |ratio.z| ≤ 1 := by decide +kernel
  have hw : Below 1 wave.x wave.y wave.z := by
    intro i j k
    refine ⟨?_, ?_, ?_⟩
    · show |if (i + j + k) % 3 = 0 then rnd32 (1 / 10) else rnd32 (1 / 3)| ≤ 1
      split_ifs <;> decide +kernel
    · show |if (i + j * k) % 2 = 0 then rnd32 (1 / 7) else rnd32 (-2 / 5)| ≤ 1
      split_ifs <;> decide +kernel
    · show |if (i * j + k) % 4 = 0 then rnd32 (1 / 9) else rnd32 (3 / 11)| ≤ 1
      split_ifs <;> decide +kernel
  have h0 : Below 0 none.x none.y none.z := fun i j k => by simp [none]
  refine ⟨hr, by simpa using hw, ?_, by decide +kernel⟩
  intro l l' h
  cases l with
  | nil => exact fun i j k => by simp [run, none]
  | cons a l =>
    simp only [List.cons_append, List.cons.injEq] at h
    obtain ⟨rfl, h⟩ := h
    obtain ⟨rfl, -⟩ := List.append_eq_nil_iff.mp h.symm
    have := below_step hr hw h0
    norm_num at this
    exact this

end Verif.Drift
