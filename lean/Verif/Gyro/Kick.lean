import Verif.Gyro.Seen

/-!
# Property C128: the momentum after a step, with all roundings
-/
namespace Verif.Gyro
open Verif.Place Verif.Streak Verif.Flow Verif.Drift

lemma exactRot_sub (tau : ℚ) (b v w : Fin 3 → ℚ) (k : Fin 3) :
    exactRot tau b v k - exactRot tau b w k = exactRot tau b (fun i => v i - w i) k := by
  unfold exactRot cross
  ring

lemma exactRot_le (tau : ℚ) (b v : Fin 3 → ℚ) {D : ℚ} (hv : ∀ i, |v i| ≤ D) (k : Fin 3) : |exactRot tau b v k| ≤ 2 * D := by
  have hD : 0 ≤ D := (abs_nonneg _).trans (hv 0)
  refine abs_le_of_sq_le_sq ?_ (by positivity)
  have h1 : exactRot tau b v k ^ 2 ≤ sq (exactRot tau b v) := by
    unfold sq
    have h0 := sq_nonneg (exactRot tau b v 0)
    have h1 := sq_nonneg (exactRot tau b v 1)
    have h2 := sq_nonneg (exactRot tau b v 2)
    have : k = 0 ∨ k = 1 ∨ k = 2 := by omega
    rcases this with rfl | rfl | rfl <;> linarith
  rw [exact_sq] at h1
  have g : ∀ i, v i ^ 2 ≤ D ^ 2 := fun i => sq_le_sq' (by linarith [(abs_le.mp (hv i)).1]) (abs_le.mp (hv i)).2
  have := g 0
  have := g 1
  have := g 2
  unfold sq at h1
  nlinarith [sq_nonneg D]

lemma kick_near {qdt M U S : ℚ} {e E u v : Fin 3 → ℚ} (he : ∀ n, |e n - E n| ≤ 1 / 2 ^ 18 * M) (hE : ∀ n, |E n| ≤ M) (hU : 0 ≤ U)
    (hS : 0 ≤ S) (hv : ∀ n, |v n| ≤ U) (hu : ∀ n, |u n - v n| ≤ S) (n : Fin 3) :
    |kicked qdt e u n - (v n + qdt * E n)| ≤ 1 / 2 ^ 17 * (|qdt| * M) + (1 + 1 / 2 ^ 24) * S + 1 / 2 ^ 24 * U := by
  have hM : 0 ≤ M := (abs_nonneg _).trans (hE n)
  have hQ : 0 ≤ |qdt| * M := mul_nonneg (abs_nonneg _) hM
  have h1 : |qdt * e n - qdt * E n| ≤ 1 / 2 ^ 18 * (|qdt| * M) := by
    rw [← mul_sub, abs_mul]
    calc |qdt| * |e n - E n| ≤ |qdt| * (1 / 2 ^ 18 * M) := mul_le_mul_of_nonneg_left (he n) (abs_nonneg _)
      _ = _ := by ring
  have h2 : |qdt * E n| ≤ |qdt| * M := by
    rw [abs_mul]
    exact mul_le_mul_of_nonneg_left (hE n) (abs_nonneg _)
  have h3 : |rnd32 (qdt * e n) - qdt * E n| ≤ 3 / 2 ^ 19 * (|qdt| * M) := near_step h1 h2 (by norm_num; linarith)
  refine near_step (B := U + |qdt| * M) (near_add (hu n) h3) ((abs_add_le _ _).trans (add_le_add (hv n) h2)) ?_
  norm_num
  linarith

/-- **C128 (the momentum).** The momentum after a step is the old one with half of the electric kick, turned about the magnetic field and
with the other half of the kick, up to `2^-13` of the largest component of momentum and kick.  `v` is the momentum before the turn, `B` the
magnetic field that the particle sees, and the angle is that of C127 for them. -/
theorem advU_near {rt : ℚ → ℚ} (hrt : SqrtNear rt) (qdt : ℚ) {e : El} {b : Mag} {M N U : ℚ} (he : Below M e.x e.y e.z)
    (hb : Below N b.x b.y b.z) (i j k : ℤ) {d u : Fin 3 → ℚ} (hd : ∀ n, |d n| ≤ 1) (hu : ∀ n, |u n| ≤ U) :
    ∃ (v B : Fin 3 → ℚ) (v0 tau : ℚ),
    (∀ n, |v n - (u n + qdt * trueE e i j k d n)| ≤ 1 / 2 ^ 17 * (|qdt| * M) + 1 / 2 ^ 24 * U) ∧
    (∀ n, |B n - trueB b i j k d n| ≤ 1 / 2 ^ 20 * N) ∧
    qdt ^ 2 * (1 - 1 / 2 ^ 24) ^ 2 ≤ v0 ^ 2 * (1 + sq v) * (1 + 1 / 2 ^ 24) ^ 6 ∧
    v0 ^ 2 * (1 + sq v) * (1 - 1 / 2 ^ 24) ^ 6 ≤ qdt ^ 2 * (1 + 1 / 2 ^ 24) ^ 2 ∧
    0 ≤ qdt * v0 ∧ 0 ≤ v0 * tau ∧
    Btw 16 (|v0| * (1 + v0 ^ 2 * sq B / 3 + 2 / 15 * (v0 ^ 2 * sq B) ^ 2)) |tau| ∧
    ∀ n, |advU rt qdt (eAt e i j k d) (bAt b i j k d) u n -
      (exactRot tau B (fun m => u m + qdt * trueE e i j k d m) n + qdt * trueE e i j k d n)| ≤ 1 / 2 ^ 13 * (U + |qdt| * M) := by
  have hU : 0 ≤ U := (abs_nonneg _).trans (hu 0)
  have hM : 0 ≤ M := (abs_nonneg _).trans (he 0 0 0).1
  have hQ : 0 ≤ |qdt| * M := mul_nonneg (abs_nonneg _) hM
  have hl : ∀ {a b s : ℚ}, |a| ≤ M → |b| ≤ M → |s| ≤ 1 → |lerp a b s| ≤ M := by
    intro a b s ha hb hs
    obtain ⟨s1, s2⟩ := abs_le.mp hs
    obtain ⟨a1, a2⟩ := abs_le.mp ha
    obtain ⟨b1, b2⟩ := abs_le.mp hb
    unfold lerp
    rw [abs_le]
    constructor <;> nlinarith
  have hE : ∀ n, |trueE e i j k d n| ≤ M := by
    intro n
    fin_cases n
    · exact hl (hl (he _ _ _).1 (he _ _ _).1 (hd 1)) (hl (he _ _ _).1 (he _ _ _).1 (hd 1)) (hd 2)
    · exact hl (hl (he _ _ _).2.1 (he _ _ _).2.1 (hd 0)) (hl (he _ _ _).2.1 (he _ _ _).2.1 (hd 0)) (hd 2)
    · exact hl (hl (he _ _ _).2.2 (he _ _ _).2.2 (hd 0)) (hl (he _ _ _).2.2 (he _ _ _).2.2 (hd 0)) (hd 1)
  have hn := eAt_near he i j k hd
  have hB := bAt_near hb i j k hd
  set E := trueE e i j k d
  set E' := eAt e i j k d
  set B := bAt b i j k d
  have h1 : ∀ n, |kicked qdt E' u n - (u n + qdt * E n)| ≤ 1 / 2 ^ 17 * (|qdt| * M) + 1 / 2 ^ 24 * U := by
    intro n
    have := kick_near (qdt := qdt) (u := u) (v := u) hn hE hU le_rfl hu (fun n => by simp) n
    linarith
  have hw : ∀ n, |u n + qdt * E n| ≤ U + |qdt| * M := by
    intro n
    refine (abs_add_le _ _).trans (add_le_add (hu n) ?_)
    rw [abs_mul]
    exact mul_le_mul_of_nonneg_left (hE n) (abs_nonneg _)
  have hv : ∀ n, |kicked qdt E' u n| ≤ 2 * (U + |qdt| * M) := by
    intro n
    have := abs_of_near (h1 n) (hw n)
    norm_num at this ⊢
    linarith
  obtain ⟨v0, tau, a1, a2, a3, a4, a5, a6⟩ := boris_near hrt qdt B (kicked qdt E' u) hv
  refine ⟨kicked qdt E' u, B, v0, tau, h1, hB, a1, a2, a3, a4, a5, ?_⟩
  intro n
  have h2 : ∀ n, |boris rt qdt B (kicked qdt E' u) n - exactRot tau B (fun m => u m + qdt * E m) n| ≤
      1 / 2 ^ 16 * (2 * (U + |qdt| * M)) + 2 * (1 / 2 ^ 17 * (|qdt| * M) + 1 / 2 ^ 24 * U) := by
    intro n
    have l := exactRot_le tau B (fun m => kicked qdt E' u m - (u m + qdt * E m)) h1 n
    have s := exactRot_sub tau B (kicked qdt E' u) (fun m => u m + qdt * E m) n
    rw [← s] at l
    exact (abs_sub_le _ _ _).trans (add_le_add (a6 n) l)
  have h3 : ∀ n, |exactRot tau B (fun m => u m + qdt * E m) n| ≤ 2 * (U + |qdt| * M) := exactRot_le tau B _ hw
  have h4 := kick_near (qdt := qdt) hn hE (by positivity) (by positivity) h3 h2 n
  refine le_trans h4 ?_
  norm_num
  linarith

/-- A particle off the centre of its voxel in fields that vary over the voxel meets the hypotheses. -/
example : ∃ rt, SqrtNear rt ∧ Below 1 (fun i _ _ => if i = 0 then (1 : ℚ) else 0) (fun _ j _ => if j = 0 then (-1 : ℚ) else 0) (fun _ _ _ => 1) ∧
    ∀ n : Fin 3, |(![1 / 2, -1 / 4, 1] : Fin 3 → ℚ) n| ≤ 1 := by
  obtain ⟨rt, h, -⟩ := sqrt_exists
  refine ⟨rt, h, fun i j k => ?_, fun n => ?_⟩
  · by_cases hi : i = 0 <;> by_cases hj : j = 0 <;> simp [hi, hj]
  · fin_cases n <;> norm_num [abs_le]

end Verif.Gyro
