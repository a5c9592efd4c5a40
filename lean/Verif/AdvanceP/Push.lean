import Verif.AdvanceP.Model
import Verif.MoveP.Charge

/-!
# C17 and other facts about the push of one particle
-/
namespace Verif.AdvanceP

open MoveP Boris Grid Deposit SfInterface

variable {K : Type*} [Field K] [LinearOrder K] [IsStrictOrderedRing K]

/-! ## In-cell push and segment mover agree -/

lemma twiceFrac_ge {d s : K} (_h1 : -1 ≤ d) (_h2 : d ≤ 1) (h3 : d + s + s ≤ 1)
    (h4 : -(d + s + s) ≤ 1) : 2 ≤ twiceFrac d s := by
  by_cases hs : s = 0
  · rw [twiceFrac, if_pos hs]; exact two_le_big
  · rw [twiceFrac_ne hs, sdir]
    rcases lt_or_gt_of_ne hs with h | h
    · rw [if_neg (by linarith : ¬ s > 0), le_div_iff_of_neg h]; linarith
    · rw [if_pos h, le_div_iff₀ h]; linarith

lemma pickAxis_none {v0 v1 v2 : K} (h0 : 2 ≤ v0) (h1 : 2 ≤ v1) (h2 : 2 ≤ v2) :
    pickAxis v0 v1 v2 = (2, none) := by
  simp [pickAxis, not_lt.mpr h0, not_lt.mpr h1, not_lt.mpr h2]

/-- **C17.** When the new position is inside the cell, the push and the segment mover produce the
same particle and the same accumulators, and the mover reports completion. -/
theorem in_cell_push_is_segment_move (A : Args K) (p : MoveP.Part K) (a : Accum K)
    (hi : 0 ≤ p.i ∧ p.i < nvox A.g) (hd : ∀ k, -1 ≤ p.d k ∧ p.d k ≤ 1) (hf : 0 < A.fuel)
    (s : Fin 3 → K) (hs : s = normDisp A (pushU A.rt A.qdt_2mc (A.f0 p.i) p.d p.u))
    (hb : ∀ k, -1 ≤ p.d k + 2 * s k ∧ p.d k + 2 * s k ≤ 1) :
    ∃ p' a' rest, pushOne A p a = some (p', a', none) ∧
      moveP A.g A.qsp A.fuel
        ⟨{ p with u := pushU A.rt A.qdt_2mc (A.f0 p.i) p.d p.u }, s, a⟩ =
        some (false, ⟨p', rest, a'⟩) ∧
      p' = { p with u := pushU A.rt A.qdt_2mc (A.f0 p.i) p.d p.u, d := fun k => p.d k + 2 * s k } := by
  obtain ⟨fuel, hfu⟩ : ∃ n, A.fuel = n + 1 := ⟨A.fuel - 1, by omega⟩
  have hr : ¬ (p.i < 0 ∨ nvox A.g ≤ p.i) := by omega
  have hin : inBounds (fun k => p.d k + s k + s k) = true := by
    simp only [inBounds, decide_eq_true_eq]
    refine ⟨?_, ?_, ?_, ?_, ?_, ?_⟩
    · linarith [hb 0]
    · linarith [hb 1]
    · linarith [hb 2]
    · linarith [hb 0]
    · linarith [hb 1]
    · linarith [hb 2]
  have ht : ∀ k, 2 ≤ twiceFrac (p.d k) (s k) := fun k =>
    twiceFrac_ge (hd k).1 (hd k).2 (by linarith [hb k]) (by linarith [hb k])
  refine ⟨_, accAdd a p.i (inCellJ (p.w * A.qsp) (fun k => p.d k + s k) s), fun k => s k - s k * (2 * (1 / 2)), ?_, ?_, rfl⟩
  · simp only [pushOne, if_neg hr, ← hs, hin, if_true]
    congr 3
    funext k; ring
  · have hst : streakOf p.d s = (2 * (1 / 2), none, fun k => s k * (2 * (1 / 2))) := by
      simp only [streakOf, pickAxis_none (ht 0) (ht 1) (ht 2)]
    have h1 : (2 : K) * (1 / 2) = 1 := by norm_num
    simp only [moveP, hfu, loop, pass, if_neg hr, hst, h1, mul_one, mul_comm A.qsp]
    congr 3
    · congr 1; funext k; ring

/-! ## Accumulators are only added to -/

/-- Add two accumulator arrays. -/
def addAcc (a b : Accum K) : Accum K := fun v k => a v k + b v k

omit [LinearOrder K] [IsStrictOrderedRing K] in
lemma accAdd_addAcc (a b : Accum K) (v : ℤ) (j : Fin 12 → K) :
    accAdd (addAcc a b) v j = addAcc (accAdd a v j) b := by
  funext x k
  unfold accAdd addAcc
  by_cases h : x = v
  · simp only [if_pos h]; ring
  · simp only [if_neg h]

omit [IsStrictOrderedRing K] in
lemma pass_acc (g : LGrid) (q : K) (p : MoveP.Part K) (disp : Fin 3 → K) (a b : Accum K) :
    pass g q ⟨p, disp, addAcc a b⟩ =
      (pass g q ⟨p, disp, a⟩).map fun r => (r.1, { r.2 with a := addAcc r.2.a b }) := by
  unfold pass
  split
  · rfl
  · simp only [accAdd_addAcc]
    split
    · rfl
    · split_ifs <;> rfl

omit [IsStrictOrderedRing K] in
lemma loop_acc (g : LGrid) (q : K) (b : Accum K) (fuel : ℕ) : ∀ (p : MoveP.Part K)
    (disp : Fin 3 → K) (a : Accum K), loop g q fuel ⟨p, disp, addAcc a b⟩ =
      (loop g q fuel ⟨p, disp, a⟩).map fun r => (r.1, { r.2 with a := addAcc r.2.a b }) := by
  induction fuel with
  | zero => intros; rfl
  | succ fuel ih =>
    intro p disp a
    simp only [loop, pass_acc]
    cases h : pass g q ⟨p, disp, a⟩ with
    | none => rfl
    | some r =>
      obtain ⟨n, s⟩ := r
      cases n
      · rfl
      · exact ih s.p s.disp s.a
      · rfl

omit [IsStrictOrderedRing K] in
/-- The push adds to the accumulators and does not depend on them otherwise. -/
lemma pushOne_acc (A : Args K) (p : MoveP.Part K) (a b : Accum K) :
    pushOne A p (addAcc a b) =
      (pushOne A p a).map fun r => (r.1, addAcc r.2.1 b, r.2.2) := by
  unfold pushOne
  split
  · rfl
  · simp only [accAdd_addAcc, moveP, loop_acc]
    split
    · rfl
    · cases loop A.g (A.qsp * p.w) A.fuel ⟨{ p with u := pushU A.rt A.qdt_2mc (A.f0 p.i) p.d p.u },
        normDisp A (pushU A.rt A.qdt_2mc (A.f0 p.i) p.d p.u), a⟩ with
      | none => rfl
      | some r => obtain ⟨_ | _, s⟩ := r <;> rfl

omit [IsStrictOrderedRing K] in
lemma addAcc_zero (a : Accum K) : addAcc (fun _ _ => 0) a = a := by
  funext v k; simp [addAcc]

end Verif.AdvanceP
