import Verif.Global.ShiftProps

/-!
# The order in which a particle crosses the faces of a corner does not matter (C107)

`move_p` takes the first of several nearest faces.  A walk that takes any of them ends in the same place and deposits the same
currents, in the same number of passes.
-/
namespace Verif.Global

open Grid MoveP Charge Torus Threads
open Field (Pos)

variable {K : Type} [Field K] [LinearOrder K]

/-- The fraction to the face along `a`. -/
def frac (p : GPart K) (disp : Fin 3 → K) (a : Fin 3) : K := twiceFrac (p.d a) (disp a)

/-- The half displacement of a streak. -/
def halfOf (disp : Fin 3 → K) (v : K) : Fin 3 → K := fun k => disp k * (v * (1 / 2))

/-- The currents of a streak. -/
def streakAt (q : K) (p : GPart K) (disp : Fin 3 → K) (v : K) : GAccum K :=
  put p.cell (streakJ q (fun k => p.d k + halfOf disp v k) (halfOf disp v))

/-- The particle behind the face along `a`. -/
def crossed (N : Pos) (p : GPart K) (disp : Fin 3 → K) (a : Fin 3) : GPart K :=
  let h := halfOf disp (frac p disp a)
  { p with cell := beyond N a (decide (0 < disp a)) p.cell, d := Function.update (fun k => p.d k + (h k + h k)) a (-sdir (disp a)) }

/-- The displacement that is left. -/
def rest (p : GPart K) (disp : Fin 3 → K) (a : Fin 3) : Fin 3 → K := fun k => disp k - halfOf disp (frac p disp a) k

/-- A walk that takes any of the nearest faces, `n` faces in all. -/
inductive Walk (N : Pos) (q : K) : ℕ → GPart K → (Fin 3 → K) → GPart K → GAccum K → Prop
  | stop {p disp} : (∀ k, 2 ≤ frac p disp k) →
      Walk N q 0 p disp { p with d := fun k => p.d k + (halfOf disp 2 k + halfOf disp 2 k) } (streakAt q p disp 2)
  | go {n p disp p1 A} (a) : (∀ k, frac p disp a ≤ frac p disp k) → frac p disp a < 2 →
      Walk N q n (crossed N p disp a) (rest p disp a) p1 A → Walk N q (n + 1) p disp p1 (streakAt q p disp (frac p disp a) + A)

variable [IsStrictOrderedRing K]

lemma walk_some {N : Pos} {q : K} (fuel : ℕ) : ∀ {p p1 : GPart K} {disp : Fin 3 → K} {A : GAccum K},
    walk N q fuel p disp = some (p1, A) → ∃ n < fuel, Walk N q n p disp p1 A := by
  induction fuel with
  | zero => intro p p1 disp A h; simp [walk] at h
  | succ fuel ih =>
    intro p p1 disp A h
    have key := pickAxis_facts (frac p disp) _ _ (Prod.eta (pickAxis (frac p disp 0) (frac p disp 1) (frac p disp 2))).symm
    unfold walk at h
    unfold streakOf at h
    simp only at h
    obtain ⟨-, k2, k3, k4⟩ := key
    unfold frac at k2 k3 k4
    rcases hst : (pickAxis (twiceFrac (p.d 0) (disp 0)) (twiceFrac (p.d 1) (disp 1)) (twiceFrac (p.d 2) (disp 2))).2 with _ | a
    · rw [hst] at h
      have e := k3 hst
      simp only [Option.some.injEq, Prod.mk.injEq] at h
      obtain ⟨rfl, rfl⟩ := h
      rw [e]
      exact ⟨0, Nat.succ_pos _, .stop fun k => e ▸ k2 k⟩
    · rw [hst] at h
      obtain ⟨e, e'⟩ := k4 a hst
      simp only [Option.map_eq_some_iff] at h
      obtain ⟨⟨p2, A2⟩, h2, e2⟩ := h
      simp only [Prod.mk.injEq] at e2
      obtain ⟨rfl, rfl⟩ := e2
      rw [e] at h2 e' k2 ⊢
      obtain ⟨n, hn, w⟩ := ih h2
      exact ⟨n + 1, by omega, .go a k2 e' w⟩

lemma beyond_comm {N : Pos} {a b : Fin 3} (h : a ≠ b) (u v : Bool) (s : Pos) :
    beyond N b v (beyond N a u s) = beyond N a u (beyond N b v s) := by
  funext c
  unfold beyond
  cases u <;> cases v <;> simp only [next, prev, Bool.false_eq_true, if_true, if_false] <;>
    (by_cases h1 : c = a <;> by_cases h2 : c = b <;> simp only [h1, h2, if_true, if_false])
  all_goals first | rfl | (subst h1; exact absurd h2 h) | skip
  all_goals simp only [h, h.symm, if_false]

lemma disp_ne {p : GPart K} {disp : Fin 3 → K} {a : Fin 3} (h : frac p disp a < 2) : disp a ≠ 0 := by
  intro h0
  unfold frac twiceFrac at h
  rw [if_pos h0] at h
  have : (2 : K) ≤ 34 * 10 ^ 37 := by norm_num
  exact absurd h (not_lt.mpr this)

omit [IsStrictOrderedRing K] in
lemma rest_eq (p : GPart K) (disp : Fin 3 → K) (a k : Fin 3) : rest p disp a k = disp k * (1 - frac p disp a * (1 / 2)) := by
  unfold rest halfOf
  ring

lemma factor_pos {p : GPart K} {disp : Fin 3 → K} {a : Fin 3} (h : frac p disp a < 2) : 0 < 1 - frac p disp a * (1 / 2) := by
  linarith

lemma rest_pos {p : GPart K} {disp : Fin 3 → K} {a : Fin 3} (h : frac p disp a < 2) (k : Fin 3) : 0 < rest p disp a k ↔ 0 < disp k := by
  rw [rest_eq]
  exact mul_pos_iff_of_pos_right (factor_pos h)

lemma rest_ne {p : GPart K} {disp : Fin 3 → K} {a : Fin 3} (h : frac p disp a < 2) (k : Fin 3) : rest p disp a k = 0 ↔ disp k = 0 := by
  rw [rest_eq, mul_eq_zero]
  exact or_iff_left (factor_pos h).ne'

lemma sdir_rest {p : GPart K} {disp : Fin 3 → K} {a : Fin 3} (h : frac p disp a < 2) (k : Fin 3) : sdir (rest p disp a k) = sdir (disp k) := by
  unfold sdir
  simp only [gt_iff_lt, rest_pos h]

lemma sdir_div_pos {x : K} (h : x ≠ 0) : 0 < sdir x / x := by
  unfold sdir
  split_ifs with h0
  · positivity
  · have : x < 0 := lt_of_le_of_ne (not_lt.mp h0) h
    rw [neg_div, neg_pos]
    exact div_neg_of_pos_of_neg one_pos this

/-- Fractions after crossing a face. -/
lemma frac_after {N : Pos} {p : GPart K} {disp : Fin 3 → K} {a b : Fin 3} (h : frac p disp a < 2) (hb : disp b ≠ 0) (hab : b ≠ a) :
    frac (crossed N p disp a) (rest p disp a) b = (frac p disp b - frac p disp a) / (1 - frac p disp a * (1 / 2)) := by
  have hpos := factor_pos h
  have e : frac p disp b = (sdir (disp b) - p.d b) / disp b := by unfold frac twiceFrac; rw [if_neg hb]
  have e1 : frac (crossed N p disp a) (rest p disp a) b =
      (sdir (disp b) - (p.d b + (halfOf disp (frac p disp a) b + halfOf disp (frac p disp a) b))) / (disp b * (1 - frac p disp a * (1 / 2))) := by
    show twiceFrac _ _ = _
    unfold twiceFrac
    rw [if_neg (by rw [rest_ne h]; exact hb), sdir_rest h, rest_eq]
    unfold crossed
    simp only [Function.update_of_ne hab]
  rw [e1, e, div_sub' hb, div_div]
  congr 1
  unfold halfOf
  ring

lemma frac_after_nonneg {N : Pos} {p : GPart K} {disp : Fin 3 → K} {a : Fin 3} (h : frac p disp a < 2) (hm : ∀ k, frac p disp a ≤ frac p disp k)
    (c : Fin 3) : 0 ≤ frac (crossed N p disp a) (rest p disp a) c := by
  by_cases hc : disp c = 0
  · unfold frac twiceFrac
    rw [if_pos ((rest_ne h c).mpr hc)]
    norm_num
  by_cases hca : c = a
  · subst hca
    unfold frac twiceFrac
    rw [if_neg (by rw [rest_ne h]; exact hc)]
    rw [sdir_rest h]
    have : (crossed N p disp c).d c = -sdir (disp c) := by
      unfold crossed
      simp only [Function.update_self]
    rw [this, sub_neg_eq_add, ← two_mul, rest_eq, ← div_div, mul_div_assoc]
    have := sdir_div_pos hc
    have := factor_pos h
    positivity
  · rw [frac_after h hc hca]
    exact div_nonneg (sub_nonneg.mpr (hm c)) (factor_pos h).le

lemma streakJ_still (q : K) (mid : Fin 3 → K) : streakJ q mid (fun _ => 0) = fun _ => 0 := by
  funext k
  unfold streakJ accumulateJ
  fin_cases k <;> simp

lemma put_zero (s : Pos) : put s (fun _ => (0 : K)) = 0 := by
  funext t k
  unfold put
  simp

/-- Two nearest faces: after crossing `a`, the face `b` is at hand, and crossing it costs nothing. -/
lemma tie {N : Pos} {q : K} {p : GPart K} {disp : Fin 3 → K} {a b : Fin 3} (hab : b ≠ a) (h : frac p disp a < 2)
    (e : frac p disp b = frac p disp a) :
    frac (crossed N p disp a) (rest p disp a) b = 0 ∧ streakAt q (crossed N p disp a) (rest p disp a) 0 = 0 ∧
    crossed N (crossed N p disp a) (rest p disp a) b = { p with
      cell := beyond N b (decide (0 < disp b)) (beyond N a (decide (0 < disp a)) p.cell),
      d := Function.update (Function.update (fun k => p.d k + (halfOf disp (frac p disp a) k + halfOf disp (frac p disp a) k)) a (-sdir (disp a))) b
        (-sdir (disp b)) } ∧
    rest (crossed N p disp a) (rest p disp a) b = rest p disp a := by
  have hb : disp b ≠ 0 := disp_ne (p := p) (by rw [e]; exact h)
  have f0 : frac (crossed N p disp a) (rest p disp a) b = 0 := by rw [frac_after h hb hab, e, sub_self, zero_div]
  have h0 : ∀ x : Fin 3 → K, halfOf x 0 = fun _ => 0 := fun x => by funext k; unfold halfOf; ring
  refine ⟨f0, ?_, ?_, ?_⟩
  · unfold streakAt
    rw [h0, streakJ_still, put_zero]
  · rw [crossed, f0, h0]
    simp only [add_zero, sdir_rest h, rest_pos h]
    rfl
  · funext k
    rw [rest_eq, f0]
    ring

/-- A walk can begin with any of the nearest faces. -/
lemma Walk.begin {N : Pos} {q : K} {n : ℕ} : ∀ {p p1 : GPart K} {disp : Fin 3 → K} {A : GAccum K}, Walk N q n p disp p1 A →
    ∀ a, (∀ k, frac p disp a ≤ frac p disp k) → frac p disp a < 2 →
    ∃ m A', n = m + 1 ∧ Walk N q m (crossed N p disp a) (rest p disp a) p1 A' ∧ A = streakAt q p disp (frac p disp a) + A' := by
  induction n with
  | zero =>
    intro p p1 disp A w a _ h2
    cases w with
    | stop hs => exact absurd h2 (not_lt.mpr (hs a))
  | succ n ih =>
    intro p p1 disp A w a h1 h2
    cases w with
    | @go _ _ _ _ A b hb1 hb2 w =>
      by_cases hab : b = a
      · subst hab
        exact ⟨n, A, rfl, w, rfl⟩
      have e : frac p disp a = frac p disp b := le_antisymm (h1 b) (hb1 a)
      obtain ⟨z1, z2, z3, z4⟩ := tie (N := N) (q := q) (Ne.symm hab) hb2 e
      obtain ⟨y1, y2, y3, y4⟩ := tie (N := N) (q := q) hab h2 e.symm
      obtain ⟨m, A', rfl, w', rfl⟩ := ih w a (fun k => by rw [z1]; exact frac_after_nonneg hb2 hb1 k) (by rw [z1]; exact two_pos)
      refine ⟨m + 1, A', rfl, ?_, ?_⟩
      · have : A' = streakAt q (crossed N p disp a) (rest p disp a) (frac (crossed N p disp a) (rest p disp a) b) + A' := by
          rw [y1, y2, zero_add]
        rw [this]
        refine .go b (fun k => by rw [y1]; exact frac_after_nonneg h2 h1 k) (by rw [y1]; exact two_pos) ?_
        have er : rest p disp b = rest p disp a := by funext k; rw [rest_eq, rest_eq, e]
        have ec : crossed N (crossed N p disp a) (rest p disp a) b = crossed N (crossed N p disp b) (rest p disp b) a := by
          rw [y3, z3, beyond_comm hab, e, Function.update_comm hab]
        rw [z4] at w'
        rw [y4, ec, ← er]
        exact w'
      · rw [z1, z2, zero_add, e]

/-- The walk of the code does what any walk does. -/
lemma Walk.walk {N : Pos} {q : K} {n : ℕ} : ∀ {p p1 : GPart K} {disp : Fin 3 → K} {A : GAccum K}, Walk N q n p disp p1 A →
    ∀ fuel, n < fuel → Global.walk N q fuel p disp = some (p1, A) := by
  induction n with
  | zero =>
    intro p p1 disp A w fuel hf
    obtain ⟨fuel, rfl⟩ : ∃ f, fuel = f + 1 := ⟨fuel - 1, by omega⟩
    have key := pickAxis_facts (frac p disp) _ _ (Prod.eta (pickAxis (frac p disp 0) (frac p disp 1) (frac p disp 2))).symm
    obtain ⟨-, k2, k3, k4⟩ := key
    unfold Global.walk streakOf
    simp only
    unfold frac at k2 k3 k4
    rcases hst : (pickAxis (twiceFrac (p.d 0) (disp 0)) (twiceFrac (p.d 1) (disp 1)) (twiceFrac (p.d 2) (disp 2))).2 with _ | a
    · cases w
      simp only
      rw [k3 hst]
      rfl
    · cases w with
      | stop hs =>
        have := k4 a hst
        have h2 := hs a
        unfold frac at h2
        exact absurd this.2 (not_lt.mpr (this.1 ▸ h2))
  | succ n ih =>
    intro p p1 disp A w fuel hf
    obtain ⟨fuel, rfl⟩ : ∃ f, fuel = f + 1 := ⟨fuel - 1, by omega⟩
    have key := pickAxis_facts (frac p disp) _ _ (Prod.eta (pickAxis (frac p disp 0) (frac p disp 1) (frac p disp 2))).symm
    obtain ⟨-, k2, k3, k4⟩ := key
    unfold Global.walk streakOf
    simp only
    rcases hst : (pickAxis (frac p disp 0) (frac p disp 1) (frac p disp 2)).2 with _ | a
    · cases w with
      | go b h1 h2 w =>
        have := k3 hst
        exact absurd h2 (not_lt.mpr (this ▸ k2 b))
    · obtain ⟨e, e'⟩ := k4 a hst
      rw [e] at k2 e'
      obtain ⟨m, A', hm, w', rfl⟩ := w.begin a k2 e'
      obtain rfl : n = m := by omega
      have := ih w' fuel (by omega)
      unfold frac at hst e
      rw [hst, e]
      simp only
      erw [this]
      rfl

end Verif.Global
