import Verif.MoveP.Model
import Mathlib.Tactic.Positivity
import Mathlib.Tactic.FinCases
import Mathlib.Algebra.Order.Ring.Abs

/-! # Helper facts about one pass of the mover -/
namespace Verif.MoveP

open Grid (LGrid)

variable {K : Type*} [Field K] [LinearOrder K] [IsStrictOrderedRing K]

lemma twiceFrac_ne {d disp : K} (h : disp ≠ 0) : twiceFrac d disp = (sdir disp - d) / disp := by
  simp [twiceFrac, h]

lemma two_le_big : (2 : K) ≤ 34 * 10 ^ 37 := by norm_num

lemma twiceFrac_nonneg {d disp : K} (h1 : -1 ≤ d) (h2 : d ≤ 1) : 0 ≤ twiceFrac d disp := by
  unfold twiceFrac sdir
  split_ifs with h h'
  · positivity
  · exact div_nonneg (by linarith) h'.le
  · exact div_nonneg_of_nonpos (by linarith) (not_lt.mp h')

lemma move_bound {d disp v : K} (h1 : -1 ≤ d) (h2 : d ≤ 1) (hv : 0 ≤ v)
    (hle : v ≤ twiceFrac d disp) : -1 ≤ d + v * disp ∧ d + v * disp ≤ 1 := by
  by_cases h : disp = 0
  · simp [h, h1, h2]
  rw [twiceFrac_ne h, sdir] at hle
  split_ifs at hle with h'
  · have := (le_div_iff₀ h').mp hle
    have := mul_nonneg hv (le_of_lt h')
    constructor <;> linarith
  · have hn : disp < 0 := lt_of_le_of_ne (not_lt.mp h') h
    have := (le_div_iff_of_neg hn).mp hle
    have := mul_nonpos_of_nonneg_of_nonpos hv hn.le
    constructor <;> linarith

lemma pickAxis_facts (f : Fin 3 → K) (v : K) (ax : Option (Fin 3))
    (h : pickAxis (f 0) (f 1) (f 2) = (v, ax)) :
    v ≤ 2 ∧ (∀ k, v ≤ f k) ∧ (ax = none → v = 2) ∧
      (∀ k, ax = some k → v = f k ∧ v < 2) := by
  unfold pickAxis at h
  simp only at h
  split_ifs at h with a b c c b c c <;>
    (simp only [Prod.mk.injEq] at h
     obtain ⟨rfl, rfl⟩ := h
     simp only at *
     refine ⟨by linarith, ?_, ?_, ?_⟩
     · intro k; fin_cases k <;> simp <;> linarith
     · first | trivial | skip
       all_goals intro h; first | rfl | cases h | trivial
     · intro k h
       first
       | (obtain rfl := Option.some.inj h
          exact ⟨rfl, by linarith⟩)
       | cases h)

/-- `±1` for the upper/lower face. -/
def sgn (up : Bool) : K := if up then 1 else -1

/-- Number of a face: axis 0,1,2 for the lower faces, 3,4,5 for the upper ones. -/
def faceOf (axis : Fin 3) (up : Bool) : ℤ := if up then (axis : ℕ) + 3 else (axis : ℕ)

/-- Facts about a streak: `v3` is the fraction travelled. -/
lemma streak_facts (d disp : Fin 3 → K) (hd : ∀ k, -1 ≤ d k ∧ d k ≤ 1) (v3 : K)
    (ax : Option (Fin 3)) (sd : Fin 3 → K) (h : streakOf d disp = (v3, ax, sd)) :
    0 ≤ v3 ∧ v3 ≤ 1 ∧ (∀ k, sd k = v3 * disp k) ∧
    (∀ k, -1 ≤ d k + 2 * (v3 * disp k) ∧ d k + 2 * (v3 * disp k) ≤ 1) ∧
    (ax = none → v3 = 1) ∧
    (∀ k, ax = some k → v3 < 1 ∧ disp k ≠ 0 ∧ d k + 2 * (v3 * disp k) = sdir (disp k)) := by
  unfold streakOf at h
  obtain ⟨v, ax', hp⟩ : ∃ v ax', pickAxis (twiceFrac (d 0) (disp 0)) (twiceFrac (d 1) (disp 1))
    (twiceFrac (d 2) (disp 2)) = (v, ax') := ⟨_, _, rfl⟩
  simp only [hp, Prod.mk.injEq] at h
  obtain ⟨rfl, rfl, rfl⟩ := h
  obtain ⟨p1, p2, p3, p4⟩ := pickAxis_facts (fun k => twiceFrac (d k) (disp k)) v ax' hp
  have hv : 0 ≤ v := by
    cases hax : ax' with
    | none => rw [p3 hax]; norm_num
    | some k => rw [(p4 k hax).1]; exact twiceFrac_nonneg (hd k).1 (hd k).2
  have e : ∀ k, (2 : K) * (v * (1 / 2) * disp k) = v * disp k := fun k => by ring
  refine ⟨by linarith, by linarith, fun k => by ring, ?_, ?_, ?_⟩
  · intro k
    rw [e]
    refine move_bound (hd k).1 (hd k).2 hv ?_
    exact p2 k
  · intro h; rw [p3 h]; norm_num
  · intro k hk
    obtain ⟨q1, q2⟩ := p4 k hk
    have hne : disp k ≠ 0 := by
      intro h0
      rw [q1] at q2
      simp only [twiceFrac, h0, if_true] at q2
      exact absurd q2 (not_lt.mpr two_le_big)
    refine ⟨by linarith, hne, ?_⟩
    rw [e, q1, twiceFrac_ne hne]
    field_simp
    ring

/-- What one pass does, in terms of the travelled fraction `v3`. -/
inductive PassSpec (g : LGrid) (q : K) (s : MState K) (v3 : K) : Next → MState K → Prop
  | finished (h1 : v3 = 1) :
      PassSpec g q s v3 .finished
        ⟨⟨fun k => s.p.d k + 2 * (v3 * s.disp k), s.p.i, s.p.u, s.p.w⟩,
          fun k => (1 - v3) * s.disp k,
          accAdd s.a s.p.i (streakJ q (fun k => s.p.d k + v3 * s.disp k) fun k => v3 * s.disp k)⟩
  | reflect (axis : Fin 3) (up : Bool) (h1 : v3 < 1)
      (hs : if up then 0 < s.disp axis else s.disp axis < 0)
      (hface : s.p.d axis + 2 * (v3 * s.disp axis) = sgn up)
      (hn : g.neighbor (6 * s.p.i + faceOf axis up) = Grid.reflectParticles) :
      PassSpec g q s v3 .again
        ⟨⟨fun k => s.p.d k + 2 * (v3 * s.disp k), s.p.i,
            Function.update s.p.u axis (-(s.p.u axis)), s.p.w⟩,
          Function.update (fun k => (1 - v3) * s.disp k) axis (-((1 - v3) * s.disp axis)),
          accAdd s.a s.p.i (streakJ q (fun k => s.p.d k + v3 * s.disp k) fun k => v3 * s.disp k)⟩
  | boundary (axis : Fin 3) (up : Bool) (h1 : v3 < 1)
      (hs : if up then 0 < s.disp axis else s.disp axis < 0)
      (hface : s.p.d axis + 2 * (v3 * s.disp axis) = sgn up)
      (hn : g.neighbor (6 * s.p.i + faceOf axis up) ≠ Grid.reflectParticles)
      (hr : g.neighbor (6 * s.p.i + faceOf axis up) < g.rangel ∨
        g.neighbor (6 * s.p.i + faceOf axis up) > g.rangeh) :
      PassSpec g q s v3 .boundary
        ⟨⟨fun k => s.p.d k + 2 * (v3 * s.disp k), 8 * s.p.i + faceOf axis up, s.p.u, s.p.w⟩,
          fun k => (1 - v3) * s.disp k,
          accAdd s.a s.p.i (streakJ q (fun k => s.p.d k + v3 * s.disp k) fun k => v3 * s.disp k)⟩
  | cross (axis : Fin 3) (up : Bool) (h1 : v3 < 1)
      (hs : if up then 0 < s.disp axis else s.disp axis < 0)
      (hface : s.p.d axis + 2 * (v3 * s.disp axis) = sgn up)
      (hn : g.neighbor (6 * s.p.i + faceOf axis up) ≠ Grid.reflectParticles)
      (hr : g.rangel ≤ g.neighbor (6 * s.p.i + faceOf axis up) ∧
        g.neighbor (6 * s.p.i + faceOf axis up) ≤ g.rangeh) :
      PassSpec g q s v3 .again
        ⟨⟨Function.update (fun k => s.p.d k + 2 * (v3 * s.disp k)) axis (-sgn up),
            g.neighbor (6 * s.p.i + faceOf axis up) - g.rangel, s.p.u, s.p.w⟩,
          fun k => (1 - v3) * s.disp k,
          accAdd s.a s.p.i (streakJ q (fun k => s.p.d k + v3 * s.disp k) fun k => v3 * s.disp k)⟩

lemma sdir_eq {x : K} (hx : x ≠ 0) :
    ∃ up : Bool, sdir x = sgn up ∧ (if up then 0 < x else x < 0) := by
  by_cases h : 0 < x
  · exact ⟨true, by simp [sdir, sgn, h], by simpa using h⟩
  · exact ⟨false, by simp [sdir, sgn, h], by simpa using lt_of_le_of_ne (not_lt.mp h) hx⟩

lemma sgn_pos (up : Bool) : (0 : K) < sgn up ↔ up = true := by
  cases up <;> simp [sgn]

lemma pass_spec (g : LGrid) (q : K) (s : MState K) (hi : 0 ≤ s.p.i ∧ s.p.i < nvox g)
    (hd : ∀ k, -1 ≤ s.p.d k ∧ s.p.d k ≤ 1) :
    ∃ v3 n s', pass g q s = some (n, s') ∧ 0 ≤ v3 ∧ v3 ≤ 1 ∧
      (∀ k, -1 ≤ s.p.d k + 2 * (v3 * s.disp k) ∧ s.p.d k + 2 * (v3 * s.disp k) ≤ 1) ∧
      PassSpec g q s v3 n s' := by
  obtain ⟨v3, ax, sd, hst⟩ : ∃ v3 ax sd, streakOf s.p.d s.disp = (v3, ax, sd) := ⟨_, _, _, rfl⟩
  obtain ⟨f1, f2, f3, f4, f5, f6⟩ := streak_facts s.p.d s.disp hd v3 ax sd hst
  have hsd : sd = fun k => v3 * s.disp k := funext f3
  refine ⟨v3, ?_⟩
  unfold pass
  rw [if_neg (by omega)]
  simp only [hst, hsd]
  have ed : (fun k => s.p.d k + (v3 * s.disp k + v3 * s.disp k)) =
      fun k => s.p.d k + 2 * (v3 * s.disp k) := by funext k; ring
  have em : (fun k => s.disp k - v3 * s.disp k) = fun k => (1 - v3) * s.disp k := by
    funext k; ring
  have em' : ∀ k, s.disp k - v3 * s.disp k = (1 - v3) * s.disp k := fun k => by ring
  simp only [ed, em']
  cases hax : ax with
  | none =>
    exact ⟨_, _, rfl, f1, f2, f4, PassSpec.finished (f5 hax)⟩
  | some axis =>
    obtain ⟨g1, g2, g3⟩ := f6 axis hax
    obtain ⟨up, u1, u2⟩ := sdir_eq g2
    simp only
    rw [u1] at g3 ⊢
    have hupd : Function.update (fun k => s.p.d k + 2 * (v3 * s.disp k)) axis (sgn up) =
        fun k => s.p.d k + 2 * (v3 * s.disp k) := by
      rw [← g3]; exact Function.update_eq_self axis (fun k => s.p.d k + 2 * (v3 * s.disp k))
    have hface : (if (sgn up : K) > 0 then (((axis : ℕ) : ℤ) + 3) else ((axis : ℕ) : ℤ)) =
        faceOf axis up := by
      cases up <;> simp [sgn, faceOf]
    rw [hface]
    split_ifs with c1 c2
    · refine ⟨_, _, rfl, f1, f2, f4, ?_⟩
      rw [hupd]
      exact PassSpec.reflect axis up g1 u2 g3 c1
    · refine ⟨_, _, rfl, f1, f2, f4, ?_⟩
      rw [hupd]
      exact PassSpec.boundary axis up g1 u2 g3 c1 c2
    · refine ⟨_, _, rfl, f1, f2, f4, ?_⟩
      rw [hupd]
      exact PassSpec.cross axis up g1 u2 g3 c1 (by omega)

end Verif.MoveP
