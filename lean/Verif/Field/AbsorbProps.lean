import Verif.Field.GhostProps
import Verif.Field.Advance
import Verif.Field.Sample

/-!
# The absorbing wall (C73)
-/
namespace Verif.Field

open Grid

section
variable {K : Type} [Field K]

/-- Spec: the one way wave equation `∂b/∂t + v ∂b/∂n = 0`, centred between two places `h` (inside) and `g` (outside, one cell
further out) and two times (the second primed).  `D` is `v` times the time step over the cell size. -/
def OneWay (D bh bg bh' bg' : K) : Prop := ((bg' - bg) + (bh' - bh)) + D * ((bg' - bh') + (bg - bh)) = 0

/-- **C73.**  Behind an absorbing wall the tangential magnetic field follows the outgoing one way wave equation, with
`1.03527618` times the speed of light, from one `advance_e` to the next: the ghosts `advance_e` fills in from the memory `m2`
follow from those it had left in the memory `m0`, when the magnetic field is advanced by a whole time step in between. -/
theorem absorbing_wall {E : Env K} (hg : Mesh E.g) {R R' : Distribute.Rounding} (hR : R.Accurate) (hR' : R'.Accurate)
    {P P' : ℕ} (hP : 0 < P) (hP2 : P ≤ 2 ^ 16) (hP' : 0 < P') (hP2' : P' ≤ 2 ^ 16) {f1 f2 : K} (hf : f1 + f2 = 1)
    {m0 m1 m2 : FMem K} (h1 : AdvanceB E R P f1 m0 m1) (h2 : AdvanceB E R' P' f2 m1 m2) {l : List (Step K)}
    (hl : localGhostTangB E = some l) (s : Fin 3 × Bool) (hw : IsWall E s) (hbc : sideBC E.g s = absorbFields) (a : Fin 3)
    (ha : a ≠ s.1) (c : Pos) (hc : GhostAt E.g s (fun b => b = a) c) (hns : ¬ OnSymmetric E a (inward s c))
    (hX : 1 < dims E.g s.1) (hT : ∀ T, T ≠ s.1 → T ≠ a → 1 < dims E.g T ∨
      m0 (vox E.g (up T (inward s c)), .e s.1) = m0 (vox E.g (inward s c), .e s.1))
    (hD : 1 + E.cvac * E.dt * E.rd s.1 * (103527618 / 100000000) ≠ 0) :
    OneWay (E.cvac * E.dt * E.rd s.1 * (103527618 / 100000000))
      (m0 (vox E.g (inward s c), .cb a)) (m0 (vox E.g c, .cb a))
      (m2 (vox E.g (inward s c), .cb a)) (runSeq l m2 (vox E.g c, .cb a)) := by
  obtain ⟨-, a1, b1⟩ := advance_b_result hg hR hP hP2 h1
  obtain ⟨-, a2, b2⟩ := advance_b_result hg hR' hP' hP2' h2
  have hin : FaceOn E.g a (inward s c) := by
    intro b
    have hb := hc.2 b
    have hp := hg.pos s.1
    have h0 := hc.1
    unfold ghostOf at h0
    obtain ⟨X, up'⟩ := s
    by_cases e : b = X
    · subst e
      have na : b ≠ a := fun e => ha e.symm
      cases up' <;> simp [inward, up, dn, na] at * <;> omega
    · have : inward (X, up') c b = c b := by cases up' <;> simp [inward, up, dn, e]
      rw [this]
      have := hb e
      split_ifs at * <;> omega
  have key : m2 (vox E.g (inward s c), .cb a) = cbVal E 1 a (inward s c) m0 := by
    rw [a2 a _ hin hns]
    have e : ∀ v b, m1 (v, .e b) = m0 (v, .e b) := fun v b => b1 _ (by intro _ _ _; simp)
    have := a1 a _ hin hns
    obtain rfl : f2 = 1 - f1 := by linear_combination hf
    revert this
    clear * - e
    intro this
    fin_cases a <;> simp only [cbVal, Env.p, e] at this ⊢ <;> simp only [Fin.zero_eta, Fin.mk_one, Fin.reduceFinMk] at this ⊢ <;>
      rw [this] <;> split_ifs <;> ring
  have gh : m2 (vox E.g c, .cb a) = m0 (vox E.g c, .cb a) := by
    have : ∀ a' d, FaceOn E.g a' d → (vox E.g c, FC.cb a) ≠ (vox E.g d, .cb a') := by
      intro a' d hd e
      simp only [Prod.mk.injEq, FC.cb.injEq] at e
      obtain ⟨e1, rfl⟩ := e
      have := vox_inj (hc.inArray hg) hd.inArray e1
      subst this
      have h3 := hd s.1
      have h0 := hc.1
      have na : s.1 ≠ a := fun e => ha e.symm
      unfold ghostOf at h0
      simp only [na, if_false] at h3
      split_ifs at h0 <;> omega
    rw [b2 _ this, b1 _ this]
  have e2 : ∀ v b, m2 (v, .e b) = m0 (v, .e b) := fun v b => by
    rw [b2 _ (by intro _ _ _; simp), b1 _ (by intro _ _ _; simp)]
  have hh : higend E = 103527618 / 100000000 := by
    unfold higend
    rw [if_pos]
    generalize s.1 = X at hX
    fin_cases X <;> simp_all
  rw [(ghost_tang_b hg hl m2).1 s c a hw ha hc, hbc, if_neg (by decide), if_pos rfl]
  set D := E.cvac * E.dt * E.rd s.1 * (103527618 / 100000000) with hDdef
  -- the increment along the normal
  have t1 : ∀ T, (if s.2 then E.cvac * E.dt * E.rd s.1 * (m2 (vox E.g (inward s (Function.update c s.1 (wallOf E.g s))), .e T) -
        m2 (vox E.g (Function.update c s.1 (wallOf E.g s)), .e T))
      else -(E.cvac * E.dt * E.rd s.1 * (m2 (vox E.g (inward s (Function.update c s.1 (wallOf E.g s))), .e T) -
        m2 (vox E.g (Function.update c s.1 (wallOf E.g s)), .e T)))) =
      E.cvac * E.dt * E.rd s.1 * (m0 (vox E.g (up s.1 (inward s c)), .e T) - m0 (vox E.g (inward s c), .e T)) := by
    intro T
    simp only [e2]
    have h0 := hc.1
    obtain ⟨X, b⟩ := s
    cases b
    · have q1 : Function.update c X (wallOf E.g (X, false)) = c := by
        funext b
        by_cases e : b = X
        · subst e; simp [wallOf, ghostOf] at h0 ⊢; exact h0.symm
        · simp [e]
      have q2 : up X (inward (X, false) c) = c := by
        funext b
        by_cases e : b = X <;> simp [inward, up, dn, e]
      rw [q1]
      simp only [q2, Bool.false_eq_true, if_false]
      ring
    · have q1 : Function.update c X (wallOf E.g (X, true)) = inward (X, true) c := by
        funext b
        by_cases e : b = X
        · subst e; simp [wallOf, ghostOf, inward, up] at h0 ⊢; omega
        · simp [e, inward, up]
      rw [q1]
      simp only [if_true]
      have q2 : inward (X, true) (inward (X, true) c) = up X (inward (X, true) c) := rfl
      rw [q2]
  unfold OneWay
  rw [key]
  obtain ⟨n1, n2, n3⟩ := add_one_ne s.1
  have pX : ∀ x : K, E.p x s.1 = x * E.rd s.1 := fun x => if_pos hX
  have pT : ∀ T, T ≠ s.1 → T ≠ a → E.p (1 * E.cvac * E.dt) T *
      (m0 (vox E.g (up T (inward s c)), .e s.1) - m0 (vox E.g (inward s c), .e s.1)) =
      E.cvac * E.dt * E.rd T * (m0 (vox E.g (up T (inward s c)), .e s.1) - m0 (vox E.g (inward s c), .e s.1)) := by
    intro T q1 q2
    rcases hT T q1 q2 with h | h
    · unfold Env.p; rw [if_pos h]; ring
    · rw [h]; ring
  have fin : ∀ B B0 BG X' : K, X' = (1 - D) / (1 + D) * BG + 2 * D / (1 + D) * B - (B - B0) →
      X' - BG + (B - B0) + D * (X' - B + (BG - B0)) = 0 := by
    intro B B0 BG X' e
    rw [e]
    field_simp
    ring
  apply fin
  rcases axis_cases s.1 a with rfl | rfl | rfl
  · exact absurd rfl ha
  · rw [if_pos rfl]
    simp only [absorbB, setAt, Function.update_self, hh, ← hDdef, gh, if_true, key, t1]
    rw [show m2 (vox E.g (up (s.1 + 2) (inward s c)), .e s.1) = m0 (vox E.g (up (s.1 + 2) (inward s c)), .e s.1) from e2 _ _,
      show m2 (vox E.g (inward s c), .e s.1) = m0 (vox E.g (inward s c), .e s.1) from e2 _ _, ← pT _ n2 n3.symm]
    have cb : cbVal E 1 (s.1 + 1) (inward s c) m0 = m0 (vox E.g (inward s c), .cb (s.1 + 1)) -
      (E.p (1 * E.cvac * E.dt) (s.1 + 2) * (m0 (vox E.g (up (s.1 + 2) (inward s c)), .e s.1) - m0 (vox E.g (inward s c), .e s.1)) -
        E.p (1 * E.cvac * E.dt) s.1 * (m0 (vox E.g (up s.1 (inward s c)), .e (s.1 + 2)) - m0 (vox E.g (inward s c), .e (s.1 + 2)))) := by
      generalize s.1 = X
      fin_cases X <;> rfl
    rw [cb, pX]
    ring
  · rw [if_neg n3.symm]
    simp only [absorbB, setAt, Function.update_self, hh, ← hDdef, gh, key, t1, Bool.false_eq_true, if_false]
    rw [show m2 (vox E.g (up (s.1 + 1) (inward s c)), .e s.1) = m0 (vox E.g (up (s.1 + 1) (inward s c)), .e s.1) from e2 _ _,
      show m2 (vox E.g (inward s c), .e s.1) = m0 (vox E.g (inward s c), .e s.1) from e2 _ _, ← pT _ n1 n3]
    have cb : cbVal E 1 (s.1 + 2) (inward s c) m0 = m0 (vox E.g (inward s c), .cb (s.1 + 2)) -
      (E.p (1 * E.cvac * E.dt) s.1 * (m0 (vox E.g (up s.1 (inward s c)), .e (s.1 + 1)) - m0 (vox E.g (inward s c), .e (s.1 + 1))) -
        E.p (1 * E.cvac * E.dt) (s.1 + 1) * (m0 (vox E.g (up (s.1 + 1) (inward s c)), .e s.1) - m0 (vox E.g (inward s c), .e s.1))) := by
      generalize s.1 = X
      fin_cases X <;> rfl
    rw [cb, pX]
    ring

end

/-- C73 on a concrete mesh, for any fields. -/
example (m0 : FMem ℚ) : ∃ (m1 m2 : FMem ℚ) (l : List (Step ℚ)),
    AdvanceB (sampleEnv absorbFields) Distribute.doubleRounding 3 (1 / 2) m0 m1 ∧
    AdvanceB (sampleEnv absorbFields) Distribute.doubleRounding 3 (1 / 2) m1 m2 ∧
    localGhostTangB (sampleEnv absorbFields) = some l ∧
    OneWay (103527618 / 100000000) (m0 (vox (sampleGrid absorbFields) ![1, 2, 1], .cb 2))
      (m0 (vox (sampleGrid absorbFields) ![0, 2, 1], .cb 2)) (m2 (vox (sampleGrid absorbFields) ![1, 2, 1], .cb 2))
      (runSeq l m2 (vox (sampleGrid absorbFields) ![0, 2, 1], .cb 2)) := by
  have hg : Mesh (sampleEnv absorbFields).g := sample_mesh absorbFields
  have hk : AllKnown (sampleEnv absorbFields) := fun s _ => Or.inr (Or.inr (Or.inr rfl))
  have hR := Distribute.doubleRounding_accurate
  obtain ⟨m1, h1⟩ := advance_b_runs hg hk hR (P := 3) (by norm_num) (by norm_num) (1 / 2) m0
  obtain ⟨m2, h2⟩ := advance_b_runs hg hk hR (P := 3) (by norm_num) (by norm_num) (1 / 2) m1
  obtain ⟨l, hl⟩ := hk.some (unknown_code_is_an_error (sampleEnv absorbFields)).1
  refine ⟨m1, m2, l, h1, h2, hl, ?_⟩
  have := absorbing_wall hg hR hR (by norm_num) (by norm_num) (by norm_num) (by norm_num) (by norm_num) h1 h2 hl (0, true)
    (sample_wall (by decide) _) rfl 2 (by decide) ![0, 2, 1] ?_ ?_ (by decide) ?_ (by norm_num [sampleEnv])
  · have e : inward (0, true) ![0, 2, 1] = ![1, 2, 1] := by decide
    rw [e] at this
    simpa [sampleEnv] using this
  · show GhostAt (sampleGrid absorbFields) _ _ _
    simp [GhostAt, forall_axis, dims, sampleGrid, ghostOf]
  · rintro ⟨s, -, -, h⟩
    revert h
    show ¬ (sideBC (sampleGrid absorbFields) s = symmetricFields)
    simp only [sideBC, sampleGrid]
    decide
  · intro T h1 h2
    left
    fin_cases T
    · exact absurd rfl h1
    · decide
    · exact absurd rfl h2

end Verif.Field
