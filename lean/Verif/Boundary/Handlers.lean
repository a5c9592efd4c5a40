import Verif.Boundary.Storage

/-!
# C68: the boundary handlers that come with the code
-/
namespace Verif.Boundary

open Grid (LGrid Cell VOXEL portOf)
open MoveP (Part Mover Accum MState moveP nvox LocalMesh voxel_range)
open Deposit (InCell)

section
variable {K : Type} {S : Type*} [Field K] [LinearOrder K] [IsStrictOrderedRing K]

/-! ### Model -/

/-- `interact_absorb_tally`, /repo/src/boundary/absorb_tally.cc:18-29; the state is the array `tally`. -/
def absorbTally : Handler K (ℕ → ℕ) := fun tally id q p _ _ =>
  (Function.update tally id (tally id + 1), [(q, p)], [])

/-- `perm[face]`, /repo/src/boundary/maxwellian_reflux.cc:79-84. -/
def refluxPerm (face : ℤ) : Fin 3 → Fin 3 :=
  if face = 0 ∨ face = 3 then ![0, 1, 2] else if face = 1 ∨ face = 4 then ![2, 0, 1] else ![1, 2, 0]

/-- The parameters of a refluxing boundary: `ut_para`, `ut_perp` by species, the cell sizes and their inverses,
`M_SQRT2`, `FLT_MIN`, the square root, and the random numbers: `sqrtf(frande(rng))` and two calls of `frandn(rng)`,
functions of the state of the generator. -/
structure Reflux (K S : Type*) where
  para : ℕ → K
  perp : ℕ → K
  dx : Fin 3 → K
  rdx : Fin 3 → K
  sqrt2 : K
  fltMin : K
  rt : K → K
  draw : S → (K × K × K) × S

/-- `u[3]`, /repo/src/boundary/maxwellian_reflux.cc:121-123. -/
def Reflux.u0 (M : Reflux K S) (id : ℕ) (face : ℤ) (x : K × K × K) : Fin 3 → K :=
  ![M.para id * (if face < 3 then M.sqrt2 else -M.sqrt2) * x.1, M.perp id * x.2.1, M.perp id * x.2.2]

/-- `ux`, `uy`, `uz`, lines 124-126. -/
def Reflux.u (M : Reflux K S) (id : ℕ) (face : ℤ) (x : K × K × K) (k : Fin 3) : K := M.u0 id face x (refluxPerm face k)

/-- `ratio`, lines 148-153. -/
def Reflux.ratio (M : Reflux K S) (u u' disp : Fin 3 → K) : K :=
  M.rt (((1 + (u 0 * u 0 + u 1 * u 1 + u 2 * u 2)) *
      (M.dx 0 * disp 0 * (M.dx 0 * disp 0) + M.dx 1 * disp 1 * (M.dx 1 * disp 1) + M.dx 2 * disp 2 * (M.dx 2 * disp 2))) /
    ((1 + (u' 0 * u' 0 + u' 1 * u' 1 + u' 2 * u' 2)) * (M.fltMin + (u 0 * u 0 + u 1 * u 1 + u 2 * u 2))))

/-- `interact_maxwellian_reflux`, /repo/src/boundary/maxwellian_reflux.cc:58-178. -/
def reflux (M : Reflux K S) : Handler K S := fun st id _ p disp face =>
  let x := (M.draw st).1
  let u' := M.u id face x
  let ratio := M.ratio p.u u' disp
  ((M.draw st).2, [], [⟨p.d, p.i, u', p.w, fun k => u' k * ratio * M.rdx k, id⟩])

/-! ### Specification -/

/-- Spec: the contract of one handler (as in `Conforming`). -/
def Conforms (E : Env K S) (H : Handler K S) : Prop :=
  ∀ (h : Hit K), h.id < E.nsp → (∃ c f, AtFace E.g h.p c f) → ∀ st,
    (H st h.id h.q h.part h.disp h.face).2.2.length ≤ 1 ∧
    (∀ x ∈ (H st h.id h.q h.part h.disp h.face).2.1, ∃ c, InCell E.g x.2 c) ∧
    ∀ pi ∈ (H st h.id h.q h.part h.disp h.face).2.2, Enters E pi

/-- Spec: the particle is one for a handler. -/
def Hit.isCustom (E : Env K S) (h : Hit K) : Bool := match h.fate E with | .custom _ => true | _ => false

/-- Spec: squared length. -/
def sq3 (v : Fin 3 → K) : K := v 0 * v 0 + v 1 * v 1 + v 2 * v 2

/-! ### Properties -/

/-- If all handlers keep the contract then boundary processing does. -/
theorem conforming_of_handlers (E : Env K S) (h : ∀ k < E.nb, Conforms E (E.interact k)) : Conforming E := by
  intro x k hk hid ha st
  have : k < E.nb := by
    unfold Hit.fate at hk
    split_ifs at hk with h1 h2 h3
    simp only [Fate.custom.injEq] at hk
    omega
  exact h k this x hid ha st

/-- **C68.**  `absorb_tally` keeps the contract. -/
theorem absorb_tally_conforms (E : Env K (ℕ → ℕ)) : Conforms E absorbTally := by
  rintro h - ⟨c, f, ha⟩ st
  refine ⟨by simp [absorbTally], ?_, by simp [absorbTally]⟩
  intro x hx
  simp only [absorbTally, List.mem_singleton] at hx
  subst hx
  exact ⟨c, ha.interior, ha.decode.1⟩

/-- **C68.**  With `absorb_tally` at all custom faces: the count of every species grows by the number of its particles
at these faces, nothing is injected, and the charge of exactly these particles is deposited. -/
theorem absorb_tally_counts (E : Env K (ℕ → ℕ)) (hE : E.interact = fun _ => absorbTally) (hs : List (Hit K))
    (tally : ℕ → ℕ) :
    (∀ id, (customRun E hs tally).1 id = tally id +
      (hs.filter fun h => h.id = id ∧ h.isCustom E).length) ∧
    (customRun E hs tally).2.2 = [] ∧
    (customRun E hs tally).2.1 = (hs.filter fun h => h.isCustom E).map fun h => (h.q, h.part) := by
  induction hs generalizing tally with
  | nil => simp [customRun]
  | cons h l ih =>
    rw [customRun]
    split
    · next k hk =>
      rw [hE]
      have hex : h.isCustom E = true := by unfold Hit.isCustom; rw [hk]
      obtain ⟨i1, i2, i3⟩ := ih (Function.update tally h.id (tally h.id + 1))
      simp only [absorbTally]
      refine ⟨fun id => ?_, by rw [i2]; rfl, ?_⟩
      · rw [i1]
        by_cases e : h.id = id
        · subst e
          rw [List.filter_cons_of_pos (by simpa using hex), Function.update_self, List.length_cons]
          omega
        · rw [List.filter_cons_of_neg (by simp [e]), Function.update_of_ne (Ne.symm e)]
      · rw [i3, List.filter_cons_of_pos (by simpa using hex)]
        rfl
    · next hk =>
      have hex : h.isCustom E = false := by
        unfold Hit.isCustom
        split
        · next k e => exact absurd e (hk k)
        · rfl
      obtain ⟨i1, i2, i3⟩ := ih tally
      refine ⟨fun id => ?_, i2, ?_⟩
      · rw [i1, List.filter_cons_of_neg (by simp [hex])]
      · rw [i3, List.filter_cons_of_neg (by simp [hex])]

/-- **C68.**  `maxwellian_reflux` keeps the contract. -/
theorem reflux_conforms (E : Env K S) (M : Reflux K S) : Conforms E (reflux M) := by
  rintro h hid ⟨c, f, ha⟩ st
  refine ⟨by simp [reflux], by simp [reflux], ?_⟩
  intro pi hp
  simp only [reflux, List.mem_singleton] at hp
  subst hp
  exact ⟨hid, ⟨c, ha.interior, ha.decode.1⟩, ha.inside⟩

/-- **C68.**  What `maxwellian_reflux` does with a particle that hits face `face`, for any random numbers: it puts in
exactly one particle of the same species and weight, at the place where the particle hit; the component of the new
momentum along the axis of the face comes from the parallel temperature and points away from the face, and so does the
displacement, which is the new momentum times one non-negative factor (in physical length); and the time this takes is
the time the incident particle had left: `|dr'| γ'/|u'| = |dr| γ/|u|`, up to the `FLT_MIN` that guards the division. -/
theorem reflux_spec (M : Reflux K S) (st : S) (id : ℕ) (q : K) (p : Part K) (disp : Fin 3 → K) (face : ℤ)
    (hf : 0 ≤ face ∧ face < 6) (hrt : ∀ x, 0 ≤ x → 0 ≤ M.rt x ∧ M.rt x * M.rt x = x) (hmin : 0 < M.fltMin)
    (hdx : ∀ k, M.dx k * M.rdx k = 1) (hdx0 : ∀ k, 0 < M.dx k) (hpara : 0 ≤ M.para id) (h2 : 0 ≤ M.sqrt2)
    (hdraw : 0 ≤ (M.draw st).1.1) :
    ∃ (u' disp' : Fin 3 → K) (k : Fin 3), (k : ℤ) = face % 3 ∧ reflux M st id q p disp face = ((M.draw st).2, [], [⟨p.d, p.i, u', p.w, disp', id⟩]) ∧
      u' k = M.para id * (if face < 3 then M.sqrt2 else -M.sqrt2) * (M.draw st).1.1 ∧
      (if face < 3 then 0 ≤ u' k ∧ 0 ≤ disp' k else u' k ≤ 0 ∧ disp' k ≤ 0) ∧
      (∃ τ, 0 ≤ τ ∧ ∀ k, M.dx k * disp' k = u' k * τ) ∧
      sq3 (fun k => M.dx k * disp' k) * ((1 + sq3 u') * (M.fltMin + sq3 p.u)) =
        sq3 u' * ((1 + sq3 p.u) * sq3 fun k => M.dx k * disp k) := by
  have hax : M.u id face (M.draw st).1 (axisOf face) =
      M.para id * (if face < 3 then M.sqrt2 else -M.sqrt2) * (M.draw st).1.1 := by
    have : refluxPerm face (axisOf face) = 0 := by
      unfold refluxPerm axisOf
      split_ifs <;> rfl
    unfold Reflux.u
    rw [this]
    rfl
  set u' := M.u id face (M.draw st).1 with hu'
  set X := ((1 + (p.u 0 * p.u 0 + p.u 1 * p.u 1 + p.u 2 * p.u 2)) *
      (M.dx 0 * disp 0 * (M.dx 0 * disp 0) + M.dx 1 * disp 1 * (M.dx 1 * disp 1) + M.dx 2 * disp 2 * (M.dx 2 * disp 2))) /
    ((1 + (u' 0 * u' 0 + u' 1 * u' 1 + u' 2 * u' 2)) * (M.fltMin + (p.u 0 * p.u 0 + p.u 1 * p.u 1 + p.u 2 * p.u 2)))
    with hX
  have s1 : 0 ≤ p.u 0 * p.u 0 + p.u 1 * p.u 1 + p.u 2 * p.u 2 := by
    have := mul_self_nonneg (p.u 0); have := mul_self_nonneg (p.u 1); have := mul_self_nonneg (p.u 2); linarith
  have s2 : 0 ≤ u' 0 * u' 0 + u' 1 * u' 1 + u' 2 * u' 2 := by
    have := mul_self_nonneg (u' 0); have := mul_self_nonneg (u' 1); have := mul_self_nonneg (u' 2); linarith
  have s3 : 0 ≤ M.dx 0 * disp 0 * (M.dx 0 * disp 0) + M.dx 1 * disp 1 * (M.dx 1 * disp 1) +
      M.dx 2 * disp 2 * (M.dx 2 * disp 2) := by
    have := mul_self_nonneg (M.dx 0 * disp 0); have := mul_self_nonneg (M.dx 1 * disp 1)
    have := mul_self_nonneg (M.dx 2 * disp 2); linarith
  have hden : 0 < (1 + (u' 0 * u' 0 + u' 1 * u' 1 + u' 2 * u' 2)) *
      (M.fltMin + (p.u 0 * p.u 0 + p.u 1 * p.u 1 + p.u 2 * p.u 2)) := mul_pos (by linarith) (by linarith)
  have hX0 : 0 ≤ X := div_nonneg (mul_nonneg (by linarith) s3) hden.le
  obtain ⟨r0, r1⟩ := hrt X hX0
  have hr : M.ratio p.u u' disp = M.rt X := rfl
  have hrdx : ∀ k, 0 ≤ M.rdx k := fun k => by
    have h1 := hdx k
    have h2 := hdx0 k
    by_contra h3
    nlinarith
  have hd : ∀ k, M.dx k * (u' k * M.rt X * M.rdx k) = u' k * M.rt X := fun k => by
    have := hdx k
    linear_combination u' k * M.rt X * this
  have hface : ((axisOf face : Fin 3) : ℤ) = face % 3 := by
    unfold axisOf
    split_ifs with h3 h4
    · show (0 : ℤ) = _; omega
    · show (1 : ℤ) = _; omega
    · show (2 : ℤ) = _; omega
  refine ⟨u', fun k => u' k * M.rt X * M.rdx k, axisOf face, hface, ?_, hax, ?_, ⟨M.rt X, r0, hd⟩, ?_⟩
  · unfold reflux
    dsimp only
    rw [← hu', hr]
  · have hp := mul_nonneg (mul_nonneg hpara h2) hdraw
    have hn := mul_nonneg r0 (hrdx (axisOf face))
    split_ifs with h3
    · rw [if_pos h3] at hax
      have : 0 ≤ u' (axisOf face) := by rw [hax]; exact hp
      refine ⟨this, ?_⟩
      have := mul_nonneg this hn
      linarith
    · rw [if_neg h3] at hax
      have : u' (axisOf face) ≤ 0 := by
        rw [hax]
        have : M.para id * -M.sqrt2 * (M.draw st).1.1 = -(M.para id * M.sqrt2 * (M.draw st).1.1) := by ring
        rw [this]; linarith
      refine ⟨this, ?_⟩
      have := mul_nonneg (neg_nonneg.mpr this) hn
      linarith
  · unfold sq3
    simp only [hd]
    have e : X * ((1 + (u' 0 * u' 0 + u' 1 * u' 1 + u' 2 * u' 2)) *
      (M.fltMin + (p.u 0 * p.u 0 + p.u 1 * p.u 1 + p.u 2 * p.u 2))) = _ := div_mul_cancel₀ _ hden.ne'
    rw [← e]
    have : (u' 0 * M.rt X * (u' 0 * M.rt X) + u' 1 * M.rt X * (u' 1 * M.rt X) + u' 2 * M.rt X * (u' 2 * M.rt X)) =
      (u' 0 * u' 0 + u' 1 * u' 1 + u' 2 * u' 2) * (M.rt X * M.rt X) := by ring
    rw [this, r1]
    ring

end

end Verif.Boundary
