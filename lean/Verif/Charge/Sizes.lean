import Verif.Charge.Whole

/-!
# The sizes of the particle storage stay in the range of `int`
-/
namespace Verif.Charge

open Grid MoveP
open Boundary (Env Rank Species live ids Round grow shrink Injector Load)
open Distribute (Rounding)

section
variable {K : Type} {S : Type*} [Field K] [LinearOrder K]

/-- Spec: the sizes of the storage of a species are positive `int`s. -/
def Sized (s : Species K) : Prop := s.max_np < 2 ^ 31 ∧ s.max_nm < 2 ^ 31

omit [LinearOrder K] in
lemma resize_sized (E : Env K S) (m : ℕ) (s s' : Species K) (h : Boundary.resize E m s = some s') (hs : Sized s) :
    Sized s' := by
  unfold Boundary.resize at h
  obtain ⟨h1, h2⟩ := hs
  dsimp only at h
  split at h
  · simp at h
  rename_i hn
  rw [Option.some.injEq] at h
  subst h
  have e : s.max_np > 128 → s.np + m < s.max_np / 2 → shrink (s.np + m) < 2 ^ 31 := by
    intro _ _
    unfold shrink
    split_ifs <;> omega
  by_cases b1 : s.max_np < s.np + m <;> by_cases b3 : 128 < s.max_np ∧ s.np + m < s.max_np / 2 <;>
    by_cases b2 : s.max_nm < s.nm + m <;> simp only [b1, b2, b3, if_true, if_false, and_self] <;>
    refine ⟨?_, ?_⟩ <;> (try dsimp only) <;> first | assumption | omega | exact e b3.1 b3.2

omit [LinearOrder K] in
lemma resizeAll_sized (E : Env K S) (m : ℕ) : ∀ (l : List ℕ) (sp sp' : ℕ → Species K),
    Boundary.resizeAll E m l sp = some sp' → ∀ id, Sized (sp id) → Sized (sp' id)
  | [], sp, sp', h, id, hs => by
    simp only [Boundary.resizeAll, Option.some.injEq] at h
    exact h ▸ hs
  | i :: l, sp, sp', h, id, hs => by
    rw [Boundary.resizeAll, Option.bind_eq_some_iff] at h
    obtain ⟨s, h1, h2⟩ := h
    refine resizeAll_sized E m l _ _ h2 id ?_
    by_cases e : id = i
    · subst e; simpa using resize_sized E m _ _ h1 hs
    · simpa [Function.update_of_ne e] using hs

lemma injectAll_sized (E : Env K S) : ∀ (l : List (Injector K)) (sp sp' : ℕ → Species K) (a a' : Accum K),
    Boundary.injectAll E l sp a = some (sp', a') → ∀ id, Sized (sp id) → Sized (sp' id)
  | [], sp, sp', a, a', h, id, hs => by
    simp only [Boundary.injectAll, Option.some.injEq, Prod.mk.injEq] at h
    exact h.1 ▸ hs
  | i :: l, sp, sp', a, a', h, id, hs => by
    rw [Boundary.injectAll, Option.bind_eq_some_iff] at h
    obtain ⟨⟨s, b⟩, h1, h2⟩ := h
    refine injectAll_sized E l _ _ _ _ h2 id ?_
    unfold Boundary.injectOne at h1
    dsimp only at h1
    split at h1
    · simp at h1
    split at h1
    · simp at h1
    split at h1
    · simp at h1
    simp only [Option.some.injEq, Prod.mk.injEq] at h1
    rw [← h1.1]
    by_cases e : id = i.sp_id
    · subst e
      rw [Function.update_self]
      exact hs
    · rw [Function.update_of_ne e]
      exact hs

lemma loadAll_sized (E : Env K S) (c1 c2 : ℕ) : ∀ (l : List ℕ) (sp sp' : ℕ → Species K) (L L' : Load K S),
    Boundary.loadAll E c1 c2 l sp L = some (sp', L') → ∀ id, Sized (sp id) → Sized (sp' id)
  | [], sp, sp', L, L', h, id, hs => by
    simp only [Boundary.loadAll, Option.some.injEq, Prod.mk.injEq] at h
    exact h.1 ▸ hs
  | i :: l, sp, sp', L, L', h, id, hs => by
    rw [Boundary.loadAll, Option.bind_eq_some_iff] at h
    obtain ⟨⟨s, b⟩, h1, h2⟩ := h
    refine loadAll_sized E c1 c2 l _ _ _ _ h2 id ?_
    unfold Boundary.loadSpecies at h1
    rw [Option.map_eq_some_iff] at h1
    obtain ⟨x, -, h1⟩ := h1
    simp only [Prod.mk.injEq] at h1
    rw [← h1.1]
    by_cases e : id = i
    · subst e
      rw [Function.update_self]
      exact hs
    · rw [Function.update_of_ne e]
      exact hs

lemma round_sized {n : ℕ} {W : Fin n → Env K S} {R R' : Fin n → Rank K S} (h : Round W R R')
    (r : Fin n) (id : ℕ) (hs : Sized ((R r).sp id)) : Sized ((R' r).sp id) := by
  obtain ⟨M, L, h1, h2⟩ := h
  have a := h1 r
  have b := h2 r
  unfold Boundary.loadRank at a
  dsimp only at a
  split at a
  · simp at a
  split at a
  · simp at a
  rw [Option.map_eq_some_iff] at a
  obtain ⟨⟨sp, L'⟩, a1, a2⟩ := a
  simp only [Prod.mk.injEq] at a2
  have k1 := loadAll_sized _ _ _ _ _ _ _ _ a1 id hs
  unfold Boundary.injectRank at b
  dsimp only at b
  split at b
  · simp at b
  rw [Option.bind_eq_some_iff] at b
  obtain ⟨sp1, b1, b2⟩ := b
  rw [Option.map_eq_some_iff] at b2
  obtain ⟨⟨sp2, a'⟩, b2, b3⟩ := b2
  rw [← a2.1] at b1
  have k2 := resizeAll_sized _ _ _ _ _ b1 id k1
  have k3 := injectAll_sized _ _ _ _ _ _ b2 id k2
  rw [← b3]
  exact k3

lemma rounds_sized {n : ℕ} {W : Fin n → Env K S} : ∀ (k : ℕ) {R R' : Fin n → Rank K S}, Rounds W k R R' →
    ∀ r id, Sized ((R r).sp id) → Sized ((R' r).sp id) := by
  intro k R R' h
  induction h with
  | zero => exact fun _ _ => _root_.id
  | succ k R R1 R' h1 _ ih => exact fun r id hs => ih r id (round_sized h1 r id hs)

lemma pushes_sized {Rd : Rounding} {g : LGrid} {fuel : ℕ} {X : PushPar K} {P : ℕ} {l : List ℕ} {sp sp' : ℕ → Species K}
    {acc acc' : ℤ → Fin 12 → K} (h : Pushes Rd g fuel X P l sp acc sp' acc') :
    ∀ id, Sized (sp id) → Sized (sp' id) := by
  induction h with
  | nil => exact fun _ => _root_.id
  | cons i l sp m m' pm nm sp' acc' _ _ _ _ ih =>
    intro id hs
    refine ih id ?_
    by_cases e : id = i
    · subst e
      rw [Function.update_self]
      exact hs
    · rw [Function.update_of_ne e]
      exact hs

/-- No step makes the storage of a species larger than an `int` can say: it would stop instead. -/
theorem particle_phase_sized {n : ℕ} {B : Fin n → Env K S} {Rd : Rounding} {X : Fin n → PushPar K} {P nf N : ℕ}
    {R R' : Fin n → Rank K S} {st st' : Fin n → ℤ → K} (h : ParticlePhase B Rd X P nf N R st R' st')
    (r : Fin n) (id : ℕ) (hs : Sized ((R r).sp id)) : Sized ((R' r).sp id) := by
  obtain ⟨sp1, st1, h1, h2, -⟩ := h
  refine rounds_sized N h2 r id ?_
  obtain ⟨_, _, -, hp, -⟩ := h1 r
  exact pushes_sized hp id hs

end

end Verif.Charge
