import Verif.Collide.Model
import Verif.Collision.Kernels
import Verif.Collision.Pairs
import Mathlib.Algebra.BigOperators.Group.Finset.Basic
import Mathlib.Algebra.BigOperators.Fin
import Mathlib.Logic.Equiv.Basic

/-!
# What one voxel of a collision operator does
-/
namespace Verif.Collide
open Verif.Collision

variable {T K : Type} [Field K] [LinearOrder K] [IsStrictOrderedRing K]

/-- Momentum of the particles at `F`. -/
def momAt (m : ℕ → K) (F : Finset Loc) (x : Mem T K) (i : Fin 3) : K := ∑ l ∈ F, m l.1 * (x l).w * (x l).u i

/-- Twice the kinetic energy of the particles at `F`. -/
def enAt (m : ℕ → K) (F : Finset Loc) (x : Mem T K) : K :=
  ∑ l ∈ F, m l.1 * (x l).w * ((x l).u 0 ^ 2 + (x l).u 1 ^ 2 + (x l).u 2 ^ 2)

/-- Nothing outside `F` changes, inside it particles of one species may be exchanged and their momenta change;
if all weights in `F` are equal, momentum and energy of `F` are conserved. -/
structure Step (m : ℕ → K) (eps : K) (F : Finset Loc) (x y : Mem T K) : Prop where
  frame : ∀ l, l ∉ F → y l = x l
  perm : ∃ σ : Equiv.Perm Loc, (∀ l, (σ l).1 = l.1) ∧ (∀ l, l ∉ F → σ l = l) ∧
    ∀ l, (y l).tag = (x (σ l)).tag ∧ (y l).w = (x (σ l)).w
  cons : ∀ w0, 0 ≤ w0 → (∀ l ∈ F, (x l).w = w0) →
    momAt m F y = momAt m F x ∧ enAt m F y ≤ enAt m F x ∧ (eps = 0 → enAt m F y = enAt m F x)

lemma perm_mem {F : Finset Loc} {σ : Equiv.Perm Loc} (h : ∀ l, l ∉ F → σ l = l) {l : Loc} (hl : l ∈ F) : σ l ∈ F := by
  by_contra hc
  have := h _ hc
  have := σ.injective this
  rw [this] at hc
  exact hc hl

lemma Step.refl (m : ℕ → K) (eps : K) (F : Finset Loc) (x : Mem T K) : Step m eps F x x :=
  ⟨fun _ _ => rfl, ⟨1, fun _ => rfl, fun _ _ => rfl, fun _ => ⟨rfl, rfl⟩⟩, fun _ _ _ => ⟨rfl, le_rfl, fun _ => rfl⟩⟩

lemma Step.weights {m : ℕ → K} {eps : K} {F : Finset Loc} {x y : Mem T K} (h : Step m eps F x y) {w0 : K}
    (hw : ∀ l ∈ F, (x l).w = w0) : ∀ l ∈ F, (y l).w = w0 := by
  obtain ⟨σ, h1, h2, h3⟩ := h.perm
  intro l hl
  rw [(h3 l).2]
  exact hw _ (perm_mem h2 hl)

lemma Step.trans {m : ℕ → K} {eps : K} {F : Finset Loc} {x y z : Mem T K} (h : Step m eps F x y) (h' : Step m eps F y z) :
    Step m eps F x z := by
  refine ⟨fun l hl => (h'.frame l hl).trans (h.frame l hl), ?_, ?_⟩
  · obtain ⟨σ, h1, h2, h3⟩ := h.perm
    obtain ⟨τ, g1, g2, g3⟩ := h'.perm
    refine ⟨τ.trans σ, fun l => (h1 _).trans (g1 l), ?_, ?_⟩
    · intro l hl
      show σ (τ l) = l
      rw [g2 l hl, h2 l hl]
    · intro l
      exact ⟨(g3 l).1.trans (h3 _).1, (g3 l).2.trans (h3 _).2⟩
  · intro w0 h0 hw
    obtain ⟨a1, a2, a3⟩ := h.cons w0 h0 hw
    obtain ⟨b1, b2, b3⟩ := h'.cons w0 h0 (h.weights hw)
    exact ⟨b1.trans a1, b2.trans a2, fun he => (b3 he).trans (a3 he)⟩

lemma Step.mono {m : ℕ → K} {eps : K} {F G : Finset Loc} {x y : Mem T K} (h : Step m eps F x y) (hFG : F ⊆ G) :
    Step m eps G x y := by
  have split : ∀ f : Loc → K, ∑ l ∈ G, f l = ∑ l ∈ G \ F, f l + ∑ l ∈ F, f l := fun f => (Finset.sum_sdiff hFG).symm
  refine ⟨fun l hl => h.frame l (fun hF => hl (hFG hF)), ?_, ?_⟩
  · obtain ⟨σ, h1, h2, h3⟩ := h.perm
    exact ⟨σ, h1, fun l hl => h2 l (fun hF => hl (hFG hF)), h3⟩
  · intro w0 h0 hw
    obtain ⟨a1, a2, a3⟩ := h.cons w0 h0 (fun l hl => hw l (hFG hl))
    have out : ∀ f : Loc → Part T K → K, ∑ l ∈ G \ F, f l (y l) = ∑ l ∈ G \ F, f l (x l) := by
      intro f
      refine Finset.sum_congr rfl fun l hl => ?_
      rw [h.frame l (Finset.mem_sdiff.1 hl).2]
    have eM : ∀ i, momAt m G y i = momAt m G x i := by
      intro i
      have := congrFun a1 i
      unfold momAt at *
      rw [split, split (fun l => m l.1 * (x l).w * (x l).u i), this, out fun l p => m l.1 * p.w * p.u i]
    have e1 : enAt m G y = ∑ l ∈ G \ F, m l.1 * (x l).w * ((x l).u 0 ^ 2 + (x l).u 1 ^ 2 + (x l).u 2 ^ 2) + enAt m F y := by
      unfold enAt
      rw [split, out fun l p => m l.1 * p.w * (p.u 0 ^ 2 + p.u 1 ^ 2 + p.u 2 ^ 2)]
    have e2 : enAt m G x = ∑ l ∈ G \ F, m l.1 * (x l).w * ((x l).u 0 ^ 2 + (x l).u 1 ^ 2 + (x l).u 2 ^ 2) + enAt m F x := by
      unfold enAt
      rw [split]
    refine ⟨funext eM, ?_, ?_⟩
    · rw [e1, e2]; linarith
    · intro he; rw [e1, e2, a3 he]

/-- Exchanging particles of a species. -/
lemma step_of_perm (m : ℕ → K) (eps : K) (F : Finset Loc) (x : Mem T K) (σ : Equiv.Perm Loc) (h1 : ∀ l, (σ l).1 = l.1)
    (h2 : ∀ l, l ∉ F → σ l = l) : Step m eps F x (fun l => x (σ l)) := by
  have hs : ∀ f : ℕ → Part T K → K, ∑ l ∈ F, f l.1 (x (σ l)) = ∑ l ∈ F, f l.1 (x l) := by
    intro f
    refine Finset.sum_equiv σ (fun l => ⟨fun h => perm_mem h2 h, fun h => ?_⟩) (fun l _ => by rw [h1])
    by_contra hc
    rw [h2 l hc] at h
    exact hc h
  refine ⟨fun l hl => by rw [h2 l hl], ⟨σ, h1, h2, fun l => ⟨rfl, rfl⟩⟩, ?_⟩
  intro w0 _ _
  have e : enAt m F (fun l => x (σ l)) = enAt m F x :=
    hs fun c p => m c * p.w * (p.u 0 ^ 2 + p.u 1 ^ 2 + p.u 2 ^ 2)
  exact ⟨funext fun i => hs fun c p => m c * p.w * p.u i, e.le, fun _ => e⟩

/-- Changing the momenta of two particles. -/
lemma step_of_pair (m : ℕ → K) (eps : K) (F : Finset Loc) (x : Mem T K) (p q : Loc) (hp : p ∈ F) (hq : q ∈ F) (hpq : p ≠ q)
    (u1 u2 : Fin 3 → K) (hc : (x p).w = (x q).w → Conserves (m p.1) (m q.1) eps (u1, u2) (x p).u (x q).u) :
    Step m eps F x (setU (setU x p u1) q u2) := by
  have gp : setU (setU x p u1) q u2 p = { x p with u := u1 } := by
    unfold setU; rw [if_neg hpq, if_pos rfl]
  have gq : setU (setU x p u1) q u2 q = { x q with u := u2 } := by
    unfold setU; rw [if_pos rfl, if_neg hpq.symm]
  have go : ∀ l, l ≠ p → l ≠ q → setU (setU x p u1) q u2 l = x l := by
    intro l h1 h2; unfold setU; rw [if_neg h2, if_neg h1]
  refine ⟨?_, ⟨1, fun _ => rfl, fun _ _ => rfl, ?_⟩, ?_⟩
  · intro l hl
    exact go l (fun h => hl (h ▸ hp)) (fun h => hl (h ▸ hq))
  · intro l
    show (setU (setU x p u1) q u2 l).tag = (x l).tag ∧ (setU (setU x p u1) q u2 l).w = (x l).w
    by_cases h1 : l = p
    · rw [h1, gp]; exact ⟨rfl, rfl⟩
    by_cases h2 : l = q
    · rw [h2, gq]; exact ⟨rfl, rfl⟩
    rw [go l h1 h2]; exact ⟨rfl, rfl⟩
  · intro w0 h0 hw
    obtain ⟨c1, c2, c3⟩ := hc ((hw p hp).trans (hw q hq).symm)
    have split : ∀ f : Loc → K, ∑ l ∈ F, f l = f p + (f q + ∑ l ∈ (F.erase p).erase q, f l) := by
      intro f
      rw [← Finset.add_sum_erase F f hp, ← Finset.add_sum_erase (F.erase p) f (Finset.mem_erase.2 ⟨hpq.symm, hq⟩)]
    have out : ∀ f : Loc → Part T K → K, ∑ l ∈ (F.erase p).erase q, f l (setU (setU x p u1) q u2 l) =
        ∑ l ∈ (F.erase p).erase q, f l (x l) := by
      intro f
      refine Finset.sum_congr rfl fun l hl => ?_
      simp only [Finset.mem_erase] at hl
      rw [go l hl.2.1 hl.1]
    have tot : ∀ f : Loc → Part T K → K, ∑ l ∈ F, f l (setU (setU x p u1) q u2 l) =
        f p { x p with u := u1 } + (f q { x q with u := u2 } + ∑ l ∈ (F.erase p).erase q, f l (x l)) := by
      intro f
      rw [split (fun l => f l (setU (setU x p u1) q u2 l)), out, gp, gq]
    have hwp := hw p hp
    have hwq := hw q hq
    have eM : momAt m F (setU (setU x p u1) q u2) = momAt m F x := by
      funext i
      have hi := congrFun c1 i
      simp only [momentum] at hi
      have t1 := tot fun l s => m l.1 * s.w * s.u i
      have t2 := split fun l => m l.1 * (x l).w * (x l).u i
      unfold momAt
      rw [t1, t2]
      simp only [hwp, hwq]
      linear_combination w0 * hi
    have t1 := tot fun l s => m l.1 * s.w * (s.u 0 ^ 2 + s.u 1 ^ 2 + s.u 2 ^ 2)
    have t2 := split fun l => m l.1 * (x l).w * ((x l).u 0 ^ 2 + (x l).u 1 ^ 2 + (x l).u 2 ^ 2)
    simp only [energy] at c2 c3
    have eE : enAt m F (setU (setU x p u1) q u2) - enAt m F x = w0 * ((m p.1 * (u1 0 ^ 2 + u1 1 ^ 2 + u1 2 ^ 2) +
        m q.1 * (u2 0 ^ 2 + u2 1 ^ 2 + u2 2 ^ 2)) - (m p.1 * ((x p).u 0 ^ 2 + (x p).u 1 ^ 2 + (x p).u 2 ^ 2) +
        m q.1 * ((x q).u 0 ^ 2 + (x q).u 1 ^ 2 + (x q).u 2 ^ 2))) := by
      unfold enAt
      rw [t1, t2]
      simp only [hwp, hwq]
      ring
    refine ⟨eM, ?_, ?_⟩
    · have := mul_nonneg h0 (sub_nonneg.2 c2)
      nlinarith
    · intro he
      rw [he] at c3
      have : (m p.1 * (u1 0 ^ 2 + u1 1 ^ 2 + u1 2 ^ 2) +
        m q.1 * (u2 0 ^ 2 + u2 1 ^ 2 + u2 2 ^ 2)) - (m p.1 * ((x p).u 0 ^ 2 + (x p).u 1 ^ 2 + (x p).u 2 ^ 2) +
        m q.1 * ((x q).u 0 ^ 2 + (x q).u 1 ^ 2 + (x q).u 2 ^ 2)) = 0 := by
        have : 0 ≤ (0:K) := le_rfl
        apply le_antisymm <;> [linarith; skip]
        simp only [mul_zero, sub_zero] at c3
        linarith
      rw [this, mul_zero] at eE
      linarith

/-- Changing the momentum of one particle, when momentum is not claimed to be conserved. -/
lemma step_of_one (m : ℕ → K) (eps : K) (F : Finset Loc) (x : Mem T K) (p q : Loc) (hp : p ∈ F) (hq : q ∈ F)
    (hw : (x p).w ≠ (x q).w) (l0 : Loc) (hl : l0 ∈ F) (u1 : Fin 3 → K) : Step m eps F x (setU x l0 u1) := by
  refine ⟨?_, ⟨1, fun _ => rfl, fun _ _ => rfl, ?_⟩, ?_⟩
  · intro l h
    unfold setU
    rw [if_neg fun e : l = l0 => h (e ▸ hl)]
  · intro l
    show (setU x l0 u1 l).tag = (x l).tag ∧ (setU x l0 u1 l).w = (x l).w
    unfold setU
    split_ifs with h
    · rw [h]; exact ⟨rfl, rfl⟩
    · exact ⟨rfl, rfl⟩
  · intro w0 _ h
    exact absurd ((h p hp).trans (h q hq).symm) hw

/-! ## Locations of a voxel -/

/-- Particles `k0 .. k0+nk-1` of a species. -/
def block (c k0 nk : ℕ) : Finset Loc := (Finset.Ico k0 (k0 + nk)).map ⟨fun i => (c, i), fun _ _ h => (Prod.mk.inj h).2⟩

lemma mem_block {c k0 nk : ℕ} {l : Loc} : l ∈ block c k0 nk ↔ l.1 = c ∧ k0 ≤ l.2 ∧ l.2 < k0 + nk := by
  unfold block
  rw [Finset.mem_map]
  constructor
  · rintro ⟨i, hi, rfl⟩
    rw [Finset.mem_Ico] at hi
    exact ⟨rfl, hi⟩
  · rintro ⟨h1, h2⟩
    exact ⟨l.2, Finset.mem_Ico.2 h2, by rw [← h1]; rfl⟩

/-- The locations of voxel `v` in species `a` and `b`. -/
def foot (part : ℕ → ℕ → ℕ) (a b v : ℕ) : Finset Loc :=
  block a (part a v) (part a (v + 1) - part a v) ∪ block b (part b v) (part b (v + 1) - part b v)

/-! ## Takizuka-Abe -/

lemma pick_range {d i n j : ℕ} {as bs : List ℕ} (h : Rng.pick d i n as = some (j, bs)) : i ≤ j ∧ j < n := by
  induction as with
  | nil => simp [Rng.pick] at h
  | cons a as ih =>
    unfold Rng.pick at h
    split_ifs at h with h1 h2
    · exact ih h
    · simp only [Option.some.injEq, Prod.mk.injEq] at h
      obtain ⟨rfl, rfl⟩ := h
      exact ⟨Nat.le_add_right _ _, not_le.1 h2⟩

lemma swap_step (m : ℕ → K) (eps : K) (F : Finset Loc) (a i j : ℕ) (hi : (a, i) ∈ F) (hj : (a, j) ∈ F) (mem : Mem T K)
    (x : ℕ → Part T K) : Step m eps F (setSpecies mem a x) (setSpecies mem a (Rng.swap x i j)) := by
  have e : setSpecies mem a (Rng.swap x i j) = fun l => setSpecies mem a x (Equiv.swap (a, i) (a, j) l) := by
    funext l
    by_cases h1 : l = (a, i)
    · subst h1
      rw [Equiv.swap_apply_left]
      simp [setSpecies, Rng.swap]
    by_cases h2 : l = (a, j)
    · subst h2
      rw [Equiv.swap_apply_right]
      have : j ≠ i := fun h => h1 (by rw [h])
      simp [setSpecies, Rng.swap, this]
    rw [Equiv.swap_apply_of_ne_of_ne h1 h2]
    unfold setSpecies Rng.swap
    split_ifs with h3 h4 h5
    · exact absurd (Prod.ext h3 h4) h1
    · exact absurd (Prod.ext h3 h5) h2
    · rfl
    · rfl
  rw [e]
  refine step_of_perm m eps F _ _ ?_ ?_
  · intro l
    by_cases h1 : l = (a, i)
    · subst h1; rw [Equiv.swap_apply_left]
    by_cases h2 : l = (a, j)
    · subst h2; rw [Equiv.swap_apply_right]
    rw [Equiv.swap_apply_of_ne_of_ne h1 h2]
  · intro l hl
    exact Equiv.swap_apply_of_ne_of_ne (fun h => hl (h ▸ hi)) (fun h => hl (h ▸ hj))

lemma shuffle_step (m : ℕ → K) (eps : K) (F : Finset Loc) (a k1 : ℕ) (mem : Mem T K) (n : ℕ) :
    ∀ (i : ℕ) (x y : ℕ → Part T K) (d d' : K) (as bs : List ℕ), i + n + 1 = k1 →
    (∀ j, i ≤ j → j < k1 → (a, j) ∈ F) →
    taShuffle Part.w k1 n i x d as = some (y, d', bs) → Step m eps F (setSpecies mem a x) (setSpecies mem a y) := by
  induction n with
  | zero =>
    intro i x y d d' as bs _ _ h
    simp only [taShuffle, Option.some.injEq, Prod.mk.injEq] at h
    rw [h.1]
    exact Step.refl ..
  | succ n ih =>
    intro i x y d d' as bs hi hF h
    rw [taShuffle] at h
    cases hp : Rng.pick ((2 ^ 32 - 1) / (k1 - i)) i k1 as with
    | none => rw [hp] at h; simp at h
    | some r =>
      obtain ⟨j, cs⟩ := r
      rw [hp] at h
      obtain ⟨h1, h2⟩ := pick_range hp
      exact (swap_step m eps F a i j (hF i le_rfl (by omega)) (hF j h1 h2) mem x).trans
        (ih (i + 1) _ y _ d' cs bs (by omega) (fun j h3 h4 => hF j (by omega) h4) h)

lemma setSpecies_self (mem : Mem T K) (a : ℕ) : setSpecies mem a (fun k => mem (a, k)) = mem := by
  funext l
  unfold setSpecies
  split_ifs with h
  · rw [← h]
  · rfl

/-- What the operator assumes about its parameters: positive masses, a square root, sine and cosine of one angle. -/
structure TA.Ok (E : TA K) : Prop where
  rt : IsSqrt E.rt
  trig : ∀ r, E.cs r ^ 2 + E.sn r ^ 2 = 1
  eps : 0 ≤ E.eps
  ma : 0 < E.m E.a
  mb : 0 < E.m E.b

lemma taPair_step (E : TA K) (h : E.Ok) (F : Finset Loc) (mem : Mem T K) (k l : ℕ) (std : K) (g : K × K × K)
    (hk : (E.a, k) ∈ F) (hl : (E.b, l) ∈ F) (hne : (E.a, k) ≠ (E.b, l)) :
    Step E.m E.eps F mem (taPair E mem k l std g) := by
  refine step_of_pair E.m E.eps F mem (E.a, k) (E.b, l) hk hl hne _ _ ?_
  intro hw
  rw [hw]
  exact takizuka_abe_conserves E.rt h.rt E.eps h.eps _ _ h.ma h.mb std g.1 _ _ g.2.2 _ (h.trig _) _ _

lemma taRun_step (E : TA K) (h : E.Ok) (F : Finset Loc) (ps : List ((ℕ × ℕ) × K)) : ∀ (mem mem' : Mem T K)
    (gs gs' : List (K × K × K)), (∀ p ∈ ps, (E.a, p.1.1) ∈ F ∧ (E.b, p.1.2) ∈ F ∧ (E.a, p.1.1) ≠ (E.b, p.1.2)) →
    taRun E ps mem gs = some (mem', gs') → Step E.m E.eps F mem mem' := by
  induction ps with
  | nil =>
    intro mem mem' gs gs' _ hr
    simp only [taRun, Option.some.injEq, Prod.mk.injEq] at hr
    rw [hr.1]
    exact Step.refl ..
  | cons p ps ih =>
    intro mem mem' gs gs' hF hr
    cases gs with
    | nil => simp [taRun] at hr
    | cons g gs =>
      obtain ⟨kl, std⟩ := p
      obtain ⟨h1, h2, h3⟩ := hF _ List.mem_cons_self
      exact (taPair_step E h F mem kl.1 kl.2 std g h1 h2 h3).trans
        (ih _ mem' gs gs' (fun p hp => hF p (List.mem_cons_of_mem _ hp)) hr)

lemma taListIntra_mem (E : TA K) (dens : K) (k0 nk : ℕ) {p : (ℕ × ℕ) × K} (hp : p ∈ taListIntra E dens k0 nk) :
    p.1 ∈ taIntra k0 nk := by
  unfold taListIntra at hp
  rw [List.mem_map] at hp
  obtain ⟨⟨q, i⟩, hq, rfl⟩ := hp
  exact List.fst_mem_of_mem_zipIdx hq

theorem taVoxel_step (E : TA K) (h : E.Ok) (mem mem' : Mem T K) (v : ℕ) (g g' : TAGen K)
    (hr : taVoxel E mem v g = some (mem', g')) : Step E.m E.eps (foot E.part E.a E.b v) mem mem' := by
  unfold taVoxel at hr
  simp only at hr
  by_cases h0 : E.part E.a (v + 1) - E.part E.a v = 0
  · rw [if_pos h0] at hr
    simp only [Option.some.injEq, Prod.mk.injEq] at hr
    rw [hr.1]
    exact Step.refl ..
  rw [if_neg h0] at hr
  have hA : ∀ k, E.part E.a v ≤ k → k < E.part E.a v + (E.part E.a (v + 1) - E.part E.a v) →
      (E.a, k) ∈ foot E.part E.a E.b v := fun k h1 h2 => Finset.mem_union_left _ (mem_block.2 ⟨rfl, h1, h2⟩)
  have hB : ∀ k, E.part E.b v ≤ k → k < E.part E.b v + (E.part E.b (v + 1) - E.part E.b v) →
      (E.b, k) ∈ foot E.part E.a E.b v := fun k h1 h2 => Finset.mem_union_right _ (mem_block.2 ⟨rfl, h1, h2⟩)
  cases hs : taShuffle Part.w (E.part E.a v + (E.part E.a (v + 1) - E.part E.a v)) (E.part E.a (v + 1) - E.part E.a v - 1)
    (E.part E.a v) (fun k => mem (E.a, k)) 0 g.1 with
  | none => rw [hs] at hr; simp at hr
  | some r =>
    obtain ⟨x, dk, as⟩ := r
    rw [hs] at hr
    simp only at hr
    have s1 := shuffle_step E.m E.eps (foot E.part E.a E.b v) E.a _ mem _ _ _ _ _ _ _ _ (by omega) hA hs
    rw [setSpecies_self] at s1
    refine s1.trans ?_
    split_ifs at hr with hab h1
    · rw [Option.map_eq_some_iff] at hr
      obtain ⟨⟨y, gs⟩, h2, h3⟩ := hr
      simp only [Prod.mk.injEq] at h3
      rw [← h3.1]
      refine taRun_step E h _ _ _ _ _ _ ?_ h2
      intro p hp
      obtain ⟨c1, c2, c3⟩ := (ta_intra_counts (E.part E.a v) (E.part E.a (v + 1) - E.part E.a v)).1 p.1
        (taListIntra_mem E _ _ _ hp)
      exact ⟨hA _ c2.1 c2.2, Finset.mem_union_left _ (mem_block.2 ⟨hab.symm, c3.1, c3.2⟩), fun e => c1 (Prod.mk.inj e).2⟩
    · simp only [Option.some.injEq, Prod.mk.injEq] at hr
      rw [hr.1]
      exact Step.refl ..
    · rw [Option.map_eq_some_iff] at hr
      obtain ⟨⟨y, gs⟩, h2, h3⟩ := hr
      simp only [Prod.mk.injEq] at h3
      rw [← h3.1]
      refine taRun_step E h _ _ _ _ _ _ ?_ h2
      intro p hp
      unfold taListInter at hp
      rw [List.mem_map] at hp
      obtain ⟨q, hq, rfl⟩ := hp
      obtain ⟨c1, c2⟩ := (ta_inter_counts (E.part E.a v) (E.part E.a (v + 1) - E.part E.a v) (E.part E.b v)
        (E.part E.b (v + 1) - E.part E.b v) (by omega) (by omega)).1 q hq
      exact ⟨hA _ c1.1 c1.2, hB _ c2.1 c2.2, fun e => hab (Prod.mk.inj e).1⟩

/-! ## Binary model -/

/-- What the binary operator assumes: positive masses, and a kernel that conserves momentum and energy for impact parameters
inside the unit circle and transfers nothing between particles of equal momentum. -/
structure Bin.Ok (E : Bin T K) (eps : K) : Prop where
  ma : 0 < E.m E.a
  mb : 0 < E.m E.b
  kernel : ∀ b c ui uj, b * b + c * c < 1 →
    Conserves (E.m E.a) (E.m E.b) eps (applyTransfer (E.m E.a) (E.m E.b) 3 (E.xfer b c fun k => ui k - uj k) ui uj) ui uj
  still : ∀ b c, E.xfer b c (fun _ => 0) = fun _ => 0

lemma drawDisc_in {bs bs' : List (K × K)} {b : K × K} (h : drawDisc bs = some (b, bs')) : b.1 * b.1 + b.2 * b.2 < 1 := by
  induction bs with
  | nil => simp [drawDisc] at h
  | cons c bs ih =>
    unfold drawDisc at h
    split_ifs at h with h1
    · exact ih h
    · simp only [Option.some.injEq, Prod.mk.injEq] at h
      rw [← h.1]
      exact not_le.1 h1

lemma setU_self (x : Mem T K) (l : Loc) (u : Fin 3 → K) (h : u = (x l).u) : setU x l u = x := by
  funext y
  unfold setU
  split_ifs with e
  · rw [e, h]
  · rfl

lemma updateType_cases (wk wl r : K) : updateType wk wl r = 1 ∨ updateType wk wl r = 2 ∨ updateType wk wl r = 3 := by
  unfold updateType
  simp only
  split_ifs <;> simp

lemma binPair_step (E : Bin T K) (eps : K) (h : E.Ok eps) (F : Finset Loc) (mem : Mem T K) (k l : ℕ) (r : K) (b : K × K)
    (hb : b.1 * b.1 + b.2 * b.2 < 1) (hk : (E.a, k) ∈ F) (hl : (E.b, l) ∈ F) :
    Step E.m eps F mem (binPair E mem k l (updateType (mem (E.a, k)).w (mem (E.b, l)).w r) b) := by
  by_cases hne : (E.a, k) = (E.b, l)
  · -- a particle with itself
    have hx : (E.xfer b.1 b.2 fun i => (mem (E.a, k)).u i - (mem (E.b, l)).u i) = fun _ => 0 := by
      rw [hne]
      simp only [sub_self]
      exact h.still _ _
    have e : ∀ t, binPair E mem k l t b = mem := by
      intro t
      unfold binPair
      simp only [hx, mul_zero, sub_zero, add_zero]
      rw [show (if t % 2 = 1 then setU mem (E.a, k) fun i => (mem (E.a, k)).u i else mem) = mem by
        split_ifs
        · exact setU_self _ _ _ rfl
        · rfl]
      split_ifs
      · exact setU_self _ _ _ rfl
      · rfl
    rw [e]
    exact Step.refl ..
  · by_cases hw : (mem (E.a, k)).w = (mem (E.b, l)).w
    · rw [hw, (lighter_updated (mem (E.b, l)).w (mem (E.b, l)).w r).2.2 rfl]
      have e : binPair E mem k l 3 b = setU (setU mem (E.a, k)
          (applyTransfer (E.m E.a) (E.m E.b) 3 (E.xfer b.1 b.2 fun i => (mem (E.a, k)).u i - (mem (E.b, l)).u i)
            (mem (E.a, k)).u (mem (E.b, l)).u).1) (E.b, l)
          (applyTransfer (E.m E.a) (E.m E.b) 3 (E.xfer b.1 b.2 fun i => (mem (E.a, k)).u i - (mem (E.b, l)).u i)
            (mem (E.a, k)).u (mem (E.b, l)).u).2 := by
        unfold binPair applyTransfer
        simp only [Nat.reduceMod, Nat.reduceDiv, if_true]
        congr 1
        funext i
        congr 2
        unfold setU
        rw [if_neg (Ne.symm hne)]
      rw [e]
      exact step_of_pair E.m eps F mem _ _ hk hl hne _ _ fun _ => h.kernel _ _ _ _ hb
    · have s1 : ∀ u, Step E.m eps F mem (setU mem (E.a, k) u) := fun u =>
        step_of_one E.m eps F mem _ _ hk hl hw _ hk u
      have s2 : ∀ x : Mem T K, (x (E.a, k)).w ≠ (x (E.b, l)).w → ∀ u, Step E.m eps F x (setU x (E.b, l) u) := fun x hx u =>
        step_of_one E.m eps F x _ _ hk hl hx _ hl u
      have hw1 : ∀ u, ((setU mem (E.a, k) u) (E.a, k)).w ≠ ((setU mem (E.a, k) u) (E.b, l)).w := by
        intro u
        unfold setU
        rw [if_pos rfl, if_neg (Ne.symm hne)]
        exact hw
      unfold binPair
      simp only
      by_cases ht : updateType (mem (E.a, k)).w (mem (E.b, l)).w r % 2 = 1
      · simp only [if_pos ht]
        split_ifs
        · exact (s1 _).trans (s2 _ (hw1 _) _)
        · exact s1 _
      · simp only [if_neg ht]
        split_ifs
        · exact s2 _ hw _
        · exact Step.refl ..

lemma selectPair_range {k0 nk l0 nl k l : ℕ} {as bs : List ℕ} (hk : 0 < nk) (hk2 : nk ≤ 65535) (hl : 0 < nl) (hl2 : nl ≤ 65535)
    (has : ∀ a ∈ as, a < 2 ^ 32) (h : selectPair k0 nk l0 nl as = some ((k, l), bs)) :
    (k0 ≤ k ∧ k < k0 + nk) ∧ (l0 ≤ l ∧ l < l0 + nl) ∧ ∀ a ∈ bs, a < 2 ^ 32 := by
  unfold selectPair at h
  cases h1 : selectOne nk as with
  | none => rw [h1] at h; simp at h
  | some r =>
    obtain ⟨k', cs⟩ := r
    rw [h1] at h
    simp only at h
    obtain ⟨g1, g2⟩ := selectOne_some hk (small_safe hk hk2) has h1
    cases h2 : selectOne nl cs with
    | none => rw [h2] at h; simp at h
    | some r =>
      obtain ⟨l', ds⟩ := r
      rw [h2] at h
      simp only [Option.some.injEq, Prod.mk.injEq] at h
      obtain ⟨g3, g4⟩ := selectOne_some hl (small_safe hl hl2) g2 h2
      obtain ⟨⟨rfl, rfl⟩, rfl⟩ := h
      exact ⟨by omega, by omega, g4⟩

lemma binCand_step (E : Bin T K) (eps : K) (h : E.Ok eps) (F : Finset Loc) (norm : K) (k0 nk l0 nl : ℕ)
    (hk : 0 < nk) (hk2 : nk ≤ 65535) (hl : 0 < nl) (hl2 : nl ≤ 65535)
    (hA : ∀ k, k0 ≤ k → k < k0 + nk → (E.a, k) ∈ F) (hB : ∀ l, l0 ≤ l → l < l0 + nl → (E.b, l) ∈ F)
    (mem mem' : Mem T K) (g g' : BinGen K) (hg : ∀ a ∈ g.1, a < 2 ^ 32)
    (hr : binCand E norm k0 nk l0 nl mem g = some (mem', g')) : Step E.m eps F mem mem' ∧ ∀ a ∈ g'.1, a < 2 ^ 32 := by
  unfold binCand at hr
  cases hs : selectPair k0 nk l0 nl g.1 with
  | none => rw [hs] at hr; simp at hr
  | some r =>
    obtain ⟨⟨k, l⟩, as⟩ := r
    rw [hs] at hr
    obtain ⟨h1, h2, h3⟩ := selectPair_range hk hk2 hl hl2 hg hs
    simp only at hr
    cases hu : g.2.1 with
    | nil => rw [hu] at hr; simp at hr
    | cons r rs =>
      rw [hu] at hr
      simp only at hr
      have fin : ∀ (t : K) (rs : List K), (drawDisc g.2.2).map (fun b =>
          (binPair E mem k l (updateType (mem (E.a, k)).w (mem (E.b, l)).w t) b.1, as, rs, b.2)) = some (mem', g') →
          Step E.m eps F mem mem' ∧ ∀ a ∈ g'.1, a < 2 ^ 32 := by
        intro t rs hd
        rw [Option.map_eq_some_iff] at hd
        obtain ⟨⟨b, bs⟩, hb, he⟩ := hd
        simp only [Prod.mk.injEq] at he
        rw [← he.1, ← he.2]
        exact ⟨binPair_step E eps h F mem k l t b (drawDisc_in hb) (hA _ h1.1 h1.2) (hB _ h2.1 h2.2), h3⟩
      by_cases c1 : r ≥ (if (mem (E.a, k)).w > (mem (E.b, l)).w then (mem (E.a, k)).w else (mem (E.b, l)).w) * norm *
          E.rate (mem (E.a, k)) (mem (E.b, l))
      · rw [if_pos c1] at hr
        simp only [Option.some.injEq, Prod.mk.injEq] at hr
        rw [← hr.1, ← hr.2]
        exact ⟨Step.refl .., h3⟩
      rw [if_neg c1] at hr
      by_cases c2 : (mem (E.a, k)).w = (mem (E.b, l)).w
      · rw [if_pos c2] at hr
        exact fin _ _ hr
      · rw [if_neg c2] at hr
        cases rs with
        | nil => simp at hr
        | cons r' rs => exact fin _ _ hr

lemma binCands_step (E : Bin T K) (eps : K) (h : E.Ok eps) (F : Finset Loc) (norm : K) (k0 nk l0 nl : ℕ)
    (hk : 0 < nk) (hk2 : nk ≤ 65535) (hl : 0 < nl) (hl2 : nl ≤ 65535)
    (hA : ∀ k, k0 ≤ k → k < k0 + nk → (E.a, k) ∈ F) (hB : ∀ l, l0 ≤ l → l < l0 + nl → (E.b, l) ∈ F) (n : ℕ) :
    ∀ (mem mem' : Mem T K) (g g' : BinGen K), (∀ a ∈ g.1, a < 2 ^ 32) →
    binCands E norm k0 nk l0 nl n mem g = some (mem', g') → Step E.m eps F mem mem' ∧ ∀ a ∈ g'.1, a < 2 ^ 32 := by
  induction n with
  | zero =>
    intro mem mem' g g' hg hr
    simp only [binCands, Option.some.injEq, Prod.mk.injEq] at hr
    rw [← hr.1, ← hr.2]
    exact ⟨Step.refl .., hg⟩
  | succ n ih =>
    intro mem mem' g g' hg hr
    rw [binCands] at hr
    cases hc : binCand E norm k0 nk l0 nl mem g with
    | none => rw [hc] at hr; simp at hr
    | some r =>
      obtain ⟨y, g1⟩ := r
      rw [hc] at hr
      obtain ⟨s1, s2⟩ := binCand_step E eps h F norm k0 nk l0 nl hk hk2 hl hl2 hA hB mem y g g1 hg hc
      obtain ⟨s3, s4⟩ := ih y mem' g1 g' s2 hr
      exact ⟨s1.trans s3, s4⟩

theorem binVoxel_step (E : Bin T K) (eps : K) (h : E.Ok eps) (mem mem' : Mem T K) (v : ℕ) (g g' : BinGen K)
    (hg : ∀ a ∈ g.1, a < 2 ^ 32) (hN : ∀ c, c = E.a ∨ c = E.b → E.part c (v + 1) - E.part c v ≤ 65535)
    (hr : binVoxel E mem v g = some (mem', g')) :
    Step E.m eps (foot E.part E.a E.b v) mem mem' ∧ ∀ a ∈ g'.1, a < 2 ^ 32 := by
  unfold binVoxel at hr
  simp only at hr
  have hA : ∀ k, E.part E.a v ≤ k → k < E.part E.a v + (E.part E.a (v + 1) - E.part E.a v) →
      (E.a, k) ∈ foot E.part E.a E.b v := fun k h1 h2 => Finset.mem_union_left _ (mem_block.2 ⟨rfl, h1, h2⟩)
  have hB : ∀ k, E.part E.b v ≤ k → k < E.part E.b v + (E.part E.b (v + 1) - E.part E.b v) →
      (E.b, k) ∈ foot E.part E.a E.b v := fun k h1 h2 => Finset.mem_union_right _ (mem_block.2 ⟨rfl, h1, h2⟩)
  by_cases h0 : E.part E.a (v + 1) - E.part E.a v = 0
  · rw [if_pos h0] at hr
    simp only [Option.some.injEq, Prod.mk.injEq] at hr
    rw [← hr.1, ← hr.2]
    exact ⟨Step.refl .., hg⟩
  rw [if_neg h0] at hr
  by_cases hab : E.a = E.b
  · rw [if_pos hab] at hr
    have hB' : ∀ k, E.part E.a v ≤ k → k < E.part E.a v + (E.part E.a (v + 1) - E.part E.a v) →
        (E.b, k) ∈ foot E.part E.a E.b v := fun k h1 h2 =>
      Finset.mem_union_left _ (mem_block.2 ⟨hab.symm, h1, h2⟩)
    exact binCands_step E eps h _ _ _ _ _ _ (by omega) (hN _ (Or.inl rfl)) (by omega) (hN _ (Or.inl rfl)) hA hB' _ _ _ _ _ hg hr
  rw [if_neg hab] at hr
  by_cases h1 : E.part E.b (v + 1) - E.part E.b v = 0
  · rw [if_pos h1] at hr
    simp only [Option.some.injEq, Prod.mk.injEq] at hr
    rw [← hr.1, ← hr.2]
    exact ⟨Step.refl .., hg⟩
  · rw [if_neg h1] at hr
    exact binCands_step E eps h _ _ _ _ _ _ (by omega) (hN _ (Or.inl rfl)) (by omega) (hN _ (Or.inr rfl)) hA hB _ _ _ _ _ hg hr

end Verif.Collide
