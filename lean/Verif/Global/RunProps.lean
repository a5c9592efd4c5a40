import Verif.Global.Run

/-!
# C92: a run does not depend on how the box is cut
-/
namespace Verif.Global

open Grid MoveP Charge Torus Threads
open Field (Pos FC FMem World EntOn fieldExt vox)
open Boundary (Rank Env live)

section
variable {K : Type} {S : Type*} [Field K] [LinearOrder K] [IsStrictOrderedRing K] [Archimedean K]

/-- **C92.** Every run on the ranks of a periodic box, with any number of pipelines and any interleaving, is a run of the box
without ranks: it prints the same errors, and its particles and fields are those of the box. -/
theorem run_in_box {n : ℕ} {Z : Setup K S n} {V : Drive K} (hZ : Cut Z V) {q : ℕ → K} {μ0 μ1 μ2 : Machine K S n} {x0 : Box K} (hμ : Fit Z μ0)
    (h0 : Holding Z q μ0 x0) {A : Settings} {l1 l2 : List (Msg K)} {i j : ℤ} (h1 : Begin Z V μ0 μ1 l1) (h2 : Cycles Z V A i μ1 j μ2 l2) :
    l1 = (boxBegin (universeOf Z q) V x0).2 ∧
    ∃ x2, BoxCycles (universeOf Z q) V A i (boxBegin (universeOf Z q) V x0).1 j x2 l2 ∧ Holding Z q μ2 x2 := by
  obtain ⟨b1, b2, b3, b4⟩ := begin_global hZ h1 hμ h0
  refine ⟨b1, ?_⟩
  suffices ∃ x2, BoxCycles (universeOf Z q) V A i (boxBegin (universeOf Z q) V x0).1 j x2 l2 ∧ Holding Z q μ2 x2 ∧
      Interpolates Z μ2 (interpOf (Torus.sizeOf Z.D) x2.f) ∧ Fit Z μ2 by
    obtain ⟨x2, g1, g2, -⟩ := this
    exact ⟨x2, g1, g2⟩
  induction h2 with
  | refl => exact ⟨_, .refl _ _, b2, b3, b4⟩
  | step _ hc ih =>
    obtain ⟨x1, g1, g2, g3, g4⟩ := ih
    obtain ⟨x2, k1, k2, k3, k4⟩ := cycle_global hZ hc g4 g2 g3
    exact ⟨x2, .step g1 k1, k2, k3, k4⟩

omit [IsStrictOrderedRing K] [Archimedean K] in
/-- A step of the box has one result. -/
theorem boxCycle_det {U : Universe K} {V : Drive K} {A : Settings} {step : ℤ} {x y z : Box K} {l l' : List (Msg K)}
    (h : BoxCycle U V A step x y l) (h' : BoxCycle U V A step x z l') : y = z ∧ l = l' := by
  obtain ⟨a, a1, a2, a3⟩ := h.run
  obtain ⟨b, b1, b2, b3⟩ := h'.run
  have e : ∀ id < U.nsp, ∀ p ∈ x.parts id, a id p = b id p := fun id hid p hp =>
    Option.some.inj ((a1 id hid p hp).symm.trans (b1 id hid p hp))
  have ep : y.parts = z.parts := by
    funext id
    rw [a2, b2]
    by_cases hid : id < U.nsp
    · rw [if_pos hid, if_pos hid]
      exact Multiset.map_congr rfl fun p hp => by rw [e id hid p hp]
    · rw [if_neg hid, if_neg hid]
  have eJ : (∑ id ∈ Finset.range U.nsp, ((x.parts id).map fun p => (a id p).2).sum) =
      ∑ id ∈ Finset.range U.nsp, ((x.parts id).map fun p => (b id p).2).sum :=
    Finset.sum_congr rfl fun id hid => congrArg _ (Multiset.map_congr rfl fun p hp => by rw [e id (Finset.mem_range.mp hid) p hp])
  rw [ep, eJ, ← b3, Prod.mk.injEq] at a3
  refine ⟨?_, a3.2⟩
  cases y
  cases z
  simp only at ep a3
  rw [ep, a3.1]

omit [IsStrictOrderedRing K] [Archimedean K] in
lemma boxCycles_le {U : Universe K} {V : Drive K} {A : Settings} {i j : ℤ} {x y : Box K} {l : List (Msg K)}
    (h : BoxCycles U V A i x j y l) : i ≤ j := by
  induction h with
  | refl => exact le_refl _
  | step _ _ ih => omega

omit [IsStrictOrderedRing K] [Archimedean K] in
/-- A run of the box has one result. -/
theorem boxCycles_det {U : Universe K} {V : Drive K} {A : Settings} {i j : ℤ} {x y z : Box K} {l l' : List (Msg K)}
    (h : BoxCycles U V A i x j y l) (h' : BoxCycles U V A i x j z l') : y = z ∧ l = l' := by
  induction h generalizing z l' with
  | refl =>
    cases h' with
    | refl => exact ⟨rfl, rfl⟩
    | step h1 h2 => have := boxCycles_le h1; omega
  | @step j y1 y2 l1 l2 h1 h2 ih =>
    generalize hj : j + 1 = j' at h'
    cases h' with
    | refl => have := boxCycles_le h1; omega
    | @step j2 z1 _ k1 k2 g1 g2 =>
      obtain rfl : j = j2 := by omega
      obtain ⟨rfl, rfl⟩ := ih g1
      obtain ⟨rfl, rfl⟩ := boxCycle_det h2 g2
      exact ⟨rfl, rfl⟩

/-- **C92.** Two runs of the same box, cut in different ways, with different numbers of ranks and pipelines, different
interleavings and different sort intervals: they print the same errors, and end with the same particles and the same fields. -/
theorem run_any_decomposition {n1 n2 : ℕ} {Z1 : Setup K S n1} {Z2 : Setup K S n2} {V : Drive K} {si : ℕ → ℤ} (hZ1 : Cut Z1 V)
    (hZ2 : Cut Z2 { V with sort_interval := si }) {q : ℕ → K} (hU : universeOf Z1 q = universeOf Z2 q) {x0 : Box K}
    {μ0 μ1 μ2 : Machine K S n1} (hμ : Fit Z1 μ0) (hμ' : Holding Z1 q μ0 x0)
    {ν0 ν1 ν2 : Machine K S n2} (hν : Fit Z2 ν0) (hν' : Holding Z2 q ν0 x0) {A : Settings} {l1 l2 k1 k2 : List (Msg K)} {i j : ℤ}
    (h1 : Begin Z1 V μ0 μ1 l1) (h2 : Cycles Z1 V A i μ1 j μ2 l2)
    (g1 : Begin Z2 { V with sort_interval := si } ν0 ν1 k1) (g2 : Cycles Z2 { V with sort_interval := si } A i ν1 j ν2 k2) :
    l1 ++ l2 = k1 ++ k2 ∧
    (∀ id < Z1.nsp, gather Z1.D Z1.B μ2.R id = gather Z2.D Z2.B ν2.R id) ∧
    ∀ k, Kept k → ∀ r1 c1 r2 c2, EntOn (Z1.F r1).g fieldExt k c1 → EntOn (Z2.F r2).g fieldExt k c2 →
      siteAt Z1.D r1 c1 = siteAt Z2.D r2 c2 → μ2.m r1 (vox (Z1.F r1).g c1, k) = ν2.m r2 (vox (Z2.F r2).g c2, k) := by
  obtain ⟨a1, x, a2, a3⟩ := run_in_box hZ1 hμ hμ' h1 h2
  obtain ⟨b1, y, b2, b3⟩ := run_in_box hZ2 hν hν' g1 g2
  rw [hU] at a1 a2
  have eB : ∀ {U : Universe K} {x y : Box K} {l : List (Msg K)} {i j : ℤ}, BoxCycles U { V with sort_interval := si } A i x j y l →
      BoxCycles U V A i x j y l := by
    intro U x y l i j h
    induction h with
    | refl => exact .refl _ _
    | step _ h ih => exact .step ih ⟨h.go, h.run⟩
  obtain ⟨rfl, rfl⟩ := boxCycles_det a2 (eB b2)
  have hn : Z1.nsp = Z2.nsp := congrArg Universe.nsp hU
  refine ⟨?_, fun id hid => ?_, fun k hk r1 c1 r2 c2 e1 e2 es => ?_⟩
  · rw [a1, b1]
    rfl
  · rw [a3.parts id hid, b3.parts id (hn ▸ hid)]
  · rw [a3.fields k hk r1 c1 e1, b3.fields k hk r2 c2 e2, es]

end

end Verif.Global
