import Verif.Global.PermParts

/-!
# C107
-/
namespace Verif.Global

open Grid MoveP Charge Torus Threads
open Field (Pos FC FMem World EntOn fieldExt vox)

variable {K : Type} [Field K] [LinearOrder K] [IsStrictOrderedRing K] [Archimedean K] {S : Type*}

/-- **C107.** Two runs of the same periodic box, the second with the axes exchanged by any permutation `σ` (sizes, spacings, materials,
particles and fields), cut in different ways, with different numbers of ranks and pipelines, interleavings and sort
intervals: they print the same errors, and at the end the particles and the fields of the second are those of the first with the axes exchanged, the
magnetic field with the sign of the permutation. -/
theorem run_any_axes {n1 n2 : ℕ} {Z1 : Setup K S n1} {Z2 : Setup K S n2} {V : Drive K} {si : ℕ → ℤ} (σ : Axes) (hZ1 : Cut Z1 V)
    (hZ2 : Cut Z2 { V with cdt_d := moved σ V.cdt_d, sort_interval := si }) {q : ℕ → K} (hU : universeOf Z2 q = (universeOf Z1 q).moved σ)
    {x0 : Box K} {μ0 μ1 μ2 : Machine K S n1} (hμ : Fit Z1 μ0) (hμ' : Holding Z1 q μ0 x0)
    {ν0 ν1 ν2 : Machine K S n2} (hν : Fit Z2 ν0) (hν' : Holding Z2 q ν0 (x0.moved σ))
    {A : Settings} {l1 l2 k1 k2 : List (Msg K)} {i j : ℤ}
    (h1 : Begin Z1 V μ0 μ1 l1) (h2 : Cycles Z1 V A i μ1 j μ2 l2)
    (g1 : Begin Z2 { V with cdt_d := moved σ V.cdt_d, sort_interval := si } ν0 ν1 k1)
    (g2 : Cycles Z2 { V with cdt_d := moved σ V.cdt_d, sort_interval := si } A i ν1 j ν2 k2) :
    l1 ++ l2 = k1 ++ k2 ∧
    (∀ id < Z1.nsp, gather Z2.D Z2.B ν2.R id = (gather Z1.D Z1.B μ2.R id).map (GPart.moved σ)) ∧
    ∀ k, Kept k → ∀ r1 c1 r2 c2, EntOn (Z1.F r1).g fieldExt k c1 → EntOn (Z2.F r2).g fieldExt (movedMember σ k) c2 →
      siteAt Z2.D r2 c2 = moved σ (siteAt Z1.D r1 c1) →
      ν2.m r2 (vox (Z2.F r2).g c2, movedMember σ k) =
        (match k with | .cb _ => handed σ | _ => 1) * μ2.m r1 (vox (Z1.F r1).g c1, k) := by
  obtain ⟨a1, x, a2, a3⟩ := run_in_box hZ1 hμ hμ' h1 h2
  obtain ⟨b1, y, b2, b3⟩ := run_in_box hZ2 hν hν' g1 g2
  rw [hU] at b1 b2
  have eB : ∀ {U : Universe K} {x y : Box K} {l : List (Msg K)} {i j : ℤ},
      BoxCycles U { V with cdt_d := moved σ V.cdt_d, sort_interval := si } A i x j y l → BoxCycles U (driveMoved σ V) A i x j y l := by
    intro U x y l i j h
    induction h with
    | refl => exact .refl _ _
    | step _ h ih => exact .step ih ⟨h.go, h.run⟩
  have eb : boxBegin ((universeOf Z1 q).moved σ) { V with cdt_d := moved σ V.cdt_d, sort_interval := si } (x0.moved σ) =
      ((boxBegin (universeOf Z1 q) V x0).1.moved σ, (boxBegin (universeOf Z1 q) V x0).2) := boxBegin_moved σ (universeOf Z1 q) V x0
  have c := boxCycles_moved σ a2
  have b2 := eB b2
  rw [eb] at b1 b2
  obtain ⟨rfl, rfl⟩ := boxCycles_det c b2
  have hn : Z2.nsp = Z1.nsp := congrArg Universe.nsp hU
  refine ⟨?_, fun id hid => ?_, fun k hk r1 c1 r2 c2 e1 e2 es => ?_⟩
  · rw [a1, b1]
  · rw [a3.parts id hid, b3.parts id (hn ▸ hid)]
    rfl
  · have hk' : Kept (movedMember σ k) := by
      cases k <;> first | exact hk | (simp [Kept, Shared, movedMember]; done) | (simp [Kept, Shared] at hk; done)
    rw [a3.fields k hk r1 c1 e1, b3.fields _ hk' r2 c2 e2, es]
    cases k <;> simp [Box.moved, movedFields, movedMember]

end Verif.Global
