import Verif.Global.MirrorParts

/-!
# C108
-/
namespace Verif.Global

open Grid MoveP Charge Torus Threads
open Field (Pos FC FMem World EntOn fieldExt vox)

variable {K : Type} [Field K] [LinearOrder K] [IsStrictOrderedRing K] [Archimedean K] {S : Type*}

/-- **C108.** Two runs of the same periodic box, the second mirrored along any of the axes (materials, particles and fields), cut in different
ways, with different numbers of ranks and pipelines, interleavings and sort intervals: they print the same errors, and at the end the
particles and the fields of the second are the mirror images of those of the first. -/
theorem run_in_mirror {n1 n2 : ℕ} {Z1 : Setup K S n1} {Z2 : Setup K S n2} {V : Drive K} {si : ℕ → ℤ} (φ : Fin 3 → Bool) (hZ1 : Cut Z1 V)
    (hZ2 : Cut Z2 { V with sort_interval := si }) {q : ℕ → K} (hU : universeOf Z2 q = (universeOf Z1 q).mirrored φ) {x0 : Box K}
    {μ0 μ1 μ2 : Machine K S n1} (hμ : Fit Z1 μ0) (hμ' : Holding Z1 q μ0 x0)
    {ν0 ν1 ν2 : Machine K S n2} (hν : Fit Z2 ν0) (hν' : Holding Z2 q ν0 (x0.mirrored (Torus.sizeOf Z1.D) φ))
    {A : Settings} {l1 l2 k1 k2 : List (Msg K)} {i j : ℤ}
    (h1 : Begin Z1 V μ0 μ1 l1) (h2 : Cycles Z1 V A i μ1 j μ2 l2)
    (g1 : Begin Z2 { V with sort_interval := si } ν0 ν1 k1) (g2 : Cycles Z2 { V with sort_interval := si } A i ν1 j ν2 k2) :
    l1 ++ l2 = k1 ++ k2 ∧
    (∀ id < Z1.nsp, gather Z2.D Z2.B ν2.R id = (gather Z1.D Z1.B μ2.R id).map (GPart.mirrored (Torus.sizeOf Z1.D) φ)) ∧
    ∀ k, Kept k → ∀ r1 c1 r2 c2, EntOn (Z1.F r1).g fieldExt k c1 → EntOn (Z2.F r2).g fieldExt k c2 →
      siteAt Z2.D r2 c2 = image (Torus.sizeOf Z1.D) φ (inside k) (siteAt Z1.D r1 c1) →
      ν2.m r2 (vox (Z2.F r2).g c2, k) = signOf φ k * μ2.m r1 (vox (Z1.F r1).g c1, k) := by
  obtain ⟨a1, x, a2, a3⟩ := run_in_box hZ1 hμ hμ' h1 h2
  obtain ⟨b1, y, b2, b3⟩ := run_in_box hZ2 hν hν' g1 g2
  rw [hU] at b1 b2
  have hV : ∀ id, lawAt { V with sort_interval := si } (universeOf Z1 q).q id = lawAt V (universeOf Z1 q).q id := fun _ => rfl
  have hx : ImageX φ (universeOf Z1 q) x0 (x0.mirrored (Torus.sizeOf Z1.D) φ) :=
    ⟨fun id hid => rfl, fun id hid => by rw [← hμ'.parts id hid]; exact gather_inside hZ1.fits.box.ok _ _, fun k s hs => rfl⟩
  obtain ⟨hb, hb'⟩ := boxBegin_image hV rfl hx
  obtain ⟨hc, hc'⟩ := boxCycles_image hV rfl hb a2 b2
  have hn : Z2.nsp = Z1.nsp := congrArg Universe.nsp hU
  refine ⟨?_, fun id hid => ?_, fun k hk r1 c1 r2 c2 e1 e2 es => ?_⟩
  · rw [a1, b1, hb', hc']
  · rw [a3.parts id hid, b3.parts id (hn ▸ hid)]
    exact hc.parts id hid
  · have hs : Site (Torus.sizeOf Z1.D) (siteAt Z1.D r1 c1) := fun a => site_range hZ1.fits.box.ok r1 c1 a
    rw [a3.fields k hk r1 c1 e1, b3.fields k hk r2 c2 e2, es]
    refine (hc.fields k _ (image_site (N := Torus.sizeOf Z1.D) hs)).trans ?_
    exact congrArg (fun s => signOf φ k * x.f k s) (image_image φ (inside k) hs)

end Verif.Global
