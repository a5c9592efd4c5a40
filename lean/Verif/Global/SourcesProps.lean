import Verif.Global.Sources

/-!
# C103: particles act by their charge only
-/
namespace Verif.Global

open Grid MoveP Charge Torus Threads
open Field (Pos FC FMem World EntOn fieldExt vox)

variable {K : Type} [Field K] [LinearOrder K] [IsStrictOrderedRing K] [Archimedean K] {S : Type*}

/-- The charges of all ranks: to each charge to mass ratio, cell, place in the cell and momentum, the sum of charge times weight over
the particles of all species and ranks. -/
noncomputable def chargesOf {n : ℕ} (Z : Setup K S n) (V : Drive K) (q : ℕ → K) (μ : Machine K S n) : K × Spot K →₀ K :=
  charges Z.nsp q V.qdt_2mc (gather Z.D Z.B μ.R)

omit [IsStrictOrderedRing K] [Archimedean K] in
lemma charges_holding {n : ℕ} {Z : Setup K S n} (V : Drive K) {q : ℕ → K} {μ : Machine K S n} {x : Box K} (h : Holding Z q μ x) :
    x.charges (universeOf Z q) V = chargesOf Z V q μ := by
  unfold Box.charges chargesOf charges
  refine Finset.sum_congr rfl fun id hid => ?_
  rw [h.parts id (Finset.mem_range.mp hid)]
  rfl

/-- **C103.** Two runs of the same periodic box with the same fields, in which the particles are divided among species, weights and
ranks in different ways, but the charge at each place and momentum is the same for each ratio of charge to mass: they print the
same errors, have the same fields and the same charges at the end.  Particles that are at the same places in both, whatever
their weights, are so at the end. -/
theorem run_by_charges {n1 n2 : ℕ} {Z1 : Setup K S n1} {Z2 : Setup K S n2} {V1 V2 : Drive K} (hZ1 : Cut Z1 V1) (hZ2 : Cut Z2 V2)
    {q1 q2 : ℕ → K} (hw : SameWorld (universeOf Z1 q1) (universeOf Z2 q2) V1 V2) {x0 y0 : Box K} (hf : y0.f = x0.f)
    {μ0 μ1 μ2 : Machine K S n1} (hμ : Fit Z1 μ0) (hμ' : Holding Z1 q1 μ0 x0)
    {ν0 ν1 ν2 : Machine K S n2} (hν : Fit Z2 ν0) (hν' : Holding Z2 q2 ν0 y0)
    (hc : chargesOf Z2 V2 q2 ν0 = chargesOf Z1 V1 q1 μ0)
    {A : Settings} {l1 l2 k1 k2 : List (Msg K)} {i j : ℤ}
    (h1 : Begin Z1 V1 μ0 μ1 l1) (h2 : Cycles Z1 V1 A i μ1 j μ2 l2)
    (g1 : Begin Z2 V2 ν0 ν1 k1) (g2 : Cycles Z2 V2 A i ν1 j ν2 k2) :
    l1 ++ l2 = k1 ++ k2 ∧
    chargesOf Z2 V2 q2 ν2 = chargesOf Z1 V1 q1 μ2 ∧
    (∀ id1 < Z1.nsp, ∀ id2 < Z2.nsp, V2.qdt_2mc id2 = V1.qdt_2mc id1 → ∀ φ,
      gather Z2.D Z2.B ν0.R id2 = (gather Z1.D Z1.B μ0.R id1).map (reweigh φ) →
      gather Z2.D Z2.B ν2.R id2 = (gather Z1.D Z1.B μ2.R id1).map (reweigh φ)) ∧
    ∀ k, Kept k → ∀ r1 c1 r2 c2, EntOn (Z1.F r1).g fieldExt k c1 → EntOn (Z2.F r2).g fieldExt k c2 →
      siteAt Z2.D r2 c2 = siteAt Z1.D r1 c1 → ν2.m r2 (vox (Z2.F r2).g c2, k) = μ2.m r1 (vox (Z1.F r1).g c1, k) := by
  obtain ⟨a1, x, a2, a3⟩ := run_in_box hZ1 hμ hμ' h1 h2
  obtain ⟨b1, y, b2, b3⟩ := run_in_box hZ2 hν hν' g1 g2
  have hx : SameSources (universeOf Z1 q1) (universeOf Z2 q2) V1 V2 x0 y0 :=
    ⟨hf, by rw [charges_holding V2 hν', charges_holding V1 hμ', hc]⟩
  obtain ⟨hb, hb'⟩ := boxBegin_sources hw hx
  obtain ⟨hc, hc', ht⟩ := boxCycles_sources hw hb a2 b2
  refine ⟨?_, ?_, fun id1 hid1 id2 hid2 hq φ hp => ?_, fun k hk r1 c1 r2 c2 e1 e2 es => ?_⟩
  · rw [a1, b1, hb', hc']
  · rw [← charges_holding V2 b3, ← charges_holding V1 a3, hc.charges]
  · rw [b3.parts id2 hid2, a3.parts id1 hid1]
    refine ht id1 hid1 id2 hid2 hq φ ?_
    rw [hν'.parts id2 hid2, hμ'.parts id1 hid1] at hp
    exact boxBegin_twin hw hx hid1 hid2 hq φ hp
  · rw [a3.fields k hk r1 c1 e1, b3.fields k hk r2 c2 e2, es, hc.f]

omit [Field K] [LinearOrder K] [IsStrictOrderedRing K] [Archimedean K] in
lemma reweigh_id (P : Multiset (GPart K)) : P.map (reweigh id) = P := by
  rw [show reweigh (id : K → K) = id from rfl, Multiset.map_id]

/-- **C103.** Tracers do not disturb: a second run with one more species, whose particles have no charge (no weight, or no charge per
weight), differently cut, prints the same errors and ends with the same fields and the same particles of the other species. -/
theorem tracers_do_not_disturb {n1 n2 : ℕ} {Z1 : Setup K S n1} {Z2 : Setup K S n2} {V1 V2 : Drive K} (hZ1 : Cut Z1 V1) (hZ2 : Cut Z2 V2)
    {q1 q2 : ℕ → K} (hw : SameWorld (universeOf Z1 q1) (universeOf Z2 q2) V1 V2) {x0 y0 : Box K} (hf : y0.f = x0.f)
    {μ0 μ1 μ2 : Machine K S n1} (hμ : Fit Z1 μ0) (hμ' : Holding Z1 q1 μ0 x0)
    {ν0 ν1 ν2 : Machine K S n2} (hν : Fit Z2 ν0) (hν' : Holding Z2 q2 ν0 y0)
    (hn : Z2.nsp = Z1.nsp + 1)
    (hs : ∀ id < Z1.nsp, q2 id = q1 id ∧ V2.qdt_2mc id = V1.qdt_2mc id ∧ gather Z2.D Z2.B ν0.R id = gather Z1.D Z1.B μ0.R id)
    (ht : ∀ p ∈ gather Z2.D Z2.B ν0.R Z1.nsp, q2 Z1.nsp * p.w = 0)
    {A : Settings} {l1 l2 k1 k2 : List (Msg K)} {i j : ℤ}
    (h1 : Begin Z1 V1 μ0 μ1 l1) (h2 : Cycles Z1 V1 A i μ1 j μ2 l2)
    (g1 : Begin Z2 V2 ν0 ν1 k1) (g2 : Cycles Z2 V2 A i ν1 j ν2 k2) :
    l1 ++ l2 = k1 ++ k2 ∧
    (∀ id < Z1.nsp, gather Z2.D Z2.B ν2.R id = gather Z1.D Z1.B μ2.R id) ∧
    ∀ k, Kept k → ∀ r1 c1 r2 c2, EntOn (Z1.F r1).g fieldExt k c1 → EntOn (Z2.F r2).g fieldExt k c2 →
      siteAt Z2.D r2 c2 = siteAt Z1.D r1 c1 → ν2.m r2 (vox (Z2.F r2).g c2, k) = μ2.m r1 (vox (Z1.F r1).g c1, k) := by
  have hc : chargesOf Z2 V2 q2 ν0 = chargesOf Z1 V1 q1 μ0 := by
    unfold chargesOf charges
    rw [hn, Finset.sum_range_succ]
    have z : ((gather Z2.D Z2.B ν0.R Z1.nsp).map fun p => Finsupp.single (V2.qdt_2mc Z1.nsp, p.spot) (q2 Z1.nsp * p.w)).sum = 0 := by
      refine Multiset.sum_eq_zero fun c hc => ?_
      obtain ⟨p, hp, rfl⟩ := Multiset.mem_map.mp hc
      rw [ht p hp, Finsupp.single_zero]
    rw [z, add_zero]
    refine Finset.sum_congr rfl fun id hid => ?_
    obtain ⟨e1, e2, e3⟩ := hs id (Finset.mem_range.mp hid)
    rw [e1, e2, e3]
  obtain ⟨a, -, b, c⟩ := run_by_charges hZ1 hZ2 hw hf hμ hμ' hν hν' hc h1 h2 g1 g2
  refine ⟨a, fun id hid => ?_, c⟩
  obtain ⟨-, e2, e3⟩ := hs id hid
  have := b id hid id (by omega) e2 _root_.id (by rw [reweigh_id, e3])
  rwa [reweigh_id] at this

/-- **C103.** The order in which the species are defined does not matter: a second run with the species in the order `σ` prints the
same errors and ends with the same fields and particles. -/
theorem species_in_any_order {n1 n2 : ℕ} {Z1 : Setup K S n1} {Z2 : Setup K S n2} {V1 V2 : Drive K} (hZ1 : Cut Z1 V1) (hZ2 : Cut Z2 V2)
    {q1 q2 : ℕ → K} (hw : SameWorld (universeOf Z1 q1) (universeOf Z2 q2) V1 V2) {x0 y0 : Box K} (hf : y0.f = x0.f)
    {μ0 μ1 μ2 : Machine K S n1} (hμ : Fit Z1 μ0) (hμ' : Holding Z1 q1 μ0 x0)
    {ν0 ν1 ν2 : Machine K S n2} (hν : Fit Z2 ν0) (hν' : Holding Z2 q2 ν0 y0)
    (hn : Z2.nsp = Z1.nsp) (σ : Equiv.Perm ℕ) (hσ : ∀ id, σ id < Z1.nsp ↔ id < Z1.nsp)
    (hs : ∀ id < Z1.nsp, q2 (σ id) = q1 id ∧ V2.qdt_2mc (σ id) = V1.qdt_2mc id ∧ gather Z2.D Z2.B ν0.R (σ id) = gather Z1.D Z1.B μ0.R id)
    {A : Settings} {l1 l2 k1 k2 : List (Msg K)} {i j : ℤ}
    (h1 : Begin Z1 V1 μ0 μ1 l1) (h2 : Cycles Z1 V1 A i μ1 j μ2 l2)
    (g1 : Begin Z2 V2 ν0 ν1 k1) (g2 : Cycles Z2 V2 A i ν1 j ν2 k2) :
    l1 ++ l2 = k1 ++ k2 ∧
    (∀ id < Z1.nsp, gather Z2.D Z2.B ν2.R (σ id) = gather Z1.D Z1.B μ2.R id) ∧
    ∀ k, Kept k → ∀ r1 c1 r2 c2, EntOn (Z1.F r1).g fieldExt k c1 → EntOn (Z2.F r2).g fieldExt k c2 →
      siteAt Z2.D r2 c2 = siteAt Z1.D r1 c1 → ν2.m r2 (vox (Z2.F r2).g c2, k) = μ2.m r1 (vox (Z1.F r1).g c1, k) := by
  have hc : chargesOf Z2 V2 q2 ν0 = chargesOf Z1 V1 q1 μ0 := by
    unfold chargesOf charges
    rw [hn]
    symm
    refine Finset.sum_bij (fun id _ => σ id) (fun id hid => Finset.mem_range.mpr ((hσ id).mpr (Finset.mem_range.mp hid)))
      (fun _ _ _ _ h => σ.injective h) (fun id hid => ⟨σ.symm id, Finset.mem_range.mpr ?_, σ.apply_symm_apply id⟩) fun id hid => ?_
    · rw [← hσ, σ.apply_symm_apply]; exact Finset.mem_range.mp hid
    · obtain ⟨e1, e2, e3⟩ := hs id (Finset.mem_range.mp hid)
      rw [e1, e2, e3]
  obtain ⟨a, -, b, c⟩ := run_by_charges hZ1 hZ2 hw hf hμ hμ' hν hν' hc h1 h2 g1 g2
  refine ⟨a, fun id hid => ?_, c⟩
  obtain ⟨-, e2, e3⟩ := hs id hid
  have := b id hid (σ id) (by rw [hn]; exact (hσ id).mpr hid) e2 _root_.id (by rw [reweigh_id, e3])
  rwa [reweigh_id] at this

end Verif.Global
