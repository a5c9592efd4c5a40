import Verif.Torus.Spec

/-!
# The ranks and the global mesh: lemmas
-/
namespace Verif.Torus

open Grid
open Field (Pos FC FMem World MC EntOn fieldExt InArray vox ranksOf coordOf SameCells dims up dn EdgeOn FaceOn NodeOn Filled
  localGhostTangB localGhostNormE slotsTangB slotsNormE)
open Charge (cellsOf siteAt dims_cells)

section
variable {K : Type} [Field K] [LinearOrder K] [IsStrictOrderedRing K]

lemma site_up (D : Decomp) {n : ℕ} (r : Fin n) (a : Fin 3) (c : Pos) :
    siteAt D r (up a c) = next (sizeOf D) a (siteAt D r c) := by
  funext b
  unfold next siteAt sizeOf up
  split
  · rw [Int.emod_add_emod]; congr 1; ring
  · rfl

lemma site_dn (D : Decomp) {n : ℕ} (r : Fin n) (a : Fin 3) (c : Pos) :
    siteAt D r (dn a c) = prev (sizeOf D) a (siteAt D r c) := by
  funext b
  unfold prev siteAt sizeOf dn
  split
  · rw [Int.emod_sub_emod]; congr 1; ring
  · rfl

lemma wrapped (N P k : ℤ) : (k % P * N) % (P * N) = (k * N) % (P * N) := by
  rw [Int.emod_def k P, show (k - P * (k / P)) * N = k * N - P * N * (k / P) by ring, Int.sub_mul_emod_self_left]

section
variable {n : ℕ} {D : Decomp} (hD : D.ok n = true) (t0 : ℕ → ℤ → ℤ) {F : World K n}
  (hg : ∀ r : Fin n, gridOf D n t0 r = some (F r).g) (hS : SameCells F D)
include hD hg hS

/-- The ghost plane behind the last cell is the first plane of the next rank. -/
lemma ghost_up (r : Fin n) (a : Fin 3) : ∃ r', F.src r (a, true) = some r' ∧
    ∀ c : Pos, c a = dims (F r).g a + 1 → siteAt D r' (Function.update c a 1) = siteAt D r c := by
  have hF := Field.periodic_world_cart hD t0 hg hS
  obtain ⟨r', h1, hr⟩ := hF.nbr r (a, false) (Or.inl rfl)
  refine ⟨r', h1, fun c hc => ?_⟩
  rw [dims_cells hD t0 hg] at hc
  funext b
  unfold siteAt
  rw [hr]
  by_cases hb : b = a
  · subst b
    simp only [Function.update_self, hc, sub_self, add_zero, Field.dirOf, add_sub_cancel_right]
    rw [wrapped]
    congr 1
    simp
    ring
  · simp [hb]

/-- The ghost plane before the first cell is the last plane of the previous rank. -/
lemma ghost_dn (r : Fin n) (a : Fin 3) : ∃ r', F.src r (a, false) = some r' ∧
    ∀ c : Pos, c a = 0 → siteAt D r' (Function.update c a (dims (F r').g a)) = siteAt D r c := by
  have hF := Field.periodic_world_cart hD t0 hg hS
  obtain ⟨r', h1, hr⟩ := hF.nbr r (a, true) (Or.inl rfl)
  refine ⟨r', h1, fun c hc => ?_⟩
  rw [dims_cells hD t0 hg]
  funext b
  unfold siteAt
  rw [hr]
  by_cases hb : b = a
  · subst b
    simp only [Function.update_self, hc, Field.dirOf, if_true]
    rw [← Int.emod_add_emod, wrapped, Int.emod_add_emod]
    congr 1
    ring
  · simp [hb]

lemma resolved_up (hR : Resolved D) {C : Consts K} (hC : SameConsts F C) (r : Fin n) (a : Fin 3) (c : Pos)
    (f : Pos → K) : Field.invStep (F r) a * (f (siteAt D r (up a c)) - f (siteAt D r c)) =
      C.rd a * (f (siteAt D r (up a c)) - f (siteAt D r c)) := by
  unfold Field.invStep
  split
  · rw [hC.rd]
  · rename_i h
    have hF := Field.periodic_world_cart hD t0 hg hS
    have h1 := (hF.mesh r).pos a
    rw [dims_cells hD t0 hg] at h h1
    have hr : ranksOf D a = 1 := (hR a).resolve_left h
    have hc : cellsOf D a = 1 := by omega
    have : siteAt D r (up a c) = siteAt D r c := by
      funext b
      unfold siteAt up
      by_cases hb : b = a
      · subst b; rw [hr, hc]; simp
      · simp [hb]
    rw [this, sub_self, mul_zero, mul_zero]

lemma resolved_dn (hR : Resolved D) {C : Consts K} (hC : SameConsts F C) (r : Fin n) (a : Fin 3) (c : Pos)
    (f : Pos → K) : Field.invStep (F r) a * (f (siteAt D r c) - f (siteAt D r (dn a c))) =
      C.rd a * (f (siteAt D r c) - f (siteAt D r (dn a c))) := by
  have := resolved_up hD t0 hg hS hR hC r a (dn a c) f
  have e : up a (dn a c) = c := by
    funext b; unfold up dn; split <;> ring
  rwa [e] at this

/-- The magnetic field seen by the edge kernels. -/
lemma seen_b {m : Fin n → FMem K} {G : Fields K} {b : Fin 3} (hh : Holds D F m G (.cb b)) {r : Fin n} {mg : FMem K}
    (hf : Filled (F r) (localGhostTangB (F r)) slotsTangB (F.ghostMail slotsTangB m r) (m r) mg) (X : Fin 3) (hne : X ≠ b)
    (p : Pos) (hX : 0 ≤ p X ∧ p X ≤ dims (F r).g X + 1) (hb : 1 ≤ p b ∧ p b ≤ dims (F r).g b + 1)
    (ho : ∀ o, o ≠ X → o ≠ b → 1 ≤ p o ∧ p o ≤ dims (F r).g o) :
    mg (vox (F r).g p, .cb b) = G (.cb b) (siteAt D r p) := by
  have hF := Field.periodic_world_cart hD t0 hg hS
  obtain ⟨lg, rs, h1, h2, rfl⟩ := hf.ex
  obtain ⟨rs', h3, h4⟩ := Field.ghost_exchange hF.toLinked (fun g hg => Field.slotsTangB_ok hg) Field.slots_dims.1 m r
  rw [h2] at h3
  obtain rfl := Option.some.inj h3
  have hn := (hF.mesh r).pos X
  have slot : ∀ w, p X = w → (p, FC.cb b) ∈ slotsTangB (F r).g X w := by
    intro w hw
    have h3 : b = X + 1 ∨ b = X + 2 := by revert hne; omega
    simp only [slotsTangB, List.mem_append, List.mem_map, Field.mem_edgePlane]
    have on : ∀ o : Fin 3, o ≠ X → o ≠ b → ∀ y, (if y = X then w else 1) ≤ p y ∧
        p y ≤ if y = X then w else if y = o then dims (F r).g y else dims (F r).g y + 1 := by
      intro o h5 h6 y
      by_cases hy : y = X
      · subst hy; simp [hw]
      · rw [if_neg hy, if_neg hy]
        by_cases hyb : y = b
        · subst hyb; rw [if_neg (Ne.symm h6)]; exact hb
        · have := ho y hy hyb
          split <;> omega
    rcases h3 with rfl | rfl
    · exact Or.inl ⟨p, on _ (by omega) (by omega), rfl⟩
    · exact Or.inr ⟨p, on _ (by omega) (by omega), rfl⟩
  have face : ∀ r' w, 1 ≤ w → w ≤ dims (F r').g X → FaceOn (F r').g b (Function.update p X w) := by
    intro r' w h5 h6 y
    rw [hF.dims r' r] at *
    by_cases hy : y = X
    · subst hy; rw [Function.update_self, if_neg hne]; omega
    · rw [Function.update_of_ne hy]
      split
      · rename_i h7; subst h7; exact hb
      · have := ho y hy (by assumption); omega
  by_cases hin : 1 ≤ p X ∧ p X ≤ dims (F r).g X
  · have hfa := face r (p X) hin.1 hin.2
    rw [Function.update_eq_self] at hfa
    rw [(Field.filled_tang_b (hF.mesh r) hf).1 b p hfa]
    exact hh r p (Field.entOn_face.mpr hfa)
  · by_cases h0 : p X = 0
    · obtain ⟨r', h5, h6⟩ := ghost_dn hD t0 hg hS r X
      have := (h4 (runSeq lg (m r))).1 (X, false) r' h5 (p, .cb b) (slot _ h0)
      rw [this]
      show m r' (vox _ (Function.update p X (dims (F r').g X)), _) = _
      rw [hh r' _ (Field.entOn_face.mpr (face r' _ ((hF.mesh r').pos X) le_rfl)), h6 p h0]
    · have h0 : p X = dims (F r).g X + 1 := by omega
      obtain ⟨r', h5, h6⟩ := ghost_up hD t0 hg hS r X
      have := (h4 (runSeq lg (m r))).1 (X, true) r' h5 (p, .cb b) (slot _ h0)
      rw [this]
      show m r' (vox _ (Function.update p X 1), _) = _
      rw [hh r' _ (Field.entOn_face.mpr (face r' _ le_rfl ((hF.mesh r').pos X))), h6 p h0]

/-- The electric field seen by the node kernels. -/
lemma seen_e {m : Fin n → FMem K} {G : Fields K} {a : Fin 3} (hh : Holds D F m G (.e a)) {r : Fin n} {mg : FMem K}
    (hf : Filled (F r) (localGhostNormE (F r)) slotsNormE (F.ghostMail slotsNormE m r) (m r) mg)
    (p : Pos) (ha : 0 ≤ p a ∧ p a ≤ dims (F r).g a + 1)
    (ho : ∀ o, o ≠ a → 1 ≤ p o ∧ p o ≤ dims (F r).g o + 1) :
    mg (vox (F r).g p, .e a) = G (.e a) (siteAt D r p) := by
  have hF := Field.periodic_world_cart hD t0 hg hS
  obtain ⟨lg, rs, h1, h2, rfl⟩ := hf.ex
  obtain ⟨rs', h3, h4⟩ := Field.ghost_exchange hF.toLinked (fun g hg => Field.slotsNormE_ok hg) Field.slots_dims.2.1 m r
  rw [h2] at h3
  obtain rfl := Option.some.inj h3
  have hn := (hF.mesh r).pos a
  have slot : ∀ w, p a = w → (p, FC.e a) ∈ slotsNormE (F r).g a w := by
    intro w hw
    simp only [slotsNormE, List.mem_map, Field.mem_nodePlane]
    refine ⟨p, fun y => ?_, rfl⟩
    by_cases hy : y = a
    · subst hy; simp [hw]
    · rw [if_neg hy, if_neg hy]; exact ho y hy
  have edge : ∀ r' w, 1 ≤ w → w ≤ dims (F r').g a → EdgeOn (F r').g a (Function.update p a w) := by
    intro r' w h5 h6 y
    rw [hF.dims r' r] at *
    by_cases hy : y = a
    · subst hy; rw [Function.update_self, if_pos rfl]; omega
    · rw [Function.update_of_ne hy, if_neg hy]
      exact ho y hy
  by_cases hin : 1 ≤ p a ∧ p a ≤ dims (F r).g a
  · have hfa := edge r (p a) hin.1 hin.2
    rw [Function.update_eq_self] at hfa
    rw [(Field.filled_norm_e (hF.mesh r) hf).1 a p hfa]
    exact hh r p (Field.entOn_edge.1.mpr hfa)
  · by_cases h0 : p a = 0
    · obtain ⟨r', h5, h6⟩ := ghost_dn hD t0 hg hS r a
      have := (h4 (runSeq lg (m r))).1 (a, false) r' h5 (p, .e a) (slot _ h0)
      rw [this]
      show m r' (vox _ (Function.update p a (dims (F r').g a)), _) = _
      rw [hh r' _ (Field.entOn_edge.1.mpr (edge r' _ ((hF.mesh r').pos a) le_rfl)), h6 p h0]
    · have h0 : p a = dims (F r).g a + 1 := by omega
      obtain ⟨r', h5, h6⟩ := ghost_up hD t0 hg hS r a
      have := (h4 (runSeq lg (m r))).1 (a, true) r' h5 (p, .e a) (slot _ h0)
      rw [this]
      show m r' (vox _ (Function.update p a 1), _) = _
      rw [hh r' _ (Field.entOn_edge.1.mpr (edge r' _ le_rfl ((hF.mesh r').pos a))), h6 p h0]

end

end

end Verif.Torus
