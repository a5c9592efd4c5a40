import Verif.Charge.Periodic
import Verif.SfInterface.UnloadProps
import Verif.Field.SyncProps

/-!
# Sums over the copies of a node or edge
-/
namespace Verif.Charge

open Grid Deposit SfInterface MoveP
open Field (Pos coordOf ranksOf boxSet mem_boxSet dims vox EdgeOn NodeOn InArray World SameAt placeOf copies fieldExt FC
  topOf EntOn)

section
variable {K : Type} [Field K] [LinearOrder K] [IsStrictOrderedRing K]

/-- Reindexing a sum over voxels by positions. -/
lemma sum_reindex {N : ℤ} (B : Finset Pos) (ι : Pos → ℤ) (hi : Set.InjOn ι B) (hm : ∀ c ∈ B, 0 ≤ ι c ∧ ι c < N)
    (f : ℤ → K) (hf : ∀ v, 0 ≤ v → v < N → f v ≠ 0 → ∃ c ∈ B, v = ι c) : ∑ v ∈ Finset.Ico 0 N, f v = ∑ c ∈ B, f (ι c) := by
  classical
  rw [← Finset.sum_image (s := B) (g := ι) (f := f) hi]
  symm
  apply Finset.sum_subset
  · intro v hv
    obtain ⟨c, hc, rfl⟩ := Finset.mem_image.mp hv
    exact Finset.mem_Ico.mpr (hm c hc)
  · intro v hr hv
    by_contra hne
    have hr := Finset.mem_Ico.mp hr
    obtain ⟨c, hc, rfl⟩ := hf v hr.1 hr.2 hne
    exact hv (Finset.mem_image_of_mem _ hc)

/-- Currents unloaded from accumulators of interior voxels are on edges of the mesh. -/
lemma edge_support {g : LGrid} {a : Accum K} (ht : Tidy g a) (c : Fin 3 → K) (v : ℤ) (k : Fin 3)
    (h : unloadAt g c a v k ≠ 0) : ∃ p : Pos, EdgeOn g k p ∧ v = vox g p := by
  have go : ∀ (w : ℤ) (j : Fin 12) (ox oy oz : ℤ), a w j ≠ 0 → v = w + (ox + (g.nx + 2) * (oy + (g.ny + 2) * oz)) →
      (0 ≤ ox ∧ ox ≤ if (0 : Fin 3) = k then 0 else 1) → (0 ≤ oy ∧ oy ≤ if (1 : Fin 3) = k then 0 else 1) →
      (0 ≤ oz ∧ oz ≤ if (2 : Fin 3) = k then 0 else 1) → ∃ p : Pos, EdgeOn g k p ∧ v = vox g p := by
    intro w j ox oy oz hne hv hx hy hz
    obtain ⟨d, ⟨d1, d2, d3, d4, d5, d6⟩, rfl⟩ := ht w j hne
    refine ⟨![d.x + ox, d.y + oy, d.z + oz], ?_, ?_⟩
    · intro b
      fin_cases b
      · show 1 ≤ d.x + ox ∧ d.x + ox ≤ g.nx + if (0 : Fin 3) = k then 0 else 1
        omega
      · show 1 ≤ d.y + oy ∧ d.y + oy ≤ g.ny + if (1 : Fin 3) = k then 0 else 1
        omega
      · show 1 ≤ d.z + oz ∧ d.z + oz ≤ g.nz + if (2 : Fin 3) = k then 0 else 1
        omega
    · rw [hv]
      unfold vox VOXEL
      simp only [Matrix.cons_val_zero, Matrix.cons_val_one, Matrix.cons_val]
      ring
  have four : ∀ {c x y z w : K}, c * (x + y + z + w) ≠ 0 → x ≠ 0 ∨ y ≠ 0 ∨ z ≠ 0 ∨ w ≠ 0 := by
    intro c x y z w h
    by_contra hc
    push Not at hc
    obtain ⟨rfl, rfl, rfl, rfl⟩ := hc
    exact h (by ring)
  fin_cases k
  · rcases four h with h | h | h | h
    · exact go _ _ 0 0 0 h (by ring) (by simp) (by simp) (by simp)
    · exact go _ _ 0 1 0 h (by ring) (by simp) (by simp) (by simp)
    · exact go _ _ 0 0 1 h (by ring) (by simp) (by simp) (by simp)
    · exact go _ _ 0 1 1 h (by ring) (by simp) (by simp) (by simp)
  · rcases four h with h | h | h | h
    · exact go _ _ 0 0 0 h (by ring) (by simp) (by simp) (by simp)
    · exact go _ _ 0 0 1 h (by ring) (by simp) (by simp) (by simp)
    · exact go _ _ 1 0 0 h (by ring) (by simp) (by simp) (by simp)
    · exact go _ _ 1 0 1 h (by ring) (by simp) (by simp) (by simp)
  · rcases four h with h | h | h | h
    · exact go _ _ 0 0 0 h (by ring) (by simp) (by simp) (by simp)
    · exact go _ _ 1 0 0 h (by ring) (by simp) (by simp) (by simp)
    · exact go _ _ 0 1 0 h (by ring) (by simp) (by simp) (by simp)
    · exact go _ _ 1 1 0 h (by ring) (by simp) (by simp) (by simp)

/-- Charge of particles inside is on nodes of the mesh. -/
lemma rho_support {g : LGrid} (h : LocalMesh g) (r8V q : K) (ps : List (MoveP.Part K)) (hp : ∀ p ∈ ps, Within g p) :
    ∀ ρ ρ' : ℤ → K, (∀ v, 0 ≤ v → v < nvox g → ρ v ≠ 0 → ∃ c, NodeOn g c ∧ v = vox g c) → accumulateRhoP g r8V q ps ρ = some ρ' →
      ∀ v, 0 ≤ v → v < nvox g → ρ' v ≠ 0 → ∃ c, NodeOn g c ∧ v = vox g c := by
  induction ps with
  | nil =>
    intro ρ ρ' h0 e
    obtain rfl := Option.some.inj e
    exact h0
  | cons p ps ih =>
    intro ρ ρ' h0 e
    obtain ⟨⟨c, hc, hi⟩, -⟩ := hp p (by simp)
    rw [accumulateRhoP, rhoP, hi, addNodes_eq _ _ ⟨(voxel_range h hc.inMesh).1, (nodes_range h hc 7).2⟩] at e
    refine ih (fun x hx => hp x (by simp [hx])) _ ρ' ?_ e
    intro v v0 v1 hv
    by_cases hz : ρ v = 0
    · rw [hz, zero_add] at hv
      unfold nodeCharge at hv
      obtain ⟨k, -, hk⟩ := Finset.exists_ne_zero_of_sum_ne_zero hv
      split_ifs at hk with hvk
      swap
      · exact absurd rfl hk
      obtain ⟨c1, c2, c3, c4, c5, c6⟩ := hc
      refine ⟨![c.x + if Nat.testBit k 0 then 1 else 0, c.y + if Nat.testBit k 1 then 1 else 0,
        c.z + if Nat.testBit k 2 then 1 else 0], ?_, ?_⟩
      · intro b
        fin_cases b
        · show 1 ≤ c.x + _ ∧ c.x + _ ≤ g.nx + 1
          split <;> omega
        · show 1 ≤ c.y + _ ∧ c.y + _ ≤ g.ny + 1
          split <;> omega
        · show 1 ≤ c.z + _ ∧ c.z + _ ≤ g.nz + 1
          split <;> omega
      · rw [hvk]
        unfold vox
        fin_cases k <;> simp [nodeOff, VOXEL, Nat.testBit] <;> ring
    · exact h0 v v0 v1 hz

end

section
variable {K : Type} [Field K] [LinearOrder K] [IsStrictOrderedRing K]
variable {D : Decomp} {n : ℕ} (hD : D.ok n = true) (t0 : ℕ → ℤ → ℤ) {F : World K n}
  (hg : ∀ r : Fin n, gridOf D n t0 r = some (F r).g)
include hD hg

lemma dims_cells (r : Fin n) : dims (F r).g = cellsOf D := by
  obtain ⟨a, b, c⟩ := grid_size hD t0 (G := fun r => (F r).g) hg r
  unfold dims cellsOf
  rw [a, b, c]

lemma siteAt_place (x : Fin n × Pos) (a : Fin 3) :
    siteAt D x.1 x.2 a = placeOf F (coordOf D) x a % (ranksOf D a * dims (F x.1).g a) := by
  unfold siteAt placeOf
  rw [dims_cells hD t0 hg]

lemma sameAt_site (x y : Fin n × Pos) (a : Fin 3) :
    SameAt F (ranksOf D) (fun _ => true) (coordOf D) a x y ↔ siteAt D x.1 x.2 a = siteAt D y.1 y.2 a := by
  unfold SameAt siteAt placeOf
  rw [dims_cells hD t0 hg, dims_cells hD t0 hg]
  simp

lemma posOf_vox (r : Fin n) {c : Pos} (hc : InArray (F r).g c) : posOf (F r).g (vox (F r).g c) = c := by
  have h0 := hc 0
  have h1 := hc 1
  have := posOf_voxel (grid_mesh hD t0 (G := fun r => (F r).g) hg r) (x := c 0) (y := c 1) (z := c 2) h0 h1
  unfold vox
  rw [this]
  funext b
  fin_cases b <;> rfl

lemma vox_range (r : Fin n) {c : Pos} (hc : InArray (F r).g c) :
    0 ≤ vox (F r).g c ∧ vox (F r).g c < nvox (F r).g := by
  have := voxel_range (grid_mesh hD t0 (G := fun r => (F r).g) hg r) (c := ⟨c 0, c 1, c 2⟩)
    ⟨(hc 0).1, (hc 0).2, (hc 1).1, (hc 1).2, (hc 2).1, (hc 2).2⟩
  exact this

open Classical in
/-- A sum over the copies of `x` as a sum over ranks and positions. -/
lemma copies_sum (k : FC) (x : Fin n × Pos) (J : Fin n → Pos → K) :
    ∑ z ∈ copies F (ranksOf D) (fun _ => true) (coordOf D) fieldExt k x, J z.1 z.2 =
      ∑ r, ∑ c ∈ boxSet (fun _ => 1) (topOf (F r).g fieldExt k),
        (if ∀ a, siteAt D r c a = siteAt D x.1 x.2 a then 1 else 0) * J r c := by
  unfold copies
  rw [Finset.sum_filter, Finset.sum_product]
  refine Finset.sum_congr rfl fun r _ => ?_
  have : topOf (F x.1).g fieldExt k = topOf (F r).g fieldExt k := by
    funext b
    unfold topOf
    rw [dims_cells hD t0 hg, dims_cells hD t0 hg]
  rw [this]
  refine Finset.sum_congr rfl fun c _ => ?_
  have e : (∀ a, SameAt F (ranksOf D) (fun _ => true) (coordOf D) a x (r, c)) ↔
      ∀ a, siteAt D r c a = siteAt D x.1 x.2 a :=
    forall_congr' fun a => (sameAt_site hD t0 hg x (r, c) a).trans eq_comm
  by_cases hh : ∀ a, siteAt D r c a = siteAt D x.1 x.2 a
  · rw [if_pos (e.mpr hh), if_pos hh, one_mul]
  · rw [if_neg (fun h => hh (e.mp h)), if_neg hh, zero_mul]

/-- The weighted sum of a density on nodes. -/
lemma rho_sites (x : Fin n × Pos) (ρ : Fin n → ℤ → K)
    (hρ : ∀ r v, 0 ≤ v → v < nvox (F r).g → ρ r v ≠ 0 → ∃ c, NodeOn (F r).g c ∧ v = vox (F r).g c) :
    ∑ r, nodeSum (F r).g (onSite K D (siteAt D x.1 x.2) r (F r).g) (ρ r) =
      ∑ z ∈ copies F (ranksOf D) (fun _ => true) (coordOf D) fieldExt .rhof x, ρ z.1 (vox (F z.1).g z.2) := by
  classical
  rw [copies_sum hD t0 hg .rhof x (fun r c => ρ r (vox (F r).g c))]
  refine Finset.sum_congr rfl fun r _ => ?_
  have hmem : ∀ c, c ∈ boxSet (fun _ => 1) (topOf (F r).g fieldExt .rhof) ↔ NodeOn (F r).g c := by
    intro c
    rw [mem_boxSet]
    simp [topOf, fieldExt, NodeOn]
  have arr : ∀ c, NodeOn (F r).g c → InArray (F r).g c := fun c h b => by have := h b; omega
  unfold nodeSum
  rw [sum_reindex (boxSet (fun _ => 1) (topOf (F r).g fieldExt .rhof)) (vox (F r).g)]
  · refine Finset.sum_congr rfl fun c hc => ?_
    rw [onSite, posOf_vox hD t0 hg r (arr c ((hmem c).mp hc))]
  · intro c hc d hd e
    exact Field.vox_inj (arr c ((hmem c).mp hc)) (arr d ((hmem d).mp hd)) e
  · intro c hc
    exact vox_range hD t0 hg r (arr c ((hmem c).mp hc))
  · intro v v0 v1 hv
    obtain ⟨c, hc, rfl⟩ := hρ r v v0 v1 (right_ne_zero_of_mul hv)
    exact ⟨c, (hmem c).mpr hc, rfl⟩

/-- The step of the index along an axis. -/
def strideOf (g : LGrid) : Fin 3 → ℤ := ![1, g.nx + 2, (g.ny + 2) * (g.nx + 2)]

omit [LinearOrder K] [IsStrictOrderedRing K] hD hg in
lemma vox_up (g : LGrid) (a : Fin 3) (c : Pos) : vox g (Field.up a c) = vox g c + strideOf g a := by
  unfold vox VOXEL strideOf
  fin_cases a <;> simp [Field.up] <;> ring

omit [LinearOrder K] [IsStrictOrderedRing K] hD hg in
lemma divJ_strides (g : LGrid) (sc : Scales K) (a : Accum K) (v : ℤ) :
    divJ g sc a v = ∑ k, sc.rd k * (unloadAt g (unloadC sc) a v k - unloadAt g (unloadC sc) a (v - strideOf g k) k) := by
  rw [Fin.sum_univ_three]
  rfl

lemma site_up (r : Fin n) (c : Pos) (a : Fin 3) (X : Pos) :
    (∀ b, siteAt D r (Field.up a c) b = X b) ↔
      ∀ b, (siteAt D r c b + if b = a then 1 else 0) % (ranksOf D b * cellsOf D b) = X b := by
  refine forall_congr' fun b => ?_
  unfold siteAt Field.up
  rw [Int.emod_add_emod]
  split
  · rw [show coordOf D r b * cellsOf D b + (c b + 1 - 1) = coordOf D r b * cellsOf D b + (c b - 1) + 1 by ring]
  · rw [add_zero]

lemma up_same (x y z : Fin n × Pos) (a : Fin 3) (h : ∀ b, siteAt D y.1 (Field.up a y.2) b = siteAt D x.1 x.2 b) :
    (∀ b, siteAt D z.1 (Field.up a z.2) b = siteAt D x.1 x.2 b) ↔ ∀ b, siteAt D z.1 z.2 b = siteAt D y.1 y.2 b := by
  have e : ∀ (w : Fin n × Pos) b, siteAt D w.1 (Field.up a w.2) b =
      (siteAt D w.1 w.2 b + if b = a then 1 else 0) % (ranksOf D b * cellsOf D b) := by
    intro w
    exact (site_up hD t0 hg w.1 w.2 a _).mpr (fun b => rfl)
  refine forall_congr' fun b => ?_
  rw [← h b, e z, e y]
  have md : ∀ w : Fin n × Pos, siteAt D w.1 w.2 b % (ranksOf D b * cellsOf D b) = siteAt D w.1 w.2 b := fun w =>
    Int.emod_emod_of_dvd _ dvd_rfl
  constructor
  · intro h
    rw [← md z, ← md y]
    exact Int.emod_add_cancel_right _ |>.mp h
  · intro h
    rw [h]

/-- The weighted sum of the divergence of the currents in the accumulators. -/
lemma cur_sites (sc : Scales K) (A : Fin n → Accum K) (ht : ∀ r, Tidy (F r).g (A r)) (x : Fin n × Pos)
    (out inn : Fin 3 → Fin n × Pos) (ho : ∀ a b, siteAt D (out a).1 (out a).2 b = siteAt D x.1 x.2 b)
    (hi : ∀ a b, siteAt D (inn a).1 (Field.up a (inn a).2) b = siteAt D x.1 x.2 b) :
    ∑ r, nodeSum (F r).g (onSite K D (siteAt D x.1 x.2) r (F r).g) (divJ (F r).g sc (A r)) =
      ∑ a, sc.rd a *
        (∑ z ∈ copies F (ranksOf D) (fun _ => true) (coordOf D) fieldExt (.jf a) (out a),
            unloadAt (F z.1).g (unloadC sc) (A z.1) (vox (F z.1).g z.2) a -
          ∑ z ∈ copies F (ranksOf D) (fun _ => true) (coordOf D) fieldExt (.jf a) (inn a),
            unloadAt (F z.1).g (unloadC sc) (A z.1) (vox (F z.1).g z.2) a) := by
  classical
  have key : ∀ r, nodeSum (F r).g (onSite K D (siteAt D x.1 x.2) r (F r).g) (divJ (F r).g sc (A r)) =
      ∑ a, sc.rd a * (∑ c ∈ boxSet (fun _ => 1) (topOf (F r).g fieldExt (.jf a)),
          (if ∀ b, siteAt D r c b = siteAt D (out a).1 (out a).2 b then 1 else 0) *
            unloadAt (F r).g (unloadC sc) (A r) (vox (F r).g c) a -
        ∑ c ∈ boxSet (fun _ => 1) (topOf (F r).g fieldExt (.jf a)),
          (if ∀ b, siteAt D r c b = siteAt D (inn a).1 (inn a).2 b then 1 else 0) *
            unloadAt (F r).g (unloadC sc) (A r) (vox (F r).g c) a) := by
    intro r
    unfold nodeSum
    simp only [divJ_strides, Finset.mul_sum]
    rw [Finset.sum_comm]
    refine Finset.sum_congr rfl fun a _ => ?_
    have hmem : ∀ c, c ∈ boxSet (fun _ => 1) (topOf (F r).g fieldExt (.jf a)) ↔ EdgeOn (F r).g a c := by
      intro c
      rw [mem_boxSet]
      refine forall_congr' fun b => ?_
      unfold topOf
      by_cases hb : b = a <;> simp [fieldExt, hb]
    have upArr : ∀ c, EdgeOn (F r).g a c → InArray (F r).g (Field.up a c) := by
      intro c h b
      have := h b
      unfold Field.up
      split_ifs with hb
      · rw [if_pos hb] at this; omega
      · rw [if_neg hb] at this; omega
    have s1 : ∑ v ∈ Finset.Ico 0 (nvox (F r).g), onSite K D (siteAt D x.1 x.2) r (F r).g v *
        unloadAt (F r).g (unloadC sc) (A r) v a = ∑ c ∈ boxSet (fun _ => 1) (topOf (F r).g fieldExt (.jf a)),
          (if ∀ b, siteAt D r c b = siteAt D (out a).1 (out a).2 b then 1 else 0) *
            unloadAt (F r).g (unloadC sc) (A r) (vox (F r).g c) a := by
      rw [sum_reindex (boxSet (fun _ => 1) (topOf (F r).g fieldExt (.jf a))) (vox (F r).g)]
      · refine Finset.sum_congr rfl fun c hc => ?_
        rw [onSite, posOf_vox hD t0 hg r ((hmem c).mp hc).inArray]
        simp only [ho a]
      · intro c hc d hd e
        exact Field.vox_inj ((hmem c).mp hc).inArray ((hmem d).mp hd).inArray e
      · intro c hc
        exact vox_range hD t0 hg r ((hmem c).mp hc).inArray
      · intro v _ _ hv
        obtain ⟨c, hc, rfl⟩ := edge_support (ht r) _ v a (right_ne_zero_of_mul hv)
        exact ⟨c, (hmem c).mpr hc, rfl⟩
    have s2 : ∑ v ∈ Finset.Ico 0 (nvox (F r).g), onSite K D (siteAt D x.1 x.2) r (F r).g v *
        unloadAt (F r).g (unloadC sc) (A r) (v - strideOf (F r).g a) a =
          ∑ c ∈ boxSet (fun _ => 1) (topOf (F r).g fieldExt (.jf a)),
          (if ∀ b, siteAt D r c b = siteAt D (inn a).1 (inn a).2 b then 1 else 0) *
            unloadAt (F r).g (unloadC sc) (A r) (vox (F r).g c) a := by
      rw [sum_reindex (boxSet (fun _ => 1) (topOf (F r).g fieldExt (.jf a))) (fun c => vox (F r).g (Field.up a c))]
      · refine Finset.sum_congr rfl fun c hc => ?_
        rw [onSite, posOf_vox hD t0 hg r (upArr c ((hmem c).mp hc)), vox_up, add_sub_cancel_right]
        have := up_same hD t0 hg x (inn a) (r, c) a (hi a)
        by_cases hh : ∀ b, siteAt D r c b = siteAt D (inn a).1 (inn a).2 b
        · rw [if_pos (this.mpr hh), if_pos hh]
        · rw [if_neg (fun h => hh (this.mp h)), if_neg hh]
      · intro c hc d hd e
        simp only [vox_up, add_left_inj] at e
        exact Field.vox_inj ((hmem c).mp hc).inArray ((hmem d).mp hd).inArray e
      · intro c hc
        exact vox_range hD t0 hg r (upArr c ((hmem c).mp hc))
      · intro v _ _ hv
        obtain ⟨c, hc, e⟩ := edge_support (ht r) _ _ a (right_ne_zero_of_mul hv)
        exact ⟨c, (hmem c).mpr hc, by rw [vox_up]; omega⟩
    rw [← s1, ← s2, ← Finset.sum_sub_distrib, Finset.mul_sum]
    refine Finset.sum_congr rfl fun v _ => ?_
    ring
  simp only [key]
  rw [Finset.sum_comm]
  refine Finset.sum_congr rfl fun a _ => ?_
  rw [← Finset.mul_sum, Finset.sum_sub_distrib, ← copies_sum hD t0 hg, ← copies_sum hD t0 hg]

end

end Verif.Charge
