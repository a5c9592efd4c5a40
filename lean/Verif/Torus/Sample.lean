import Verif.Torus.Props
import Verif.Field.WorldSample

/-!
# Runs exist, and one cell per rank is one too few

Every sequence of operations runs on every decomposition, from every initial field.  With one cell per rank along an axis
that is cut, the kernels take the axis for an ignored one (`nx>1 ? … : 0` looks at the local mesh,
/repo/src/field_advance/standard/pipeline/advance_b_pipeline.h:22-24, advance_e_pipeline.h:10-12,
compute_div_e_err_pipeline.h:10-12), and the fields differ from those of the same mesh on one rank.
-/
namespace Verif.Torus

open Grid
open Field (Pos FC FMem World MC EntOn fieldExt InArray vox ranksOf coordOf SameCells dims up dn EdgeOn FaceOn NodeOn
  slotsTangB slotsNormE AdvanceB AdvanceE)
open Charge (cellsOf siteAt posOf)
open Distribute (Rounding doubleRounding doubleRounding_accurate)

section
variable {K : Type} [Field K] [LinearOrder K] [IsStrictOrderedRing K]
variable {n : ℕ} {D : Decomp} (hD : D.ok n = true) (t0 : ℕ → ℤ → ℤ) {F : World K n}
  (hg : ∀ r : Fin n, gridOf D n t0 r = some (F r).g) (hS : SameCells F D)
include hD hg hS

omit hS in
lemma entOn_inArray {r : Fin n} {k : FC} {c : Pos} (h : EntOn (F r).g fieldExt k c) : InArray (F r).g c := by
  intro a
  have := h a
  unfold Field.topOf at this
  split at this <;> omega

omit hS in
/-- Every field on the global mesh can be put on the ranks. -/
theorem holds_exists (G : Fields K) : ∃ m : Fin n → FMem K, ∀ k, Holds D F m G k := by
  refine ⟨fun r x => G x.2 (siteAt D r (posOf (F r).g x.1)), fun k r c hc => ?_⟩
  dsimp only
  rw [Charge.posOf_vox hD t0 hg r (entOn_inArray hD t0 hg hc)]

/-- Every operation runs. -/
theorem op_runs (o : Op K) (m : Fin n → FMem K) : ∃ m', o.On D F m m' := by
  have hF := Field.periodic_world_cart hD t0 hg hS
  have hk : ∀ r, Field.AllKnown (F r) := fun r s hs => absurd hs (Charge.no_wall hF r s)
  cases o with
  | b frac =>
    choose m' h' using fun r => Field.advance_b_runs (hF.mesh r) (hk r) doubleRounding_accurate (P := 3) (by norm_num)
      (by norm_num) frac (m r)
    exact ⟨m', fun r => ⟨_, 3, doubleRounding_accurate, by norm_num, by norm_num, h' r⟩⟩
  | e =>
    choose m' h' using fun r => Field.edge_kernel_runs (hF.mesh r) (hk r) doubleRounding_accurate (P := 3) (by norm_num)
      (by norm_num) (Field.updateE (F r)) (m r) (F.ghostMail slotsTangB m r) (by
        obtain ⟨rs, e, -⟩ := Field.ghost_exchange hF.toLinked (fun g hg => Field.slotsTangB_ok hg) Field.slots_dims.1 m r
        rw [e]; simp)
    exact ⟨m', fun r => ⟨_, 3, doubleRounding_accurate, by norm_num, by norm_num, rfl, h' r⟩⟩
  | source J =>
    refine ⟨fun r x => match x.2 with | .jf a => J a (siteAt D r (posOf (F r).g x.1)) | _ => m r x, ?_, ?_⟩
    · intro r a c hc
      dsimp only
      rw [Charge.posOf_vox hD t0 hg r hc.inArray]
    · rintro r ⟨v, k⟩ hk
      cases k <;> first | rfl | (exfalso; exact hk _ rfl)

/-- Every sequence of operations runs. -/
theorem ops_run (l : List (Op K)) : ∀ m : Fin n → FMem K, ∃ m', RunOn D F l m m' := by
  induction l with
  | nil => exact fun m => ⟨m, .nil m⟩
  | cons o l ih =>
    intro m
    obtain ⟨m1, h1⟩ := op_runs hD t0 hg hS o m
    obtain ⟨m', h2⟩ := ih m1
    exact ⟨m', .cons h1 h2⟩

end

/-! ### Concrete meshes -/

/-- Vacuum with unit cells. -/
def plain {n : ℕ} (g : Fin n → LGrid) : World ℚ n := fun r =>
  ⟨g r, n, 1, 1 / 2, 1, fun _ => 1, fun _ => 1, 1, 0, fun _ => ⟨fun _ => 1, fun _ => 1, fun _ => 1, 1, fun _ => 1⟩,
    fun _ _ => 0, fun _ _ => 0, fun _ => 0⟩

def plainConsts : Consts ℚ := ⟨1, 1 / 2, 1, 0, fun _ => 1⟩

def plainMedium : Medium ℚ :=
  ⟨fun _ _ => ⟨fun _ => 1, fun _ => 1, fun _ => 1, 1, fun _ => 1⟩, fun _ _ => ⟨fun _ => 1, fun _ => 1, fun _ => 1, 1, fun _ => 1⟩,
    fun _ => ⟨fun _ => 1, fun _ => 1, fun _ => 1, 1, fun _ => 1⟩⟩

lemma plain_consts {n : ℕ} (g : Fin n → LGrid) : SameConsts (plain g) plainConsts :=
  ⟨fun _ => rfl, fun _ => rfl, fun _ => rfl, fun _ => rfl, fun _ => rfl⟩

lemma plain_made {n : ℕ} (D : Decomp) (g : Fin n → LGrid) : MadeOf D (plain g) plainMedium :=
  ⟨fun _ _ _ _ => rfl, fun _ _ _ _ => rfl, fun _ _ _ => rfl⟩

lemma plain_same {n : ℕ} (D : Decomp) (hf : localNv D < 2 ^ 31) (g : Fin n → LGrid) : SameCells (plain g) D :=
  ⟨fun _ => rfl, fun _ _ => rfl, fun _ _ => by norm_num [plain], hf⟩

lemma grids_exist {D : Decomp} {n : ℕ} (hD : D.ok n = true) : ∃ g : Fin n → LGrid,
    ∀ r : Fin n, gridOf D n (fun _ _ => 77) r = some (g r) := by
  have h := (Decomp.ok_iff _ n).mp hD
  have ex : ∀ r : Fin n, ∃ g, gridOf D n (fun _ _ => 77) r = some g := by
    intro r
    obtain ⟨g, e, -⟩ := partitionPeriodic_T h (fun _ => localNv D) (fun _ => rfl) (fun _ => 77) r r.2
    exact ⟨g, e⟩
  exact ⟨_, fun r => (ex r).choose_spec⟩

/-- C71 on concrete meshes: 4 by 4 by 2 cells on 2 by 2 by 1 ranks and on one rank; any fields and any operations. -/
example (G : Fields ℚ) (l : List (Op ℚ)) : ∃ (F1 : World ℚ 4) (F2 : World ℚ 1) (m1 m1' : Fin 4 → FMem ℚ)
    (m2 m2' : Fin 1 → FMem ℚ), RunOn ⟨4, 4, 2, 2, 2, 1⟩ F1 l m1 m1' ∧ RunOn ⟨4, 4, 2, 1, 1, 1⟩ F2 l m2 m2' ∧
    (∀ k, Holds ⟨4, 4, 2, 2, 2, 1⟩ F1 m1 G k ∧ Holds ⟨4, 4, 2, 1, 1, 1⟩ F2 m2 G k) ∧
    ∀ k, Used k → ∀ x1 c1 x2 c2, EntOn (F1 x1).g fieldExt k c1 → EntOn (F2 x2).g fieldExt k c2 →
      siteAt ⟨4, 4, 2, 2, 2, 1⟩ x1 c1 = siteAt ⟨4, 4, 2, 1, 1, 1⟩ x2 c2 →
      m1' x1 (vox (F1 x1).g c1, k) = m2' x2 (vox (F2 x2).g c2, k) := by
  have hD1 : (⟨4, 4, 2, 2, 2, 1⟩ : Decomp).ok 4 = true := by decide
  have hD2 : (⟨4, 4, 2, 1, 1, 1⟩ : Decomp).ok 1 = true := by decide
  obtain ⟨g1, hg1⟩ := grids_exist hD1
  obtain ⟨g2, hg2⟩ := grids_exist hD2
  have hS1 := plain_same ⟨4, 4, 2, 2, 2, 1⟩ (by decide) g1
  have hS2 := plain_same ⟨4, 4, 2, 1, 1, 1⟩ (by decide) g2
  obtain ⟨m1, h1⟩ := holds_exists hD1 _ (F := plain g1) hg1 G
  obtain ⟨m2, h2⟩ := holds_exists hD2 _ (F := plain g2) hg2 G
  obtain ⟨m1', r1⟩ := ops_run hD1 _ (F := plain g1) hg1 hS1 l m1
  obtain ⟨m2', r2⟩ := ops_run hD2 _ (F := plain g2) hg2 hS2 l m2
  refine ⟨plain g1, plain g2, m1, m1', m2, m2', r1, r2, fun k => ⟨h1 k, h2 k⟩, fun k hk x1 c1 x2 c2 hc1 hc2 hs => ?_⟩
  exact decomposition_independent_partial hD1 hD2 _ _ (F1 := plain g1) (F2 := plain g2) hg1 hg2 hS1 hS2
    (by unfold Resolved; decide) (by unfold Resolved; decide) (plain_consts g1) (plain_consts g2) (plain_made _ g1)
    (plain_made _ g2) (by decide) l (fun k _ => h1 k) (fun k _ => h2 k) r1 r2 k hk x1 c1 hc1 x2 c2 hc2 hs

/-- **C71 fails with one cell per rank.**  Two cells along x, on two ranks and on one: the same operation on the same
fields gives different fields. -/
theorem one_cell_slabs_differ : ∃ (D1 D2 : Decomp) (F1 : World ℚ 2) (F2 : World ℚ 1) (G : Fields ℚ)
    (m1 m1' : Fin 2 → FMem ℚ) (m2 m2' : Fin 1 → FMem ℚ), D1.ok 2 = true ∧ D2.ok 1 = true ∧ sizeOf D1 = sizeOf D2 ∧
    (∀ r : Fin 2, gridOf D1 2 (fun _ _ => 77) r = some (F1 r).g) ∧ (∀ r : Fin 1, gridOf D2 1 (fun _ _ => 77) r = some (F2 r).g) ∧
    SameCells F1 D1 ∧ SameCells F2 D2 ∧ SameConsts F1 plainConsts ∧ SameConsts F2 plainConsts ∧
    MadeOf D1 F1 plainMedium ∧ MadeOf D2 F2 plainMedium ∧
    (∀ k, Holds D1 F1 m1 G k) ∧ (∀ k, Holds D2 F2 m2 G k) ∧ RunOn D1 F1 [.b 1] m1 m1' ∧ RunOn D2 F2 [.b 1] m2 m2' ∧
    ∃ x1 c1 x2 c2, EntOn (F1 x1).g fieldExt (.cb 2) c1 ∧ EntOn (F2 x2).g fieldExt (.cb 2) c2 ∧
      siteAt D1 x1 c1 = siteAt D2 x2 c2 ∧ m1' x1 (vox (F1 x1).g c1, .cb 2) ≠ m2' x2 (vox (F2 x2).g c2, .cb 2) := by
  have hD1 : (⟨2, 1, 1, 2, 1, 1⟩ : Decomp).ok 2 = true := by decide
  have hD2 : (⟨2, 1, 1, 1, 1, 1⟩ : Decomp).ok 1 = true := by decide
  obtain ⟨g1, hg1⟩ := grids_exist hD1
  obtain ⟨g2, hg2⟩ := grids_exist hD2
  have hS1 := plain_same ⟨2, 1, 1, 2, 1, 1⟩ (by decide) g1
  have hS2 := plain_same ⟨2, 1, 1, 1, 1, 1⟩ (by decide) g2
  let G : Fields ℚ := fun k s => if k = .e 1 then s 0 else 0
  obtain ⟨m1, h1⟩ := holds_exists hD1 _ (F := plain g1) hg1 G
  obtain ⟨m2, h2⟩ := holds_exists hD2 _ (F := plain g2) hg2 G
  obtain ⟨m1', r1⟩ := ops_run hD1 _ (F := plain g1) hg1 hS1 [.b 1] m1
  obtain ⟨m2', r2⟩ := ops_run hD2 _ (F := plain g2) hg2 hS2 [.b 1] m2
  have dm1 := Charge.dims_cells hD1 _ (F := plain g1) hg1 0
  have dm2 := Charge.dims_cells hD2 _ (F := plain g2) hg2 0
  have on1 : EntOn (plain g1 0).g fieldExt (.cb 2) (fun _ => 1) := Field.entOn_face.mpr fun b => by
    rw [dm1]; revert b; decide
  have on2 : EntOn (plain g2 0).g fieldExt (.cb 2) (fun _ => 1) := Field.entOn_face.mpr fun b => by
    rw [dm2]; revert b; decide
  refine ⟨_, _, plain g1, plain g2, G, m1, m1', m2, m2', hD1, hD2, by decide, hg1, hg2, hS1, hS2, plain_consts g1, plain_consts g2,
    plain_made _ g1, plain_made _ g2, h1, h2, r1, r2, 0, fun _ => 1, 0, fun _ => 1, on1, on2, by decide, ?_⟩
  rw [run_global hD2 _ (F := plain g2) hg2 hS2 (by unfold Resolved; decide) (plain_consts g2) (plain_made _ g2) [.b 1]
    (fun k _ => h2 k) r2 _ (.inr (.inl ⟨2, rfl⟩)) 0 _ on2]
  have hF := Field.periodic_world_cart hD1 _ (W := plain g1) hg1 hS1
  cases r1 with
  | cons ho hn =>
    cases hn
    obtain ⟨R, P, q1, q2, q3, q4⟩ := ho 0
    obtain ⟨-, q, -⟩ := Field.advance_b_result (hF.mesh 0) q1 q2 q3 q4
    rw [q 2 _ (Field.entOn_face.mp on1) (by rintro ⟨s, -, hw, -⟩; exact Charge.no_wall hF 0 s hw.1)]
    have z : ∀ a, Field.invStep (plain g1 0) a = 0 := by
      intro a
      unfold Field.invStep
      rw [dm1, if_neg (by revert a; decide)]
    simp only [Field.cbVal, Field.p_eq, z]
    rw [h1 (.cb 2) 0 _ on1]
    have s0 : siteAt ⟨2, 1, 1, 1, 1, 1⟩ (0 : Fin 1) (fun _ => 1) = fun _ => 0 := by decide
    rw [s0]
    simp [runGlobal, Op.apply, yeeB, G, next, plainConsts, sizeOf]
    decide

end Verif.Torus
