import Verif.Field.Diagnostics

/-!
# The kernels run, and a counterexample

For every mesh, with known boundary codes, the kernels have a result (so the theorems about results are not
empty), and a concrete field whose divergence of B changes at a symmetric wall.
-/
namespace Verif.Field

open Grid

variable {K : Type*} [Field K]

/-- All walls have a known code. -/
def AllKnown (E : Env K) : Prop := ∀ s, IsWall E s → KnownCode (sideBC E.g s)

lemma AllKnown.some {E : Env K} (h : AllKnown E) {o : Option (List (Step K))}
    (ho : o = none ↔ ∃ s, IsWall E s ∧ ¬ KnownCode (sideBC E.g s)) : ∃ l, o = some l := by
  apply Option.ne_none_iff_exists'.mp
  rw [Ne, ho]
  rintro ⟨s, h1, h2⟩
  exact h2 (h s h1)

lemma endRemote_none (E : Env K) (slots : Slots) : endRemote E slots (fun _ => none) = some [] := rfl

theorem advance_b_runs {E : Env K} (hg : Mesh E.g) (hk : AllKnown E) {R : Distribute.Rounding}
    (hR : R.Accurate) {P : ℕ} (hP : 0 < P) (hP2 : P ≤ 2 ^ 16) (frac : K) (m : FMem K) :
    ∃ m', AdvanceB E R P frac m m' := by
  obtain ⟨-, -, -, -, h5, -⟩ := unknown_code_is_an_error E
  obtain ⟨adj, hadj⟩ := hk.some h5
  obtain ⟨m1, h1⟩ := phase_exists R hR E.g (fun _ => 1) (dims E.g) P xyz (updateCB E frac)
    ((hostFaces E.g).map (updateCB E frac)) m (fun a => hg.lo 1 (by norm_num) a)
    (hg.volume 1 (by norm_num) (by norm_num)) hP hP2
  exact ⟨_, adj, m1, hadj, h1, rfl⟩

theorem edge_kernel_runs {E : Env K} (hg : Mesh E.g) (hk : AllKnown E) {R : Distribute.Rounding}
    (hR : R.Accurate) {P : ℕ} (hP : 0 < P) (hP2 : P ≤ 2 ^ 16) (k : Fin 3 × Pos → Step K) (m : FMem K)
    (recv : Fin 3 × Bool → Option (List K)) (hrecv : endRemote E slotsTangB recv ≠ none) :
    ∃ m', EdgeKernel E R P k recv m m' := by
  obtain ⟨h1, -, -, h4, -⟩ := unknown_code_is_an_error E
  obtain ⟨lg, hlg⟩ := hk.some h1
  obtain ⟨adj, hadj⟩ := hk.some h4
  obtain ⟨rs, hrs⟩ := Option.ne_none_iff_exists'.mp hrecv
  obtain ⟨m1, hm1⟩ := phase_exists R hR E.g (fun _ => 2) (dims E.g) P xyz k
    ((innerEdges E.g).map k) (runSeq lg m) (fun a => hg.lo 2 (by norm_num) a)
    (hg.volume 2 (by norm_num) (by norm_num)) hP hP2
  exact ⟨_, adj, _, hadj, ⟨lg, rs, m1, hlg, hrs, hm1, rfl⟩, rfl⟩

theorem compute_div_e_runs {E : Env K} (hg : Mesh E.g) (hk : AllKnown E) {R : Distribute.Rounding}
    (hR : R.Accurate) {P : ℕ} (hP : 0 < P) (hP2 : P ≤ 2 ^ 16) (k : Pos → Step K) (m : FMem K)
    (recv : Fin 3 × Bool → Option (List K)) (hrecv : endRemote E slotsNormE recv ≠ none) :
    (∃ m', ComputeDivE E R P k recv m m') ∧ ∃ m', ComputeRhob E R P k recv m m' := by
  obtain ⟨-, h2, -, -, -, h6, -, -, h9⟩ := unknown_code_is_an_error E
  obtain ⟨lg, hlg⟩ := hk.some h2
  obtain ⟨adj, hadj⟩ := hk.some h6
  obtain ⟨adj', hadj'⟩ := hk.some h9
  obtain ⟨rs, hrs⟩ := Option.ne_none_iff_exists'.mp hrecv
  obtain ⟨m1, hm1⟩ := phase_exists R hR E.g (fun _ => 2) (dims E.g) P (fun c => [c]) k
    (rs ++ (outerNodes E.g).map k) (runSeq lg m) (fun a => hg.lo 2 (by norm_num) a)
    (hg.volume 2 (by norm_num) (by norm_num)) hP hP2
  exact ⟨⟨_, adj, _, hadj, ⟨lg, rs, hlg, hrs, hm1⟩, rfl⟩, ⟨_, adj', _, hadj', ⟨lg, rs, hlg, hrs, hm1⟩, rfl⟩⟩

theorem clean_div_e_runs {E : Env K} (hg : Mesh E.g) (hk : AllKnown E) {R : Distribute.Rounding}
    (hR : R.Accurate) {P : ℕ} (hP : 0 < P) (hP2 : P ≤ 2 ^ 16) (k : Fin 3 × Pos → Step K) (m : FMem K) :
    ∃ m', CleanDivE E R P k m m' := by
  obtain ⟨-, -, -, h4, -⟩ := unknown_code_is_an_error E
  obtain ⟨adj, hadj⟩ := hk.some h4
  obtain ⟨m1, h1⟩ := phase_exists R hR E.g (fun _ => 1) (dims E.g) P xyz k
    ((hostEdges E.g).map k) m (fun a => hg.lo 1 (by norm_num) a)
    (hg.volume 1 (by norm_num) (by norm_num)) hP hP2
  exact ⟨_, adj, m1, hadj, h1, rfl⟩

theorem compute_div_b_runs {E : Env K} (hg : Mesh E.g) {R : Distribute.Rounding}
    (hR : R.Accurate) {P : ℕ} (hP : 0 < P) (hP2 : P ≤ 2 ^ 16) (m : FMem K) :
    ∃ m', ComputeDivB E R P m m' :=
  phase_exists R hR E.g (fun _ => 1) (dims E.g) P (fun c => [c]) (updateDivB E)
    [] m (fun a => hg.lo 1 (by norm_num) a) (hg.volume 1 (by norm_num) (by norm_num)) hP hP2

theorem clean_div_b_runs {E : Env K} (hg : Mesh E.g) (hk : AllKnown E) {R : Distribute.Rounding}
    (hR : R.Accurate) {P : ℕ} (hP : 0 < P) (hP2 : P ≤ 2 ^ 16) (m : FMem K)
    (recv : Fin 3 × Bool → Option (List K)) (hrecv : endRemote E slotsDivB recv ≠ none) :
    ∃ m', CleanDivB E R P recv m m' := by
  obtain ⟨-, -, h3, -, h5, -⟩ := unknown_code_is_an_error E
  obtain ⟨lg, hlg⟩ := hk.some h3
  obtain ⟨adj, hadj⟩ := hk.some h5
  obtain ⟨rs, hrs⟩ := Option.ne_none_iff_exists'.mp hrecv
  obtain ⟨m1, hm1⟩ := phase_exists R hR E.g (fun _ => 2) (dims E.g) P xyz (marderB E)
    ((innerFaces E.g).map (marderB E) ++ rs ++ (outerFaces E.g).map (marderB E)) (runSeq lg m)
    (fun a => hg.lo 2 (by norm_num) a) (hg.volume 2 (by norm_num) (by norm_num)) hP hP2
  exact ⟨_, adj, _, hadj, ⟨lg, rs, hlg, hrs, hm1⟩, rfl⟩

/-! ### A concrete mesh -/

/-- A mesh of 4 by 3 by 1 cells, every side a wall with code `bc`. -/
def sampleGrid (bc : ℤ) : LGrid where
  nx := 4
  ny := 3
  nz := 1
  bc := fun _ => bc
  range := fun _ => 0
  rangel := 0
  rangeh := 0
  neighbor := fun _ => 0

/-- Vacuum on it, with unit cell sizes and time step. -/
def sampleEnv (bc : ℤ) : Env ℚ where
  g := sampleGrid bc
  ws := 1
  cvac := 1
  dt := 1
  eps0 := 1
  d := fun _ => 1
  rd := fun _ => 1
  dV := 1
  damp := 0
  mc := fun _ => ⟨fun _ => 1, fun _ => 1, fun _ => 1, 1, fun _ => 1⟩
  emat := fun _ _ => 0
  fmat := fun _ _ => 0
  nmat := fun _ => 0

lemma sample_mesh (bc : ℤ) : Mesh (sampleGrid bc) :=
  ⟨by simp [forall_axis, dims, sampleGrid], by simp [sampleGrid]⟩

lemma sample_wall {bc : ℤ} (h : bc < 0) (s : Fin 3 × Bool) : IsWall (sampleEnv bc) s := by
  left; exact h

/-- The hypotheses of C25 are met: an interior node of a mesh with absorbing walls. -/
example : Mesh (sampleEnv absorbFields).g ∧ InteriorNode (sampleEnv absorbFields) ![2, 2, 1] ∧
    ∀ a, Insulator (sampleEnv absorbFields) a ![2, 2, 1] := by
  refine ⟨sample_mesh _, ⟨?_, ?_, ?_⟩, ?_⟩
  · show NodeOn (sampleGrid _) _
    simp [NodeOn, forall_axis, dims, sampleGrid]
  · show ∀ a, 1 < dims (sampleGrid _) a → _
    simp [forall_axis, dims, sampleGrid, sampleEnv]
  · rintro s -
    show absorbFields ≠ antiSymmetricFields
    decide
  · intro a; simp [Insulator, sampleEnv]

/-- The hypotheses of C24 are met in every cell of a mesh with conducting walls. -/
example (c : Pos) : AwayFromSymmetric (sampleEnv antiSymmetricFields) c := by
  have : ∀ a d, ¬ OnSymmetric (sampleEnv antiSymmetricFields) a d := by
    rintro a d ⟨s, -, -, h⟩
    have : sideBC (sampleEnv antiSymmetricFields).g s = antiSymmetricFields := rfl
    rw [this] at h
    revert h; decide
  exact fun a _ => ⟨this a _, this a _⟩

/-- A conducting wall has edges on it. -/
example : OnConductor (sampleEnv antiSymmetricFields) 1 ![1, 2, 1] ∧
    EdgeOn (sampleEnv antiSymmetricFields).g 1 ![1, 2, 1] := by
  refine ⟨⟨(0, true), by decide, ⟨sample_wall (by decide) _, rfl⟩, rfl⟩, ?_⟩
  show EdgeOn (sampleGrid _) _ _
  simp [EdgeOn, forall_axis, dims, sampleGrid]

/-- C28 on a concrete mesh: 48 nodes with an error of one give 12 cells. -/
example (m : FMem ℚ) (h : ∀ c, m (vox (sampleEnv absorbFields).g c, .divE) = 1) :
    rmsDivELocal (sampleEnv absorbFields) Distribute.doubleRounding 3 m = some (12, 12) := by
  rw [rms_div_e_each_node_once (sample_mesh _) Distribute.doubleRounding_accurate (by norm_num) (by norm_num)]
  simp only [h, one_pow, mul_one]
  rw [node_weights_add_up (g := (sampleEnv absorbFields).g) (sample_mesh _)]
  simp [sampleEnv, sampleGrid]

/-! ### C24 fails at symmetric walls -/

/-- `ez = 1` on the edge at (1,2,1), everything else zero. -/
def kick : FMem ℚ := fun x => if x = (vox (sampleGrid symmetricFields) ![1, 2, 1], .e 2) then 1 else 0

/-- Next to a wall with the `symmetric_fields` code, `advance_b` creates a divergence of B out of a field
that has none: the normal component is set to zero after the update, the others are not. -/
theorem div_b_changes_at_symmetric_wall :
    ∃ m', AdvanceB (sampleEnv symmetricFields) Distribute.doubleRounding 1 1 kick m' ∧
      CellOn (sampleEnv symmetricFields).g ![1, 1, 1] ∧
      (∀ c, divB (sampleEnv symmetricFields) c kick = 0) ∧
      divB (sampleEnv symmetricFields) ![1, 1, 1] m' ≠ 0 := by
  have hg : Mesh (sampleEnv symmetricFields).g := sample_mesh symmetricFields
  have hk : AllKnown (sampleEnv symmetricFields) := fun s _ => Or.inr (Or.inl rfl)
  have hR := Distribute.doubleRounding_accurate
  obtain ⟨m', h⟩ := advance_b_runs hg hk hR (P := 1) (by norm_num) (by norm_num) 1 kick
  obtain ⟨h1, h2, -⟩ := advance_b_result hg hR (by norm_num) (by norm_num) h
  have hc : CellOn (sampleEnv symmetricFields).g ![1, 1, 1] := by
    show CellOn (sampleGrid _) _
    simp [CellOn, forall_axis, dims, sampleGrid]
  refine ⟨m', h, hc, ?_, ?_⟩
  · intro c
    simp [divB, kick]
  · have dg : dims (sampleEnv symmetricFields).g = ![4, 3, 1] := rfl
    have wall : ∀ a (c : Pos), (∀ s : Fin 3 × Bool, s.1 = a → c s.1 ≠ wallOf (sampleGrid symmetricFields) s) →
        ¬ OnSymmetric (sampleEnv symmetricFields) a c := by
      rintro a c hn ⟨s, hs, ⟨-, hx⟩, -⟩
      exact hn s hs hx
    have f1 := h1 0 ![1, 1, 1] (faceOn_cell hc 0) ⟨(0, true), rfl, ⟨sample_wall (by decide) _, rfl⟩, rfl⟩
    have f2 := h2 0 (up 0 ![1, 1, 1]) (faceOn_up hc 0) (wall _ _ (by
      rintro ⟨s, b⟩ rfl
      cases b <;> decide))
    have f3 := h1 1 ![1, 1, 1] (faceOn_cell hc 1) ⟨(1, true), rfl, ⟨sample_wall (by decide) _, rfl⟩, rfl⟩
    have f4 := h2 1 (up 1 ![1, 1, 1]) (faceOn_up hc 1) (wall _ _ (by
      rintro ⟨s, b⟩ rfl
      cases b <;> decide))
    rw [divB, Fin.sum_univ_three, f1, f2, f3, f4]
    have v1 : cbVal (sampleEnv symmetricFields) 1 0 (up 0 ![1, 1, 1]) kick = 0 := by decide +kernel
    have v2 : cbVal (sampleEnv symmetricFields) 1 1 (up 1 ![1, 1, 1]) kick = -1 := by decide +kernel
    rw [v1, v2]
    simp [invStep, dims, sampleGrid, sampleEnv]

end Verif.Field
