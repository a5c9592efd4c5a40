import Verif.Simd.FieldProps

/-!
# C81: one result for every build

The result of a field kernel does not depend on the width of the vectors, on the number of pipelines or on
the rounding of the work distribution.
-/
namespace Verif.Simd

open Field Grid

variable {K : Type*} [Field K]

lemma advance_b_unique {E : Env K} (hg : Mesh E.g) {R R' : Distribute.Rounding} (hR : R.Accurate)
    (hR' : R'.Accurate) {P P' : ℕ} (hP : 0 < P) (hP2 : P ≤ 2 ^ 16) (hP' : 0 < P') (hP2' : P' ≤ 2 ^ 16)
    {frac : K} {m m1 m2 : FMem K} (h1 : AdvanceB E R P frac m m1) (h2 : AdvanceB E R' P' frac m m2) :
    m1 = m2 := by
  obtain ⟨a1, a2, a3⟩ := advance_b_result hg hR hP hP2 h1
  obtain ⟨b1, b2, b3⟩ := advance_b_result hg hR' hP' hP2' h2
  funext x
  by_cases hx : ∃ a c, FaceOn E.g a c ∧ x = (vox E.g c, .cb a)
  · obtain ⟨a, c, hc, rfl⟩ := hx
    by_cases hs : OnSymmetric E a c
    · rw [a1 a c hc hs, b1 a c hc hs]
    · rw [a2 a c hc hs, b2 a c hc hs]
  · push Not at hx
    rw [a3 x hx, b3 x hx]

lemma edge_kernel_unique {E : Env K} (hg : Mesh E.g) {R R' : Distribute.Rounding} (hR : R.Accurate)
    (hR' : R'.Accurate) {P P' : ℕ} (hP : 0 < P) (hP2 : P ≤ 2 ^ 16) (hP' : 0 < P') (hP2' : P' ≤ 2 ^ 16)
    {k : Fin 3 × Pos → Step K}
    (hk : ∀ o, Local (V := fun _ => K) (EW E.g o) (ERd E.g o) (k o))
    {recv : Fin 3 × Bool → Option (List K)} {m m1 m2 : FMem K} (h1 : EdgeKernel E R P k recv m m1)
    (h2 : EdgeKernel E R' P' k recv m m2) : m1 = m2 := by
  obtain ⟨mg, f1, a1, a2, a3⟩ := edge_kernel_result hg hR hP hP2 hk h1
  obtain ⟨mg', f2, b1, b2, b3⟩ := edge_kernel_result hg hR' hP' hP2' hk h2
  obtain rfl : mg = mg' := by
    obtain ⟨lg, rs, e1, e2, rfl⟩ := f1.ex
    obtain ⟨lg', rs', e1', e2', rfl⟩ := f2.ex
    rw [e1] at e1'; rw [e2] at e2'
    rw [Option.some.inj e1', Option.some.inj e2']
  funext x
  by_cases hx : ∃ a c, EdgeOn E.g a c ∧ EW E.g (a, c) x
  · obtain ⟨a, c, hc, hx⟩ := hx
    by_cases hs : OnConductor E a c
    · rcases hx with rfl | rfl
      · exact (a1 a c hc hs).1.trans (b1 a c hc hs).1.symm
      · exact (a1 a c hc hs).2.trans (b1 a c hc hs).2.symm
    · rcases hx with rfl | rfl
      · exact (a2 a c hc hs).1.trans (b2 a c hc hs).1.symm
      · exact (a2 a c hc hs).2.trans (b2 a c hc hs).2.symm
  · push Not at hx
    rw [a3 x hx, b3 x hx]

lemma clean_div_b_unique {E : Env K} (hg : Mesh E.g) {R R' : Distribute.Rounding} (hR : R.Accurate)
    (hR' : R'.Accurate) {P P' : ℕ} (hP : 0 < P) (hP2 : P ≤ 2 ^ 16) (hP' : 0 < P') (hP2' : P' ≤ 2 ^ 16)
    {recv : Fin 3 × Bool → Option (List K)} {m m1 m2 : FMem K} (h1 : CleanDivB E R P recv m m1)
    (h2 : CleanDivB E R' P' recv m m2) : m1 = m2 := by
  obtain ⟨mg, f1, a1, a2, a3⟩ := clean_div_b_result hg hR hP hP2 h1
  obtain ⟨mg', f2, b1, b2, b3⟩ := clean_div_b_result hg hR' hP' hP2' h2
  obtain rfl : mg = mg' := by
    obtain ⟨lg, rs, e1, e2, rfl⟩ := f1.ex
    obtain ⟨lg', rs', e1', e2', rfl⟩ := f2.ex
    rw [e1] at e1'; rw [e2] at e2'
    rw [Option.some.inj e1', Option.some.inj e2']
  funext x
  by_cases hx : ∃ a c, FaceOn E.g a c ∧ x = (vox E.g c, .cb a)
  · obtain ⟨a, c, hc, rfl⟩ := hx
    by_cases hs : OnSymmetric E a c
    · rw [a1 a c hc hs, b1 a c hc hs]
    · rw [a2 a c hc hs, b2 a c hc hs]
  · push Not at hx
    rw [a3 x hx, b3 x hx]

/-- The vector build (any width, any schedule, any number of pipelines) and the scalar build (any schedule,
any number of pipelines) leave the same fields, for each of the kernels that has a vector version. -/
theorem field_kernels_same_in_every_build (W : Width) {E : Env K} (hg : Mesh E.g)
    {R R' : Distribute.Rounding} (hR : R.Accurate) (hR' : R'.Accurate) {P P' : ℕ} (hP : 0 < P)
    (hP2 : P ≤ 2 ^ 16) (hP' : 0 < P') (hP2' : P' ≤ 2 ^ 16)
    (recv : Fin 3 × Bool → Option (List K)) (m m1 m2 : FMem K) :
    (∀ frac, AdvanceBV W E R P frac m m1 → AdvanceB E R' P' frac m m2 → m1 = m2) ∧
    (EdgeKernelV W E R P (blockE E) (updateE E) recv m m1 →
      EdgeKernel E R' P' (updateE E) recv m m2 → m1 = m2) ∧
    (EdgeKernelV W E R P (blockEVacuum E) (updateEVacuum E) recv m m1 →
      EdgeKernel E R' P' (updateEVacuum E) recv m m2 → m1 = m2) ∧
    (EdgeKernelV W E R P (blockCurl E) (updateCurl E) recv m m1 →
      EdgeKernel E R' P' (updateCurl E) recv m m2 → m1 = m2) ∧
    (EdgeKernelV W E R P (blockCurlVacuum E) (updateCurlVacuum E) recv m m1 →
      EdgeKernel E R' P' (updateCurlVacuum E) recv m m2 → m1 = m2) ∧
    (CleanDivBV W E R P recv m m1 → CleanDivB E R' P' recv m m2 → m1 = m2) :=
  ⟨fun _ h1 h2 => advance_b_unique hg hR hR' hP hP2 hP' hP2' (vector_advance_b W hg hR hP hP2 h1) h2,
   fun h1 h2 => edge_kernel_unique hg hR hR' hP hP2 hP' hP2' (updateE_local E)
     (vector_advance_e W hg hR hP hP2 h1) h2,
   fun h1 h2 => edge_kernel_unique hg hR hR' hP hP2 hP' hP2' (updateEVacuum_local E)
     (vector_vacuum_advance_e W hg hR hP hP2 h1) h2,
   fun h1 h2 => edge_kernel_unique hg hR hR' hP hP2 hP' hP2' (updateCurl_local E)
     (vector_compute_curl_b W hg hR hP hP2 h1) h2,
   fun h1 h2 => edge_kernel_unique hg hR hR' hP hP2 hP' hP2' (updateCurlVacuum_local E)
     (vector_vacuum_compute_curl_b W hg hR hP hP2 h1) h2,
   fun h1 h2 => clean_div_b_unique hg hR hR' hP hP2 hP' hP2' (vector_clean_div_b W hg hR hP hP2 h1) h2⟩

/-! ### A concrete case -/

/-- A mesh of 4 × 4 × 1 cells: one block of sixteen. -/
def squareGrid : LGrid :=
  { sampleGrid absorbFields with nx := 4, ny := 4, nz := 1 }

/-- The only pipeline gets all sixteen voxels: one block in the `v16` build, four in the `v4` build. -/
lemma square_blocks (W : Width) : ∃ l, shareV W Distribute.doubleRounding squareGrid (fun _ => 1)
    (dims squareGrid) 1 0 = some l ∧ l.length = 16 / W.lanes := by
  have c0 := Distribute.cut_zero _ Distribute.doubleRounding_accurate 1 1 (by norm_num) (by norm_num)
  have c1 := Distribute.cut_last _ Distribute.doubleRounding_accurate 1 1 (by norm_num) (by norm_num)
  have : Distribute.distributeVoxels Distribute.doubleRounding
      (boxOf (fun _ => 1) (dims squareGrid)) 16 0 1 = some ((1, 1, 1), 16) := by
    simp [Distribute.distributeVoxels, boxOf, dims, squareGrid, c0, c1]
  unfold shareV Distribute.visits
  rw [this]
  refine ⟨_, rfl, ?_⟩
  cases W <;> rfl

example (W : Width) (m : FMem ℚ) : ∃ m',
    AdvanceBV W { sampleEnv absorbFields with g := squareGrid } Distribute.doubleRounding 1 1 m m' ∧
    AdvanceB { sampleEnv absorbFields with g := squareGrid } Distribute.fmaRounding 3 1 m m' := by
  have hg : Mesh ({ sampleEnv absorbFields with g := squareGrid } : Env ℚ).g :=
    ⟨by simp [forall_axis, dims, squareGrid], by simp [squareGrid]⟩
  have hk : AllKnown ({ sampleEnv absorbFields with g := squareGrid } : Env ℚ) :=
    fun s _ => Or.inr (Or.inr (Or.inr rfl))
  obtain ⟨m1, h1⟩ := vector_advance_b_runs W hg hk Distribute.doubleRounding_accurate
    (P := 1) (by norm_num) (by norm_num) 1 m
  obtain ⟨m2, h2⟩ := advance_b_runs hg hk Distribute.fmaRounding_accurate
    (P := 3) (by norm_num) (by norm_num) 1 m
  obtain rfl := (field_kernels_same_in_every_build W hg Distribute.doubleRounding_accurate
    Distribute.fmaRounding_accurate (by norm_num) (by norm_num) (by norm_num) (by norm_num)
    (fun _ => none) m m1 m2).1 1 h1 h2
  exact ⟨m1, h1, h2⟩

end Verif.Simd
