import Verif.Field.Advance
import Mathlib.Tactic.LinearCombination
import Mathlib.Algebra.BigOperators.Fin

/-!
# Divergence of B and of eps E (C24, C25)
-/
namespace Verif.Field

open Grid

variable {K : Type*} [Field K]

/-! ### Specification -/

/-- One over the cell size along `a`; zero when the local mesh has a single cell along `a` (nothing
varies along that direction). -/
def invStep (E : Env K) (a : Fin 3) : K := if 1 < dims E.g a then E.rd a else 0

/-- Discrete divergence of `cb` in the cell at `c`. -/
def divB (E : Env K) (c : Pos) (m : FMem K) : K :=
  ∑ a, invStep E a * (m (vox E.g (up a c), .cb a) - m (vox E.g c, .cb a))

/-- Discrete divergence of `eps E` at the node `c`. -/
def divEpsE (E : Env K) (c : Pos) (m : FMem K) : K :=
  ∑ a, invStep E a * ((E.mc (E.emat a (vox E.g c))).eps a * m (vox E.g c, .e a) -
    (E.mc (E.emat a (vox E.g (dn a c)))).eps a * m (vox E.g (dn a c), .e a))

/-- Discrete divergence of the free current at the node `c`. -/
def divJf (E : Env K) (c : Pos) (m : FMem K) : K :=
  ∑ a, invStep E a * (m (vox E.g c, .jf a) - m (vox E.g (dn a c), .jf a))

/-! ### Lemmas -/

lemma p_eq (E : Env K) (s : K) (a : Fin 3) : E.p s a = s * invStep E a := by
  unfold Env.p invStep
  split <;> simp

lemma up_comm (a b : Fin 3) (c : Pos) : up a (up b c) = up b (up a c) := by
  funext d
  simp only [up]
  split_ifs <;> rfl

lemma dn_comm (a b : Fin 3) (c : Pos) : dn a (dn b c) = dn b (dn a c) := by
  funext d
  simp only [dn]
  split_ifs <;> rfl

/-- The specification and the kernel `compute_div_b_err` agree. -/
lemma divBVal_eq (E : Env K) (c : Pos) (m : FMem K) : divBVal E c m = divB E c m := by
  simp only [divBVal, divB, Fin.sum_univ_three, p_eq, one_mul]

lemma divEps_eq (E : Env K) (s : K) (c : Pos) (m : FMem K) : divEps E s c m = s * divEpsE E c m := by
  simp only [divEps, divEpsE, Fin.sum_univ_three, p_eq]
  ring

/-- div curl E = 0 on the mesh. -/
lemma divB_cbVal (E : Env K) (frac : K) (c : Pos) (m : FMem K) :
    ∑ a, invStep E a * (cbVal E frac a (up a c) m - cbVal E frac a c m) = divB E c m := by
  simp only [divB, Fin.sum_univ_three, cbVal, p_eq]
  rw [up_comm 1 0, up_comm 2 0, up_comm 2 1]
  ring

lemma faceOn_cell {g : LGrid} {c : Pos} (h : CellOn g c) (a : Fin 3) : FaceOn g a c := by
  intro b
  have := h b
  split <;> omega

lemma faceOn_up {g : LGrid} {c : Pos} (h : CellOn g c) (a : Fin 3) : FaceOn g a (up a c) := by
  intro b
  have := h b
  simp only [up]
  split <;> omega

/-! ### C24 -/

/-- A cell none of whose faces lies on a symmetric wall of a direction in which the mesh has more than one
cell. -/
def AwayFromSymmetric (E : Env K) (c : Pos) : Prop :=
  ∀ a, 1 < dims E.g a → ¬ OnSymmetric E a c ∧ ¬ OnSymmetric E a (up a c)

/-- `advance_b` does not change the divergence of B. -/
theorem advance_b_keeps_div_b {E : Env K} (hg : Mesh E.g) {R : Distribute.Rounding} (hR : R.Accurate)
    {P : ℕ} (hP : 0 < P) (hP2 : P ≤ 2 ^ 16) {frac : K} {m m' : FMem K} (h : AdvanceB E R P frac m m')
    (c : Pos) (hc : CellOn E.g c) (hs : AwayFromSymmetric E c) : divB E c m' = divB E c m := by
  obtain ⟨-, h2, -⟩ := advance_b_result hg hR hP hP2 h
  rw [← divB_cbVal E frac c m]
  refine Finset.sum_congr rfl fun a _ => ?_
  by_cases ha : 1 < dims E.g a
  · rw [h2 a _ (faceOn_up hc a) (hs a ha).2, h2 a _ (faceOn_cell hc a) (hs a ha).1]
  · simp [invStep, ha]

/-- What may happen to the fields between two observations: `advance_b` with any fraction of a step and any
number of pipelines, or anything that leaves the magnetic field on the faces of the local mesh alone. -/
inductive BStep (E : Env K) : FMem K → FMem K → Prop
  | advance {R : Distribute.Rounding} (hR : R.Accurate) {P : ℕ} (hP : 0 < P) (hP2 : P ≤ 2 ^ 16) {frac : K}
      {m m' : FMem K} (h : AdvanceB E R P frac m m') : BStep E m m'
  | other {m m' : FMem K} (h : ∀ a c, FaceOn E.g a c → m' (vox E.g c, .cb a) = m (vox E.g c, .cb a)) :
      BStep E m m'

/-- Any number of steps. -/
inductive BSteps (E : Env K) : FMem K → FMem K → Prop
  | refl (m : FMem K) : BSteps E m m
  | step {m m' m'' : FMem K} (h : BSteps E m m') (h' : BStep E m' m'') : BSteps E m m''

/-- The other kernels of a time step are such steps. -/
theorem edge_kernel_is_step {E : Env K} (hg : Mesh E.g) {R : Distribute.Rounding} (hR : R.Accurate)
    {P : ℕ} (hP : 0 < P) (hP2 : P ≤ 2 ^ 16) {k : Fin 3 × Pos → Step K}
    (hk : ∀ o, Local (V := fun _ => K) (EW E.g o) (ERd E.g o) (k o))
    {recv : Fin 3 × Bool → Option (List K)} {m m' : FMem K} (h : EdgeKernel E R P k recv m m') :
    BStep E m m' := by
  obtain ⟨mg, hf, -, -, h3⟩ := edge_kernel_result hg hR hP hP2 hk h
  refine BStep.other fun a c hc => ?_
  rw [h3 _ (by rintro b d _ (e | e) <;> simp at e), (filled_tang_b hg hf).1 a c hc]

/-- Any number of steps leaves the divergence of B as it was, in every cell away from symmetric walls. -/
theorem div_b_preserved {E : Env K} (hg : Mesh E.g) {m m' : FMem K} (h : BSteps E m m') (c : Pos)
    (hc : CellOn E.g c) (hs : AwayFromSymmetric E c) : divB E c m' = divB E c m := by
  induction h with
  | refl => rfl
  | step h h' ih =>
    rw [← ih]
    cases h' with
    | advance hR hP hP2 h => exact advance_b_keeps_div_b hg hR hP hP2 h c hc hs
    | other h =>
      refine Finset.sum_congr rfl fun a _ => ?_
      rw [h a _ (faceOn_up hc a), h a _ (faceOn_cell hc a)]

/-- In particular the error `compute_div_b_err` finds is the same before and after. -/
theorem compute_div_b_agrees {E : Env K} (hg : Mesh E.g) {R : Distribute.Rounding} (hR : R.Accurate)
    {P : ℕ} (hP : 0 < P) (hP2 : P ≤ 2 ^ 16) {m m' d d' : FMem K} (h : BSteps E m m')
    (h1 : ComputeDivB E R P m d) (h2 : ComputeDivB E R P m' d') (c : Pos)
    (hc : CellOn E.g c) (hs : AwayFromSymmetric E c) :
    d' (vox E.g c, .divB) = d (vox E.g c, .divB) := by
  rw [(cell_sweep_result hg hR hP hP2 h1).1 c hc, (cell_sweep_result hg hR hP hP2 h2).1 c hc,
    divBVal_eq, divBVal_eq, div_b_preserved hg h c hc hs]

/-! ### C25 -/

/-- `compute_div_e_err` compares `div (eps E)` with the charge. -/
lemma updateDivE_val (E : Env K) (c : Pos) (m : FMem K) :
    updateDivE E c m (vox E.g c, .divE) = (E.mc (E.nmat (vox E.g c))).nonconductive *
      (divEpsE E c m - 1 / E.eps0 * (m (vox E.g c, .rhof) + m (vox E.g c, .rhob))) := by
  simp only [updateDivE, setAt, Function.update_self, divEps_eq, one_mul]

lemma updateE_e (E : Env K) (a : Fin 3) (c : Pos) (m : FMem K) :
    updateE E (a, c) m (vox E.g c, .e a) =
      (E.mc (E.emat a (vox E.g c))).decay a * m (vox E.g c, .e a) +
      (E.mc (E.emat a (vox E.g c))).drive a *
        (curlB E ((1 + E.damp) * E.cvac * E.dt) a c m - E.damp * m (vox E.g c, .tca a) -
          E.dt / E.eps0 * m (vox E.g c, .jf a)) := by
  have n1 : ((vox E.g c, FC.e a) : Addr) ≠ (vox E.g c, .tca a) := by simp
  have n2 : ((vox E.g c, FC.jf a) : Addr) ≠ (vox E.g c, .tca a) := by simp
  simp only [updateE, stepE, setAt, Function.update_self, Function.update_of_ne n1, Function.update_of_ne n2]

/-- div curl (B/mu) = 0 on the mesh. -/
lemma div_curlB (E : Env K) (s : K) (c : Pos) (m : FMem K) :
    ∑ a, invStep E a * (curlB E s a c m - curlB E s a (dn a c) m) = 0 := by
  simp only [Fin.sum_univ_three, curlB, p_eq]
  rw [dn_comm 1 0, dn_comm 2 0, dn_comm 2 1]
  ring

/-- A node of the local mesh away from its surface along every direction in which the mesh has more than one
cell, and not on a conducting wall of the others. -/
structure InteriorNode (E : Env K) (c : Pos) : Prop where
  node : NodeOn E.g c
  inside : ∀ a, 1 < dims E.g a → 2 ≤ c a ∧ c a ≤ dims E.g a
  insulating : ∀ s, OnWall E s c → sideBC E.g s ≠ antiSymmetricFields

/-- The material of an edge neither conducts nor damps: `decay` is one and `drive` is `1/eps`
(/repo/src/field_advance/standard/sfa.cc, `create_sfa_params` with zero conductivity). -/
def Insulator (E : Env K) (a : Fin 3) (c : Pos) : Prop :=
  (E.mc (E.emat a (vox E.g c))).decay a = 1 ∧
  (E.mc (E.emat a (vox E.g c))).drive a * (E.mc (E.emat a (vox E.g c))).eps a = 1

lemma InteriorNode.edge {E : Env K} {c : Pos} (h : InteriorNode E c) {a : Fin 3} (ha : 1 < dims E.g a) :
    EdgeOn E.g a c ∧ ¬ OnConductor E a c ∧ EdgeOn E.g a (dn a c) ∧ ¬ OnConductor E a (dn a c) := by
  refine ⟨?_, ?_, ?_, ?_⟩
  · intro b
    have h1 := h.node b
    split
    · rename_i hb; subst hb; have := h.inside b ha; omega
    · exact h1
  · rintro ⟨s, _, hw, hbc⟩
    exact h.insulating s hw hbc
  · intro b
    have h1 := h.node b
    simp only [dn]
    split
    · rename_i hb; subst hb; have := h.inside b ha; omega
    · exact h1
  · rintro ⟨s, hne, ⟨hw, hx⟩, hbc⟩
    refine h.insulating s ⟨hw, ?_⟩ hbc
    simpa [dn, hne] using hx

/-- `advance_e` changes `div (eps E)` at an interior node by `-dt/eps0` times the divergence of the
current. -/
theorem advance_e_div {E : Env K} (hg : Mesh E.g) {R : Distribute.Rounding} (hR : R.Accurate)
    {P : ℕ} (hP : 0 < P) (hP2 : P ≤ 2 ^ 16) {frac : K}
    {recv : Fin 3 × Bool → Option (List K)} {m m' : FMem K}
    (h : AdvanceE E R P (updateE E) frac recv m m') (hdamp : E.damp = 0)
    (c : Pos) (hc : InteriorNode E c)
    (hmat : ∀ a, 1 < dims E.g a → Insulator E a c ∧ Insulator E a (dn a c)) :
    divEpsE E c m' = divEpsE E c m - E.dt / E.eps0 * divJf E c m := by
  obtain ⟨mg, hf, -, h2, -⟩ := edge_kernel_result hg hR hP hP2 (updateE_local E) h.2
  have hother := (filled_tang_b hg hf).2
  have key : ∀ a d, EdgeOn E.g a d → ¬ OnConductor E a d → Insulator E a d →
      (E.mc (E.emat a (vox E.g d))).eps a * m' (vox E.g d, .e a) =
        (E.mc (E.emat a (vox E.g d))).eps a * m (vox E.g d, .e a) +
        curlB E ((1 + E.damp) * E.cvac * E.dt) a d mg - E.dt / E.eps0 * m (vox E.g d, .jf a) := by
    rintro a d h3 h4 ⟨h5, h6⟩
    rw [(h2 a d h3 h4).1, updateE_e, h5, hdamp, hother (vox E.g d, .e a) (by simp),
      hother (vox E.g d, .jf a) (by simp)]
    linear_combination (curlB E ((1 + 0) * E.cvac * E.dt) a d mg - E.dt / E.eps0 * m (vox E.g d, .jf a)) * h6
  have hz := div_curlB E ((1 + E.damp) * E.cvac * E.dt) c mg
  have : divEpsE E c m' = divEpsE E c m + ∑ a, invStep E a *
      (curlB E ((1 + E.damp) * E.cvac * E.dt) a c mg -
        curlB E ((1 + E.damp) * E.cvac * E.dt) a (dn a c) mg) - E.dt / E.eps0 * divJf E c m := by
    simp only [divEpsE, divJf, Finset.mul_sum, ← Finset.sum_add_distrib, ← Finset.sum_sub_distrib]
    refine Finset.sum_congr rfl fun a _ => ?_
    by_cases ha : 1 < dims E.g a
    · obtain ⟨e1, e2, e3, e4⟩ := hc.edge ha
      rw [key a c e1 e2 (hmat a ha).1, key a _ e3 e4 (hmat a ha).2]
      ring
    · simp [invStep, ha]
  rw [this, hz]
  ring

/-- Consequently, if the charge density `rho` changes to `rho'` over the step as the continuity equation
demands, the electric divergence error is unchanged. -/
theorem advance_e_keeps_gauss {E : Env K} (hg : Mesh E.g) {R : Distribute.Rounding} (hR : R.Accurate)
    {P : ℕ} (hP : 0 < P) (hP2 : P ≤ 2 ^ 16) {frac : K}
    {recv : Fin 3 × Bool → Option (List K)} {m m' : FMem K}
    (h : AdvanceE E R P (updateE E) frac recv m m') (hdamp : E.damp = 0)
    (c : Pos) (hc : InteriorNode E c)
    (hmat : ∀ a, 1 < dims E.g a → Insulator E a c ∧ Insulator E a (dn a c))
    (rho rho' : K) (hcont : rho' - rho + E.dt * divJf E c m = 0) :
    divEpsE E c m' - 1 / E.eps0 * rho' = divEpsE E c m - 1 / E.eps0 * rho := by
  rw [advance_e_div hg hR hP hP2 h hdamp c hc hmat]
  linear_combination (-1 / E.eps0) * hcont

/-- Over any number of steps: `m n` is the field at the start of the n-th `advance_e` and `rho n` the charge at
that time.  Between two calls anything may happen to the current, the magnetic field, ghosts, but not to the electric
field on the edges of the local mesh. -/
theorem gauss_preserved {E : Env K} (hg : Mesh E.g) {R : Distribute.Rounding} (hR : R.Accurate)
    {P : ℕ} (hP : 0 < P) (hP2 : P ≤ 2 ^ 16) {frac : K}
    (recv : ℕ → Fin 3 × Bool → Option (List K)) (m m' : ℕ → FMem K) (rho : ℕ → K)
    (h : ∀ n, AdvanceE E R P (updateE E) frac (recv n) (m n) (m' n))
    (hkeep : ∀ n a c, EdgeOn E.g a c → m (n + 1) (vox E.g c, .e a) = m' n (vox E.g c, .e a))
    (hdamp : E.damp = 0) (c : Pos) (hc : InteriorNode E c)
    (hmat : ∀ a, 1 < dims E.g a → Insulator E a c ∧ Insulator E a (dn a c))
    (hcont : ∀ n, rho (n + 1) - rho n + E.dt * divJf E c (m n) = 0) (n : ℕ) :
    divEpsE E c (m n) - 1 / E.eps0 * rho n = divEpsE E c (m 0) - 1 / E.eps0 * rho 0 := by
  induction n with
  | zero => rfl
  | succ n ih =>
    rw [← ih, ← advance_e_keeps_gauss hg hR hP hP2 (h n) hdamp c hc hmat (rho n) (rho (n + 1)) (hcont n)]
    congr 1
    refine Finset.sum_congr rfl fun a _ => ?_
    by_cases ha : 1 < dims E.g a
    · obtain ⟨e1, -, e3, -⟩ := hc.edge ha
      rw [hkeep n a c e1, hkeep n a _ e3]
    · simp [invStep, ha]

/-- The single material kernels compute the same as the general ones when every edge, face and node has
material 0. -/
theorem vacuum_kernels_agree (E : Env K) (he : ∀ b v, E.emat b v = 0) (hf : ∀ b v, E.fmat b v = 0)
    (hn : ∀ v, E.nmat v = 0) :
    updateEVacuum E = updateE E ∧ updateCurlVacuum E = updateCurl E ∧
    updateDivEVacuum E = updateDivE E ∧ updateRhobVacuum E = updateRhob E ∧
    marderEVacuum E = marderE E := by
  refine ⟨?_, ?_, ?_, ?_, ?_⟩
  · funext o m
    simp only [updateEVacuum, updateE, curlBVacuum_eq E _ hf, stepE, he]
  · funext o m
    simp only [updateCurlVacuum, updateCurl, curlBVacuum_eq E _ hf]
  · funext c m
    simp only [updateDivEVacuum, updateDivE, divEpsVacuum_eq E _ he, hn]
  · funext c m
    simp only [updateRhobVacuum, updateRhob, divEpsVacuum_eq E _ he, hn]
  · funext o m
    obtain ⟨a, c⟩ := o
    simp only [marderEVacuum, marderE, he]
    congr 1
    funext m
    fin_cases a <;> simp only [] <;> ring

/-- `compute_rhob` chooses the bound charge so that `compute_div_e_err` then finds no error at any interior
node, whatever the field and the free charge. -/
theorem compute_rhob_removes_error {E : Env K} (hg : Mesh E.g) {R : Distribute.Rounding} (hR : R.Accurate)
    {P : ℕ} (hP : 0 < P) (hP2 : P ≤ 2 ^ 16) (heps : E.eps0 ≠ 0)
    {recv recv' : Fin 3 × Bool → Option (List K)} {m m1 m2 : FMem K}
    (h1 : ComputeRhob E R P (updateRhob E) recv m m1)
    (h2 : ComputeDivE E R P (updateDivE E) recv' m1 m2)
    (c : Pos) (hc : InteriorNode E c)
    (hnc : (E.mc (E.nmat (vox E.g c))).nonconductive = 0 ∨ (E.mc (E.nmat (vox E.g c))).nonconductive = 1) :
    m2 (vox E.g c, .divE) = 0 := by
  obtain ⟨mg, hf, -, r2, r3⟩ := compute_rhob_result hg hR hP hP2 (updateRhob_local E) h1
  obtain ⟨mg', hf', d1, d2, -⟩ := compute_div_e_result hg hR hP hP2 (updateDivE_local E) h2
  by_cases hw : ∃ s, OnWall E s c ∧ (sideBC E.g s = antiSymmetricFields ∨ sideBC E.g s = absorbFields)
  · exact d1 c hc.node hw
  · push Not at hw
    rw [d2 c hc.node (fun s hs => by have := hw s hs; tauto), updateDivE_val]
    rcases hnc with hnc | hnc
    · rw [hnc, zero_mul]
    · have hr := r2 c hc.node hc.insulating
      have o1 := (filled_norm_e hg hf).2
      have o2 := (filled_norm_e hg hf').2
      have e1 := (filled_norm_e hg hf).1
      have e2 := (filled_norm_e hg hf').1
      have hE : divEpsE E c mg' = divEpsE E c mg := by
        refine Finset.sum_congr rfl fun a _ => ?_
        by_cases ha : 1 < dims E.g a
        · obtain ⟨q1, -, q3, -⟩ := hc.edge ha
          rw [e2 a c q1, e2 a _ q3, r3 _ (by intro d _; simp), r3 _ (by intro d _; simp)]
        · simp [invStep, ha]
      rw [hnc, hE, o2 (vox E.g c, .rhof) (by simp), o2 (vox E.g c, .rhob) (by simp), hr,
        r3 (vox E.g c, .rhof) (by intro d _; simp)]
      simp only [updateRhob, setAt, Function.update_self, divEps_eq, hnc]
      field_simp
      ring

end Verif.Field
