import Verif.Hydro.Model
import Verif.Deposit.Props
import Verif.SfInterface.ReduceProps
import Mathlib.Tactic.FieldSimp

/-!
# C22: what `accumulate_hydro_p` deposits
-/
namespace Verif.Hydro

open MoveP Boris Grid Deposit SfInterface

variable {K : Type*} [Field K] [LinearOrder K] [IsStrictOrderedRing K]

/-! ## Specification -/

/-- Spec: momentum at the time of the position: the momentum `center_p` computes. -/
def mom (A : Args K) (p : MoveP.Part K) : Fin 3 → K := centerU A.rt A.qdt_2mc (A.f p.i) p.d p.u

/-- Spec: relativistic factor. -/
def gam (A : Args K) (p : MoveP.Part K) : K := A.rt (1 + Boris.dot (mom A p) (mom A p))

/-- Spec: velocity `c u / γ`. -/
def vel (A : Args K) (p : MoveP.Part K) (k : Fin 3) : K := A.c * mom A p k / gam A p

/-- Spec: the quantities a particle of unit weight carries: current, charge, momentum, kinetic energy and
stress. -/
def carried (A : Args K) (p : MoveP.Part K) : Fin 14 → K :=
  let u := mom A p
  let v := vel A p
  let mc := A.msp * A.c
  ![A.qsp * v 0, A.qsp * v 1, A.qsp * v 2, A.qsp, mc * u 0, mc * u 1, mc * u 2,
    mc * (A.c * Boris.dot u u / (gam A p + 1)), mc * u 0 * v 0, mc * u 1 * v 1, mc * u 2 * v 2,
    mc * u 1 * v 2, mc * u 2 * v 0, mc * u 0 * v 1]

/-! ## Proofs -/

lemma weights_eq (r8V : K) (p : MoveP.Part K) : weights r8V p = share p.d (r8V * p.w) := by
  funext k
  unfold share corner
  rw [Fin.prod_univ_three]
  fin_cases k <;> simp [weights, Nat.testBit] <;> ring

lemma kin_mom (A : Args K) (hc : A.c ≠ 0) (p : MoveP.Part K) : (kinematics A p).1 = mom A p := by
  unfold kinematics mom centerU rotate
  simp only
  set h := halfE A.qdt_2mc (A.f p.i) p.d
  set b := interpB (A.f p.i) p.d
  have e : 1 + ((p.u 0 + h 0) * (p.u 0 + h 0) + ((p.u 1 + h 1) * (p.u 1 + h 1) + (p.u 2 + h 2) * (p.u 2 + h 2))) =
    1 + ((p.u 0 + h 0) * (p.u 0 + h 0) + (p.u 1 + h 1) * (p.u 1 + h 1) + (p.u 2 + h 2) * (p.u 2 + h 2)) := by ring
  rw [e]
  generalize A.rt (1 + ((p.u 0 + h 0) * (p.u 0 + h 0) + (p.u 1 + h 1) * (p.u 1 + h 1) +
    (p.u 2 + h 2) * (p.u 2 + h 2))) = G
  have e0 : A.qdt_2mc / (2 * A.c) * (A.c / G) = 1 / 2 * A.qdt_2mc / G := by
    by_cases hG : G = 0
    · simp [hG]
    · field_simp
  rw [e0]
  generalize 1 / 2 * A.qdt_2mc / G = t
  have e1 : b 0 * b 0 + b 1 * b 1 + b 2 * b 2 = b 0 * b 0 + (b 1 * b 1 + b 2 * b 2) := by ring
  rw [e1]
  generalize b 0 * b 0 + (b 1 * b 1 + b 2 * b 2) = B
  have e2 : t * (1 + 1 / 3 * (t * t * B) * (1 + 2 / 5 * (t * t * B))) =
      t * (1 + t * t * B * (1 / 3 + t * t * B * (2 / 15))) := by ring
  rw [e2]
  generalize t * (1 + t * t * B * (1 / 3 + t * t * B * (2 / 15))) = s
  have e3 : 1 + B * s * s = 1 + B * (s * s) := by ring
  rw [e3]

lemma dot_mom (A : Args K) (p : MoveP.Part K) : Boris.dot (mom A p) (mom A p) =
    let h := halfE A.qdt_2mc (A.f p.i) p.d
    (p.u 0 + h 0) * (p.u 0 + h 0) + (p.u 1 + h 1) * (p.u 1 + h 1) + (p.u 2 + h 2) * (p.u 2 + h 2) := by
  unfold mom centerU
  simp only
  rw [rotation_preserves_norm]
  unfold Boris.dot
  ring

/-- The momentum used is the time centred one, the velocity is `c u/γ` with its own `γ`, and the kinetic
energy factor is `c |u|²/(γ+1)`. -/
theorem kinematics_spec (A : Args K) (hc : A.c ≠ 0) (p : MoveP.Part K) :
    (kinematics A p).1 = mom A p ∧ (∀ k, (kinematics A p).2.1 k = vel A p k) ∧
    (kinematics A p).2.2 = A.c * Boris.dot (mom A p) (mom A p) / (gam A p + 1) := by
  have h1 := kin_mom A hc p
  refine ⟨h1, ?_, ?_⟩
  · intro k
    unfold vel gam
    rw [← h1, h1, dot_mom, ← h1]
    unfold kinematics
    simp only
    fin_cases k <;> simp <;> ring
  · unfold gam
    rw [dot_mom]
    unfold kinematics
    simp only
    ring

/-- `c |u|²/(γ+1) = c (γ-1)` when the square root is exact. -/
theorem ke_is_gamma_minus_one (A : Args K) (p : MoveP.Part K)
    (hrt : gam A p * gam A p = 1 + Boris.dot (mom A p) (mom A p)) (hpos : gam A p + 1 ≠ 0) :
    A.c * Boris.dot (mom A p) (mom A p) / (gam A p + 1) = A.c * (gam A p - 1) := by
  rw [div_eq_iff hpos]
  linear_combination A.c * (-hrt)

lemma accum_eq (A : Args K) (hc : A.c ≠ 0) (p : MoveP.Part K) (wn : K) (q : Fin 14) :
    accum A (kinematics A p).1 (kinematics A p).2.1 (kinematics A p).2.2 wn q = wn * carried A p q := by
  obtain ⟨h1, h2, h3⟩ := kinematics_spec A hc p
  rw [h1, h3, funext h2]
  unfold accum carried
  fin_cases q <;> simp <;> ring

lemma offsets_eq (g : LGrid) (k : Fin 8) : offsets g k = nodeOff g k := by
  fin_cases k <;> simp [offsets, nodeOff, VOXEL] <;> ring

lemma runSeq_accum {S : Type*} (l : List S) (addr : S → ℤ) (amt : S → Fin 14 → K) (h : ℤ → Fin 14 → K)
    (x : ℤ) (q : Fin 14) :
    runSeq (l.map fun s (h : ℤ → Fin 14 → K) => put h (addr s) fun q => h (addr s) q + amt s q) h x q =
      h x q + (l.map fun s => if x = addr s then amt s q else 0).sum := by
  induction l generalizing h with
  | nil => simp
  | cons s l ih =>
    rw [List.map_cons, runSeq_cons, ih]
    simp only [List.map_cons, List.sum_cons]
    by_cases hx : x = addr s
    · subst hx; simp [put, add_assoc]
    · simp [put, hx]

/-- Spec: a call whose particles are in cells of the local mesh and whose private copies do not
overlap and fit. -/
structure Ok (A : Args K) (P : ℕ) (cell : ℕ → Cell) : Prop where
  mesh : LocalMesh A.g
  c : A.c ≠ 0
  np : A.np < 2 ^ 31
  placed : ∀ i < A.np, InCell A.g (A.p i) (cell i)
  stride : nvox A.g ≤ A.hSize
  size : ((P : ℤ) + 1) * A.hSize ≤ A.size

/-- C22.  Whatever the number of pipelines and the interleaving, `accumulate_hydro_p` is well defined; for
each of the fourteen components and each node, what it adds over all private copies is the sum over the
particles of the trilinear share of `r8V w` of the corners that are this node, times the quantity the
particle carries.  Entries beyond the `nv` entries of each copy are unchanged. -/
theorem hydro_adds (R : Distribute.Rounding) (hR : R.Accurate) (A : Args K) (P : ℕ) (cell : ℕ → Cell)
    (hA : Ok A P cell) (hP : 0 < P) (hP2 : P ≤ 2 ^ 16) (h : ℤ → Fin 14 → K) :
    (∃ h', HydroP R A P h h') ∧ ∀ h', HydroP R A P h h' →
      (∀ n, 0 ≤ n ∧ n < nvox A.g → ∀ q, ∑ r ∈ Finset.range (P + 1),
          (h' (r * A.hSize + n) q - h (r * A.hSize + n) q) =
        ∑ i ∈ Finset.range A.np,
          nodeAmount A.g (cell i) (share (A.p i).d (A.r8V * (A.p i).w)) n * carried A (A.p i) q) ∧
      ∀ x, (∀ r : ℕ, r ≤ P → ¬ (r * A.hSize ≤ x ∧ x < r * A.hSize + nvox A.g)) → h' x = h x := by
  obtain ⟨js, hjs, hfl⟩ := items_split R hR A.np 16 P hA.np (by omega) hP hP2
  have hmem : ∀ p < P + 1, ∀ j ∈ js p, 0 ≤ j ∧ j < A.np := by
    intro p hp j hj
    rw [← upTo_mem, ← hfl]
    exact List.mem_flatten.mpr ⟨_, List.mem_map.mpr ⟨p, List.mem_range.mpr hp, rfl⟩, hj⟩
  have hplace : ∀ p < P + 1, ∀ j ∈ js p, InCell A.g (A.p j) (cell j.toNat) := by
    intro p hp j hj
    have := hmem p hp j hj
    have h2 := hA.placed j.toNat (by omega)
    rwa [Int.toNat_of_nonneg this.1] at h2
  have htarget : ∀ p < P + 1, ∀ j ∈ js p, ∀ k, target A p j k = p * A.hSize + cornerNode A.g (cell j.toNat) k ∧
      0 ≤ cornerNode A.g (cell j.toNat) k ∧ cornerNode A.g (cell j.toNat) k < nvox A.g := by
    intro p hp j hj k
    have h1 := hplace p hp j hj
    refine ⟨?_, cornerNode_range hA.mesh h1.1 k⟩
    unfold target
    rw [h1.2, offsets_eq, cornerNode_eq]
  have hs := hA.stride
  have hsz := hA.size
  have hnv : 0 ≤ nvox A.g := by
    have h1 := hA.mesh.nx
    have h2 := hA.mesh.ny
    have h3 := hA.mesh.nz
    unfold nvox
    positivity
  set prog : ℕ → List (ℤ × Fin 8) := fun p =>
    (js p).flatMap fun n => (List.finRange 8).map fun k => (n, k) with hprog
  have hprogmem : ∀ p x, x ∈ prog p ↔ x.1 ∈ js p := by
    intro p x
    simp only [hprog, List.mem_flatMap, List.mem_map, List.mem_finRange, true_and]
    constructor
    · rintro ⟨n, hn, k, rfl⟩; exact hn
    · intro hx; exact ⟨x.1, hx, x.2, rfl⟩
  have hrank : ∀ p < P + 1, hydroRank R A p P = some ((prog p).map fun x => accumStep A p x.1 x.2) := by
    intro p hp
    unfold hydroRank
    rw [hjs, Option.bind_some]
    refine if_pos ?_
    rw [List.all_eq_true]
    intro x hx
    have hx' := (hprogmem p x).mp hx
    obtain ⟨t1, t2, t3⟩ := htarget p hp x.1 hx' x.2
    have h1 := hplace p hp x.1 hx'
    have hv := voxel_range hA.mesh h1.1.inMesh
    rw [← h1.2] at hv
    simp only [decide_eq_true_eq]
    have l1 : 0 ≤ (p : ℤ) * A.hSize := mul_nonneg (by omega) (by omega)
    have l2 : ((p : ℤ) + 1) * A.hSize ≤ ((P : ℤ) + 1) * A.hSize := mul_le_mul_of_nonneg_right (by omega) (by omega)
    rw [add_mul, one_mul] at l2
    exact ⟨hv.1, hv.2, by omega, by omega⟩
  have hts : (List.range (P + 1)).mapM (fun p => hydroRank R A p P) =
      some ((List.range (P + 1)).map fun p => (prog p).map fun x => accumStep A p x.1 x.2) :=
    Distribute.mapM_some _ _ _ fun p hp => hrank p (List.mem_range.mp hp)
  refine ⟨⟨_, _, hts, runs_seq _ _⟩, ?_⟩
  rintro h' ⟨ts, e, hrun⟩
  obtain rfl := Option.some.inj (hts.symm.trans e)
  have hfoot := runs_footprint (V := fun _ : ℤ => Fin 14 → K) (List.range (P + 1))
    (fun (p : ℕ) (x : ℤ) => (p : ℤ) * A.hSize ≤ x ∧ x < (p : ℤ) * A.hSize + nvox A.g) (fun _ => False)
    (fun p => (prog p).map fun x => accumStep A p x.1 x.2) ?_ ?_ ?_ h h' hrun
  · obtain ⟨f1, f2⟩ := hfoot
    constructor
    · intro n hn q
      have hr : ∀ r ∈ Finset.range (P + 1), h' (r * A.hSize + n) q - h (r * A.hSize + n) q =
          ((js r).map fun j => nodeAmount A.g (cell j.toNat) (share (A.p j).d (A.r8V * (A.p j).w)) n *
            carried A (A.p j) q).sum := by
        intro r hr
        rw [Finset.mem_range] at hr
        rw [f1 r (List.mem_range.mpr hr) (r * A.hSize + n) (by omega)]
        have e1 : ((prog r).map fun x => accumStep A r x.1 x.2) = (prog r).map fun s (h : ℤ → Fin 14 → K) =>
            put h (target A r s.1 s.2) fun q => h (target A r s.1 s.2) q +
              (weights A.r8V (A.p s.1) s.2) * carried A (A.p s.1) q := by
          refine List.map_congr_left fun s _ => ?_
          funext h
          unfold accumStep
          simp only [accum_eq A hA.c]
        rw [e1, runSeq_accum (prog r) (fun s => target A r s.1 s.2)
          (fun s q => weights A.r8V (A.p s.1) s.2 * carried A (A.p s.1) q), add_sub_cancel_left]
        simp only [hprog, List.flatMap, List.map_flatten, List.sum_flatten, List.map_map]
        refine congrArg List.sum (List.map_congr_left fun j hj => ?_)
        simp only [Function.comp_apply, List.map_map]
        unfold nodeAmount
        rw [Finset.sum_mul, Fin.sum_univ_def]
        refine congrArg List.sum (List.map_congr_left fun k _ => ?_)
        simp only [Function.comp_apply]
        rw [(htarget r hr j hj k).1, weights_eq]
        by_cases hk : n = cornerNode A.g (cell j.toNat) k
        · simp [hk]
        · rw [if_neg (by omega), if_neg hk, zero_mul]
      rw [Finset.sum_congr rfl hr]
      have := congrArg (fun l => (l.map fun j : ℤ => nodeAmount A.g (cell j.toNat) (share (A.p j).d (A.r8V * (A.p j).w)) n *
            carried A (A.p j) q).sum) hfl
      simp only [List.map_flatten, List.sum_flatten, List.map_map] at this
      have hl : ∀ (N : ℕ) (F : ℕ → K), ∑ r ∈ Finset.range N, F r = ((List.range N).map F).sum := fun _ _ => rfl
      rw [hl, hl]
      refine this.trans ?_
      simp only [Distribute.upTo, Distribute.iota, List.map_map]
      refine congrArg List.sum (List.map_congr_left fun i _ => ?_)
      simp
    · intro x hx
      exact f2 x fun r hr => hx r (by have := List.mem_range.mp hr; omega)
  · intro p hp f hf
    obtain ⟨x, hx, rfl⟩ := List.mem_map.mp hf
    obtain ⟨t1, t2, t3⟩ := htarget p (List.mem_range.mp hp) x.1 ((hprogmem p x).mp hx) x.2
    constructor
    · intro m y hy
      have : y ≠ target A p x.1 x.2 := by rintro rfl; exact hy (by omega)
      exact put_ne _ _ this
    · intro m m' hmm y hy
      unfold accumStep put
      split
      · funext q
        rw [hmm _ (Or.inl (by omega))]
      · exact hmm _ (Or.inl hy)
  · refine List.nodup_range.imp ?_
    intro p p' hne x hx hx'
    rcases lt_or_gt_of_ne hne with hlt | hlt
    · have : ((p : ℤ) + 1) * A.hSize ≤ (p' : ℤ) * A.hSize := mul_le_mul_of_nonneg_right (by omega) (by omega)
      rw [add_mul, one_mul] at this
      omega
    · have : ((p' : ℤ) + 1) * A.hSize ≤ (p : ℤ) * A.hSize := mul_le_mul_of_nonneg_right (by omega) (by omega)
      rw [add_mul, one_mul] at this
      omega
  · intro p hp x hx; exact hx.elim

/-- C22 (totals): over all nodes and private copies, each component grows by the sum over the particles of
`8 r8V w = w / V` times what the particle carries. -/
theorem hydro_total (R : Distribute.Rounding) (hR : R.Accurate) (A : Args K) (P : ℕ) (cell : ℕ → Cell)
    (hA : Ok A P cell) (hP : 0 < P) (hP2 : P ≤ 2 ^ 16) (h h' : ℤ → Fin 14 → K) (hh : HydroP R A P h h')
    (q : Fin 14) :
    ∑ n ∈ Finset.Ico 0 (nvox A.g), ∑ r ∈ Finset.range (P + 1),
        (h' (r * A.hSize + n) q - h (r * A.hSize + n) q) =
      ∑ i ∈ Finset.range A.np, 8 * A.r8V * (A.p i).w * carried A (A.p i) q := by
  have h1 := (hydro_adds R hR A P cell hA hP hP2 h).2 h' hh
  rw [Finset.sum_congr rfl fun n hn => h1.1 n (Finset.mem_Ico.mp hn) q, Finset.sum_comm]
  refine Finset.sum_congr rfl fun i hi => ?_
  rw [← Finset.sum_mul]
  have := sum_nodeAmount hA.mesh (hA.placed i (Finset.mem_range.mp hi)).1
    (share (A.p i).d (A.r8V * (A.p i).w)) (fun _ => 1)
  simp only [one_mul] at this
  rw [this, sum_share]
  ring

/-- A call that meets the hypotheses: one particle on the mesh of 2×1×3 cells, 3 pipelines, private copies
of 60 entries. -/
def exArgs : Args ℚ :=
  { g := exGrid, rt := fun x => x, f := fun _ => ⟨1, 0, 0, 0, 0, 0, 0, 0, 0, 0, 0, 0, 2, 0, 0, 0, 0, 0⟩,
    p := fun _ => exPart, qsp := -1, qdt_2mc := 1, msp := 1, c := 1, r8V := 1, np := 1, hSize := 60,
    size := 240 }

theorem exArgs_ok : Ok exArgs 3 (fun _ => ⟨2, 1, 1⟩) :=
  ⟨exGrid_mesh, by simp [exArgs], by decide, fun _ _ => exPart_in, by decide, by decide⟩

end Verif.Hydro
