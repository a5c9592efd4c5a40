import Verif.MoveP.Charge
import Mathlib.Algebra.BigOperators.Group.List.Basic
import Mathlib.Algebra.Order.BigOperators.Ring.Finset
import Mathlib.Data.Rat.Defs
import Mathlib.Algebra.Order.Ring.Rat

/-!
# C20, C21: what `accumulate_rho_p` and `accumulate_rhob` deposit
-/
namespace Verif.Deposit

open Grid (LGrid Cell VOXEL)
open MoveP (Part nvox LocalMesh nodeCharge addNodes_eq nodeOff_eq nodes_range nodeCoord nodeCoord_voxel)

variable {K : Type*} [Field K] [LinearOrder K] [IsStrictOrderedRing K]

/-- Spec: corner `k` of a cell is on the upper (`1`) or lower (`-1`) side along an axis; bit 0 of `k`
is x, bit 1 is y, bit 2 is z. -/
def corner (k : Fin 8) (axis : Fin 3) : ℤ := if k.val.testBit axis.val then 1 else -1

/-- Spec: mesh index of corner `k` of the cell `c` (the node on the lower side has the coordinates of
the cell). -/
def cornerNode (g : LGrid) (c : Cell) (k : Fin 8) : ℤ :=
  VOXEL g.nx g.ny (c.x + if corner k 0 = 1 then 1 else 0) (c.y + if corner k 1 = 1 then 1 else 0)
    (c.z + if corner k 2 = 1 then 1 else 0)

/-- Spec: trilinear share of corner `k` for a particle at `d` in `[-1,1]³` carrying `8 W`. -/
def share (d : Fin 3 → K) (W : K) (k : Fin 8) : K := W * ∏ axis, (1 + (corner k axis : K) * d axis)

/-- Spec: density that a particle in cell `c` adds at the node `n`, where `corner k` gets `w k`. -/
def nodeAmount (g : LGrid) (c : Cell) (w : Fin 8 → K) (n : ℤ) : K :=
  ∑ k, if n = cornerNode g c k then w k else 0

/-- Spec: the particle is in the cell `c` of the local mesh. -/
def InCell (g : LGrid) (p : Part K) (c : Cell) : Prop :=
  c.Interior g.nx g.ny g.nz ∧ p.i = VOXEL g.nx g.ny c.x c.y c.z

lemma triWeights_eq (d : Fin 3 → K) (W : K) : triWeights d W = share d W := by
  funext k
  unfold share corner
  rw [Fin.prod_univ_three]
  fin_cases k <;> simp [triWeights, FMA, FNMS, Nat.testBit] <;> ring

lemma cornerNode_eq (g : LGrid) (c : Cell) (k : Fin 8) :
    VOXEL g.nx g.ny c.x c.y c.z + nodeOff g k = cornerNode g c k := by
  rw [nodeOff_eq, cornerNode]
  fin_cases k <;> simp [corner, Nat.testBit]

lemma nodeCharge_eq (g : LGrid) (c : Cell) (w : Fin 8 → K) (n : ℤ) :
    nodeCharge g (VOXEL g.nx g.ny c.x c.y c.z) w n = nodeAmount g c w n := by
  unfold nodeCharge nodeAmount
  simp only [cornerNode_eq]

/-- The eight corners of a cell are eight different nodes of the array. -/
lemma cornerNode_injective {g : LGrid} (h : LocalMesh g) (c : Cell)
    (hc : c.Interior g.nx g.ny g.nz) : Function.Injective (cornerNode g c) := by
  intro k k' e
  have h1 := h.nx
  have h2 := h.ny
  obtain ⟨a1, a2, a3, a4, a5, a6⟩ := hc
  have e' := congrArg (nodeCoord g) e
  unfold cornerNode at e'
  rw [nodeCoord_voxel g h1 h2 (by split_ifs <;> omega) (by split_ifs <;> omega),
    nodeCoord_voxel g h1 h2 (by split_ifs <;> omega) (by split_ifs <;> omega)] at e'
  simp only [Prod.mk.injEq] at e'
  obtain ⟨e0, e1, e2⟩ := e'
  fin_cases k <;> fin_cases k' <;> simp [corner, Nat.testBit] at e0 e1 e2 ⊢

lemma cornerNode_range {g : LGrid} (h : LocalMesh g) {c : Cell} (hc : c.Interior g.nx g.ny g.nz)
    (k : Fin 8) : 0 ≤ cornerNode g c k ∧ cornerNode g c k < nvox g := by
  rw [← cornerNode_eq]; exact nodes_range h hc k

/-- C20 (which nodes and how much): `accumulate_rho_p` succeeds on every list of particles that are in
cells of the local mesh, and adds at each node, for each particle, the trilinear share of
`q r8V w` of every corner of its own cell which is that node. -/
theorem rho_p_adds {g : LGrid} (h : LocalMesh g) (r8V q : K) (ps : List (Part K))
    (cell : Part K → Cell) (hps : ∀ p ∈ ps, InCell g p (cell p)) (rhof : ℤ → K) :
    accumulateRhoP g r8V q ps rhof = some fun n =>
      rhof n + (ps.map fun p => nodeAmount g (cell p) (share p.d (q * r8V * p.w)) n).sum := by
  induction ps generalizing rhof with
  | nil => simp [accumulateRhoP]
  | cons p ps ih =>
    have hp := hps p (by simp)
    have hr : 0 ≤ p.i ∧ p.i + nodeOff g 7 < nvox g := by
      rw [hp.2]
      have h0 := nodes_range h hp.1 0
      refine ⟨?_, (nodes_range h hp.1 7).2⟩
      simpa [nodeOff] using h0.1
    unfold accumulateRhoP rhoP
    rw [addNodes_eq _ _ hr, Option.bind_some, ih (fun p hp => hps p (by simp [hp]))]
    congr 1
    funext n
    rw [hp.2, nodeCharge_eq, triWeights_eq, List.map_cons, List.sum_cons, ← add_assoc]
    simp only [mul_comm]

/-- C20: nodes that are not a corner of the cell of some particle are unchanged, and a corner of the
cell of a single particle receives exactly its share. -/
theorem rho_p_local {g : LGrid} (h : LocalMesh g) (r8V q : K) (ps : List (Part K))
    (cell : Part K → Cell) (hps : ∀ p ∈ ps, InCell g p (cell p)) (rhof rhof' : ℤ → K)
    (hr : accumulateRhoP g r8V q ps rhof = some rhof') (n : ℤ)
    (hn : ∀ p ∈ ps, ∀ k, n ≠ cornerNode g (cell p) k) : rhof' n = rhof n := by
  rw [rho_p_adds h r8V q ps cell hps, Option.some_inj] at hr
  rw [← hr]
  show rhof n + _ = rhof n
  suffices (ps.map fun p => nodeAmount g (cell p) (share p.d (q * r8V * p.w)) n).sum = 0 by
    rw [this, add_zero]
  apply List.sum_eq_zero
  intro x hx
  obtain ⟨p, hp, rfl⟩ := List.mem_map.mp hx
  exact Finset.sum_eq_zero fun k _ => if_neg (hn p hp k)

@[inherit_doc rho_p_local]
theorem rho_p_corner {g : LGrid} (h : LocalMesh g) (r8V q : K) (p : Part K) (c : Cell)
    (hp : InCell g p c) (rhof rhof' : ℤ → K)
    (hr : accumulateRhoP g r8V q [p] rhof = some rhof') (k : Fin 8) :
    rhof' (cornerNode g c k) = rhof (cornerNode g c k) + share p.d (q * r8V * p.w) k := by
  rw [rho_p_adds h r8V q [p] (fun _ => c) (by simpa using hp), Option.some_inj] at hr
  rw [← hr]
  simp [nodeAmount, (cornerNode_injective h c hp.1).eq_iff]

/-- C20: the amounts are non-negative for a particle inside its cell with `q r8V w ≥ 0`. -/
theorem share_nonneg (d : Fin 3 → K) (W : K) (hW : 0 ≤ W)
    (hd : ∀ axis, |d axis| ≤ 1) (k : Fin 8) : 0 ≤ share d W k := by
  refine mul_nonneg hW (Finset.prod_nonneg fun axis _ => ?_)
  have := abs_le.mp (hd axis)
  unfold corner
  split_ifs <;> simp <;> linarith [this.1, this.2]

lemma sum_nodeAmount {g : LGrid} (h : LocalMesh g) {c : Cell} (hc : c.Interior g.nx g.ny g.nz)
    (w : Fin 8 → K) (φ : ℤ → K) : ∑ n ∈ Finset.Ico 0 (nvox g), φ n * nodeAmount g c w n =
      ∑ k, φ (cornerNode g c k) * w k := by
  unfold nodeAmount
  simp only [Finset.mul_sum]
  rw [Finset.sum_comm]
  refine Finset.sum_congr rfl fun k _ => ?_
  have := cornerNode_range h hc k
  simp only [mul_ite, mul_zero]
  rw [Finset.sum_ite_eq', if_pos (by rw [Finset.mem_Ico]; exact this)]

lemma sum_share (d : Fin 3 → K) (W : K) : ∑ k, share d W k = 8 * W := by
  unfold share corner
  simp only [Fin.prod_univ_three, Fin.sum_univ_eight]
  simp [Nat.testBit]
  ring

/-- C20: what a list of particles adds over all nodes is the sum of `8 r8V q w = q w / V`. -/
theorem rho_p_total {g : LGrid} (h : LocalMesh g) (r8V q : K) (ps : List (Part K))
    (cell : Part K → Cell) (hps : ∀ p ∈ ps, InCell g p (cell p)) (rhof rhof' : ℤ → K)
    (hr : accumulateRhoP g r8V q ps rhof = some rhof') :
    ∑ n ∈ Finset.Ico 0 (nvox g), (rhof' n - rhof n) = (ps.map fun p => 8 * r8V * (q * p.w)).sum := by
  rw [rho_p_adds h r8V q ps cell hps, Option.some_inj] at hr
  rw [← hr]
  simp only [add_sub_cancel_left]
  clear hr
  induction ps with
  | nil => simp
  | cons p ps ih =>
    simp only [List.map_cons, List.sum_cons]
    rw [Finset.sum_add_distrib, ih fun p hp => hps p (by simp [hp])]
    have := sum_nodeAmount h (hps p (by simp)).1 (share p.d (q * r8V * p.w)) (fun _ => 1)
    simp only [one_mul] at this
    rw [this, sum_share]
    ring

/-- Spec: coordinate of a node along an axis. -/
def coord (g : LGrid) (n : ℤ) : Fin 3 → ℤ := ![(nodeCoord g n).1, (nodeCoord g n).2.1, (nodeCoord g n).2.2]

/-- Spec: coordinate of a cell along an axis. -/
def cellCoord (c : Cell) : Fin 3 → ℤ := ![c.x, c.y, c.z]

lemma coord_corner {g : LGrid} (h : LocalMesh g) {c : Cell} (hc : c.Interior g.nx g.ny g.nz)
    (k : Fin 8) (axis : Fin 3) :
    2 * coord g (cornerNode g c k) axis - (2 * cellCoord c axis + 1) = corner k axis := by
  have h1 := h.nx
  have h2 := h.ny
  obtain ⟨a1, a2, a3, a4, a5, a6⟩ := hc
  unfold coord cornerNode
  rw [nodeCoord_voxel g h1 h2 (by split_ifs <;> omega) (by split_ifs <;> omega)]
  have : ∀ b : Bool, ((if b then (1:ℤ) else -1) = 1) = (b = true) := by intro b; cases b <;> simp
  fin_cases axis <;> simp only [corner, this, cellCoord] <;> simp <;> split_ifs <;> omega

/-- C20 (first moment): the mean position of what a particle adds is the position of the particle.
Positions are measured from the middle of the cell in half cells, so the node with coordinate `x`
is at `2 x - (2 c + 1)` and the particle is at `d`. -/
theorem rho_p_moment {g : LGrid} (h : LocalMesh g) (r8V q : K) (p : Part K) (c : Cell)
    (hp : InCell g p c) (rhof rhof' : ℤ → K)
    (hr : accumulateRhoP g r8V q [p] rhof = some rhof') (axis : Fin 3) :
    ∑ n ∈ Finset.Ico 0 (nvox g),
      ((2 * coord g n axis - (2 * cellCoord c axis + 1) : ℤ) : K) * (rhof' n - rhof n) =
      8 * r8V * (q * p.w) * p.d axis := by
  rw [rho_p_adds h r8V q [p] (fun _ => c) (by simpa using hp), Option.some_inj] at hr
  rw [← hr]
  simp only [add_sub_cancel_left, List.map_cons, List.map_nil, List.sum_cons, List.sum_nil, add_zero]
  rw [sum_nodeAmount h hp.1 (share p.d (q * r8V * p.w))
    (fun n => ((2 * coord g n axis - (2 * cellCoord c axis + 1) : ℤ) : K))]
  simp only [coord_corner h hp.1]
  unfold share corner
  simp only [Fin.prod_univ_three, Fin.sum_univ_eight]
  fin_cases axis <;> simp [Nat.testBit] <;> ring

/-- C20: the order of the particles does not matter. -/
theorem rho_p_order {g : LGrid} (h : LocalMesh g) (r8V q : K) (ps ps' : List (Part K))
    (hperm : ps.Perm ps') (cell : Part K → Cell) (hps : ∀ p ∈ ps, InCell g p (cell p))
    (rhof : ℤ → K) : accumulateRhoP g r8V q ps rhof = accumulateRhoP g r8V q ps' rhof := by
  rw [rho_p_adds h r8V q ps cell hps,
    rho_p_adds h r8V q ps' cell fun p hp => hps p (hperm.mem_iff.mpr hp)]
  congr 1
  funext n
  rw [(hperm.map _).sum_eq]

/-- Spec: fraction of the volume of a node that is inside of the local domain: half for each axis
along which it is on the boundary (coordinates `1` and `n+1`). -/
def inside (g : LGrid) (n : ℤ) : K :=
  ∏ axis, if coord g n axis = 1 ∨ coord g n axis = (![g.nx, g.ny, g.nz] axis) + 1 then (1 / 2 : K) else 1

/-- Factor by which the weight of corner `k` is multiplied. -/
def factor (g : LGrid) (c : Cell) (k : Fin 8) : K :=
  ∏ axis, if (corner k axis = -1 ∧ cellCoord c axis = 1) ∨
    (corner k axis = 1 ∧ cellCoord c axis = ![g.nx, g.ny, g.nz] axis) then (2 : K) else 1

omit [LinearOrder K] [IsStrictOrderedRing K] in
lemma dbl_eq (P : Prop) [Decidable P] (ks : List (Fin 8)) (w : Fin 8 → K) (k : Fin 8) :
    (if P then fun k => if k ∈ ks then w k + w k else w k else w) k =
      (if P ∧ k ∈ ks then 2 else 1) * w k := by
  by_cases hP : P <;> by_cases hk : k ∈ ks <;> simp [hP, hk, two_mul]

lemma rhobAdjust_eq {g : LGrid} (h : LocalMesh g) {c : Cell} (hc : c.Interior g.nx g.ny g.nz)
    (w : Fin 8 → K) (k : Fin 8) :
    rhobAdjust g (VOXEL g.nx g.ny c.x c.y c.z) w k = factor g c k * w k := by
  have h1 := h.nx
  have h2 := h.ny
  obtain ⟨a1, a2, a3, a4, a5, a6⟩ := hc
  have hv := nodeCoord_voxel g h1 h2 (x := c.x) (y := c.y) (z := c.z) (by omega) (by omega)
  have ez : VOXEL g.nx g.ny c.x c.y c.z / ((g.ny + 2) * (g.nx + 2)) = c.z := by
    rw [mul_comm, ← Int.ediv_ediv_of_nonneg (by omega : 0 ≤ g.nx + 2)]
    exact (Prod.mk.inj (Prod.mk.inj hv).2).2
  have ey : (VOXEL g.nx g.ny c.x c.y c.z - (g.ny + 2) * (g.nx + 2) * c.z) / (g.nx + 2) = c.y := by
    have : VOXEL g.nx g.ny c.x c.y c.z - (g.ny + 2) * (g.nx + 2) * c.z = c.x + (g.nx + 2) * c.y := by
      unfold VOXEL; ring
    rw [this, Int.add_mul_ediv_left _ _ (by omega : g.nx + 2 ≠ 0), Int.ediv_eq_zero_of_lt (by omega) (by omega)]
    omega
  have ex : VOXEL g.nx g.ny c.x c.y c.z - (g.ny + 2) * (g.nx + 2) * c.z - (g.nx + 2) * c.y = c.x := by
    unfold VOXEL; ring
  unfold rhobAdjust factor
  simp only [ez, ey, ex, Fin.prod_univ_three, cellCoord]
  rw [dbl_eq, dbl_eq, dbl_eq, dbl_eq, dbl_eq, dbl_eq]
  fin_cases k <;> simp [corner, Nat.testBit, -mul_ite, -ite_mul] <;> ring

lemma factor_inside {g : LGrid} (h : LocalMesh g) {c : Cell} (hc : c.Interior g.nx g.ny g.nz)
    (k : Fin 8) : inside (K := K) g (cornerNode g c k) * factor g c k = 1 := by
  unfold inside factor
  rw [← Finset.prod_mul_distrib]
  refine Finset.prod_eq_one fun axis _ => ?_
  have := coord_corner h hc k axis
  obtain ⟨a1, a2, a3, a4, a5, a6⟩ := hc
  have hb : 1 ≤ cellCoord c axis ∧ cellCoord c axis ≤ ![g.nx, g.ny, g.nz] axis := by
    fin_cases axis <;> simp [cellCoord] <;> omega
  have hk : corner k axis = 1 ∨ corner k axis = -1 := by unfold corner; split_ifs <;> simp
  generalize coord g (cornerNode g c k) axis = x at *
  generalize cellCoord c axis = y at *
  generalize ![g.nx, g.ny, g.nz] axis = N at *
  rcases hk with hk | hk <;> rw [hk] at this ⊢
  · by_cases hy : y = N
    · rw [if_pos (Or.inr (by omega)), if_pos (by omega)]; norm_num
    · rw [if_neg (by omega), if_neg (by omega)]; norm_num
  · by_cases hy : y = 1
    · rw [if_pos (Or.inl (by omega)), if_pos (by omega)]; norm_num
    · rw [if_neg (by omega), if_neg (by omega)]; norm_num

/-- C21: `accumulate_rhob` succeeds for a particle in the local mesh; weighting each node by the
fraction of its volume that is inside of the local domain, what it adds is exactly `8 r8V q w = q w/V`;
only corners of the cell of the particle change. -/
theorem rhob_conserves {g : LGrid} (h : LocalMesh g) (r8V q : K) (p : Part K) (c : Cell)
    (hp : InCell g p c) (rhob : ℤ → K) : ∃ rhob', accumulateRhob g r8V q p rhob = some rhob' ∧
      ∑ n ∈ Finset.Ico 0 (nvox g), inside g n * (rhob' n - rhob n) = 8 * r8V * (q * p.w) ∧
      (∀ n, (∀ k, n ≠ cornerNode g c k) → rhob' n = rhob n) ∧
      ∀ k, inside g (cornerNode g c k) * (rhob' (cornerNode g c k) - rhob (cornerNode g c k)) =
        share p.d (q * r8V * p.w) k := by
  have hr : 0 ≤ p.i ∧ p.i + nodeOff g 7 < nvox g := by
    rw [hp.2]
    have h0 := nodes_range h hp.1 0
    refine ⟨?_, (nodes_range h hp.1 7).2⟩
    simpa [nodeOff] using h0.1
  refine ⟨_, by unfold accumulateRhob; rw [addNodes_eq _ _ hr], ?_, ?_, ?_⟩
  · simp only [add_sub_cancel_left]
    rw [hp.2]
    simp only [nodeCharge_eq]
    rw [sum_nodeAmount h hp.1]
    simp only [rhobAdjust_eq h hp.1, ← mul_assoc, factor_inside h hp.1, one_mul]
    rw [triWeights_eq, sum_share]
    ring
  · intro n hn
    rw [hp.2, nodeCharge_eq]
    have : nodeAmount g c (rhobAdjust g (VOXEL g.nx g.ny c.x c.y c.z) (triWeights p.d ((q * r8V) * p.w))) n = 0 :=
      Finset.sum_eq_zero fun k _ => if_neg (hn k)
    rw [this, add_zero]
  · intro k
    rw [hp.2]
    simp only [nodeCharge_eq]
    have : nodeAmount g c (rhobAdjust g (VOXEL g.nx g.ny c.x c.y c.z)
        (triWeights p.d ((q * r8V) * p.w))) (cornerNode g c k) = factor g c k * share p.d (q * r8V * p.w) k := by
      simp [nodeAmount, (cornerNode_injective h c hp.1).eq_iff, rhobAdjust_eq h hp.1, triWeights_eq]
    rw [this, add_sub_cancel_left, ← mul_assoc, factor_inside h hp.1, one_mul]

/-- A mesh of 2×1×3 cells with absorbing walls and a particle in cell (2,1,1), off centre: the
hypotheses hold, and the lower corner at larger x gets three times the share of the one at smaller x. -/
def exGrid : LGrid :=
  { nx := 2, ny := 1, nz := 3, bc := fun _ => 0, range := fun _ => 0, rangel := 0, rangeh := 59,
    neighbor := fun _ => -1 }

theorem exGrid_mesh : LocalMesh exGrid :=
  ⟨by decide, by decide, by decide, by decide, by decide, fun c _ f _ h _ => absurd h (by simp [exGrid])⟩

@[inherit_doc exGrid]
def exPart : Part ℚ := { d := ![1 / 2, 0, 0], i := 18, u := fun _ => 0, w := 2 }

theorem exPart_in : InCell exGrid exPart ⟨2, 1, 1⟩ := by
  refine ⟨?_, by decide⟩
  simp [Cell.Interior, exGrid]

example : share exPart.d (4 * 1 * exPart.w) 1 = 12 ∧ share exPart.d (4 * 1 * exPart.w) 0 = 4 := by
  constructor <;> simp [share, corner, exPart, Fin.prod_univ_three, Nat.testBit] <;> norm_num

end Verif.Deposit
