import Verif.MoveP.Mesh
import Verif.Deposit.Model
import Verif.SfInterface.Unload
import Mathlib.Algebra.BigOperators.Ring.Finset
import Mathlib.Algebra.BigOperators.Fin
import Mathlib.Data.Int.Interval
import Mathlib.Algebra.BigOperators.Field

/-!
# C16: moving a particle conserves charge

The charge density `accumulate_rho_p` would deposit for the particle before and after the move, and
the current unloaded from the accumulators, satisfy the discrete continuity equation.
-/
namespace Verif.MoveP

open Grid Deposit SfInterface

variable {K : Type*} [Field K] [LinearOrder K] [IsStrictOrderedRing K]

/-! ## Specification -/

/-- Spec: discrete divergence at node `n` of the current unloaded from `a`. -/
def divJ (g : LGrid) (m : Scales K) (a : Accum K) (n : ℤ) : K :=
  let j := unloadAt g (unloadC m) a
  m.rd 0 * (j n 0 - j (n - 1) 0) + m.rd 1 * (j n 1 - j (n - (g.nx + 2)) 1) +
    m.rd 2 * (j n 2 - j (n - (g.ny + 2) * (g.nx + 2)) 2)

/-- Spec: coordinates of a node. -/
def nodeCoord (g : LGrid) (n : ℤ) : ℤ × ℤ × ℤ :=
  (n % (g.nx + 2), n / (g.nx + 2) % (g.ny + 2), n / (g.nx + 2) / (g.ny + 2))

/-- Spec: nodes that are the same physical node when the axes with `J axis` are joined to
themselves (node `n+1` is node `1`) have the same class. -/
def nodeClass (g : LGrid) (J : Fin 3 → Bool) (n : ℤ) : ℤ × ℤ × ℤ :=
  let c := nodeCoord g n
  (if J 0 then (c.1 - 1) % g.nx else c.1, if J 1 then (c.2.1 - 1) % g.ny else c.2.1,
    if J 2 then (c.2.2 - 1) % g.nz else c.2.2)

/-- Spec: where the neighbour table wraps around, the axis is declared joined. -/
def JoinedOn (g : LGrid) (J : Fin 3 → Bool) : Prop :=
  ∀ c : Cell, c.Interior g.nx g.ny g.nz → ∀ axis up, atWall g.nx g.ny g.nz c (faceOf axis up) →
    g.rangel ≤ g.neighbor (6 * VOXEL g.nx g.ny c.x c.y c.z + faceOf axis up) →
    g.neighbor (6 * VOXEL g.nx g.ny c.x c.y c.z + faceOf axis up) ≤ g.rangeh → J axis = true

/-! ## One streak -/

/-- Charge put on node `n` by a particle in voxel `v` with corner weights `w`. -/
def nodeCharge (g : LGrid) (v : ℤ) (w : Fin 8 → K) (n : ℤ) : K :=
  ∑ k, if n = v + nodeOff g k then w k else 0

lemma foldl_put_add (g : LGrid) (v : ℤ) (w : Fin 8 → K) (l : List (Fin 8)) (r : ℤ → K) (n : ℤ) :
    l.foldl (fun r k => put r (v + nodeOff g k) (r (v + nodeOff g k) + w k)) r n =
      r n + (l.map fun k => if n = v + nodeOff g k then w k else 0).sum := by
  induction l generalizing r with
  | nil => simp
  | cons k l ih =>
    rw [List.foldl_cons, ih, List.map_cons, List.sum_cons]
    by_cases h : n = v + nodeOff g k
    · subst h; simp [add_assoc]
    · rw [put_ne _ _ h]; simp [h]

lemma addNodes_eq {g : LGrid} {v : ℤ} (w : Fin 8 → K) (r : ℤ → K)
    (h : 0 ≤ v ∧ v + nodeOff g 7 < nvox g) :
    addNodes g v w r = some fun n => r n + nodeCharge g v w n := by
  unfold addNodes
  rw [if_neg (by omega)]
  congr 1
  funext n
  rw [foldl_put_add, nodeCharge, Fin.sum_univ_def]

/-- Outflow at the eight corners of a cell for accumulator amounts `A`. -/
def outflow (m : Scales K) (A : Fin 12 → K) : Fin 8 → K :=
  let x := fun k => m.rd 0 * unloadC m 0 * A k
  let y := fun k => m.rd 1 * unloadC m 1 * A k
  let z := fun k => m.rd 2 * unloadC m 2 * A k
  ![x 0 + y 4 + z 8, -x 0 + y 6 + z 9, x 1 - y 4 + z 10, -x 1 - y 6 + z 11,
    x 2 + y 5 - z 8, -x 2 + y 7 - z 9, x 3 - y 5 - z 10, -x 3 - y 7 - z 11]

omit [LinearOrder K] [IsStrictOrderedRing K] in
lemma accAdd_eq (a : Accum K) (v : ℤ) (A : Fin 12 → K) (x : ℤ) (k : Fin 12) :
    accAdd a v A x k = a x k + A k * (if x = v then 1 else 0) := by
  unfold accAdd; split_ifs <;> simp

lemma divJ_accAdd (g : LGrid) (m : Scales K) (a : Accum K) (v : ℤ) (A : Fin 12 → K) (n : ℤ) :
    divJ g m (accAdd a v A) n - divJ g m a n = nodeCharge g v (outflow m A) n := by
  set sy := g.nx + 2 with hsy
  set sz := (g.ny + 2) * sy with hsz
  have ind : ∀ o : ℤ, (if n = v + o then (1 : K) else 0) = if n - o = v then 1 else 0 := by
    intro o; congr 1; apply propext; constructor <;> intro h <;> omega
  have key : ∀ (w : Fin 8 → K), nodeCharge g v w n =
      w 0 * (if n = v + 0 then 1 else 0) + w 1 * (if n = v + 1 then 1 else 0) +
      w 2 * (if n = v + sy then 1 else 0) + w 3 * (if n = v + (sy + 1) then 1 else 0) +
      w 4 * (if n = v + sz then 1 else 0) + w 5 * (if n = v + (sz + 1) then 1 else 0) +
      w 6 * (if n = v + (sz + sy) then 1 else 0) +
      w 7 * (if n = v + (sz + sy + 1) then 1 else 0) := by
    intro w
    simp only [nodeCharge, Fin.sum_univ_eight, nodeOff, ← hsy, ← hsz, mul_ite, mul_one, mul_zero]
    rfl
  rw [key]
  simp only [ind, divJ, unloadAt, accAdd_eq, ← hsy, ← hsz, outflow, Matrix.cons_val_zero,
    Matrix.cons_val_one, Matrix.cons_val, sub_zero]
  have r1 : n - sy - 1 = n - (sy + 1) := by ring
  have r2 : n - sz - 1 = n - (sz + 1) := by ring
  have r3 : n - sy - sz = n - (sz + sy) := by ring
  have r4 : n - 1 - sy = n - (sy + 1) := by ring
  have r5 : n - 1 - sz = n - (sz + 1) := by ring
  have r6 : n - 1 - sy - sz = n - (sz + sy + 1) := by ring
  have r7 : n - sy - sz - 1 = n - (sz + sy + 1) := by ring
  have r8 : n - sz - 1 - sy = n - (sz + sy + 1) := by ring
  have r9 : n - sz - sy = n - (sz + sy) := by ring
  simp only [r1, r2, r3, r4, r5, r6, r7, r8, r9]
  ring

lemma streak_continuity (m : Scales K) (hdt : m.dt ≠ 0)
    (hV : m.r8V = m.rd 0 * m.rd 1 * m.rd 2 * (1 / 8)) (qsp w : K) (d s : Fin 3 → K) (k : Fin 8) :
    (triWeights (fun k => d k + 2 * s k) (w * (qsp * m.r8V)) k -
      triWeights d (w * (qsp * m.r8V)) k) / m.dt +
      outflow m (streakJ (qsp * w) (fun k => d k + s k) s) k = 0 := by
  fin_cases k <;>
    (simp [triWeights, FMA, FNMS, outflow, streakJ, accumulateJ, unloadC, hV]
     field_simp
     ring)

/-! ## Nodes -/

lemma nodeOff_eq (g : LGrid) (c : Cell) (k : Fin 8) :
    VOXEL g.nx g.ny c.x c.y c.z + nodeOff g k =
      VOXEL g.nx g.ny (c.x + if k.val.testBit 0 then 1 else 0)
        (c.y + if k.val.testBit 1 then 1 else 0) (c.z + if k.val.testBit 2 then 1 else 0) := by
  fin_cases k <;> simp [nodeOff, VOXEL, Nat.testBit] <;> ring

lemma nodeCoord_voxel (g : LGrid) (hx : 1 ≤ g.nx) (hy : 1 ≤ g.ny) {x y z : ℤ}
    (h : 0 ≤ x ∧ x ≤ g.nx + 1) (h' : 0 ≤ y ∧ y ≤ g.ny + 1) :
    nodeCoord g (VOXEL g.nx g.ny x y z) = (x, y, z) := by
  have e1 : VOXEL g.nx g.ny x y z % (g.nx + 2) = x := by
    unfold VOXEL
    rw [Int.add_mul_emod_self_left]; exact Int.emod_eq_of_lt h.1 (by omega)
  have e2 : VOXEL g.nx g.ny x y z / (g.nx + 2) = y + (g.ny + 2) * z := by
    unfold VOXEL
    rw [Int.add_mul_ediv_left _ _ (by omega), Int.ediv_eq_zero_of_lt h.1 (by omega)]; ring
  unfold nodeCoord
  rw [e1, e2, Int.add_mul_emod_self_left, Int.emod_eq_of_lt h'.1 (by omega),
    Int.add_mul_ediv_left _ _ (by omega), Int.ediv_eq_zero_of_lt h'.1 (by omega)]
  simp

lemma nodes_range {g : LGrid} (h : LocalMesh g) {c : Cell} (hc : c.Interior g.nx g.ny g.nz)
    (k : Fin 8) : 0 ≤ VOXEL g.nx g.ny c.x c.y c.z + nodeOff g k ∧
      VOXEL g.nx g.ny c.x c.y c.z + nodeOff g k < nvox g := by
  obtain ⟨a1, a2, a3, a4, a5, a6⟩ := hc
  rw [nodeOff_eq]
  exact voxel_range h (c := ⟨_, _, _⟩) ⟨by simp only; split_ifs <;> omega,
    by simp only; split_ifs <;> omega, by simp only; split_ifs <;> omega,
    by simp only; split_ifs <;> omega, by simp only; split_ifs <;> omega,
    by simp only; split_ifs <;> omega⟩

/-- Total over the class `N` of nodes. -/
def classSum (g : LGrid) (J : Fin 3 → Bool) (N : ℤ × ℤ × ℤ) (f : ℤ → K) : K :=
  ∑ n ∈ (Finset.Ico 0 (nvox g)).filter (fun n => nodeClass g J n = N), f n

lemma classSum_nodeCharge {g : LGrid} (h : LocalMesh g) (J : Fin 3 → Bool) (N : ℤ × ℤ × ℤ)
    {c : Cell} (hc : c.Interior g.nx g.ny g.nz) (w : Fin 8 → K) :
    classSum g J N (nodeCharge g (VOXEL g.nx g.ny c.x c.y c.z) w) =
      ∑ k, if nodeClass g J (VOXEL g.nx g.ny c.x c.y c.z + nodeOff g k) = N then w k else 0 := by
  unfold classSum nodeCharge
  rw [Finset.sum_comm]
  refine Finset.sum_congr rfl fun k _ => ?_
  rw [Finset.sum_ite_eq' ]
  have := nodes_range h hc k
  simp only [Finset.mem_filter, Finset.mem_Ico, this, true_and]

lemma class_glue {g : LGrid} (h : LocalMesh g) {J : Fin 3 → Bool} (hJ : JoinedOn g J)
    {c : Cell} (hc : c.Interior g.nx g.ny g.nz) (axis : Fin 3) (up : Bool)
    (h1 : g.rangel ≤ g.neighbor (6 * VOXEL g.nx g.ny c.x c.y c.z + faceOf axis up))
    (h2 : g.neighbor (6 * VOXEL g.nx g.ny c.x c.y c.z + faceOf axis up) ≤ g.rangeh)
    (x y z x' y' z' : Bool) (hxyz : ![x, y, z] axis = up) (hxyz' : ![x', y', z'] axis = !up)
    (hk : ∀ k, k ≠ axis → ![x, y, z] k = ![x', y', z'] k) :
    nodeClass g J (VOXEL g.nx g.ny (c.x + if x then 1 else 0) (c.y + if y then 1 else 0)
        (c.z + if z then 1 else 0)) =
    nodeClass g J (VOXEL g.nx g.ny ((localNext g c (faceOf axis up)).x + if x' then 1 else 0)
        ((localNext g c (faceOf axis up)).y + if y' then 1 else 0)
        ((localNext g c (faceOf axis up)).z + if z' then 1 else 0)) := by
  have hx := h.nx
  have hy := h.ny
  have hz := h.nz
  have hni := localNext_interior h hc (faceOf_range axis up)
  have hjo := fun hw => hJ c hc axis up hw h1 h2
  obtain ⟨a1, a2, a3, a4, a5, a6⟩ := hc
  obtain ⟨b1, b2, b3, b4, b5, b6⟩ := hni
  unfold nodeClass
  rw [nodeCoord_voxel g hx hy (by split_ifs <;> omega) (by split_ifs <;> omega),
    nodeCoord_voxel g hx hy (by split_ifs <;> omega) (by split_ifs <;> omega)]
  have hk0 := hk 0
  have hk1 := hk 1
  have hk2 := hk 2
  clear hk h1 h2 b1 b2 b3 b4 b5 b6
  have mod0 : ∀ n : ℤ, (n + 1 - 1) % n = 0 := fun n => by simp
  have hw := Classical.em (atWall g.nx g.ny g.nz c (faceOf axis up))
  unfold localNext
  rcases hw with hw | hw
  · rw [if_pos hw]
    have hj := hjo hw
    clear hjo
    fin_cases axis <;> cases up <;>
    (simp [faceOf, atWall] at hxyz hxyz' hk0 hk1 hk2 hj hw
     simp [hxyz, hxyz', hk0, hk1, hk2, hj, hw, faceOf, wrapCell])
  · rw [if_neg hw]
    clear hjo hw
    fin_cases axis <;> cases up <;>
    (simp at hxyz hxyz' hk0 hk1 hk2
     simp [hxyz, hxyz', hk0, hk1, hk2, faceOf, stepCell])

/-- Charge of a particle (offset `d`, weight factor `W`) in cell `c` that belongs to class `N`. -/
lemma classSum_eight {g : LGrid} (h : LocalMesh g) (J : Fin 3 → Bool) (N : ℤ × ℤ × ℤ)
    {c : Cell} (hc : c.Interior g.nx g.ny g.nz) (w : Fin 8 → K)
    (F : Bool → Bool → Bool → ℤ × ℤ × ℤ) (hF : ∀ x y z, nodeClass g J (VOXEL g.nx g.ny
    (c.x + if x then 1 else 0) (c.y + if y then 1 else 0) (c.z + if z then 1 else 0)) = F x y z) :
    classSum g J N (nodeCharge g (VOXEL g.nx g.ny c.x c.y c.z) w) =
      (if F false false false = N then w 0 else 0) + (if F true false false = N then w 1 else 0) +
      (if F false true false = N then w 2 else 0) + (if F true true false = N then w 3 else 0) +
      (if F false false true = N then w 4 else 0) + (if F true false true = N then w 5 else 0) +
      (if F false true true = N then w 6 else 0) + (if F true true true = N then w 7 else 0) := by
  rw [classSum_nodeCharge h J N hc, Fin.sum_univ_eight]
  simp only [nodeOff_eq, hF]
  rfl

lemma cross_charge {g : LGrid} (h : LocalMesh g) {J : Fin 3 → Bool} (hJ : JoinedOn g J)
    (N : ℤ × ℤ × ℤ) {c : Cell} (hc : c.Interior g.nx g.ny g.nz) (axis : Fin 3) (up : Bool)
    (h1 : g.rangel ≤ g.neighbor (6 * VOXEL g.nx g.ny c.x c.y c.z + faceOf axis up))
    (h2 : g.neighbor (6 * VOXEL g.nx g.ny c.x c.y c.z + faceOf axis up) ≤ g.rangeh)
    (d : Fin 3 → K) (W : K) (hd : d axis = sgn up) :
    classSum g J N (nodeCharge g (VOXEL g.nx g.ny (localNext g c (faceOf axis up)).x
      (localNext g c (faceOf axis up)).y (localNext g c (faceOf axis up)).z)
      (triWeights (Function.update d axis (-sgn up)) W)) =
    classSum g J N (nodeCharge g (VOXEL g.nx g.ny c.x c.y c.z) (triWeights d W)) := by
  have G := class_glue h hJ hc axis up h1 h2
  obtain ⟨F, hF⟩ : ∃ F : Bool → Bool → Bool → ℤ × ℤ × ℤ, ∀ x y z, nodeClass g J (VOXEL g.nx g.ny
    (c.x + if x then 1 else 0) (c.y + if y then 1 else 0) (c.z + if z then 1 else 0)) = F x y z :=
    ⟨_, fun _ _ _ => rfl⟩
  obtain ⟨F', hF'⟩ : ∃ F : Bool → Bool → Bool → ℤ × ℤ × ℤ, ∀ x y z, nodeClass g J (VOXEL g.nx g.ny
    ((localNext g c (faceOf axis up)).x + if x then 1 else 0)
    ((localNext g c (faceOf axis up)).y + if y then 1 else 0)
    ((localNext g c (faceOf axis up)).z + if z then 1 else 0)) = F x y z :=
    ⟨_, fun _ _ _ => rfl⟩
  rw [classSum_eight h J N hc _ F hF,
    classSum_eight h J N (localNext_interior h hc (faceOf_range axis up)) _ F' hF']
  simp only [hF, hF'] at G
  clear hF hF'
  fin_cases axis
  · have hd' : d 0 = sgn up := hd
    have e := fun y z => G up y z (!up) y z rfl rfl (by intro k hk; fin_cases k <;> simp at hk ⊢)
    cases up <;> simp only [Bool.not_true, Bool.not_false] at e <;>
      simp only [e] <;> simp [triWeights, FMA, FNMS, hd', sgn] <;> ring
  · have hd' : d 1 = sgn up := hd
    have e := fun y z => G y up z y (!up) z rfl rfl (by intro k hk; fin_cases k <;> simp at hk ⊢)
    cases up <;> simp only [Bool.not_true, Bool.not_false] at e <;>
      simp only [e] <;> simp [triWeights, FMA, FNMS, hd', sgn] <;> ring
  · have hd' : d 2 = sgn up := hd
    have e := fun y z => G y z up y z (!up) rfl rfl (by intro k hk; fin_cases k <;> simp at hk ⊢)
    cases up <;> simp only [Bool.not_true, Bool.not_false] at e <;>
      simp only [e] <;> simp [triWeights, FMA, FNMS, hd', sgn] <;> ring

/-! ## The whole move -/

omit [LinearOrder K] [IsStrictOrderedRing K] in
lemma nodeCharge_linear (g : LGrid) (v : ℤ) (w w' o : Fin 8 → K) (t : K)
    (h : ∀ k, (w' k - w k) / t + o k = 0) (n : ℤ) :
    nodeCharge g v w' n / t + nodeCharge g v o n = nodeCharge g v w n / t := by
  have : nodeCharge g v w' n / t + nodeCharge g v o n - nodeCharge g v w n / t = 0 := by
    unfold nodeCharge
    rw [Finset.sum_div, Finset.sum_div, ← Finset.sum_add_distrib, ← Finset.sum_sub_distrib]
    refine Finset.sum_eq_zero fun k _ => ?_
    by_cases hk : n = v + nodeOff g k
    · simp only [if_pos hk]; linear_combination h k
    · simp only [if_neg hk]; simp
  linear_combination this

/-- Class total of `rho/dt + div J`. -/
def balance (g : LGrid) (m : Scales K) (J : Fin 3 → Bool) (N : ℤ × ℤ × ℤ) (v : ℤ)
    (w : Fin 8 → K) (a : Accum K) : K :=
  classSum g J N fun n => nodeCharge g v w n / m.dt + divJ g m a n

lemma balance_streak (g : LGrid) (m : Scales K) (hdt : m.dt ≠ 0)
    (hV : m.r8V = m.rd 0 * m.rd 1 * m.rd 2 * (1 / 8)) (J : Fin 3 → Bool) (N : ℤ × ℤ × ℤ) (v : ℤ)
    (qsp w : K) (d s : Fin 3 → K) (a : Accum K) :
    balance g m J N v (triWeights (fun k => d k + 2 * s k) (w * (qsp * m.r8V)))
      (accAdd a v (streakJ (qsp * w) (fun k => d k + s k) s)) =
    balance g m J N v (triWeights d (w * (qsp * m.r8V))) a := by
  unfold balance classSum
  refine Finset.sum_congr rfl fun n _ => ?_
  have h1 := nodeCharge_linear g v _ _ _ m.dt (streak_continuity m hdt hV qsp w d s) n
  have h2 := divJ_accAdd g m a v (streakJ (qsp * w) (fun k => d k + s k) s) n
  linear_combination h1 + h2

lemma balance_split (g : LGrid) (m : Scales K) (J : Fin 3 → Bool) (N : ℤ × ℤ × ℤ) (v : ℤ)
    (w : Fin 8 → K) (a : Accum K) : balance g m J N v w a =
      classSum g J N (nodeCharge g v w) / m.dt + classSum g J N (divJ g m a) := by
  unfold balance classSum
  rw [Finset.sum_add_distrib, Finset.sum_div]

lemma loop_charge {g : LGrid} (h : LocalMesh g) (m : Scales K) (hdt : m.dt ≠ 0)
    (hV : m.r8V = m.rd 0 * m.rd 1 * m.rd 2 * (1 / 8)) {J : Fin 3 → Bool} (hJ : JoinedOn g J)
    (qsp : K) (fuel : ℕ) : ∀ (s : MState K) (c : Cell), c.Interior g.nx g.ny g.nz →
      s.p.i = VOXEL g.nx g.ny c.x c.y c.z → (∀ k, -1 ≤ s.p.d k ∧ s.p.d k ≤ 1) →
      ∀ r s', loop g (qsp * s.p.w) fuel s = some (r, s') →
      ∃ c' : Cell, c'.Interior g.nx g.ny g.nz ∧
        (if r then s'.p.i / 8 else s'.p.i) = VOXEL g.nx g.ny c'.x c'.y c'.z ∧ s'.p.w = s.p.w ∧
        ∀ N, balance g m J N (VOXEL g.nx g.ny c'.x c'.y c'.z)
            (triWeights s'.p.d (s.p.w * (qsp * m.r8V))) s'.a =
          balance g m J N (VOXEL g.nx g.ny c.x c.y c.z)
            (triWeights s.p.d (s.p.w * (qsp * m.r8V))) s.a := by
  induction fuel with
  | zero => intro s c _ _ _ r s' e; simp [loop] at e
  | succ fuel ih =>
    intro s c hc hi hd r s' e
    have hrange : 0 ≤ s.p.i ∧ s.p.i < nvox g := by rw [hi]; exact voxel_range h hc.inMesh
    obtain ⟨v3, nx, s1, hp, v0, v1, hb, hspec⟩ := pass_spec g (qsp * s.p.w) s hrange hd
    simp only [loop, hp] at e
    have B := fun N => balance_streak g m hdt hV J N (VOXEL g.nx g.ny c.x c.y c.z) qsp s.p.w s.p.d
      (fun k => v3 * s.disp k) s.a
    rw [← hi] at B
    have key := ih s1
    cases hspec with
    | finished h1 =>
      simp only [Option.some.injEq, Prod.mk.injEq] at e
      obtain ⟨rfl, rfl⟩ := e
      refine ⟨c, hc, by simpa using hi, rfl, fun N => ?_⟩
      rw [← hi]; exact B N
    | boundary axis up h1 hs hface hn hrg =>
      simp only [Option.some.injEq, Prod.mk.injEq] at e
      obtain ⟨rfl, rfl⟩ := e
      refine ⟨c, hc, ?_, rfl, fun N => ?_⟩
      · have := faceOf_range axis up
        simp only [if_true]; rw [← hi]; omega
      · rw [← hi]; exact B N
    | reflect axis up h1 hs hface hn =>
      obtain ⟨c', k1, k2, k3, k4⟩ := key c hc hi hb r s' e
      refine ⟨c', k1, k2, k3, fun N => ?_⟩
      rw [← hi, ← B N]
      have := k4 N
      rw [← hi] at this
      exact this
    | cross axis up h1 hs hface hn hrg =>
      rw [hi] at hrg
      have hadj := h.adj c hc (faceOf axis up) (faceOf_range axis up) hrg.1 hrg.2
      have hni := localNext_interior h hc (faceOf_range axis up)
      obtain ⟨c', k1, k2, k3, k4⟩ := key (localNext g c (faceOf axis up)) hni
        (by simp only [hi]; exact hadj) (by
          intro k
          by_cases hk : k = axis
          · subst hk; simp only [Function.update_self]; cases up <;> simp [sgn]
          · simp only [Function.update_of_ne hk]; exact hb k) r s' e
      refine ⟨c', k1, k2, k3, fun N => ?_⟩
      rw [← hi, ← B N]
      have h4 := k4 N
      simp only at h4
      rw [h4, balance_split, balance_split]
      have := cross_charge h hJ N hc axis up hrg.1 hrg.2
        (fun k => s.p.d k + 2 * (v3 * s.disp k)) (s.p.w * (qsp * m.r8V)) hface
      rw [this, hi]

/-! ## Property -/

/-- **C16.** On any local mesh, for any particle inside an interior cell and any displacement: let
`ρ` be the charge density `accumulate_rho_p` deposits for the particle before the move, `ρ'` the one
after the move (at the point where it stopped, decoded, if the move is unfinished), and `a → a'` the
change of the accumulators.  Then `(ρ'-ρ)/dt + div J = 0` at every node, where the nodes that are
identified because the mesh is joined to itself are added up. -/
theorem move_p_conserves_charge (g : LGrid) (h : LocalMesh g) (m : Scales K) (hdt : m.dt ≠ 0)
    (hV : m.r8V = m.rd 0 * m.rd 1 * m.rd 2 * (1 / 8)) (J : Fin 3 → Bool) (hJ : JoinedOn g J)
    (qsp : K) (fuel : ℕ) (s : MState K) (c : Cell) (hc : c.Interior g.nx g.ny g.nz)
    (hi : s.p.i = VOXEL g.nx g.ny c.x c.y c.z) (hd : ∀ k, -1 ≤ s.p.d k ∧ s.p.d k ≤ 1)
    (r : Bool) (s' : MState K) (hmove : moveP g qsp fuel s = some (r, s')) :
    ∃ ρ ρ', rhoP g (qsp * m.r8V) s.p (fun _ => 0) = some ρ ∧
      rhoP g (qsp * m.r8V) { s'.p with i := if r then s'.p.i / 8 else s'.p.i } (fun _ => 0) =
        some ρ' ∧
      ∀ N : ℤ × ℤ × ℤ, ∑ n ∈ (Finset.Ico 0 (nvox g)).filter (fun n => nodeClass g J n = N),
        ((ρ' n - ρ n) / m.dt + (divJ g m s'.a n - divJ g m s.a n)) = 0 := by
  obtain ⟨c', k1, k2, k3, k4⟩ := loop_charge h m hdt hV hJ qsp fuel s c hc hi hd r s' hmove
  have hr : ∀ c : Cell, c.Interior g.nx g.ny g.nz → 0 ≤ VOXEL g.nx g.ny c.x c.y c.z ∧
      VOXEL g.nx g.ny c.x c.y c.z + nodeOff g 7 < nvox g := fun c hc =>
    ⟨(voxel_range h hc.inMesh).1, (nodes_range h hc 7).2⟩
  refine ⟨_, _, by simp only [rhoP]; rw [hi, addNodes_eq _ _ (hr c hc)],
    by simp only [rhoP]; rw [k2, addNodes_eq _ _ (hr c' k1)], ?_⟩
  intro N
  have := k4 N
  unfold balance classSum at this
  rw [← sub_eq_zero, ← Finset.sum_sub_distrib] at this
  rw [← this]
  refine Finset.sum_congr rfl fun n _ => ?_
  rw [k3]; ring

/-- C16 node by node, when the mesh is not joined to itself (more than one rank, or walls, in every
direction). -/
theorem move_p_conserves_charge_node (g : LGrid) (h : LocalMesh g) (m : Scales K) (hdt : m.dt ≠ 0)
    (hV : m.r8V = m.rd 0 * m.rd 1 * m.rd 2 * (1 / 8)) (hJ : JoinedOn g fun _ => false)
    (qsp : K) (fuel : ℕ) (s : MState K) (c : Cell) (hc : c.Interior g.nx g.ny g.nz)
    (hi : s.p.i = VOXEL g.nx g.ny c.x c.y c.z) (hd : ∀ k, -1 ≤ s.p.d k ∧ s.p.d k ≤ 1)
    (r : Bool) (s' : MState K) (hmove : moveP g qsp fuel s = some (r, s')) :
    ∃ ρ ρ', rhoP g (qsp * m.r8V) s.p (fun _ => 0) = some ρ ∧
      rhoP g (qsp * m.r8V) { s'.p with i := if r then s'.p.i / 8 else s'.p.i } (fun _ => 0) =
        some ρ' ∧
      ∀ n, 0 ≤ n → n < nvox g →
        (ρ' n - ρ n) / m.dt + (divJ g m s'.a n - divJ g m s.a n) = 0 := by
  obtain ⟨ρ, ρ', e1, e2, h3⟩ :=
    move_p_conserves_charge g h m hdt hV _ hJ qsp fuel s c hc hi hd r s' hmove
  refine ⟨ρ, ρ', e1, e2, fun n h0 h1 => ?_⟩
  rw [← h3 (nodeClass g (fun _ => false) n)]
  rw [Finset.sum_eq_single n]
  · intro b hb hne
    rw [Finset.mem_filter, Finset.mem_Ico] at hb
    exfalso
    apply hne
    have hb2 := hb.2
    simp only [nodeClass, nodeCoord, Bool.false_eq_true, if_false, Prod.mk.injEq] at hb2
    obtain ⟨c1, c2, c3⟩ := hb2
    rw [← Int.mul_ediv_add_emod b (g.nx + 2), ← Int.mul_ediv_add_emod n (g.nx + 2), c1,
      ← Int.mul_ediv_add_emod (b / (g.nx + 2)) (g.ny + 2),
      ← Int.mul_ediv_add_emod (n / (g.nx + 2)) (g.ny + 2), c2, c3]
  · intro hn
    exact absurd (by rw [Finset.mem_filter, Finset.mem_Ico]; exact ⟨⟨h0, h1⟩, rfl⟩) hn

/-- Every periodic decomposition meets the hypotheses of C16 with all axes declared joined; the move
terminates (C15), so the continuity equation holds for its result. -/
theorem periodic_box_conserves_charge (D : Decomp) (ws : ℕ) (hD : D.ok ws = true)
    (t0 : ℕ → ℤ → ℤ) (r : ℕ) (hr : r < ws) (m : Scales K) (hdt : m.dt ≠ 0)
    (hV : m.r8V = m.rd 0 * m.rd 1 * m.rd 2 * (1 / 8)) :
    ∃ g, gridOf D ws t0 r = some g ∧ ∀ (qsp : K) (s : MState K) (c : Cell), IsInterior D c →
      s.p.i = VOXEL g.nx g.ny c.x c.y c.z → (∀ k, -1 ≤ s.p.d k ∧ s.p.d k ≤ 1) →
      ∀ n : Fin 3 → ℕ, (∀ k, |s.disp k| ≤ n k) → ∀ fuel, n 0 + n 1 + n 2 < fuel →
      ∃ b s' ρ ρ', moveP g qsp fuel s = some (b, s') ∧
        rhoP g (qsp * m.r8V) s.p (fun _ => 0) = some ρ ∧
        rhoP g (qsp * m.r8V) { s'.p with i := if b then s'.p.i / 8 else s'.p.i } (fun _ => 0) =
          some ρ' ∧
        ∀ N : ℤ × ℤ × ℤ,
          ∑ n ∈ (Finset.Ico 0 (nvox g)).filter (fun n => nodeClass g (fun _ => true) n = N),
            ((ρ' n - ρ n) / m.dt + (divJ g m s'.a n - divJ g m s.a n)) = 0 := by
  obtain ⟨g, hg, hmv⟩ := move_p_periodic_box (K := K) D ws hD t0 r hr
  refine ⟨g, hg, fun qsp s c hc hi hd n hn fuel hf => ?_⟩
  obtain ⟨b, s', C', walls, t, e, -⟩ := hmv qsp s c hc hi hd n hn fuel hf
  obtain ⟨g1, e1, gx, gy, gz, -⟩ :=
    partitionPeriodic_T ((D.ok_iff ws).mp hD) (fun _ => localNv D) (fun _ => rfl) (t0 r) r hr
  obtain rfl : g1 = g := by rw [gridOf] at hg; rw [e1] at hg; exact Option.some.inj hg
  have hc' : c.Interior g1.nx g1.ny g1.nz := by rw [gx, gy, gz]; exact hc
  obtain ⟨ρ, ρ', h1, h2, h3⟩ := move_p_conserves_charge g1 (periodic_localMesh D ws hD t0 r hr g1 hg)
    m hdt hV (fun _ => true) (fun _ _ _ _ _ _ _ => rfl) qsp fuel s c hc' hi hd b s' e
  exact ⟨b, s', ρ, ρ', e, h1, h2, h3⟩

/-- The particle of the example in `Mesh.lean`, with unequal cell sizes. -/
example : ∃ g : LGrid, ∃ (b : Bool) (s' : MState ℚ) (ρ ρ' : ℤ → ℚ),
    moveP g (-2 : ℚ) 4 ⟨⟨![9/10, -1/2, 1], VOXEL 1 3 1 2 1, ![1, 2, 3], 5⟩, ![3/2, -1/4, 0],
        fun _ _ => 0⟩ = some (b, s') ∧
    rhoP g (-2 * (15/4) : ℚ) ⟨![9/10, -1/2, 1], VOXEL 1 3 1 2 1, ![1, 2, 3], 5⟩
      (fun _ => 0) = some ρ ∧
    rhoP g (-2 * (15/4) : ℚ) { s'.p with i := if b then s'.p.i / 8 else s'.p.i }
      (fun _ => 0) = some ρ' := by
  obtain ⟨g, hg, h⟩ := periodic_box_conserves_charge (K := ℚ) ⟨2, 3, 1, 2, 1, 1⟩ 2 (by decide)
    (fun _ _ => 77) 1 (by decide) ⟨1/3, ![2, 3, 5], 15/4⟩ (by norm_num)
    (by simp; norm_num)
  obtain ⟨g1, e, gx, gy, -⟩ := partitionPeriodic_T ((Decomp.ok_iff _ _).mp (by decide))
    (fun _ => localNv ⟨2, 3, 1, 2, 1, 1⟩) (fun _ => rfl) (fun _ => 77) 1 (show 1 < 2 by decide)
  obtain rfl : g1 = g := by rw [gridOf] at hg; rw [e] at hg; exact Option.some.inj hg
  obtain ⟨b, s', ρ, ρ', h1, h2, h3, -⟩ := h (-2) ⟨⟨![9/10, -1/2, 1], VOXEL 1 3 1 2 1, ![1, 2, 3], 5⟩,
    ![3/2, -1/4, 0], fun _ _ => 0⟩ ⟨1, 2, 1⟩ (by unfold IsInterior; decide) (by rw [gx, gy]; rfl)
    (by intro k; fin_cases k <;> norm_num) ![2, 1, 0]
    (by intro k; fin_cases k <;> norm_num [abs_of_nonneg, abs_of_neg]) 4 (by decide)
  exact ⟨g1, b, s', ρ, ρ', h1, h2, h3⟩

end Verif.MoveP
