import Verif.Field.Divergence
import Mathlib.Data.Int.Interval
import Mathlib.Data.Fintype.Pi
import Mathlib.Algebra.Order.BigOperators.Group.Finset
import Mathlib.Algebra.Order.BigOperators.Ring.Finset
import Mathlib.Algebra.Order.Ring.Int
import Mathlib.Algebra.BigOperators.Ring.Finset
import Mathlib.Tactic.Positivity

/-!
# Diagnostics: field energy and rms divergence errors (C28, C29)

`energy_f`, `compute_rms_div_e_err` and `compute_rms_div_b_err`.  The sum over MPI ranks
(`mp_allsum_d`) is the caller's: what is modelled are the two or six local numbers passed to it and, for the
rms, the final formula.
-/
namespace Verif.Field

open Grid

variable {K : Type*} [Field K]

/-- A sum accumulated by `EXEC_PIPELINES`: every pipeline and the calling thread adds up its share of the
voxels in its own slot, then the slots `0 … N_PIPELINE` are added
(pipeline/energy_f_pipeline.cc:19-36 and 71-81).  The pipelines only read the fields, so their order does not matter
for this model. -/
def pipeSum (R : Distribute.Rounding) (g : LGrid) (lo hi : Pos) (P : ℕ) (val : Pos → K) : Option K :=
  ((List.range (P + 1)).mapM fun p => (share R g lo hi P (fun c => [c]) p).map fun l =>
    l.foldl (fun e c => e + val c) 0).map fun en => en.foldl (fun s e => s + e) 0

/-- `REDUCE_EN`, pipeline/energy_f_pipeline.h:48-67: the six energies added for one voxel. -/
def reduceEn (E : Env K) (m : FMem K) (c : Pos) : Fin 6 → K :=
  let e := fun (a : Fin 3) (d : Pos) => (E.mc (E.emat a (vox E.g d))).eps a * m (vox E.g d, .e a) * m (vox E.g d, .e a)
  let b := fun (a : Fin 3) (d : Pos) => (E.mc (E.fmat a (vox E.g d))).rmu a * m (vox E.g d, .cb a) * m (vox E.g d, .cb a)
  ![1 / 4 * (e 0 c + e 0 (up 1 c) + e 0 (up 2 c) + e 0 (up 2 (up 1 c))),
    1 / 4 * (e 1 c + e 1 (up 2 c) + e 1 (up 0 c) + e 1 (up 0 (up 2 c))),
    1 / 4 * (e 2 c + e 2 (up 0 c) + e 2 (up 1 c) + e 2 (up 1 (up 0 c))),
    1 / 2 * (b 0 c + b 0 (up 0 c)), 1 / 2 * (b 1 c + b 1 (up 1 c)), 1 / 2 * (b 2 c + b 2 (up 2 c))]

/-- `REDUCE_EN` of `vacuum_energy_f`, pipeline/vacuum_energy_f_pipeline.h:24-75. -/
def reduceEnVacuum (E : Env K) (m : FMem K) (c : Pos) : Fin 6 → K :=
  let qeps := fun a => 1 / 4 * (E.mc 0).eps a
  let hrmu := fun a => 1 / 2 * (E.mc 0).rmu a
  let e := fun (a : Fin 3) (d : Pos) => m (vox E.g d, .e a) * m (vox E.g d, .e a)
  let b := fun (a : Fin 3) (d : Pos) => m (vox E.g d, .cb a) * m (vox E.g d, .cb a)
  ![qeps 0 * (e 0 c + e 0 (up 1 c) + e 0 (up 2 c) + e 0 (up 2 (up 1 c))),
    qeps 1 * (e 1 c + e 1 (up 2 c) + e 1 (up 0 c) + e 1 (up 0 (up 2 c))),
    qeps 2 * (e 2 c + e 2 (up 0 c) + e 2 (up 1 c) + e 2 (up 1 (up 0 c))),
    hrmu 0 * (b 0 c + b 0 (up 0 c)), hrmu 1 * (b 1 c + b 1 (up 1 c)), hrmu 2 * (b 2 c + b 2 (up 2 c))]

/-- `energy_f`, component `i`, up to the sum over ranks: pipeline/energy_f_pipeline.cc:45-96. -/
def energyF (E : Env K) (R : Distribute.Rounding) (P : ℕ) (red : Pos → Fin 6 → K) (i : Fin 6) : Option K :=
  (pipeSum R E.g (fun _ => 1) (dims E.g) P fun c => red c i).map fun s => s * (1 / 2 * E.eps0 * E.dV)

/-- The terms of the host loops of `compute_rms_div_e_err`: weight and node,
pipeline/compute_rms_div_e_err_pipeline.cc:99-163. -/
def rmsTerms (g : LGrid) : List (K × Pos) :=
  let nx := g.nx
  let ny := g.ny
  let nz := g.nz
  ((fromTo 2 ny).flatMap fun y => (fromTo 2 nz).flatMap fun z =>
    [(1 / 2, ![1, y, z]), (1 / 2, ![nx + 1, y, z])]) ++
  ((fromTo 2 nz).flatMap fun z => (fromTo 2 nx).flatMap fun x =>
    [(1 / 2, ![x, 1, z]), (1 / 2, ![x, ny + 1, z])]) ++
  ((fromTo 2 nx).flatMap fun x => (fromTo 2 ny).flatMap fun y =>
    [(1 / 2, ![x, y, 1]), (1 / 2, ![x, y, nz + 1])]) ++
  ((fromTo 2 nx).flatMap fun x =>
    [(1 / 4, ![x, 1, 1]), (1 / 4, ![x, ny + 1, 1]), (1 / 4, ![x, 1, nz + 1]), (1 / 4, ![x, ny + 1, nz + 1])]) ++
  ((fromTo 2 ny).flatMap fun y =>
    [(1 / 4, ![1, y, 1]), (1 / 4, ![1, y, nz + 1]), (1 / 4, ![nx + 1, y, 1]), (1 / 4, ![nx + 1, y, nz + 1])]) ++
  ((fromTo 2 nz).flatMap fun z =>
    [(1 / 4, ![1, 1, z]), (1 / 4, ![nx + 1, 1, z]), (1 / 4, ![1, ny + 1, z]), (1 / 4, ![nx + 1, ny + 1, z])]) ++
  [(1 / 8, ![1, 1, 1]), (1 / 8, ![nx + 1, 1, 1]), (1 / 8, ![1, ny + 1, 1]), (1 / 8, ![nx + 1, ny + 1, 1]),
   (1 / 8, ![1, 1, nz + 1]), (1 / 8, ![nx + 1, 1, nz + 1]), (1 / 8, ![1, ny + 1, nz + 1]),
   (1 / 8, ![nx + 1, ny + 1, nz + 1])]

/-- `local[0]`, `local[1]` of `compute_rms_div_e_err`, pipeline/compute_rms_div_e_err_pipeline.cc:53-178. -/
def rmsDivELocal (E : Env K) (R : Distribute.Rounding) (P : ℕ) (m : FMem K) : Option (K × K) :=
  let err := (rmsTerms E.g).foldl (fun e t => e + t.1 * m (vox E.g t.2, .divE) * m (vox E.g t.2, .divE)) 0
  (pipeSum R E.g (fun _ => 2) (dims E.g) P fun c => m (vox E.g c, .divE) * m (vox E.g c, .divE)).map fun s =>
    ((err + s) * E.dV, (E.g.nx * E.g.ny * E.g.nz : ℤ) * E.dV)

/-- `local[0]`, `local[1]` of `compute_rms_div_b_err`, pipeline/compute_rms_div_b_err_pipeline.cc:55-112. -/
def rmsDivBLocal (E : Env K) (R : Distribute.Rounding) (P : ℕ) (m : FMem K) : Option (K × K) :=
  (pipeSum R E.g (fun _ => 1) (dims E.g) P fun c => m (vox E.g c, .divB) * m (vox E.g c, .divB)).map fun s =>
    (s * E.dV, (E.g.nx * E.g.ny * E.g.nz : ℤ) * E.dV)

/-- The value returned on every rank: `eps0*sqrt(global[0]/global[1])`, with `global` the sum over the ranks,
pipeline/compute_rms_div_e_err_pipeline.cc:180-182. -/
def rmsFinal (rt : K → K) (eps0 : K) (locals : List (K × K)) : K :=
  eps0 * rt ((locals.map Prod.fst).sum / (locals.map Prod.snd).sum)

/-! ### Specification -/

/-- The positions of a box. -/
def boxSet (lo hi : Pos) : Finset Pos := Fintype.piFinset fun a => Finset.Icc (lo a) (hi a)

/-- The part of the cell volume around a node that lies in the local domain, relative to a whole cell: one half
for every direction along which the node is on the surface. -/
def nodeWeight (g : LGrid) (c : Pos) : K :=
  ∏ a, if c a = 1 ∨ c a = dims g a + 1 then (1 / 2 : K) else 1

/-! ### Lemmas -/

lemma mem_boxSet {lo hi c : Pos} : c ∈ boxSet lo hi ↔ ∀ a, lo a ≤ c a ∧ c a ≤ hi a := by
  simp [boxSet]

lemma foldl_add_sum {α : Type*} (l : List α) (f : α → K) (s : K) :
    l.foldl (fun e c => e + f c) s = s + (l.map f).sum := by
  induction l generalizing s with
  | nil => simp
  | cons a l ih => simp [ih, add_assoc]

/-- The pipelined sum is the sum over the box. -/
lemma pipeSum_eq {R : Distribute.Rounding} (hR : R.Accurate) (g : LGrid) (lo hi : Pos) (P : ℕ)
    (val : Pos → K) (hlo : ∀ a, lo a ≤ hi a + 1)
    (hN : (hi 0 - lo 0 + 1) * (hi 1 - lo 1 + 1) * (hi 2 - lo 2 + 1) < 2 ^ 31)
    (hP : 0 < P) (hP2 : P ≤ 2 ^ 16) :
    pipeSum R g lo hi P val = some (∑ c ∈ boxSet lo hi, val c) := by
  obtain ⟨pre, last, L, h1, h2, h3, h4, h5⟩ := share_spec R hR g lo hi P (fun c => [c]) hlo hN hP hP2
  have hall : (List.range (P + 1)).mapM (share R g lo hi P (fun c => [c])) = some (pre ++ [last]) := by
    rw [List.range_succ, List.mapM_append, h1]
    simp [h2]
  have key : ∀ (l : List ℕ) (F : ℕ → Option (List Pos)) (vs : List (List Pos)), l.mapM F = some vs →
      (l.mapM fun p => (F p).map fun l => l.foldl (fun e c => e + val c) 0) =
        some (vs.map fun l => (l.map val).sum) := by
    intro l F
    induction l with
    | nil => intro vs h; simp at h; subst h; rfl
    | cons a l ih =>
      intro vs h
      simp only [List.mapM_cons, Option.pure_def, Option.bind_eq_bind] at h ⊢
      cases hF : F a with
      | none => rw [hF] at h; simp at h
      | some v =>
        cases hl : l.mapM F with
        | none => rw [hF, hl] at h; simp at h
        | some ws =>
          rw [hF, hl] at h
          simp at h
          subst h
          rw [ih ws hl]
          simp [foldl_add_sum]
  unfold pipeSum
  rw [key _ _ _ hall]
  simp only [Option.map_some, Option.some.injEq]
  have e1 : ∀ l : List K, l.foldl (fun s e => s + e) 0 = l.sum := by
    intro l
    have := foldl_add_sum l id (0 : K)
    simpa using this
  rw [e1]
  have e2 : ∀ vs : List (List Pos), (vs.map fun l => (l.map val).sum).sum = (vs.flatten.map val).sum := by
    intro vs
    induction vs with
    | nil => simp
    | cons v vs ih => simp [ih]
  rw [e2]
  have e3 : (pre ++ [last]).flatten = L := by
    have : (pre ++ [last]).flatten = pre.flatten ++ last := by simp
    rw [this, h3]
    simp
  rw [e3, ← List.sum_toFinset _ h4]
  refine Finset.sum_congr ?_ fun _ _ => rfl
  ext c
  rw [List.mem_toFinset, h5, mem_boxSet]

/-! ### C29 -/

/-- `energy_f` returns the energy summed over every cell of the local mesh once, whatever the number of
pipelines. -/
theorem energy_f_each_cell_once {E : Env K} (hg : Mesh E.g) {R : Distribute.Rounding} (hR : R.Accurate)
    {P : ℕ} (hP : 0 < P) (hP2 : P ≤ 2 ^ 16) (red : Pos → Fin 6 → K) (i : Fin 6) :
    energyF E R P red i =
      some ((∑ c ∈ boxSet (fun _ => 1) (dims E.g), red c i) * (1 / 2 * E.eps0 * E.dV)) := by
  rw [energyF, pipeSum_eq hR E.g _ _ P _ (fun a => hg.lo 1 (by norm_num) a)
    (hg.volume 1 (by norm_num) (by norm_num)) hP hP2]
  rfl

/-- It does not depend on the number of pipelines or the rounding of the work distribution. -/
theorem energy_f_pipeline_independent {E : Env K} (hg : Mesh E.g) {R R' : Distribute.Rounding}
    (hR : R.Accurate) (hR' : R'.Accurate) {P P' : ℕ} (hP : 0 < P) (hP2 : P ≤ 2 ^ 16) (hP' : 0 < P')
    (hP2' : P' ≤ 2 ^ 16) (red : Pos → Fin 6 → K) (i : Fin 6) :
    energyF E R P red i = energyF E R' P' red i := by
  rw [energy_f_each_cell_once hg hR hP hP2, energy_f_each_cell_once hg hR' hP' hP2']

/-- The single material version agrees. -/
theorem vacuum_energy_agrees (E : Env K) (he : ∀ b v, E.emat b v = 0) (hf : ∀ b v, E.fmat b v = 0) :
    reduceEnVacuum E = reduceEn E := by
  funext m c i
  fin_cases i <;> simp [reduceEnVacuum, reduceEn, he, hf] <;> ring

/-- Energies are not negative. -/
theorem energy_f_nonneg [LinearOrder K] [IsStrictOrderedRing K] {E : Env K} (hg : Mesh E.g)
    {R : Distribute.Rounding} (hR : R.Accurate) {P : ℕ} (hP : 0 < P) (hP2 : P ≤ 2 ^ 16)
    (heps : ∀ n a, 0 ≤ (E.mc n).eps a) (hmu : ∀ n a, 0 ≤ (E.mc n).rmu a) (h0 : 0 ≤ E.eps0)
    (hV : 0 ≤ E.dV) (m : FMem K) (i : Fin 6) (en : K) (h : energyF E R P (reduceEn E m) i = some en) :
    0 ≤ en := by
  rw [energy_f_each_cell_once hg hR hP hP2] at h
  simp only [Option.some.injEq] at h
  subst h
  have he : ∀ (n : ℕ) (a : Fin 3) (v : K), 0 ≤ (E.mc n).eps a * v * v := fun n a v => by
    rw [mul_assoc]; exact mul_nonneg (heps n a) (mul_self_nonneg v)
  have hb : ∀ (n : ℕ) (a : Fin 3) (v : K), 0 ≤ (E.mc n).rmu a * v * v := fun n a v => by
    rw [mul_assoc]; exact mul_nonneg (hmu n a) (mul_self_nonneg v)
  refine mul_nonneg (Finset.sum_nonneg fun c _ => ?_) (by positivity)
  have e4 : ∀ a b c d : K, 0 ≤ a → 0 ≤ b → 0 ≤ c → 0 ≤ d → 0 ≤ 1 / 4 * (a + b + c + d) := by
    intros; positivity
  have e2 : ∀ a b : K, 0 ≤ a → 0 ≤ b → 0 ≤ 1 / 2 * (a + b) := by
    intros; positivity
  fin_cases i
  · exact e4 _ _ _ _ (he _ _ _) (he _ _ _) (he _ _ _) (he _ _ _)
  · exact e4 _ _ _ _ (he _ _ _) (he _ _ _) (he _ _ _) (he _ _ _)
  · exact e4 _ _ _ _ (he _ _ _) (he _ _ _) (he _ _ _) (he _ _ _)
  · exact e2 _ _ (hb _ _ _) (hb _ _ _)
  · exact e2 _ _ (hb _ _ _) (hb _ _ _)
  · exact e2 _ _ (hb _ _ _) (hb _ _ _)

/-! ### C28 -/

lemma sum_fromTo (a b : ℤ) (f : ℤ → K) : ((fromTo a b).map f).sum = ∑ x ∈ Finset.Icc a b, f x := by
  rw [← List.sum_toFinset _ (fromTo_nodup a b)]
  refine Finset.sum_congr ?_ fun _ _ => rfl
  ext x
  rw [List.mem_toFinset, mem_fromTo, Finset.mem_Icc]

lemma sum_boxSet (lo hi : Pos) (f : Pos → K) : ∑ c ∈ boxSet lo hi, f c =
    ∑ x ∈ Finset.Icc (lo 0) (hi 0), ∑ y ∈ Finset.Icc (lo 1) (hi 1), ∑ z ∈ Finset.Icc (lo 2) (hi 2),
      f ![x, y, z] := by
  simp only [← Finset.sum_product']
  refine Finset.sum_nbij' (fun c => (c 0, c 1, c 2)) (fun t => ![t.1, t.2.1, t.2.2]) ?_ ?_ ?_ ?_ ?_
  · intro c hc
    rw [mem_boxSet] at hc
    simp [hc]
  · rintro ⟨x, y, z⟩ h
    simp only [Finset.mem_product, Finset.mem_Icc] at h
    rw [mem_boxSet, forall_axis]
    simp; omega
  · intro c _
    apply pos_ext <;> rfl
  · rintro ⟨x, y, z⟩ _
    rfl
  · intro c _
    congr 1
    apply pos_ext <;> rfl

/-- One dimension: the ends count half. -/
lemma sum_ends {n : ℤ} (hn : 1 ≤ n) (f : ℤ → K) :
    ∑ x ∈ Finset.Icc 1 (n + 1), (if x = 1 ∨ x = n + 1 then (1 / 2 : K) else 1) * f x =
      1 / 2 * f 1 + ∑ x ∈ Finset.Icc 2 n, f x + 1 / 2 * f (n + 1) := by
  have h1 : Finset.Icc 1 (n + 1) = insert 1 (insert (n + 1) (Finset.Icc 2 n)) := by
    ext x
    simp only [Finset.mem_Icc, Finset.mem_insert]
    omega
  rw [h1, Finset.sum_insert (by simp; omega), Finset.sum_insert (by simp)]
  have : ∑ x ∈ Finset.Icc 2 n, (if x = 1 ∨ x = n + 1 then (1 / 2 : K) else 1) * f x =
      ∑ x ∈ Finset.Icc 2 n, f x := by
    refine Finset.sum_congr rfl fun x hx => ?_
    rw [Finset.mem_Icc] at hx
    rw [if_neg (by omega), one_mul]
  rw [this]
  simp
  ring

lemma sum_flatMap' {α β : Type*} (l : List α) (f : α → List β) (g : β → K) :
    ((l.flatMap f).map g).sum = (l.map fun a => ((f a).map g).sum).sum := by
  induction l with
  | nil => simp
  | cons a l ih => simp [ih]

/-- `compute_rms_div_e_err` adds the square of the error at every node of the local mesh exactly once, weighted
with the part of the node's cell that lies in the domain (1 inside, 1/2 on faces, 1/4 on edges, 1/8 at
corners), for every mesh size and number of pipelines. -/
theorem rms_div_e_each_node_once [CharZero K] {E : Env K} (hg : Mesh E.g) {R : Distribute.Rounding} (hR : R.Accurate)
    {P : ℕ} (hP : 0 < P) (hP2 : P ≤ 2 ^ 16) (m : FMem K) :
    rmsDivELocal E R P m = some
      ((∑ c ∈ boxSet (fun _ => 1) (fun a => dims E.g a + 1),
          nodeWeight E.g c * (m (vox E.g c, .divE)) ^ 2) * E.dV,
       (E.g.nx * E.g.ny * E.g.nz : ℤ) * E.dV) := by
  have hp := hg.pos
  simp only [forall_axis, dims] at hp
  simp at hp
  obtain ⟨p0, p1, p2⟩ := hp
  rw [rmsDivELocal, pipeSum_eq hR E.g _ _ P _ (fun a => hg.lo 2 (by norm_num) a)
    (hg.volume 2 (by norm_num) (by norm_num)) hP hP2]
  simp only [Option.map_some, Option.some.injEq, Prod.mk.injEq, and_true]
  congr 1
  rw [foldl_add_sum, zero_add]
  generalize hf : (fun c : Pos => m (vox E.g c, .divE)) = f
  have hf' : ∀ c, m (vox E.g c, .divE) = f c := fun c => by rw [← hf]
  simp only [hf']
  rw [sum_boxSet, sum_boxSet]
  have hw : ∀ x y z : ℤ, nodeWeight (K := K) E.g ![x, y, z] * f ![x, y, z] ^ 2 =
      (if x = 1 ∨ x = E.g.nx + 1 then (1 / 2 : K) else 1) *
      ((if y = 1 ∨ y = E.g.ny + 1 then (1 / 2 : K) else 1) *
      ((if z = 1 ∨ z = E.g.nz + 1 then (1 / 2 : K) else 1) * f ![x, y, z] ^ 2)) := by
    intro x y z
    simp only [nodeWeight, Fin.prod_univ_three, dims]
    simp only [Matrix.cons_val_zero, Matrix.cons_val_one, Matrix.cons_val]
    ring
  simp only [hw, ← Finset.mul_sum]
  simp only [dims, Matrix.cons_val_zero, Matrix.cons_val_one, Matrix.cons_val]
  simp only [sum_ends p2, sum_ends p1, sum_ends p0]
  simp only [rmsTerms, List.map_append, List.sum_append, sum_flatMap', List.map_cons, List.map_nil,
    List.sum_cons, List.sum_nil, add_zero, sum_fromTo]
  have sw1 : ∀ F : ℤ → ℤ → K, ∑ z ∈ Finset.Icc 2 E.g.nz, ∑ x ∈ Finset.Icc 2 E.g.nx, F z x =
      ∑ x ∈ Finset.Icc 2 E.g.nx, ∑ z ∈ Finset.Icc 2 E.g.nz, F z x := fun F => Finset.sum_comm
  rw [sw1]
  simp only [Finset.sum_add_distrib, ← Finset.mul_sum, mul_assoc, pow_two, mul_add]
  ring

/-- The weights of all nodes add up to the number of cells. -/
theorem node_weights_add_up [CharZero K] {g : LGrid} (hg : Mesh g) :
    ∑ c ∈ boxSet (fun _ => 1) (fun a => dims g a + 1), nodeWeight (K := K) g c =
      ((g.nx * g.ny * g.nz : ℤ) : K) := by
  have hp := hg.pos
  simp only [nodeWeight]
  rw [boxSet, ← Finset.prod_univ_sum (fun a => Finset.Icc 1 (dims g a + 1))
    (fun a x => if x = 1 ∨ x = dims g a + 1 then (1 / 2 : K) else 1)]
  have : ∀ a, ∑ x ∈ Finset.Icc 1 (dims g a + 1), (if x = 1 ∨ x = dims g a + 1 then (1 / 2 : K) else 1) =
      (dims g a : K) := by
    intro a
    have h := sum_ends (K := K) (hp a) (fun _ => 1)
    simp only [mul_one] at h
    rw [h]
    simp only [Finset.sum_const, Int.card_Icc, nsmul_eq_mul, mul_one]
    have e : (((dims g a + 1 - 2).toNat : ℕ) : K) = (dims g a : K) - 1 := by
      have : (((dims g a + 1 - 2).toNat : ℕ) : ℤ) = dims g a - 1 := by
        have := hp a; omega
      calc (((dims g a + 1 - 2).toNat : ℕ) : K) = ((((dims g a + 1 - 2).toNat : ℕ) : ℤ) : K) := by push_cast; rfl
        _ = ((dims g a - 1 : ℤ) : K) := by rw [this]
        _ = _ := by push_cast; ring
    rw [e]
    ring
  rw [Finset.prod_congr rfl fun a _ => this a, Fin.prod_univ_three]
  simp [dims]

/-- `compute_rms_div_b_err` adds the square of the error in every cell of the local mesh exactly once. -/
theorem rms_div_b_each_cell_once {E : Env K} (hg : Mesh E.g) {R : Distribute.Rounding} (hR : R.Accurate)
    {P : ℕ} (hP : 0 < P) (hP2 : P ≤ 2 ^ 16) (m : FMem K) :
    rmsDivBLocal E R P m = some
      ((∑ c ∈ boxSet (fun _ => 1) (dims E.g), (m (vox E.g c, .divB)) ^ 2) * E.dV,
       (E.g.nx * E.g.ny * E.g.nz : ℤ) * E.dV) := by
  rw [rmsDivBLocal, pipeSum_eq hR E.g _ _ P _ (fun a => hg.lo 1 (by norm_num) a)
    (hg.volume 1 (by norm_num) (by norm_num)) hP hP2]
  simp only [Option.map_some, pow_two]

/-- A uniform error is reported as it is: the rms of a constant error `e` on every rank is `eps0 |e|`. -/
theorem rms_of_uniform_error (rt : K → K) (hrt : ∀ x, rt (x * x) = x ∨ rt (x * x) = -x) [CharZero K]
    {E : Env K} (hg : Mesh E.g) {R : Distribute.Rounding} (hR : R.Accurate)
    {P : ℕ} (hP : 0 < P) (hP2 : P ≤ 2 ^ 16) (hV : E.dV ≠ 0) (m : FMem K) (e : K)
    (hm : ∀ c, NodeOn E.g c → m (vox E.g c, .divE) = e) :
    ∃ l, rmsDivELocal E R P m = some l ∧
      (rmsFinal rt E.eps0 [l] = E.eps0 * e ∨ rmsFinal rt E.eps0 [l] = E.eps0 * -e) := by
  refine ⟨_, rms_div_e_each_node_once hg hR hP hP2 m, ?_⟩
  have h1 : ∑ c ∈ boxSet (fun _ => 1) (fun a => dims E.g a + 1),
      nodeWeight (K := K) E.g c * (m (vox E.g c, .divE)) ^ 2 =
      ((E.g.nx * E.g.ny * E.g.nz : ℤ) : K) * e ^ 2 := by
    rw [← node_weights_add_up hg, Finset.sum_mul]
    refine Finset.sum_congr rfl fun c hc => ?_
    rw [mem_boxSet] at hc
    rw [hm c hc]
  have hn : ((E.g.nx * E.g.ny * E.g.nz : ℤ) : K) ≠ 0 := by
    have hp := hg.pos
    simp only [forall_axis, dims] at hp
    simp at hp
    obtain ⟨p0, p1, p2⟩ := hp
    have : E.g.nx * E.g.ny * E.g.nz ≠ 0 := by positivity
    exact_mod_cast this
  simp only [rmsFinal, List.map_cons, List.map_nil, List.sum_cons, List.sum_nil, add_zero, h1]
  have : ((E.g.nx * E.g.ny * E.g.nz : ℤ) : K) * e ^ 2 * E.dV / (((E.g.nx * E.g.ny * E.g.nz : ℤ) : K) * E.dV) =
      e * e := by
    field_simp
  rw [this]
  rcases hrt e with h | h <;> rw [h] <;> simp

end Verif.Field
