import Verif.Field.WorldProps
import Verif.Field.Diagnostics

/-!
# Divergence cleaning (C27)
-/
namespace Verif.Field

open Grid

variable {K : Type*} [Field K]

/-! ### Smoothing on a finite graph -/

/-- A weighted mean has no larger square than the weighted squares. -/
lemma mean_sq [LinearOrder K] [IsStrictOrderedRing K] {ι : Type*} (S : Finset ι) (w y : ι → K) (d : K)
    (hw : ∀ i ∈ S, 0 ≤ w i) (hs : ∑ i ∈ S, w i ≤ 1) :
    (d + ∑ i ∈ S, w i * (y i - d)) ^ 2 ≤ d ^ 2 + ∑ i ∈ S, w i * (y i ^ 2 - d ^ 2) := by
  set μ := ∑ i ∈ S, w i * (y i - d) with hμ
  have h1 : 0 ≤ ∑ i ∈ S, w i * ((y i - d) - μ) ^ 2 :=
    Finset.sum_nonneg fun i hi => mul_nonneg (hw i hi) (sq_nonneg _)
  have h2 : ∑ i ∈ S, w i * ((y i - d) - μ) ^ 2 =
      ∑ i ∈ S, w i * (y i - d) ^ 2 - 2 * μ * μ + (∑ i ∈ S, w i) * μ ^ 2 := by
    conv_rhs => rw [hμ]
    rw [← hμ, Finset.sum_mul, Finset.mul_sum, ← Finset.sum_sub_distrib, ← Finset.sum_add_distrib]
    exact Finset.sum_congr rfl fun i _ => by ring
  have h3 : ∑ i ∈ S, w i * (y i ^ 2 - d ^ 2) = ∑ i ∈ S, w i * (y i - d) ^ 2 + 2 * d * μ := by
    rw [hμ, Finset.mul_sum, ← Finset.sum_add_distrib]
    exact Finset.sum_congr rfl fun i _ => by ring
  have h4 : (∑ i ∈ S, w i) * μ ^ 2 ≤ 1 * μ ^ 2 := mul_le_mul_of_nonneg_right hs (sq_nonneg _)
  rw [h3]
  nlinarith

/-- Moving every value towards its neighbours, symmetrically and not too far, does not increase the sum of
squares. -/
lemma smoothing [LinearOrder K] [IsStrictOrderedRing K] {ι : Type*} (S : Finset ι)
    (nb : ι → Fin 3 × Bool → ι) (hmem : ∀ x ∈ S, ∀ s, nb x s ∈ S)
    (hinv : ∀ x ∈ S, ∀ s, nb (nb x s) (opp s) = x) (d : ι → K) (w : Fin 3 × Bool → ι → K)
    (hw : ∀ s, ∀ x ∈ S, 0 ≤ w s x) (hsym : ∀ s, ∀ x ∈ S, w (opp s) (nb x s) = w s x)
    (hsum : ∀ x ∈ S, ∑ s, w s x ≤ 1) :
    ∑ x ∈ S, (d x + ∑ s, w s x * (d (nb x s) - d x)) ^ 2 ≤ ∑ x ∈ S, d x ^ 2 := by
  have h1 : ∑ x ∈ S, (d x + ∑ s, w s x * (d (nb x s) - d x)) ^ 2 ≤
      ∑ x ∈ S, (d x ^ 2 + ∑ s, w s x * (d (nb x s) ^ 2 - d x ^ 2)) :=
    Finset.sum_le_sum fun x hx => mean_sq Finset.univ (fun s => w s x) (fun s => d (nb x s)) (d x)
      (fun s _ => hw s x hx) (hsum x hx)
  refine h1.trans (le_of_eq ?_)
  rw [Finset.sum_add_distrib]
  have h2 : ∑ x ∈ S, ∑ s, w s x * (d (nb x s) ^ 2 - d x ^ 2) = 0 := by
    rw [Finset.sum_comm]
    simp only [mul_sub, Finset.sum_sub_distrib]
    have e : ∀ s, ∑ x ∈ S, w s x * d (nb x s) ^ 2 = ∑ x ∈ S, w (opp s) x * d x ^ 2 := by
      intro s
      refine Finset.sum_nbij' (fun x => nb x s) (fun x => nb x (opp s)) (fun x hx => hmem x hx s)
        (fun x hx => hmem x hx (opp s)) (fun x hx => hinv x hx s) (fun x hx => ?_) (fun x hx => ?_)
      · simpa using hinv x hx (opp s)
      · rw [hsym s x hx]
    simp only [e]
    have e2 : ∑ s : Fin 3 × Bool, ∑ x ∈ S, w (opp s) x * d x ^ 2 = ∑ s : Fin 3 × Bool, ∑ x ∈ S, w s x * d x ^ 2 := by
      refine Finset.sum_nbij' opp opp ?_ ?_ ?_ ?_ ?_ <;> simp
    rw [e2, sub_self]
  rw [h2, add_zero]

/-! ### The cells of all ranks of a periodic box -/

/-- Every side of every rank has a neighbouring rank `N r s`. -/
structure World.Periodic {n : ℕ} (W : World K n) (N : Fin n → Fin 3 × Bool → Fin n) : Prop
    extends W.Linked where
  nbr : ∀ r s, W.dst r s = some (N r s)
  rd : ∀ r r', (W r).rd = (W r').rd

/-- The neighbouring cell on side `s`: on the same rank, or the first or last cell of the neighbour. -/
def cellStep {n : ℕ} (W : World K n) (N : Fin n → Fin 3 × Bool → Fin n) (x : Fin n × Pos)
    (s : Fin 3 × Bool) : Fin n × Pos :=
  let a := s.1
  if s.2 then
    if 1 < x.2 a then (x.1, dn a x.2) else (N x.1 s, Function.update x.2 a (dims (W x.1).g a))
  else
    if x.2 a < dims (W x.1).g a then (x.1, up a x.2) else (N x.1 s, Function.update x.2 a 1)

/-- All cells of all ranks. -/
def allCells {n : ℕ} (W : World K n) : Finset (Fin n × Pos) :=
  Finset.univ.biUnion fun r => (boxSet (fun _ => 1) (dims (W r).g)).image fun c => (r, c)

lemma mem_allCells {n : ℕ} {W : World K n} {x : Fin n × Pos} : x ∈ allCells W ↔ CellOn (W x.1).g x.2 := by
  obtain ⟨r, c⟩ := x
  simp [allCells, mem_boxSet, CellOn]

lemma sum_allCells {n : ℕ} (W : World K n) (f : Fin n → Pos → K) :
    ∑ x ∈ allCells W, f x.1 x.2 = ∑ r, ∑ c ∈ boxSet (fun _ => 1) (dims (W r).g), f r c := by
  rw [allCells, Finset.sum_biUnion]
  · refine Finset.sum_congr rfl fun r _ => ?_
    rw [Finset.sum_image (fun _ _ _ _ h => (Prod.mk.inj h).2)]
  · intro r _ r' _ hne
    rw [Function.onFun, Finset.disjoint_left]
    intro x hx hx'
    simp only [Finset.mem_image] at hx hx'
    obtain ⟨c, -, rfl⟩ := hx
    obtain ⟨c', -, e⟩ := hx'
    exact hne (Prod.mk.inj e).1.symm

lemma Periodic.inv {n : ℕ} {W : World K n} {N : Fin n → Fin 3 × Bool → Fin n} (hW : W.Periodic N)
    (r : Fin n) (s : Fin 3 × Bool) : N (N r s) (opp s) = r := by
  have h1 := (hW.link r (N r s) s).mp (hW.nbr r s)
  have h2 := hW.nbr (N r s) (opp s)
  have h3 : W.src (N r s) s = W.dst (N r s) (opp s) := rfl
  rw [h3, h2] at h1
  exact Option.some.inj h1

lemma cellStep_mem {n : ℕ} {W : World K n} {N : Fin n → Fin 3 × Bool → Fin n} (hW : W.Periodic N)
    (x : Fin n × Pos) (hx : x ∈ allCells W) (s : Fin 3 × Bool) : cellStep W N x s ∈ allCells W := by
  obtain ⟨r, c⟩ := x
  obtain ⟨a, b⟩ := s
  rw [mem_allCells] at hx ⊢
  have hd := hW.dims (N r (a, b)) r
  intro e
  have h1 := hx e
  have h2 := (hW.mesh r).pos e
  have h3 := hx a
  simp only at h1 h3
  cases b
  · by_cases h : c a < dims (W r).g a
    · simp only [cellStep, h, if_true, Bool.false_eq_true, if_false, up]
      split
      · rename_i he; subst he; omega
      · exact h1
    · simp only [cellStep, h, if_false, Bool.false_eq_true, Function.update_apply, hd]
      split <;> omega
  · by_cases h : 1 < c a
    · simp only [cellStep, h, if_true, dn]
      split
      · rename_i he; subst he; omega
      · exact h1
    · simp only [cellStep, h, if_false, if_true, Function.update_apply, hd]
      split
      · rename_i he; subst he; omega
      · exact h1

lemma cellStep_inv {n : ℕ} {W : World K n} {N : Fin n → Fin 3 × Bool → Fin n} (hW : W.Periodic N)
    (x : Fin n × Pos) (hx : x ∈ allCells W) (s : Fin 3 × Bool) :
    cellStep W N (cellStep W N x s) (opp s) = x := by
  obtain ⟨r, c⟩ := x
  have hinv := Periodic.inv hW r s
  obtain ⟨a, b⟩ := s
  rw [mem_allCells] at hx
  have hd := hW.dims (N r (a, b)) r
  have h3 := hx a
  have h2 := (hW.mesh r).pos a
  simp only at h3
  have ud : dn a (up a c) = c := by funext e; simp only [dn, up]; split <;> omega
  have du : up a (dn a c) = c := by funext e; simp only [dn, up]; split <;> omega
  have ua : up a c a = c a + 1 := by simp [up]
  have da : dn a c a = c a - 1 := by simp [dn]
  cases b
  · by_cases h : c a < dims (W r).g a
    · simp only [cellStep, h, if_true, Bool.false_eq_true, if_false, opp, Bool.not_false, ua]
      rw [if_pos (by omega), ud]
    · simp only [cellStep, h, if_false, Bool.false_eq_true, opp, Bool.not_false, if_true,
        Function.update_self, lt_irrefl, hd]
      simp only [opp, Bool.not_false] at hinv
      rw [hinv]
      congr 1
      rw [Function.update_idem]
      have : dims (W r).g a = c a := by omega
      rw [this, Function.update_eq_self]
  · by_cases h : 1 < c a
    · simp only [cellStep, h, if_true, Bool.false_eq_true, if_false, opp, Bool.not_true, da]
      rw [if_pos (by omega), du]
    · simp only [cellStep, h, if_false, Bool.false_eq_true, opp, Bool.not_true, if_true,
        Function.update_self, lt_irrefl, hd]
      simp only [opp, Bool.not_true] at hinv
      rw [hinv]
      congr 1
      rw [Function.update_idem]
      have : c a = 1 := by omega
      rw [← this, Function.update_eq_self]

lemma not_wall {n : ℕ} {W : World K n} {N : Fin n → Fin 3 × Bool → Fin n} (hW : W.Periodic N)
    (r : Fin n) (s : Fin 3 × Bool) : ¬ IsWall (W r) s := by
  have h := (dst_eq W r (N r s) s).mp (hW.nbr r s)
  have h2 := (N r s).2
  unfold IsWall
  rw [h, hW.ws r]
  omega

/-- The error seen one step towards side `s`, after the exchange of errors. -/
lemma filled_neighbour {n : ℕ} {W : World K n} {N : Fin n → Fin 3 × Bool → Fin n} (hW : W.Periodic N)
    (m1 : Fin n → FMem K) (r : Fin n) {mg : FMem K}
    (hf : Filled (W r) (localGhostDivB (W r)) slotsDivB (W.ghostMail slotsDivB m1 r) (m1 r) mg)
    (c : Pos) (hc : CellOn (W r).g c) (s : Fin 3 × Bool) :
    mg (vox (W r).g (along s c), .divB) =
      m1 (cellStep W N (r, c) s).1 (vox (W (cellStep W N (r, c) s).1).g (cellStep W N (r, c) s).2, .divB) := by
  obtain ⟨in1, -⟩ := filled_div_b (hW.mesh r) hf
  obtain ⟨lg, rs, h1, h2, rfl⟩ := hf.ex
  obtain ⟨rs', h3, h4⟩ := ghost_exchange hW.toLinked (fun g hg => slotsDivB_ok hg) slots_dims.2.2 m1 r
  rw [h2] at h3
  obtain rfl := Option.some.inj h3
  have hc' := hc s.1
  have ghost : ∀ w, along s c s.1 = w → w = fillPlane (W r).g (opp s) → (along s c, FC.divB) ∈
      slotsDivB (W r).g (opp s).1 (fillPlane (W r).g (opp s)) := by
    intro w hw e
    simp only [slotsDivB, List.mem_map, mem_facePlane]
    refine ⟨along s c, fun b => ?_, rfl⟩
    by_cases hb : b = s.1
    · subst hb
      rw [hw, e]
      simp [opp]
    · have := hc b
      have hn : along s c b = c b := by
        unfold along; split <;> simp [up, dn, hb]
      rw [hn]
      have h5 : ¬ b = (opp s).1 := hb
      rw [if_neg h5, if_neg h5]
      exact this
  obtain ⟨a, b⟩ := s
  cases b
  · by_cases h : c a < dims (W r).g a
    · have e : cellStep W N (r, c) (a, false) = (r, up a c) := by simp [cellStep, h]
      rw [e]
      refine in1 (up a c) fun b => ?_
      have := hc b
      simp only [up]
      split
      · rename_i hb; subst hb; omega
      · exact this
    · have e : cellStep W N (r, c) (a, false) = (N r (a, false), Function.update c a 1) := by simp [cellStep, h]
      rw [e]
      have hu : along (a, false) c = up a c := rfl
      have hsrc : W.src r (a, true) = some (N r (a, false)) := hW.nbr r (a, false)
      have := (h4 (runSeq lg (m1 r))).1 (a, true) _ hsrc (up a c, .divB) (by
        refine ghost _ rfl ?_
        show up a c a = dims (W r).g a + 1
        simp only [up, if_true]
        have : c a ≤ dims (W r).g a := hc'.2
        omega)
      rw [hu, this]
      congr 3
      funext b
      simp only [Function.update_apply, up, sendPlane, if_true]
      split <;> simp_all
  · by_cases h : 1 < c a
    · have e : cellStep W N (r, c) (a, true) = (r, dn a c) := by simp [cellStep, h]
      rw [e]
      refine in1 (dn a c) fun b => ?_
      have := hc b
      simp only [dn]
      split
      · rename_i hb; subst hb; omega
      · exact this
    · have e : cellStep W N (r, c) (a, true) = (N r (a, true), Function.update c a (dims (W r).g a)) := by
        simp [cellStep, h]
      rw [e]
      have hu : along (a, true) c = dn a c := rfl
      have hsrc : W.src r (a, false) = some (N r (a, true)) := hW.nbr r (a, true)
      have := (h4 (runSeq lg (m1 r))).1 (a, false) _ hsrc (dn a c, .divB) (by
        refine ghost _ rfl ?_
        show dn a c a = 0
        simp only [dn, if_true]
        have : 1 ≤ c a := hc'.1
        omega)
      rw [hu, this]
      congr 3
      funext b
      simp only [Function.update_apply, dn, sendPlane, hW.dims (N r (a, true)) r]
      split <;> simp_all

/-! ### C27 -/

/-- Sum over all ranks and cells of the squared error in the memories. -/
def errB {n : ℕ} (W : World K n) (m : Fin n → FMem K) : K :=
  ∑ r, ∑ c ∈ boxSet (fun _ => 1) (dims (W r).g), m r (vox (W r).g c, .divB) ^ 2

lemma marderB_val (E : Env K) (a : Fin 3) (c : Pos) (m : FMem K) :
    marderB E (a, c) m (vox E.g c, .cb a) = m (vox E.g c, .cb a) +
      invStep E a * alphadt E * (m (vox E.g c, .divB) - m (vox E.g (dn a c), .divB)) := by
  fin_cases a <;> simp [marderB, setAt, p_eq]

/-- **C27, contraction.**  On a periodic mesh (any number of ranks, any mesh size with at least one direction in
which the local mesh has more than one cell), finding the errors, one pass of `clean_div_b` and finding them
again never gives a larger sum of squares. -/
theorem clean_div_b_contracts [LinearOrder K] [IsStrictOrderedRing K] {n : ℕ} {W : World K n}
    {N : Fin n → Fin 3 × Bool → Fin n} (hW : W.Periodic N) {R : Distribute.Rounding} (hR : R.Accurate)
    {P : ℕ} (hP : 0 < P) (hP2 : P ≤ 2 ^ 16) (hres : ∀ r, ∃ a, 1 < dims (W r).g a ∧ (W r).rd a ≠ 0)
    {m0 m1 m2 m3 : Fin n → FMem K} (h1 : ∀ r, ComputeDivB (W r) R P (m0 r) (m1 r))
    (h2 : ∀ r, CleanDivB (W r) R P (W.ghostMail slotsDivB m1 r) (m1 r) (m2 r))
    (h3 : ∀ r, ComputeDivB (W r) R P (m2 r) (m3 r)) :
    errB W m3 ≤ errB W m1 := by
  let d : Fin n × Pos → K := fun x => m1 x.1 (vox (W x.1).g x.2, .divB)
  let w : Fin 3 × Bool → Fin n × Pos → K := fun s x =>
    invStep (W x.1) s.1 * (invStep (W x.1) s.1 * alphadt (W x.1))
  have hinv : ∀ r r', invStep (W r) = invStep (W r') := by
    intro r r'
    funext a
    simp only [invStep, hW.dims r r', hW.rd r r']
  have hal : ∀ r r', alphadt (W r) = alphadt (W r') := by
    intro r r'
    simp only [alphadt, p_eq, hinv r r']
  have hS : ∀ r, 0 < ∑ a, invStep (W r) a * invStep (W r) a := by
    intro r
    obtain ⟨a, ha, hr⟩ := hres r
    refine Finset.sum_pos' (fun b _ => mul_self_nonneg _) ⟨a, Finset.mem_univ _, ?_⟩
    simp only [invStep, if_pos ha]
    exact mul_self_pos.mpr hr
  have hA : ∀ r, alphadt (W r) = 3888889 / 10000000 / ∑ a, invStep (W r) a * invStep (W r) a := by
    intro r
    simp only [alphadt, p_eq, one_mul, Fin.sum_univ_three]
  have hApos : ∀ r, 0 ≤ alphadt (W r) := by
    intro r
    rw [hA]
    exact div_nonneg (by norm_num) (hS r).le
  have key : ∀ r c, CellOn (W r).g c → m3 r (vox (W r).g c, .divB) =
      d (r, c) + ∑ s, w s (r, c) * (d (cellStep W N (r, c) s) - d (r, c)) := by
    intro r c hc
    obtain ⟨mg, hf, -, f2, -⟩ := clean_div_b_result (hW.mesh r) hR hP hP2 (h2 r)
    obtain ⟨g1, g2⟩ := filled_div_b (hW.mesh r) hf
    have nosym : ∀ a c, ¬ OnSymmetric (W r) a c := by
      rintro a c ⟨s, -, ⟨hw, -⟩, -⟩
      exact not_wall hW r s hw
    have hup := filled_neighbour hW m1 r hf c hc
    have c1 := cell_sweep_result (hW.mesh r) hR hP hP2 (h1 r)
    have c3 := cell_sweep_result (hW.mesh r) hR hP hP2 (h3 r)
    have cbeq : ∀ a c, mg (vox (W r).g c, .cb a) = m0 r (vox (W r).g c, .cb a) := by
      intro a c
      rw [g2 _ (by simp), c1.2 _ (by intro c' _ e; simp at e)]
    rw [c3.1 c hc, divBVal_eq, divB]
    have hd : d (r, c) = divB (W r) c (m0 r) := by
      show m1 r (vox (W r).g c, .divB) = _
      rw [c1.1 c hc, divBVal_eq]
    have hmc : mg (vox (W r).g c, .divB) = d (r, c) := g1 c hc
    rw [Fintype.sum_prod_type]
    simp only [Fintype.sum_bool]
    conv_rhs => arg 1; rw [hd, divB]
    rw [← Finset.sum_add_distrib]
    refine Finset.sum_congr rfl fun a _ => ?_
    have ud : dn a (up a c) = c := by funext e; simp only [dn, up]; split <;> omega
    rw [f2 a _ (faceOn_up hc a) (nosym a _), f2 a _ (faceOn_cell hc a) (nosym a _), marderB_val, marderB_val,
      cbeq, cbeq, ud, hmc]
    have u1 : mg (vox (W r).g (up a c), .divB) = d (cellStep W N (r, c) (a, false)) := hup (a, false)
    have u2 : mg (vox (W r).g (dn a c), .divB) = d (cellStep W N (r, c) (a, true)) := hup (a, true)
    rw [u1, u2]
    simp only [w]
    ring
  have e3 : errB W m3 = ∑ x ∈ allCells W, (d x + ∑ s, w s x * (d (cellStep W N x s) - d x)) ^ 2 := by
    rw [errB, ← sum_allCells W fun r c => m3 r (vox (W r).g c, .divB) ^ 2]
    refine Finset.sum_congr rfl fun x hx => ?_
    rw [key x.1 x.2 (mem_allCells.mp hx)]
  have e1 : errB W m1 = ∑ x ∈ allCells W, d x ^ 2 := by
    rw [errB, ← sum_allCells W fun r c => m1 r (vox (W r).g c, .divB) ^ 2]
  rw [e3, e1]
  refine smoothing (allCells W) (cellStep W N) (cellStep_mem hW) (cellStep_inv hW) d w ?_ ?_ ?_
  · intro s x _
    simp only [w]
    rw [← mul_assoc]
    exact mul_nonneg (mul_self_nonneg _) (hApos _)
  · intro s x _
    simp only [w, opp, hinv (cellStep W N x s).1 x.1, hal (cellStep W N x s).1 x.1]
  · intro x _
    simp only [w]
    rw [Fintype.sum_prod_type]
    simp only [Fintype.sum_bool]
    have : ∀ a, invStep (W x.1) a * (invStep (W x.1) a * alphadt (W x.1)) +
        invStep (W x.1) a * (invStep (W x.1) a * alphadt (W x.1)) =
        (invStep (W x.1) a * invStep (W x.1) a) * (2 * alphadt (W x.1)) := by intro a; ring
    simp only [this]
    rw [← Finset.sum_mul, hA]
    have h := (hS x.1).ne'
    rw [mul_comm, mul_assoc, div_mul_cancel₀ _ h]
    norm_num

/-- **C27, clean fields.**  When the error is zero in every cell of all ranks, `clean_div_b` changes no face
that does not lie on a symmetric wall (walls allowed). -/
theorem clean_div_b_keeps_clean {n : ℕ} {W : World K n} (hW : W.Linked) {R : Distribute.Rounding}
    (hR : R.Accurate) {P : ℕ} (hP : 0 < P) (hP2 : P ≤ 2 ^ 16) {m1 m2 : Fin n → FMem K}
    (h0 : ∀ r c, CellOn (W r).g c → m1 r (vox (W r).g c, .divB) = 0) (r : Fin n)
    (h2 : CleanDivB (W r) R P (W.ghostMail slotsDivB m1 r) (m1 r) (m2 r))
    (a : Fin 3) (c : Pos) (hc : FaceOn (W r).g a c) (hs : ¬ OnSymmetric (W r) a c) :
    m2 r (vox (W r).g c, .cb a) = m1 r (vox (W r).g c, .cb a) := by
  obtain ⟨mg, hf, -, f2, -⟩ := clean_div_b_result (hW.mesh r) hR hP hP2 h2
  obtain ⟨g1, g2⟩ := filled_div_b (hW.mesh r) hf
  obtain ⟨lg, rs, l1, l2, rfl⟩ := hf.ex
  obtain ⟨rs', h3, h4⟩ := ghost_exchange hW (fun g hg => slotsDivB_ok hg) slots_dims.2.2 m1 r
  rw [l2] at h3
  obtain rfl := Option.some.inj h3
  have hp := (hW.mesh r).pos
  rw [f2 a c hc hs, marderB_val, g2 _ (by simp)]
  -- both cells next to the face have a zero error, ghosts included
  have zero : ∀ c : Pos, (∀ b, b ≠ a → 1 ≤ c b ∧ c b ≤ dims (W r).g b) → 0 ≤ c a → c a ≤ dims (W r).g a + 1 →
      runSeq rs (runSeq lg (m1 r)) (vox (W r).g c, .divB) = 0 := by
    intro c hb l u
    by_cases hin : 1 ≤ c a ∧ c a ≤ dims (W r).g a
    · have hcell : CellOn (W r).g c := fun b => by
        by_cases h : b = a
        · subst h; exact hin
        · exact hb b h
      rw [g1 c hcell, h0 r c hcell]
    · -- a ghost, on side `s`
      obtain ⟨s, hs1, hs2⟩ : ∃ s : Fin 3 × Bool, s.1 = a ∧ c a = ghostOf (W r).g s := by
        by_cases h : c a = 0
        · exact ⟨(a, true), rfl, h⟩
        · exact ⟨(a, false), rfl, by show c a = dims (W r).g a + 1; omega⟩
      subst hs1
      have hfill : fillPlane (W r).g (opp s) = ghostOf (W r).g s := by
        obtain ⟨a, b⟩ := s
        cases b <;> rfl
      have hmem : (c, FC.divB) ∈ slotsDivB (W r).g (opp s).1 (fillPlane (W r).g (opp s)) := by
        simp only [slotsDivB, List.mem_map, mem_facePlane]
        refine ⟨c, fun b => ?_, rfl⟩
        by_cases h : b = s.1
        · subst h
          rw [hfill, hs2]
          simp [opp]
        · have h5 : ¬ b = (opp s).1 := h
          rw [if_neg h5, if_neg h5]
          exact hb b h
      cases hsrc : W.src r (opp s) with
      | some r' =>
        rw [(h4 _).1 (opp s) r' hsrc _ hmem]
        apply h0
        intro b
        have hd := hW.dims r' r
        simp only [Function.update_apply, hd]
        split
        · rename_i h
          subst h
          have hpp := hp (opp s).1
          simp only [sendPlane, hd]
          split <;> omega
        · rename_i h
          exact hb b h
      | none =>
        have hwall : IsWall (W r) s := by
          have hsrc : W.dst r s = none := by
            have : W.src r (opp s) = W.dst r (opp (opp s)) := rfl
            rw [← hsrc, this, opp_opp]
          unfold World.dst at hsrc
          dsimp only at hsrc
          unfold IsWall
          rw [hW.ws r]
          split at hsrc
          · simp at hsrc
          · omega
        have hgh : GhostAt (W r).g s (fun _ => False) c := ⟨hs2, fun b h => by simpa using hb b h⟩
        have hin0 : m1 r (vox (W r).g (inward s c), .divB) = 0 := by
          apply h0
          intro b
          by_cases h : b = s.1
          · subst h
            have hpp := hp s.1
            unfold ghostOf at hs2
            unfold inward
            split at hs2 <;> simp_all [up, dn]
          · have : inward s c b = c b := by unfold inward; split <;> simp [up, dn, h]
            rw [this]
            exact hb b h
        rw [(h4 _).2, (ghost_div_b (hW.mesh r) l1 (m1 r)).1 s c hwall hgh, hin0]
        · simp
        · intro s' r' hsrc' q hq e
          have hq2 := slotsDivB_kind _ _ _ q hq
          have hin' : InArray (W r).g q.1 := (slotsDivB_plane _).inArr _ _
            (by have := hp s'.1; unfold fillPlane; split <;> omega)
            (by have := hp s'.1; unfold fillPlane; split <;> omega) q hq
          have e1 := vox_inj (hgh.inArray (hW.mesh r)) hin' (Prod.mk.inj e).1
          have hq' : (c, FC.divB) ∈ slotsDivB (W r).g s'.1 (fillPlane (W r).g s') := by
            have : (c, FC.divB) = q := Prod.ext e1 hq2.symm
            rw [this]; exact hq
          have := (slotsDivB_ok (hW.mesh r)).cross _ _ _ hmem hq'
          rw [← this, hsrc] at hsrc'
          simp at hsrc'
  have hca := hc a
  rw [if_pos rfl] at hca
  have hcb : ∀ b, b ≠ a → 1 ≤ c b ∧ c b ≤ dims (W r).g b := by
    intro b hb
    simpa [hb] using hc b
  rw [zero c hcb (by omega) (by omega), zero (dn a c) (fun b hb => by simpa [dn, hb] using hcb b hb)
    (by simp [dn]; omega) (by simp [dn]; omega)]
  simp

/-- **C27, clean fields.**  When the error is zero at every node, `clean_div_e` changes no edge off conducting
walls. -/
theorem clean_div_e_keeps_clean {E : Env K} (hg : Mesh E.g) {R : Distribute.Rounding} (hR : R.Accurate)
    {P : ℕ} (hP : 0 < P) (hP2 : P ≤ 2 ^ 16) {m m' : FMem K}
    (h0 : ∀ c, NodeOn E.g c → m (vox E.g c, .divE) = 0) (h : CleanDivE E R P (marderE E) m m')
    (a : Fin 3) (c : Pos) (hc : EdgeOn E.g a c) (hn : ¬ OnConductor E a c) :
    m' (vox E.g c, .e a) = m (vox E.g c, .e a) := by
  obtain ⟨-, r2, -⟩ := clean_div_e_result hg hR hP hP2 (marderE_local E) h
  rw [r2 a c hc hn]
  have n1 : NodeOn E.g c := fun b => by have := hc b; split at this <;> omega
  have n2 : NodeOn E.g (up a c) := fun b => by
    have := hc b
    simp only [up]
    split
    · rename_i hb; subst hb; rw [if_pos rfl] at this; omega
    · rename_i hb; rw [if_neg hb] at this; omega
  fin_cases a <;> simp [marderE, setAt] <;> right <;> (try simp only [Fin.zero_eta, Fin.mk_one, Fin.reduceFinMk] at n2) <;>
    rw [h0 _ n1, h0 _ n2, sub_self]

end Verif.Field
