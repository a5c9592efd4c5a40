import Verif.Field.Clean

/-!
# Cleaning the electric field (C27)
-/
namespace Verif.Field

open Grid

variable {K : Type*} [Field K]

/-- The edge one step below: filled from the rank below after the exchange. -/
lemma filled_below {n : ℕ} {W : World K n} {N : Fin n → Fin 3 × Bool → Fin n} (hW : W.Periodic N)
    (m : Fin n → FMem K) (r : Fin n) {mg : FMem K}
    (hf : Filled (W r) (localGhostNormE (W r)) slotsNormE (W.ghostMail slotsNormE m r) (m r) mg)
    (c : Pos) (hc : CellOn (W r).g c) (a : Fin 3) :
    mg (vox (W r).g (dn a c), .e a) =
      m (cellStep W N (r, c) (a, true)).1
        (vox (W (cellStep W N (r, c) (a, true)).1).g (cellStep W N (r, c) (a, true)).2, .e a) := by
  obtain ⟨in1, -⟩ := filled_norm_e (hW.mesh r) hf
  obtain ⟨lg, rs, h1, h2, rfl⟩ := hf.ex
  obtain ⟨rs', h3, h4⟩ := ghost_exchange hW.toLinked (fun g hg => slotsNormE_ok hg) slots_dims.2.1 m r
  rw [h2] at h3
  obtain rfl := Option.some.inj h3
  have hca := hc a
  by_cases h : 1 < c a
  · have e : cellStep W N (r, c) (a, true) = (r, dn a c) := by simp [cellStep, h]
    rw [e]
    refine in1 a (dn a c) fun b => ?_
    have := hc b
    simp only [dn]
    split
    · rename_i hb; subst hb; omega
    · omega
  · have e : cellStep W N (r, c) (a, true) = (N r (a, true), Function.update c a (dims (W r).g a)) := by
      simp [cellStep, h]
    rw [e]
    have hsrc : W.src r (a, false) = some (N r (a, true)) := hW.nbr r (a, true)
    have := (h4 (runSeq lg (m r))).1 (a, false) _ hsrc (dn a c, .e a) (by
      simp only [slotsNormE, List.mem_map, mem_nodePlane]
      refine ⟨dn a c, fun b => ?_, rfl⟩
      have := hc b
      have hf0 : fillPlane (W r).g (a, false) = 0 := rfl
      simp only [dn, hf0]
      split
      · rename_i hb; subst hb; omega
      · omega)
    rw [this]
    congr 3
    funext b
    simp only [Function.update_apply, dn, sendPlane, hW.dims (N r (a, true)) r]
    split <;> simp_all

/-- The share of the correction that an edge carries: `drive * eps`, 1 in an insulator and between 0 and 1 in a
conductor. -/
def edgeShare (E : Env K) (a : Fin 3) (c : Pos) : K :=
  (E.mc (E.emat a (vox E.g c))).eps a * (E.mc (E.emat a (vox E.g c))).drive a

/-- Sum over all ranks of the squared errors of the nodes (each node once: the last plane of a periodic rank is
the first plane of its neighbour). -/
def errE {n : ℕ} (W : World K n) (m : Fin n → FMem K) : K :=
  ∑ r, ∑ c ∈ boxSet (fun _ => 1) (dims (W r).g), m r (vox (W r).g c, .divE) ^ 2

lemma marderE_val (E : Env K) (a : Fin 3) (c : Pos) (m : FMem K) :
    marderE E (a, c) m (vox E.g c, .e a) = m (vox E.g c, .e a) +
      (E.mc (E.emat a (vox E.g c))).drive a * (alphadt E * invStep E a) *
        (m (vox E.g (up a c), .divE) - m (vox E.g c, .divE)) := by
  fin_cases a <;> simp [marderE, setAt, p_eq]

/-- **C27, contraction for E.**  On a periodic mesh, when the ranks agree on the errors of shared nodes, finding
the errors, one pass of `clean_div_e` and finding them again never gives a larger sum of squares; any placement
of insulators and conductors, with the ghost materials of each rank those of its neighbour. -/
theorem clean_div_e_contracts [LinearOrder K] [IsStrictOrderedRing K] {n : ℕ} {W : World K n}
    {N : Fin n → Fin 3 × Bool → Fin n} (hW : W.Periodic N) {R : Distribute.Rounding} (hR : R.Accurate)
    {P : ℕ} (hP : 0 < P) (hP2 : P ≤ 2 ^ 16) (hres : ∀ r, ∃ a, 1 < dims (W r).g a ∧ (W r).rd a ≠ 0)
    (hshare : ∀ r a c, CellOn (W r).g c → 0 ≤ edgeShare (W r) a c ∧ edgeShare (W r) a c ≤ 1)
    (hnode : ∀ r c, CellOn (W r).g c → ((W r).mc ((W r).nmat (vox (W r).g c))).nonconductive = 0 ∨
      ((W r).mc ((W r).nmat (vox (W r).g c))).nonconductive = 1)
    (hmat : ∀ r a c, CellOn (W r).g c → c a = 1 →
      ((W r).mc ((W r).emat a (vox (W r).g (dn a c)))).eps a =
        ((W (N r (a, true))).mc ((W (N r (a, true))).emat a
          (vox (W (N r (a, true))).g (Function.update c a (dims (W r).g a))))).eps a)
    {m0 m1 m2 m3 : Fin n → FMem K}
    (h1 : ∀ r, ComputeDivE (W r) R P (updateDivE (W r)) (W.ghostMail slotsNormE m0 r) (m0 r) (m1 r))
    (hagree : ∀ r a c, CellOn (W r).g c → c a = dims (W r).g a →
      m1 r (vox (W r).g (up a c), .divE) =
        m1 (N r (a, false)) (vox (W (N r (a, false))).g (Function.update c a 1), .divE))
    (h2 : ∀ r, CleanDivE (W r) R P (marderE (W r)) (m1 r) (m2 r))
    (h3 : ∀ r, ComputeDivE (W r) R P (updateDivE (W r)) (W.ghostMail slotsNormE m2 r) (m2 r) (m3 r)) :
    errE W m3 ≤ errE W m1 := by
  let d : Fin n × Pos → K := fun x => m1 x.1 (vox (W x.1).g x.2, .divE)
  let κ : Fin 3 → Fin n × Pos → K := fun a x =>
    edgeShare (W x.1) a x.2 * (invStep (W x.1) a * (invStep (W x.1) a * alphadt (W x.1)))
  let w : Fin 3 × Bool → Fin n × Pos → K := fun s x =>
    if s.2 then κ s.1 (cellStep W N x s) else κ s.1 x
  have hinv : ∀ r r', invStep (W r) = invStep (W r') := by
    intro r r'
    funext a
    simp only [invStep, hW.dims r r', hW.rd r r']
  have hal : ∀ r r', alphadt (W r) = alphadt (W r') := by
    intro r r'
    simp only [alphadt, p_eq, hinv r r']
  have hS : ∀ r, 0 < ∑ a, invStep (W r) a * invStep (W r) a := by
    intro r
    obtain ⟨a, ha, hr⟩ := hres r
    refine Finset.sum_pos' (fun b _ => mul_self_nonneg _) ⟨a, Finset.mem_univ _, ?_⟩
    simp only [invStep, if_pos ha]
    exact mul_self_pos.mpr hr
  have hA : ∀ r, alphadt (W r) = 3888889 / 10000000 / ∑ a, invStep (W r) a * invStep (W r) a := by
    intro r
    simp only [alphadt, p_eq, one_mul, Fin.sum_univ_three]
  have hApos : ∀ r, 0 ≤ alphadt (W r) := by
    intro r
    rw [hA]
    exact div_nonneg (by norm_num) (hS r).le
  have nocond : ∀ r a c, ¬ OnConductor (W r) a c := by
    rintro r a c ⟨s, -, ⟨hw, -⟩, -⟩
    exact not_wall hW r s hw
  have cellEdge : ∀ r a c, CellOn (W r).g c → EdgeOn (W r).g a c := by
    intro r a c hc b
    have := hc b
    split <;> omega
  have cellNode : ∀ r c, CellOn (W r).g c → NodeOn (W r).g c := by
    intro r c hc b
    have := hc b
    omega
  -- the error one step up, as cleaning sees it
  have upErr : ∀ r a c, CellOn (W r).g c →
      m1 r (vox (W r).g (up a c), .divE) = d (cellStep W N (r, c) (a, false)) := by
    intro r a c hc
    by_cases h : c a < dims (W r).g a
    · simp only [d, cellStep, h, Bool.false_eq_true, if_false, if_true]
    · simp only [d, cellStep, h, Bool.false_eq_true, if_false]
      exact hagree r a c hc (le_antisymm (hc a).2 (not_lt.mp h))
  -- the field on an edge after cleaning
  have eVal : ∀ r a c, CellOn (W r).g c → m2 r (vox (W r).g c, .e a) = m1 r (vox (W r).g c, .e a) +
      ((W r).mc ((W r).emat a (vox (W r).g c))).drive a * (alphadt (W r) * invStep (W r) a) *
        (d (cellStep W N (r, c) (a, false)) - d (r, c)) := by
    intro r a c hc
    obtain ⟨-, r2, -⟩ := clean_div_e_result (hW.mesh r) hR hP hP2 (marderE_local (W r)) (h2 r)
    rw [r2 a c (cellEdge r a c hc) (nocond r a c), marderE_val, upErr r a c hc]
  have eSame : ∀ r a c, CellOn (W r).g c → m1 r (vox (W r).g c, .e a) = m0 r (vox (W r).g c, .e a) := by
    intro r a c hc
    obtain ⟨mg, hf, -, -, q4⟩ := compute_div_e_result (hW.mesh r) hR hP hP2 (updateDivE_local (W r)) (h1 r)
    rw [q4 _ (by intro c' _ e; simp at e), (filled_norm_e (hW.mesh r) hf).1 a c (cellEdge r a c hc)]
  have mateps : ∀ r a c, CellOn (W r).g c → ((W r).mc ((W r).emat a (vox (W r).g (dn a c)))).eps a =
      ((W (cellStep W N (r, c) (a, true)).1).mc ((W (cellStep W N (r, c) (a, true)).1).emat a
        (vox (W (cellStep W N (r, c) (a, true)).1).g (cellStep W N (r, c) (a, true)).2))).eps a := by
    intro r a c hc
    by_cases h : 1 < c a
    · simp [cellStep, h]
    · simp only [cellStep, h, if_true, if_false]
      exact hmat r a c hc (by have := (hc a).1; omega)
  have key : ∀ r c, CellOn (W r).g c → ∃ X, d (r, c) =
      ((W r).mc ((W r).nmat (vox (W r).g c))).nonconductive * X ∧
      m3 r (vox (W r).g c, .divE) = ((W r).mc ((W r).nmat (vox (W r).g c))).nonconductive *
        (X + ∑ s, w s (r, c) * (d (cellStep W N (r, c) s) - d (r, c))) := by
    intro r c hc
    obtain ⟨mg, hf, -, q3, q4⟩ := compute_div_e_result (hW.mesh r) hR hP hP2 (updateDivE_local (W r)) (h1 r)
    obtain ⟨mg', hf', -, q3', q4'⟩ := compute_div_e_result (hW.mesh r) hR hP hP2 (updateDivE_local (W r)) (h3 r)
    have nowall : ∀ s, OnWall (W r) s c → ¬ (sideBC (W r).g s = antiSymmetricFields ∨
        sideBC (W r).g s = absorbFields) := fun s hs => absurd hs.1 (not_wall hW r s)
    obtain ⟨-, -, r3⟩ := clean_div_e_result (hW.mesh r) hR hP hP2 (marderE_local (W r)) (h2 r)
    have rho : ∀ k, (k = FC.rhof ∨ k = FC.rhob) → mg' (vox (W r).g c, k) = mg (vox (W r).g c, k) := by
      intro k hk
      rw [(filled_norm_e (hW.mesh r) hf').2 _ (by rintro a; rcases hk with rfl | rfl <;> simp),
        r3 _ (by rintro a c' _ hx; rcases hk with rfl | rfl <;> simp [EW] at hx),
        q4 _ (by intro c' _ e; rcases hk with rfl | rfl <;> simp at e)]
    refine ⟨_, (q3 c (cellNode r c hc) nowall).trans (updateDivE_val ..), ?_⟩
    rw [q3' c (cellNode r c hc) nowall, updateDivE_val, rho _ (.inl rfl), rho _ (.inr rfl)]
    congr 1
    rw [sub_add_eq_add_sub]
    congr 1
    simp only [divEpsE]
    rw [Fintype.sum_prod_type, ← Finset.sum_add_distrib]
    refine Finset.sum_congr rfl fun a _ => ?_
    simp only [Fintype.sum_bool]
    set y := cellStep W N (r, c) (a, true) with hy
    have hyc : CellOn (W y.1).g y.2 := mem_allCells.mp (cellStep_mem hW (r, c) (mem_allCells.mpr hc) (a, true))
    have hyb : cellStep W N (y.1, y.2) (a, false) = (r, c) :=
      cellStep_inv hW (r, c) (mem_allCells.mpr hc) (a, true)
    rw [filled_below hW m2 r hf' c hc a, filled_below hW m0 r hf c hc a, ← hy,
      (filled_norm_e (hW.mesh r) hf').1 a c (cellEdge r a c hc),
      (filled_norm_e (hW.mesh r) hf).1 a c (cellEdge r a c hc), eVal r a c hc, eVal y.1 a y.2 hyc,
      eSame r a c hc, eSame y.1 a y.2 hyc, hyb, mateps r a c hc, ← hy]
    have hd : d (y.1, y.2) = d y := rfl
    simp only [w, κ, edgeShare, if_true, Bool.false_eq_true, if_false, ← hy, hd, hinv y.1 r, hal y.1 r]
    ring
  have e3 : errE W m3 ≤ ∑ x ∈ allCells W, (d x + ∑ s, w s x * (d (cellStep W N x s) - d x)) ^ 2 := by
    rw [errE, ← sum_allCells W fun r c => m3 r (vox (W r).g c, .divE) ^ 2]
    refine Finset.sum_le_sum fun x hx => ?_
    have hc := mem_allCells.mp hx
    obtain ⟨X, k1, k2⟩ := key x.1 x.2 hc
    rw [k2]
    rcases hnode x.1 x.2 hc with h | h
    · rw [h, zero_mul]
      simpa using sq_nonneg _
    · rw [h, one_mul] at k1 ⊢
      rw [← k1]
  have e1 : errE W m1 = ∑ x ∈ allCells W, d x ^ 2 := by
    rw [errE, ← sum_allCells W fun r c => m1 r (vox (W r).g c, .divE) ^ 2]
  rw [e1]
  refine e3.trans ?_
  have κ0 : ∀ a, ∀ x ∈ allCells W, 0 ≤ κ a x := by
    intro a x hx
    refine mul_nonneg (hshare x.1 a x.2 (mem_allCells.mp hx)).1 ?_
    rw [← mul_assoc]
    exact mul_nonneg (mul_self_nonneg _) (hApos _)
  have κ1 : ∀ a, ∀ x ∈ allCells W, ∀ r, κ a x ≤ invStep (W r) a * (invStep (W r) a * alphadt (W r)) := by
    intro a x hx r
    rw [hinv r x.1, hal r x.1]
    refine mul_le_of_le_one_left ?_ (hshare x.1 a x.2 (mem_allCells.mp hx)).2
    rw [← mul_assoc]
    exact mul_nonneg (mul_self_nonneg _) (hApos _)
  refine smoothing (allCells W) (cellStep W N) (cellStep_mem hW) (cellStep_inv hW) d w ?_ ?_ ?_
  · rintro ⟨a, b⟩ x hx
    cases b
    · exact κ0 a x hx
    · exact κ0 a _ (cellStep_mem hW x hx _)
  · rintro ⟨a, b⟩ x hx
    cases b
    · show κ a (cellStep W N (cellStep W N x (a, false)) (opp (a, false))) = κ a x
      rw [cellStep_inv hW x hx]
    · rfl
  · intro x hx
    have : ∑ s, w s x ≤ ∑ a, (invStep (W x.1) a * invStep (W x.1) a) * (2 * alphadt (W x.1)) := by
      rw [Fintype.sum_prod_type]
      refine Finset.sum_le_sum fun a _ => ?_
      simp only [Fintype.sum_bool]
      have t1 : w (a, true) x ≤ _ := κ1 a _ (cellStep_mem hW x hx (a, true)) x.1
      have t2 : w (a, false) x ≤ _ := κ1 a x hx x.1
      have t3 : (invStep (W x.1) a * invStep (W x.1) a) * (2 * alphadt (W x.1)) =
        invStep (W x.1) a * (invStep (W x.1) a * alphadt (W x.1)) +
        invStep (W x.1) a * (invStep (W x.1) a * alphadt (W x.1)) := by ring
      rw [t3]
      exact add_le_add t1 t2
    refine this.trans ?_
    rw [← Finset.sum_mul, hA]
    have h := (hS x.1).ne'
    rw [mul_comm, mul_assoc, div_mul_cancel₀ _ h]
    norm_num

end Verif.Field
