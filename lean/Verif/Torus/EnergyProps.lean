import Verif.Torus.Energy
import Verif.Torus.Sample

/-!
# Energy balance and stability of the field solver (C74, C75), and the Courant length
-/
namespace Verif.Torus

open Grid
open Field (Pos FC FMem World MC EntOn fieldExt InArray vox ranksOf coordOf SameCells dims up dn EdgeOn FaceOn NodeOn)
open Charge (cellsOf siteAt)

section
variable {K : Type} [Field K]

/-! ### What the ranks hold -/

/-- Spec: the cells of a rank; over all ranks each edge and face of the periodic mesh belongs to one cell. -/
noncomputable def rankCells (g : LGrid) : Finset Pos := Fintype.piFinset fun a => Finset.Icc 1 (dims g a)

/-- Spec: twice the energy of the fields in the memory of a rank. -/
noncomputable def rankEnergy (E : Field.Env K) (m : FMem K) : K :=
  ∑ c ∈ rankCells E.g, ∑ a, ((E.mc (E.emat a (vox E.g c))).eps a * m (vox E.g c, .e a) ^ 2 +
    (E.mc (E.fmat a (vox E.g c))).rmu a * m (vox E.g c, .cb a) ^ 2)

/-- Spec: `curl E` in the memory of a rank. -/
def rankCurl (E : Field.Env K) (m : FMem K) (a : Fin 3) (c : Pos) : K :=
  E.rd (a + 1) * (m (vox E.g (up (a + 1) c), .e (a + 2)) - m (vox E.g c, .e (a + 2))) -
    E.rd (a + 2) * (m (vox E.g (up (a + 2) c), .e (a + 1)) - m (vox E.g c, .e (a + 1)))

/-- Spec: the energy with the magnetic part taken half a step before times half a step after. -/
noncomputable def rankLeap (E : Field.Env K) (m : FMem K) : K :=
  rankEnergy E m - (E.cvac * E.dt / 2) ^ 2 *
    ∑ c ∈ rankCells E.g, ∑ a, (E.mc (E.fmat a (vox E.g c))).rmu a * rankCurl E m a c ^ 2

/-- Spec: the work of the current in the memory of a rank during a step from `m` to `m'`. -/
noncomputable def rankWork (E : Field.Env K) (m m' : FMem K) : K :=
  E.dt / E.eps0 * ∑ c ∈ rankCells E.g, ∑ a, m (vox E.g c, .jf a) * (m (vox E.g c, .e a) + m' (vox E.g c, .e a))

/-- The field part of a step, /repo/src/vpic/advance.cc:113-131: half an `advance_b`, `advance_e`, half an `advance_b`. -/
def FieldStep {n : ℕ} (F : World K n) [LinearOrder K] [IsStrictOrderedRing K] (m m' : Fin n → FMem K) : Prop :=
  ∃ m1 m2, RanksB F (1 / 2) m m1 ∧ RanksE F m1 m2 ∧ RanksB F (1 / 2) m2 m'

/-- Spec: the ranks agree on the fields. -/
def Agreed {n : ℕ} (D : Decomp) (F : World K n) (m : Fin n → FMem K) : Prop :=
  ∃ G : Fields K, ∀ k, Used k → Holds D F m G k

end

section
variable {K : Type} [Field K] [LinearOrder K] [IsStrictOrderedRing K]
variable {n : ℕ} {D : Decomp} (hD : D.ok n = true) (t0 : ℕ → ℤ → ℤ) {F : World K n}
  (hg : ∀ r : Fin n, gridOf D n t0 r = some (F r).g) (hS : SameCells F D)

include hD hg in
/-- Every place is in one cell of one rank. -/
lemma sum_cells (f : Pos → K) : ∑ r : Fin n, ∑ c ∈ rankCells (F r).g, f (siteAt D r c) = ∑ s ∈ sites (sizeOf D), f s := by
  have dm : ∀ r, dims (F r).g = cellsOf D := fun r => Charge.dims_cells hD t0 hg r
  have val : ∀ (r : Fin n) (c : Pos), c ∈ rankCells (F r).g → ∀ a, 1 ≤ c a ∧ c a ≤ cellsOf D a ∧
      siteAt D r c a = coordOf D r a * cellsOf D a + (c a - 1) := by
    intro r c hc a
    have hc := Finset.mem_Icc.mp (Fintype.mem_piFinset.mp hc a)
    rw [dm] at hc
    have h1 := Charge.coord_range hD r a
    refine ⟨hc.1, hc.2, Int.emod_eq_of_lt ?_ ?_⟩
    · have := mul_nonneg h1.1 (by omega : 0 ≤ cellsOf D a)
      omega
    · have : (coordOf D r a + 1) * cellsOf D a ≤ ranksOf D a * cellsOf D a :=
        mul_le_mul_of_nonneg_right (by omega) (by omega)
      have e : (coordOf D r a + 1) * cellsOf D a = coordOf D r a * cellsOf D a + cellsOf D a := by ring
      omega
  rw [Finset.sum_sigma']
  refine Finset.sum_nbij (fun x => siteAt D x.1 x.2) ?_ ?_ ?_ (fun _ _ => rfl)
  · intro x _
    exact mem_sites.mpr fun a => site_range hD x.1 x.2 a
  · rintro ⟨r, c⟩ h1 ⟨r', c'⟩ h2 e
    simp only [Finset.coe_sigma, Set.mem_sigma_iff, Finset.mem_coe] at h1 h2
    have key : ∀ a, coordOf D r a = coordOf D r' a ∧ c a = c' a := by
      intro a
      obtain ⟨p1, p2, p3⟩ := val r c h1.2 a
      obtain ⟨q1, q2, q3⟩ := val r' c' h2.2 a
      have e := congrFun e a
      dsimp only at e
      rw [p3, q3] at e
      generalize coordOf D r a = x at *
      generalize coordOf D r' a = y at *
      generalize cellsOf D a = k at *
      have : x = y := by
        rcases lt_trichotomy x y with h | h | h
        · have : (x + 1) * k ≤ y * k := mul_le_mul_of_nonneg_right (by omega) (by omega)
          have : (x + 1) * k = x * k + k := by ring
          omega
        · exact h
        · have : (y + 1) * k ≤ x * k := mul_le_mul_of_nonneg_right (by omega) (by omega)
          have : (y + 1) * k = y * k + k := by ring
          omega
      subst this
      exact ⟨rfl, by omega⟩
    have : r = r' := Field.coordOf_inj r r' (funext fun a => (key a).1)
    subst this
    have : c = c' := funext fun a => (key a).2
    rw [this]
  · intro s hs
    have hs := mem_sites.mp hs
    have pos : ∀ a, 0 < cellsOf D a := fun a => by have := Charge.cells_pos hD a; omega
    have q : ∀ a, 0 ≤ s a / cellsOf D a ∧ s a / cellsOf D a < ranksOf D a := fun a =>
      ⟨Int.ediv_nonneg (hs a).1 (pos a).le, Int.ediv_lt_of_lt_mul (pos a) (hs a).2⟩
    obtain ⟨u, hu, -, ux, uy, uz⟩ := indexToRank_spec ((D.ok_iff n).mp hD) (s 0 / cellsOf D 0) (s 1 / cellsOf D 1)
      (s 2 / cellsOf D 2)
    have cu : ∀ a, coordOf D (⟨u, hu⟩ : Fin n) a = s a / cellsOf D a := by
      intro a
      have := fun a => Int.emod_eq_of_lt (q a).1 (q a).2
      fin_cases a
      · exact ux.trans (this 0)
      · exact uy.trans (this 1)
      · exact uz.trans (this 2)
    have md : ∀ a, 0 ≤ s a % cellsOf D a ∧ s a % cellsOf D a < cellsOf D a := fun a =>
      ⟨Int.emod_nonneg _ (pos a).ne', Int.emod_lt_of_pos _ (pos a)⟩
    have hc : (fun a => s a % cellsOf D a + 1) ∈ rankCells (F ⟨u, hu⟩).g :=
      Fintype.mem_piFinset.mpr fun a => Finset.mem_Icc.mpr (by rw [dm]; have := md a; omega)
    refine ⟨⟨⟨u, hu⟩, fun a => s a % cellsOf D a + 1⟩, by simpa using hc, ?_⟩
    funext a
    dsimp only
    rw [(val _ _ hc a).2.2, cu, add_sub_cancel_right, mul_comm]
    exact Int.mul_ediv_add_emod _ _

section
variable {C : Consts K} (hC : SameConsts F C) {M : Medium K} (hM : MadeOf D F M)
include hD hg hC hM

omit hC hM in
lemma cell_on {r : Fin n} {c : Pos} (hc : c ∈ rankCells (F r).g) : (∀ a, EntOn (F r).g fieldExt (.e a) c) ∧
    (∀ a, EntOn (F r).g fieldExt (.cb a) c) ∧ (∀ a, EntOn (F r).g fieldExt (.jf a) c) ∧
    (∀ a b, b ≠ a → EntOn (F r).g fieldExt (.e a) (up b c)) ∧ InArray (F r).g c := by
  have hc := fun a => Finset.mem_Icc.mp (Fintype.mem_piFinset.mp hc a)
  refine ⟨fun a => Field.entOn_edge.1.mpr fun b => ?_, fun a => Field.entOn_face.mpr fun b => ?_,
    fun a => Field.entOn_edge.2.2.mpr fun b => ?_, fun a b hb => Field.entOn_edge.1.mpr fun d => ?_, fun a => ?_⟩
  · have := hc b; split_ifs <;> omega
  · have := hc b; split_ifs <;> omega
  · have := hc b; split_ifs <;> omega
  · have := hc d
    unfold up
    by_cases h1 : d = b
    · subst h1; rw [if_pos rfl, if_neg hb]; omega
    · rw [if_neg h1]; split_ifs <;> omega
  · have := hc a; omega

omit hC in
lemma energy_global {m : Fin n → FMem K} {G : Fields K} (h : ∀ k, Used k → Holds D F m G k) :
    ∑ r, rankEnergy (F r) (m r) = energy (sizeOf D) M G := by
  unfold energy rankEnergy
  rw [← sum_cells hD t0 hg]
  refine Finset.sum_congr rfl fun r _ => Finset.sum_congr rfl fun c hc => Finset.sum_congr rfl fun a _ => ?_
  obtain ⟨h1, h2, -, -, h5⟩ := cell_on hD t0 hg hc
  rw [hM.edge r a c h5, hM.face r a c h5, h _ (.inl ⟨a, rfl⟩) r c (h1 a), h _ (.inr (.inl ⟨a, rfl⟩)) r c (h2 a)]

lemma leap_global {m : Fin n → FMem K} {G : Fields K} (h : ∀ k, Used k → Holds D F m G k) :
    ∑ r, rankLeap (F r) (m r) = leapEnergy (sizeOf D) C M G := by
  unfold leapEnergy rankLeap
  rw [Finset.sum_sub_distrib, energy_global hD t0 hg hM h, ← sum_cells hD t0 hg, Finset.mul_sum]
  congr 1
  refine Finset.sum_congr rfl fun r _ => ?_
  rw [hC.cvac, hC.dt]
  congr 1
  refine Finset.sum_congr rfl fun c hc => Finset.sum_congr rfl fun a _ => ?_
  obtain ⟨h1, h2, -, h4, h5⟩ := cell_on hD t0 hg hc
  rw [hM.face r a c h5]
  congr 2
  unfold rankCurl curlE
  have u : ∀ b, Used (.e b : FC) := fun b => .inl ⟨b, rfl⟩
  obtain ⟨n1, n2, n3⟩ := Field.add_one_ne a
  rw [hC.rd, h _ (u _) r c (h1 _), h _ (u _) r c (h1 _), h _ (u _) r _ (h4 (a + 2) (a + 1) n3),
    h _ (u _) r _ (h4 (a + 1) (a + 2) n3.symm), site_up, site_up]

omit hM in
lemma work_global {m m' : Fin n → FMem K} {G G' : Fields K} (h : ∀ k, Used k → Holds D F m G k)
    (h' : ∀ k, Used k → Holds D F m' G' k) :
    ∑ r, rankWork (F r) (m r) (m' r) = work (sizeOf D) C G G' := by
  unfold work rankWork
  rw [← sum_cells hD t0 hg, Finset.mul_sum]
  refine Finset.sum_congr rfl fun r _ => ?_
  rw [hC.dt, hC.eps0]
  congr 1
  refine Finset.sum_congr rfl fun c hc => Finset.sum_congr rfl fun a _ => ?_
  obtain ⟨h1, h2, h3, -, h5⟩ := cell_on hD t0 hg hc
  rw [h _ (.inl ⟨a, rfl⟩) r c (h1 a), h' _ (.inl ⟨a, rfl⟩) r c (h1 a),
    h _ (.inr (.inr (.inr ⟨a, rfl⟩))) r c (h3 a)]

variable (hR : Resolved D)
include hS hR

lemma step_global {m m' : Fin n → FMem K} {G : Fields K} (h : ∀ k, Used k → Holds D F m G k) (hs : FieldStep F m m') :
    ∀ k, Used k → Holds D F m' (stepped (sizeOf D) C M G) k := by
  obtain ⟨m1, m2, h1, h2, h3⟩ := hs
  exact run_global hD t0 hg hS hR hC hM [.b (1 / 2), .e, .b (1 / 2)] h (.cons h1 (.cons h2 (.cons h3 (.nil _))))

/-- **C74.**  Poynting's theorem: on a periodic box of insulating materials, cut in any way, a step changes the energy of the
fields (summed over all ranks) by minus the work of the currents on the mean of the fields before and after; and the ranks
still agree. -/
theorem poynting (hd : C.damp = 0) (hi : ∀ a s, Insulating (M.edge a s) a) {m m' : Fin n → FMem K} (h : Agreed D F m)
    (hs : FieldStep F m m') : Agreed D F m' ∧
    ∑ r, rankLeap (F r) (m' r) - ∑ r, rankLeap (F r) (m r) = - ∑ r, rankWork (F r) (m r) (m' r) := by
  obtain ⟨G, hG⟩ := h
  have hG' := step_global hD t0 hg hS hC hM hR hG hs
  refine ⟨⟨_, hG'⟩, ?_⟩
  rw [leap_global hD t0 hg hC hM hG', leap_global hD t0 hg hC hM hG, work_global hD t0 hg hC hG hG',
    poynting_global _ _ _ _ hd fun a s _ => hi a s]

end

end

end Verif.Torus
