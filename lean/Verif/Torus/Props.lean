import Verif.Torus.Lemmas
import Verif.Charge.Props

/-!
# The field solver does not see the decomposition (C71)
-/
namespace Verif.Torus

open Grid
open Field (Pos FC FMem World MC EntOn fieldExt InArray vox ranksOf coordOf SameCells dims up dn EdgeOn FaceOn NodeOn Filled
  localGhostTangB localGhostNormE slotsTangB slotsNormE AdvanceB AdvanceE ComputeDivE updateE updateDivE)
open Charge (cellsOf siteAt dims_cells)
open Distribute (Rounding)

section
variable {K : Type} [Field K]

/-! ### The solver on all ranks -/

/-- `advance_b` on every rank, each with any number of pipelines. -/
def RanksB {n : ℕ} (F : World K n) (frac : K) (m m' : Fin n → FMem K) : Prop :=
  ∀ r, ∃ (R : Rounding) (P : ℕ), R.Accurate ∧ 0 < P ∧ P ≤ 2 ^ 16 ∧ AdvanceB (F r) R P frac (m r) (m' r)

/-- `advance_e` on every rank: the ghosts come from the neighbours. -/
def RanksE {n : ℕ} (F : World K n) (m m' : Fin n → FMem K) : Prop :=
  ∀ r, ∃ (R : Rounding) (P : ℕ), R.Accurate ∧ 0 < P ∧ P ≤ 2 ^ 16 ∧
    AdvanceE (F r) R P (updateE (F r)) 1 (F.ghostMail slotsTangB m r) (m r) (m' r)

/-- `compute_div_e_err` on every rank. -/
def RanksDivE {n : ℕ} (F : World K n) (m m' : Fin n → FMem K) : Prop :=
  ∀ r, ∃ (R : Rounding) (P : ℕ), R.Accurate ∧ 0 < P ∧ P ≤ 2 ^ 16 ∧
    ComputeDivE (F r) R P (updateDivE (F r)) (F.ghostMail slotsNormE m r) (m r) (m' r)

/-- What a run does to the fields: advance the magnetic field, advance the electric field, or replace the current by
one given on the global mesh. -/
inductive Op (K : Type)
  | b (frac : K)
  | e
  | source (J : Fin 3 → Pos → K)

/-- One operation on the global mesh. -/
def Op.apply (N : Pos) (C : Consts K) (M : Medium K) : Op K → Fields K → Fields K
  | .b frac, G => yeeB N C frac G
  | .e, G => yeeE N C M G
  | .source J, G => fun k s => match k with | .jf a => J a s | k => G k s

/-- One operation on the ranks. -/
def Op.On {n : ℕ} (D : Decomp) (F : World K n) : Op K → (m m' : Fin n → FMem K) → Prop
  | .b frac, m, m' => RanksB F frac m m'
  | .e, m, m' => RanksE F m m'
  | .source J, m, m' => (∀ r a c, EdgeOn (F r).g a c → m' r (vox (F r).g c, .jf a) = J a (siteAt D r c)) ∧
      ∀ r x, (∀ a, x.2 ≠ .jf a) → m' r x = m r x

/-- Any number of operations on the ranks. -/
inductive RunOn {n : ℕ} (D : Decomp) (F : World K n) : List (Op K) → (m m' : Fin n → FMem K) → Prop
  | nil (m) : RunOn D F [] m m
  | cons {o l m m1 m'} : o.On D F m m1 → RunOn D F l m1 m' → RunOn D F (o :: l) m m'

/-- Any number of operations on the global mesh. -/
def runGlobal (N : Pos) (C : Consts K) (M : Medium K) : List (Op K) → Fields K → Fields K
  | [], G => G
  | o :: l, G => runGlobal N C M l (o.apply N C M G)

/-- The members that a run uses. -/
def Used (k : FC) : Prop := (∃ a, k = .e a) ∨ (∃ a, k = .cb a) ∨ (∃ a, k = .tca a) ∨ ∃ a, k = .jf a

end

section
variable {K : Type} [Field K] [LinearOrder K] [IsStrictOrderedRing K]
variable {n : ℕ} {D : Decomp} (hD : D.ok n = true) (t0 : ℕ → ℤ → ℤ) {F : World K n}
  (hg : ∀ r : Fin n, gridOf D n t0 r = some (F r).g) (hS : SameCells F D) (hR : Resolved D)
  {C : Consts K} (hC : SameConsts F C)
include hD hg hS hR hC

/-- **C71, Faraday.**  `advance_b` on all ranks is Faraday's law on the global mesh. -/
theorem advance_b_global {frac : K} {m m' : Fin n → FMem K} {G : Fields K} (he : ∀ a, Holds D F m G (.e a))
    (hb : ∀ a, Holds D F m G (.cb a)) (h : RanksB F frac m m') :
    (∀ a, Holds D F m' (yeeB (sizeOf D) C frac G) (.cb a)) ∧
    ∀ k, (∀ a, k ≠ .cb a) → ∀ r v, m' r (v, k) = m r (v, k) := by
  have hF := Field.periodic_world_cart hD t0 hg hS
  constructor
  · intro a r c hc
    rw [Field.entOn_face] at hc
    obtain ⟨R, P, h1, h2, h3, h4⟩ := h r
    obtain ⟨-, q, -⟩ := Field.advance_b_result (hF.mesh r) h1 h2 h3 h4
    rw [q a c hc (by rintro ⟨s, -, hw, -⟩; exact Charge.no_wall hF r s hw.1)]
    have eb := hb a r c (Field.entOn_face.mpr hc)
    have e0 : ∀ b, b ≠ a → m r (vox (F r).g c, .e b) = G (.e b) (siteAt D r c) := fun b hba =>
      he b r c (Field.entOn_edge.1.mpr fun d => by
        have := hc d
        by_cases hdb : d = b
        · subst hdb; simp [hba] at this ⊢; omega
        · simp [hdb]; split at this <;> omega)
    have e1 : ∀ b d, b ≠ a → d ≠ a → b ≠ d → m r (vox (F r).g (up d c), .e b) = G (.e b) (siteAt D r (up d c)) :=
      fun b d hba hda hbd => he b r _ (Field.entOn_edge.1.mpr fun y => by
        have := hc y
        unfold up
        by_cases hyb : y = b
        · subst hyb; simp [hba, hbd] at this ⊢; omega
        · by_cases hyd : y = d
          · subst hyd; simp [hda, hyb] at this ⊢; omega
          · simp [hyb, hyd]; split at this <;> omega)
    have u : ∀ b d, Field.invStep (F r) d * (G (.e b) (siteAt D r (up d c)) - G (.e b) (siteAt D r c)) =
        C.rd d * (G (.e b) (next (sizeOf D) d (siteAt D r c)) - G (.e b) (siteAt D r c)) := by
      intro b d
      rw [resolved_up hD t0 hg hS hR hC r d c (G (.e b)), site_up]
    have cv := hC.cvac r
    have ct := hC.dt r
    fin_cases a <;> simp only [Field.cbVal, yeeB, Field.p_eq] <;>
      simp only [Fin.zero_eta, Fin.mk_one, Fin.reduceFinMk] at eb e0 e1 ⊢
    · rw [eb, e0 2 (by decide), e0 1 (by decide), e1 2 1 (by decide) (by decide) (by decide),
        e1 1 2 (by decide) (by decide) (by decide), cv, ct]
      have u1 := u 2 1
      have u2 := u 1 2
      simp only [Fin.isValue, Fin.reduceAdd] at *
      linear_combination (-(frac * C.cvac * C.dt)) * u1 + frac * C.cvac * C.dt * u2
    · rw [eb, e0 0 (by decide), e0 2 (by decide), e1 0 2 (by decide) (by decide) (by decide),
        e1 2 0 (by decide) (by decide) (by decide), cv, ct]
      have u1 := u 0 2
      have u2 := u 2 0
      simp only [Fin.isValue, Fin.reduceAdd] at *
      linear_combination (-(frac * C.cvac * C.dt)) * u1 + frac * C.cvac * C.dt * u2
    · rw [eb, e0 1 (by decide), e0 0 (by decide), e1 1 0 (by decide) (by decide) (by decide),
        e1 0 1 (by decide) (by decide) (by decide), cv, ct]
      have u1 := u 1 0
      have u2 := u 0 1
      simp only [Fin.isValue, Fin.reduceAdd] at *
      linear_combination (-(frac * C.cvac * C.dt)) * u1 + frac * C.cvac * C.dt * u2
  · intro k hk r v
    obtain ⟨R, P, h1, h2, h3, h4⟩ := h r
    obtain ⟨-, -, q⟩ := Field.advance_b_result (hF.mesh r) h1 h2 h3 h4
    exact q _ (by intro a c _ e; simp only [Prod.mk.injEq] at e; exact hk a e.2)

/-- The curl of the ranks is the curl of the global mesh. -/
lemma curl_global {M : Medium K} (hM : MadeOf D F M) {m : Fin n → FMem K} {G : Fields K}
    (hb : ∀ a, Holds D F m G (.cb a)) {r : Fin n} {mg : FMem K}
    (hf : Filled (F r) (localGhostTangB (F r)) slotsTangB (F.ghostMail slotsTangB m r) (m r) mg) (k : K) (a : Fin 3) (c : Pos)
    (hc : EdgeOn (F r).g a c) :
    Field.curlB (F r) k a c mg = k * curlH (sizeOf D) C M G a (siteAt D r c) := by
  have e0 : ∀ b d, b ≠ a → d ≠ a → b ≠ d →
      mg (vox (F r).g c, .cb b) * ((F r).mc ((F r).fmat b (vox (F r).g c))).rmu b = hOf M G b (siteAt D r c) ∧
      mg (vox (F r).g (dn d c), .cb b) * ((F r).mc ((F r).fmat b (vox (F r).g (dn d c)))).rmu b =
        hOf M G b (siteAt D r (dn d c)) := by
    intro b d hba hda hbd
    have hb1 := hc b
    have hd1 := hc d
    rw [if_neg hba] at hb1
    rw [if_neg hda] at hd1
    have ho : ∀ o, o ≠ d → o ≠ b → 1 ≤ c o ∧ c o ≤ dims (F r).g o := by
      intro o h1 h2
      have : o = a := by omega
      subst this
      have := hc o
      rw [if_pos rfl] at this
      omega
    have i1 : InArray (F r).g c := hc.inArray
    have i2 : InArray (F r).g (dn d c) := by
      intro y
      have := hc y
      unfold dn
      by_cases hy : y = d
      · subst hy; simp [hda] at this ⊢; omega
      · simp [hy]; split at this <;> omega
    refine ⟨?_, ?_⟩
    · rw [seen_b hD t0 hg hS (hb b) hf d hbd.symm c (by omega) hb1 ho, hM.face r b c i1]
      rfl
    · have hdb : (dn d c) b = c b := by simp [dn, hbd]
      rw [seen_b hD t0 hg hS (hb b) hf d hbd.symm (dn d c) (by simp [dn]; omega) (by rw [hdb]; exact hb1)
        (fun o h1 h2 => by have := ho o h1 h2; simpa [dn, h1] using this), hM.face r b _ i2]
      rfl
  have u : ∀ b d, Field.invStep (F r) d * (hOf M G b (siteAt D r c) - hOf M G b (siteAt D r (dn d c))) =
      C.rd d * (hOf M G b (siteAt D r c) - hOf M G b (prev (sizeOf D) d (siteAt D r c))) := by
    intro b d
    rw [resolved_dn hD t0 hg hS hR hC r d c (hOf M G b), site_dn]
  fin_cases a <;> simp only [Field.curlB, curlH, Field.p_eq] <;>
    simp only [Fin.zero_eta, Fin.mk_one, Fin.reduceFinMk] at e0 ⊢
  · obtain ⟨a1, a2⟩ := e0 2 1 (by decide) (by decide) (by decide)
    obtain ⟨a3, a4⟩ := e0 1 2 (by decide) (by decide) (by decide)
    rw [a1, a2, a3, a4]
    have u1 := u 2 1
    have u2 := u 1 2
    simp only [Fin.isValue, Fin.reduceAdd] at *
    linear_combination k * u1 - k * u2
  · obtain ⟨a1, a2⟩ := e0 0 2 (by decide) (by decide) (by decide)
    obtain ⟨a3, a4⟩ := e0 2 0 (by decide) (by decide) (by decide)
    rw [a1, a2, a3, a4]
    have u1 := u 0 2
    have u2 := u 2 0
    simp only [Fin.isValue, Fin.reduceAdd] at *
    linear_combination k * u1 - k * u2
  · obtain ⟨a1, a2⟩ := e0 1 0 (by decide) (by decide) (by decide)
    obtain ⟨a3, a4⟩ := e0 0 1 (by decide) (by decide) (by decide)
    rw [a1, a2, a3, a4]
    have u1 := u 1 0
    have u2 := u 0 1
    simp only [Fin.isValue, Fin.reduceAdd] at *
    linear_combination k * u1 - k * u2

/-- **C71, Ampère.**  `advance_e` on all ranks is Ampère's law on the global mesh. -/
theorem advance_e_global {M : Medium K} (hM : MadeOf D F M) {m m' : Fin n → FMem K} {G : Fields K}
    (hm : ∀ k, Used k → Holds D F m G k) (h : RanksE F m m') :
    (∀ k, Used k → Holds D F m' (yeeE (sizeOf D) C M G) k) ∧
    ∀ k, ¬ Used k → ∀ r v, m' r (v, k) = m r (v, k) := by
  have hF := Field.periodic_world_cart hD t0 hg hS
  have key : ∀ r, ∃ mg, Filled (F r) (localGhostTangB (F r)) slotsTangB (F.ghostMail slotsTangB m r) (m r) mg ∧
      (∀ a c, EdgeOn (F r).g a c →
        m' r (vox (F r).g c, .e a) = updateE (F r) (a, c) mg (vox (F r).g c, .e a) ∧
        m' r (vox (F r).g c, .tca a) = updateE (F r) (a, c) mg (vox (F r).g c, .tca a)) ∧
      ∀ x, (∀ a, x.2 ≠ .e a ∧ x.2 ≠ .tca a) → m' r x = mg x := by
    intro r
    obtain ⟨R, P, h1, h2, h3, h4⟩ := h r
    obtain ⟨mg, q1, -, q2, q3⟩ := Field.edge_kernel_result (hF.mesh r) h1 h2 h3 (Field.updateE_local (F r)) h4.2
    refine ⟨mg, q1, fun a c hc => q2 a c hc ?_, fun x hx => q3 x ?_⟩
    · rintro ⟨s, -, hw, -⟩; exact Charge.no_wall hF r s hw.1
    · rintro a c - (rfl | rfl)
      · exact (hx a).1 rfl
      · exact (hx a).2 rfl
  constructor
  · rintro k (⟨a, rfl⟩ | ⟨a, rfl⟩ | ⟨a, rfl⟩ | ⟨a, rfl⟩) r c hc <;> obtain ⟨mg, q1, q2, q3⟩ := key r
    · have hc' := Field.entOn_edge.1.mp hc
      have fl := (Field.filled_tang_b (hF.mesh r) q1).2
      rw [(q2 a c hc').1, Field.updateE_e, curl_global hD t0 hg hS hR hC hM (fun a => hm _ (.inr (.inl ⟨a, rfl⟩))) q1 _ a c hc',
        fl _ (by simp), fl _ (by simp), fl _ (by simp), hm (.e a) (.inl ⟨a, rfl⟩) r c hc,
        hm (.tca a) (.inr (.inr (.inl ⟨a, rfl⟩))) r c (Field.entOn_edge.2.1.mpr hc'),
        hm (.jf a) (.inr (.inr (.inr ⟨a, rfl⟩))) r c (Field.entOn_edge.2.2.mpr hc'),
        hM.edge r a c hc'.inArray, hC.cvac, hC.dt, hC.eps0, hC.damp]
      rfl
    · rw [q3 _ (by simp), (Field.filled_tang_b (hF.mesh r) q1).1 a c (Field.entOn_face.mp hc)]
      exact hm _ (.inr (.inl ⟨a, rfl⟩)) r c hc
    · have hc' := Field.entOn_edge.2.1.mp hc
      have fl := (Field.filled_tang_b (hF.mesh r) q1).2
      have n1 : ((vox (F r).g c, FC.tca a) : Field.Addr) ≠ (vox (F r).g c, .e a) := by simp
      rw [(q2 a c hc').2]
      simp only [updateE, Field.stepE, Field.setAt, Function.update_of_ne n1, Function.update_self]
      rw [curl_global hD t0 hg hS hR hC hM (fun a => hm _ (.inr (.inl ⟨a, rfl⟩))) q1 _ a c hc',
        fl _ (by simp), hm (.tca a) (.inr (.inr (.inl ⟨a, rfl⟩))) r c hc, hC.cvac, hC.dt, hC.damp]
      rfl
    · rw [q3 _ (by simp), (Field.filled_tang_b (hF.mesh r) q1).2 _ (by simp)]
      exact hm _ (.inr (.inr (.inr ⟨a, rfl⟩))) r c hc
  · intro k hk r v
    obtain ⟨mg, q1, q2, q3⟩ := key r
    rw [q3 _ fun a => ⟨fun e => hk (.inl ⟨a, e⟩), fun e => hk (.inr (.inr (.inl ⟨a, e⟩)))⟩,
      (Field.filled_tang_b (hF.mesh r) q1).2 _ fun a e => hk (.inr (.inl ⟨a, e⟩))]

/-- **C71, Gauss.**  `compute_div_e_err` on all ranks is the error of Gauss's law on the global mesh. -/
theorem compute_div_e_global {M : Medium K} (hM : MadeOf D F M) {m m' : Fin n → FMem K} {G : Fields K}
    (he : ∀ a, Holds D F m G (.e a)) (hf : Holds D F m G .rhof) (hb : Holds D F m G .rhob) (h : RanksDivE F m m')
    (r : Fin n) (c : Pos) (hc : NodeOn (F r).g c) :
    m' r (vox (F r).g c, .divE) = gaussErr (sizeOf D) C M G (siteAt D r c) := by
  have hF := Field.periodic_world_cart hD t0 hg hS
  obtain ⟨R, P, h1, h2, h3, h4⟩ := h r
  obtain ⟨mg, q1, -, q2, -⟩ := Field.compute_div_e_result (hF.mesh r) h1 h2 h3 (Field.updateDivE_local (F r)) h4
  have fl := (Field.filled_norm_e (hF.mesh r) q1).2
  rw [q2 c hc (fun s hs => absurd hs.1 (Charge.no_wall hF r s)), Field.updateDivE_val, fl _ (by simp), fl _ (by simp),
    hf r c (Field.entOn_node.1.mpr hc), hb r c (Field.entOn_node.2.1.mpr hc), hM.node r c hc.inArray, hC.eps0]
  unfold gaussErr Field.divEpsE
  congr 2
  refine Finset.sum_congr rfl fun a _ => ?_
  have i2 : InArray (F r).g (dn a c) := by
    intro y
    have := hc y
    unfold dn
    split <;> omega
  rw [hM.edge r a c hc.inArray, hM.edge r a _ i2, seen_e hD t0 hg hS (he a) q1 c (by have := hc a; omega) (fun o _ => hc o),
    seen_e hD t0 hg hS (he a) q1 (dn a c) (by have := hc a; simp [dn]; omega)
      (fun o h5 => by have := hc o; simpa [dn, h5] using this)]
  have := resolved_dn hD t0 hg hS hR hC r a c fun s => (M.edge a s).eps a * G (.e a) s
  rw [this, site_dn]

/-- One operation. -/
theorem op_global {M : Medium K} (hM : MadeOf D F M) (o : Op K) {m m' : Fin n → FMem K} {G : Fields K}
    (hm : ∀ k, Used k → Holds D F m G k) (h : o.On D F m m') :
    ∀ k, Used k → Holds D F m' (o.apply (sizeOf D) C M G) k := by
  cases o with
  | b frac =>
    obtain ⟨h1, h2⟩ := advance_b_global hD t0 hg hS hR hC (fun a => hm _ (.inl ⟨a, rfl⟩))
      (fun a => hm _ (.inr (.inl ⟨a, rfl⟩))) h
    rintro k (⟨a, rfl⟩ | ⟨a, rfl⟩ | ⟨a, rfl⟩ | ⟨a, rfl⟩) r c hc
    · rw [h2 _ (by simp)]; exact hm _ (.inl ⟨a, rfl⟩) r c hc
    · exact h1 a r c hc
    · rw [h2 _ (by simp)]; exact hm _ (.inr (.inr (.inl ⟨a, rfl⟩))) r c hc
    · rw [h2 _ (by simp)]; exact hm _ (.inr (.inr (.inr ⟨a, rfl⟩))) r c hc
  | e => exact (advance_e_global hD t0 hg hS hR hC hM hm h).1
  | source J =>
    rintro k (⟨a, rfl⟩ | ⟨a, rfl⟩ | ⟨a, rfl⟩ | ⟨a, rfl⟩) r c hc
    · rw [h.2 _ _ (by simp)]; exact hm _ (.inl ⟨a, rfl⟩) r c hc
    · rw [h.2 _ _ (by simp)]; exact hm _ (.inr (.inl ⟨a, rfl⟩)) r c hc
    · rw [h.2 _ _ (by simp)]; exact hm _ (.inr (.inr (.inl ⟨a, rfl⟩))) r c hc
    · exact h.1 r a c (Field.entOn_edge.2.2.mp hc)

/-- **C71, refinement.**  Whatever the ranks do, in any order and number, is what the Yee scheme does on the global
mesh; in particular the copies of shared edges and faces never differ. -/
theorem run_global {M : Medium K} (hM : MadeOf D F M) (l : List (Op K)) {m m' : Fin n → FMem K} {G : Fields K}
    (hm : ∀ k, Used k → Holds D F m G k) (h : RunOn D F l m m') :
    ∀ k, Used k → Holds D F m' (runGlobal (sizeOf D) C M l G) k := by
  induction h generalizing G with
  | nil => exact hm
  | cons h1 _ ih => exact ih (op_global hD t0 hg hS hR hC hM _ hm h1)

end

section
variable {K : Type} [Field K] [LinearOrder K] [IsStrictOrderedRing K]

/-- **C71.**  The fields do not depend on the decomposition: runs of the same operations on the same global mesh, cut in
two ways (no cut axis having only one cell per rank), from the same initial fields, give at every place of the mesh the
same fields. -/
theorem decomposition_independent_partial {n1 n2 : ℕ} {D1 D2 : Decomp} (hD1 : D1.ok n1 = true) (hD2 : D2.ok n2 = true)
    (t1 t2 : ℕ → ℤ → ℤ) {F1 : World K n1} {F2 : World K n2}
    (hg1 : ∀ r : Fin n1, gridOf D1 n1 t1 r = some (F1 r).g) (hg2 : ∀ r : Fin n2, gridOf D2 n2 t2 r = some (F2 r).g)
    (hS1 : SameCells F1 D1) (hS2 : SameCells F2 D2) (hR1 : Resolved D1) (hR2 : Resolved D2)
    {C : Consts K} (hC1 : SameConsts F1 C) (hC2 : SameConsts F2 C) {M : Medium K} (hM1 : MadeOf D1 F1 M)
    (hM2 : MadeOf D2 F2 M) (hN : sizeOf D1 = sizeOf D2) (l : List (Op K)) {G : Fields K} {m1 m1' : Fin n1 → FMem K}
    {m2 m2' : Fin n2 → FMem K} (h1 : ∀ k, Used k → Holds D1 F1 m1 G k) (h2 : ∀ k, Used k → Holds D2 F2 m2 G k)
    (r1 : RunOn D1 F1 l m1 m1') (r2 : RunOn D2 F2 l m2 m2') (k : FC) (hk : Used k) (x1 : Fin n1) (c1 : Pos)
    (hc1 : EntOn (F1 x1).g fieldExt k c1) (x2 : Fin n2) (c2 : Pos) (hc2 : EntOn (F2 x2).g fieldExt k c2)
    (hs : siteAt D1 x1 c1 = siteAt D2 x2 c2) :
    m1' x1 (vox (F1 x1).g c1, k) = m2' x2 (vox (F2 x2).g c2, k) := by
  rw [run_global hD1 t1 hg1 hS1 hR1 hC1 hM1 l h1 r1 k hk x1 c1 hc1,
    run_global hD2 t2 hg2 hS2 hR2 hC2 hM2 l h2 r2 k hk x2 c2 hc2, hs, hN]

end

end Verif.Torus
