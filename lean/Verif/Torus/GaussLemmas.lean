import Verif.Torus.Gauss
import Verif.Field.SyncErr

/-!
# Gauss's law: lemmas
-/
namespace Verif.Torus

open Grid Charge
open SfInterface (Scales)
open Boundary (Env Rank Species live ids)
open Distribute (Rounding)
open Field (Pos FC FMem World MC EntOn fieldExt InArray vox ranksOf coordOf SameCells dims up dn EdgeOn FaceOn NodeOn copies)

section
variable {K : Type} {S : Type*} [Field K] [LinearOrder K] [IsStrictOrderedRing K]

omit [LinearOrder K] [IsStrictOrderedRing K] in
/-- Values that agree on all copies are those of a global field. -/
lemma holds_of_agree {n : ℕ} (D : Decomp) (F : World K n) (m : Fin n → FMem K) (k : FC)
    (h : ∀ x y : Fin n × Pos, EntOn (F x.1).g fieldExt k x.2 → EntOn (F y.1).g fieldExt k y.2 →
      siteAt D x.1 x.2 = siteAt D y.1 y.2 → m x.1 (vox (F x.1).g x.2, k) = m y.1 (vox (F y.1).g y.2, k)) :
    ∃ J : Pos → K, ∀ r c, EntOn (F r).g fieldExt k c → m r (vox (F r).g c, k) = J (siteAt D r c) := by
  classical
  refine ⟨fun s => if hs : ∃ x : Fin n × Pos, EntOn (F x.1).g fieldExt k x.2 ∧ siteAt D x.1 x.2 = s then
    m hs.choose.1 (vox (F hs.choose.1).g hs.choose.2, k) else 0, fun r c hc => ?_⟩
  have hs : ∃ x : Fin n × Pos, EntOn (F x.1).g fieldExt k x.2 ∧ siteAt D x.1 x.2 = siteAt D r c := ⟨(r, c), hc, rfl⟩
  dsimp only
  rw [dif_pos hs]
  exact h (r, c) _ hc hs.choose_spec.1 hs.choose_spec.2.symm

lemma prev_comm (N : Pos) (a b : Fin 3) (s : Pos) : prev N a (prev N b s) = prev N b (prev N a s) := by
  by_cases hab : a = b
  · rw [hab]
  funext d
  unfold prev
  by_cases h1 : d = a
  · have h2 : d ≠ b := fun h => hab (h1.symm.trans h)
    rw [if_pos h1, if_neg h2, if_neg h2, if_pos h1]
  · rw [if_neg h1, if_neg h1]

omit [LinearOrder K] [IsStrictOrderedRing K] in
/-- div curl (cB/mu) = 0. -/
lemma div_curlH (N : Pos) (C : Consts K) (M : Medium K) (G : Fields K) (s : Pos) :
    ∑ a, C.rd a * (curlH N C M G a s - curlH N C M G a (prev N a s)) = 0 := by
  simp only [Fin.sum_univ_three, curlH, Fin.isValue, Fin.reduceAdd]
  rw [prev_comm N 1 0, prev_comm N 2 0, prev_comm N 2 1]
  ring

omit [LinearOrder K] [IsStrictOrderedRing K] in
lemma div_tcaNew (N : Pos) (C : Consts K) (M : Medium K) (G : Fields K) (s : Pos) :
    ∑ a, C.rd a * (tcaNew N C M G a s - tcaNew N C M G a (prev N a s)) = - (C.damp * divTca N C G s) := by
  have := div_curlH N C M G s
  have e : ∑ a, C.rd a * (tcaNew N C M G a s - tcaNew N C M G a (prev N a s)) =
      (1 + C.damp) * C.cvac * C.dt * ∑ a, C.rd a * (curlH N C M G a s - curlH N C M G a (prev N a s)) -
        C.damp * divTca N C G s := by
    unfold divTca tcaNew
    rw [Finset.mul_sum, Finset.mul_sum, ← Finset.sum_sub_distrib]
    exact Finset.sum_congr rfl fun a _ => by ring
  rw [e, this]
  ring

omit [LinearOrder K] [IsStrictOrderedRing K] in
lemma insulating_step {N : Pos} {C : Consts K} {M : Medium K} {G : Fields K} {a : Fin 3} {s : Pos}
    (h : Insulating (M.edge a s) a) : (M.edge a s).eps a * yeeE N C M G (.e a) s =
      (M.edge a s).eps a * G (.e a) s + tcaNew N C M G a s - C.dt / C.eps0 * G (.jf a) s := by
  obtain ⟨h1, h2⟩ := h
  show (M.edge a s).eps a * ((M.edge a s).decay a * G (.e a) s + (M.edge a s).drive a * _) = _
  rw [h1]
  linear_combination (tcaNew N C M G a s - C.dt / C.eps0 * G (.jf a) s) * h2

lemma site_range {D : Decomp} {n : ℕ} (hD : D.ok n = true) (r : Fin n) (c : Pos) (a : Fin 3) :
    0 ≤ siteAt D r c a ∧ siteAt D r c a < sizeOf D a := by
  have h1 := coord_range hD r a
  have h2 := cells_pos hD a
  have : 0 < ranksOf D a * cellsOf D a := by
    have : 0 < ranksOf D a := by omega
    positivity
  exact ⟨Int.emod_nonneg _ (by omega), Int.emod_lt_of_pos _ this⟩

lemma prev_next {D : Decomp} {n : ℕ} (hD : D.ok n = true) (r : Fin n) (c : Pos) (a : Fin 3) :
    prev (sizeOf D) a (next (sizeOf D) a (siteAt D r c)) = siteAt D r c := by
  rw [← site_up, ← site_dn]
  congr 1
  funext b
  unfold up dn
  by_cases h : b = a <;> simp [h]

end

section
variable {K : Type} {S : Type*} [Field K] [LinearOrder K] [IsStrictOrderedRing K]
variable {n : ℕ} {D : Decomp} (hD : D.ok n = true) (t0 : ℕ → ℤ → ℤ) {F : World K n}
  (hg : ∀ r : Fin n, gridOf D n t0 r = some (F r).g) (hS : SameCells F D)
include hD hg hS

omit hS in
lemma samePlace_site (x y : Fin n × Pos) : SamePlace D F x y ↔ siteAt D x.1 x.2 = siteAt D y.1 y.2 := by
  unfold SamePlace
  simp only [sameAt_site hD t0 hg]
  exact ⟨fun h => funext h, fun h a => by rw [h]⟩

omit hS in
lemma entOn_dims {r r' : Fin n} {k : FC} {c : Pos} (h : EntOn (F r).g fieldExt k c) : EntOn (F r').g fieldExt k c := by
  intro a
  have := h a
  unfold Field.topOf at *
  rw [dims_cells hD t0 hg] at *
  exact this

omit hS in
lemma copy_of_site {k : FC} {x y : Fin n × Pos} (hy : EntOn (F y.1).g fieldExt k y.2)
    (h : siteAt D x.1 x.2 = siteAt D y.1 y.2) :
    y ∈ copies F (ranksOf D) (fun _ => true) (coordOf D) fieldExt k x := by
  rw [Field.mem_copies]
  exact ⟨entOn_dims hD t0 hg hy, fun a => (sameAt_site hD t0 hg x y a).mpr (by rw [h])⟩

/-- After `synchronize_jf` the ranks agree on the current; nothing else has changed on the mesh. -/
lemma current_holds {Rd : Rounding} (hRd : Rd.Accurate) {P : ℕ} (hP : 0 < P) (hP2 : P ≤ 2 ^ 16) {sc : Scales K}
    {A : Fin n → MoveP.Accum K} {m m' : Fin n → FMem K} (h : CurrentPhase F Rd P sc A m m') :
    (∃ J : Fin 3 → Pos → K, ∀ a r c, EdgeOn (F r).g a c → m' r (vox (F r).g c, .jf a) = J a (siteAt D r c)) ∧
    ∀ r x, (∀ a, x.2 ≠ .jf a) → m' r x = m r x := by
  have hF := Field.periodic_world_cart hD t0 hg hS
  obtain ⟨m1, h1, h2⟩ := h
  constructor
  · have := fun a => holds_of_agree D F m' (.jf a) (fun x y hx hy hxy => by
      exact ((Field.copies_agree_after_sum hF).1 m1 m' h2 a x (Field.entOn_edge.2.2.mp hx) y
        (copy_of_site hD t0 hg hy hxy)).symm)
    choose J hJ using this
    exact ⟨J, fun a r c hc => hJ a r c (Field.entOn_edge.2.2.mpr hc)⟩
  · intro r x hx
    rw [(Field.synchronize_frame hF.toLinked m1 m' r x).1 h2 (by rintro a c _ rfl; exact hx a rfl),
      (SfInterface.unload_accumulator_result hRd (hF.mesh r) hP hP2 (h1 r)).2 x (by rintro c k _ rfl; exact hx k rfl)]
    obtain ⟨v, k⟩ := x
    cases k <;> first | rfl | exact absurd rfl (hx _)

/-- The charge density of the particles on the global mesh. -/
noncomputable def rhoOf (D : Decomp) (F : World K n) (r8V : K) (nsp : ℕ) (sp : Fin n → ℕ → Species K) (s : Pos) : K :=
  ∑ r, ((ids nsp).map fun id => ((live (sp r id).p (sp r id).np).map (weigh (F r).g (onSite K D s r (F r).g)
    ((sp r id).q * r8V))).sum).sum

/-- After the measurement the ranks hold the charge density of the particles, the bound charge is as before, and nothing else
has changed. -/
lemma measure_holds {r8V : K} {nsp : ℕ} {sp : Fin n → ℕ → Species K} {m m' : Fin n → FMem K}
    (hw : ∀ r, ∀ id < nsp, ∀ p ∈ live (sp r id).p (sp r id).np, Within (F r).g p)
    (h : MeasureRho F r8V nsp sp m m') {G : Fields K} (hb : Holds D F m G .rhob) :
    (∀ r c, NodeOn (F r).g c → m' r (vox (F r).g c, .rhof) = rhoOf D F r8V nsp sp (siteAt D r c)) ∧
    Holds D F m' G .rhob ∧ ∀ r x, x.2 ≠ .rhof → x.2 ≠ .rhob → m' r x = m r x := by
  have hF := Field.periodic_world_cart hD t0 hg hS
  refine ⟨fun r c hc => measure_value hD t0 hg hS r8V nsp sp m m' hw h (r, c) hc, ?_, ?_⟩
  · intro r c hc
    obtain ⟨ρ, e, hs⟩ := h
    rw [(Field.synchronize_rho_sums hF hs r c (Field.entOn_node.2.1.mp hc)).2]
    have : ∀ z ∈ copies F (ranksOf D) (fun _ => true) (coordOf D) fieldExt .rhob (r, c),
        Field.rhobAtWall (F z.1) z.2 (m z.1 (vox (F z.1).g z.2, .rhob)) = G .rhob (siteAt D r c) := by
      intro z hz
      obtain ⟨z1, z2⟩ := Field.mem_copies.mp hz
      unfold Field.rhobAtWall
      rw [if_neg (by rintro ⟨s, ⟨hw, -⟩, -⟩; exact no_wall hF z.1 s hw), hb z.1 z.2 (entOn_dims hD t0 hg z1)]
      congr 1
      funext a
      exact ((sameAt_site hD t0 hg (r, c) z a).mp (z2 a)).symm
    rw [Finset.sum_congr rfl this, Finset.sum_const, nsmul_eq_mul, mul_comm]
    refine mul_div_cancel_right₀ _ ?_
    have : (r, c) ∈ copies F (ranksOf D) (fun _ => true) (coordOf D) fieldExt .rhob (r, c) :=
      copy_of_site hD t0 hg hc rfl
    exact_mod_cast (Finset.card_pos.mpr ⟨_, this⟩).ne'
  · intro r x h1 h2
    obtain ⟨ρ, e, hs⟩ := h
    rw [(Field.synchronize_frame hF.toLinked _ m' r x).2.1 hs (by rintro c _; exact ⟨by rintro rfl; exact h1 rfl, by rintro rfl; exact h2 rfl⟩)]
    obtain ⟨v, k⟩ := x
    cases k <;> first | rfl | exact absurd rfl h1

end

end Verif.Torus
