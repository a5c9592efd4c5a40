import Verif.Global.RunSpec
import Verif.Torus.EnergyProps

/-!
# The errors that are printed
-/
namespace Verif.Global

open Grid MoveP Charge Torus Threads
open Field (Pos FC FMem World CellOn NodeOn vox dims up boxSet mem_boxSet nodeWeight)

section
variable {K : Type} {S : Type*} [Field K] [LinearOrder K] [IsStrictOrderedRing K]

/-- The trapezoidal sum along one axis. -/
lemma axis_mean (hi : Pos) (a : Fin 3) (h1 : 1 ≤ hi a) (f : Pos → K) :
    ∑ c ∈ boxSet (fun _ => 1) (Function.update hi a (hi a + 1)), (if c a = 1 ∨ c a = hi a + 1 then (1 / 2 : K) else 1) * f c =
      1 / 2 * (∑ c ∈ boxSet (fun _ => 1) hi, f c + ∑ c ∈ boxSet (fun _ => 1) hi, f (up a c)) := by
  classical
  have w : ∀ c ∈ boxSet (fun _ => 1) (Function.update hi a (hi a + 1)),
      (if c a = 1 ∨ c a = hi a + 1 then (1 / 2 : K) else 1) * f c =
        1 / 2 * ((if c a ≤ hi a then f c else 0) + if 2 ≤ c a then f c else 0) := by
    intro c hc
    have := mem_boxSet.mp hc a
    rw [Function.update_self] at this
    by_cases h : c a = 1
    · rw [if_pos (.inl h), if_pos (by omega), if_neg (by omega), add_zero]
    · by_cases h' : c a = hi a + 1
      · rw [if_pos (.inr h'), if_neg (by omega), if_pos (by omega), zero_add]
      · rw [if_neg (by omega), if_pos (by omega), if_pos (by omega)]
        ring
  rw [Finset.sum_congr rfl w, ← Finset.mul_sum, Finset.sum_add_distrib, ← Finset.sum_filter, ← Finset.sum_filter]
  congr 2
  · refine Finset.sum_congr (Finset.ext fun c => ?_) fun _ _ => rfl
    rw [Finset.mem_filter, mem_boxSet, mem_boxSet]
    constructor
    · rintro ⟨h, h'⟩ b
      have := h b
      by_cases e : b = a
      · subst e; exact ⟨this.1, h'⟩
      · rwa [Function.update_of_ne e] at this
    · intro h
      refine ⟨fun b => ?_, (h a).2⟩
      have := h b
      by_cases e : b = a
      · subst e; rw [Function.update_self]; omega
      · rwa [Function.update_of_ne e]
  · symm
    refine Finset.sum_nbij' (up a) (Field.dn a) ?_ ?_ ?_ ?_ (fun _ _ => rfl)
    · intro c hc
      rw [Finset.mem_filter, mem_boxSet]
      have h := mem_boxSet.mp hc
      refine ⟨fun b => ?_, by have := h a; simp [up]; omega⟩
      have := h b
      by_cases e : b = a
      · subst e; rw [Function.update_self]; simp [up]; omega
      · rw [Function.update_of_ne e]; simpa [up, e] using this
    · intro c hc
      rw [Finset.mem_filter, mem_boxSet] at hc
      refine mem_boxSet.mpr fun b => ?_
      have := hc.1 b
      by_cases e : b = a
      · subst e; rw [Function.update_self] at this; simp [Field.dn]; omega
      · rw [Function.update_of_ne e] at this; simpa [Field.dn, e] using this
    · intro c _
      funext b
      by_cases e : b = a <;> simp [up, Field.dn, e]
    · intro c _
      funext b
      by_cases e : b = a <;> simp [up, Field.dn, e]

/-- The sum over the nodes of a rank with their weights: the mean over the corners of the cells. -/
lemma node_mean (g : LGrid) (h1 : ∀ a, 1 ≤ dims g a) (f : Pos → K) :
    ∑ c ∈ boxSet (fun _ => 1) (fun a => dims g a + 1), nodeWeight g c * f c = 1 / 8 * ∑ c ∈ boxSet (fun _ => 1) (dims g),
      (f c + f (up 2 c) + (f (up 1 c) + f (up 2 (up 1 c))) + (f (up 0 c) + f (up 2 (up 0 c)) +
        (f (up 1 (up 0 c)) + f (up 2 (up 1 (up 0 c)))))) := by
  let w : Fin 3 → Pos → K := fun a c => if c a = 1 ∨ c a = dims g a + 1 then (1 / 2 : K) else 1
  have wu : ∀ a b, a ≠ b → ∀ c, w a (up b c) = w a c := by
    intro a b hab c
    have : up b c a = c a := by simp [up, hab]
    simp only [w, this]
  have e0 : (fun a => dims g a + 1) = Function.update (Function.update (Function.update (dims g) 2 (dims g 2 + 1)) 1 (dims g 1 + 1))
      0 (dims g 0 + 1) := by
    funext a
    fin_cases a <;> simp [Function.update]
  have s0 := fun f => axis_mean (K := K) (Function.update (Function.update (dims g) 2 (dims g 2 + 1)) 1 (dims g 1 + 1)) 0 (by
    simpa [Function.update] using h1 0) f
  have s1 := fun f => axis_mean (K := K) (Function.update (dims g) 2 (dims g 2 + 1)) 1 (by
    simpa [Function.update] using h1 1) f
  have s2 := fun f => axis_mean (K := K) (dims g) 2 (h1 2) f
  have d0 : (Function.update (Function.update (dims g) 2 (dims g 2 + 1)) 1 (dims g 1 + 1)) 0 = dims g 0 := by simp [Function.update]
  have d1 : (Function.update (dims g) 2 (dims g 2 + 1)) 1 = dims g 1 := by simp [Function.update]
  rw [d0] at s0
  rw [d1] at s1
  have t0 : ∀ f : Pos → K, ∑ c ∈ boxSet (fun _ => 1) (Function.update (Function.update (Function.update (dims g) 2 (dims g 2 + 1)) 1
      (dims g 1 + 1)) 0 (dims g 0 + 1)), w 0 c * f c = _ := s0
  have t1 : ∀ f : Pos → K, ∑ c ∈ boxSet (fun _ => 1) (Function.update (Function.update (dims g) 2 (dims g 2 + 1)) 1
      (dims g 1 + 1)), w 1 c * f c = _ := s1
  have t2 : ∀ f : Pos → K, ∑ c ∈ boxSet (fun _ => 1) (Function.update (dims g) 2 (dims g 2 + 1)), w 2 c * f c = _ := s2
  have nw : ∀ c, nodeWeight g c * f c = w 0 c * (w 1 c * (w 2 c * f c)) := by
    intro c
    unfold nodeWeight
    rw [Fin.prod_univ_three]
    simp only [w]
    ring
  rw [Finset.sum_congr rfl fun c _ => nw c, e0, t0]
  simp only [wu 1 0 (by decide), wu 2 0 (by decide)]
  rw [t1, t1 fun c => w 2 c * f (up 0 c)]
  simp only [wu 2 1 (by decide)]
  rw [t2, t2 fun c => f (up 1 c), t2 fun c => f (up 0 c), t2 fun c => f (up 0 (up 1 c))]
  simp only [Finset.sum_add_distrib, Field.up_comm 0 1]
  simp only [Field.up_comm 0 2, Field.up_comm 1 2]
  ring

section
variable {n : ℕ} {Z : Setup K S n} (hZ : Z.Fits)
include hZ

lemma volume_sum : ((∑ r : Fin n, (Z.F r).g.nx * (Z.F r).g.ny * (Z.F r).g.nz : ℤ)) =
    Torus.sizeOf Z.D 0 * Torus.sizeOf Z.D 1 * Torus.sizeOf Z.D 2 := by
  have h := (Decomp.ok_iff _ n).mp hZ.box.ok
  have e : ∀ r : Fin n, (Z.F r).g.nx * (Z.F r).g.ny * (Z.F r).g.nz = Z.D.lx * Z.D.ly * Z.D.lz := fun r => by
    have := dims_cells hZ.box.ok Z.t0 hZ.box.grid r
    have a0 := congrFun this 0
    have a1 := congrFun this 1
    have a2 := congrFun this 2
    simp only [dims, Charge.cellsOf, Matrix.cons_val_zero, Matrix.cons_val_one, Matrix.cons_val] at a0 a1 a2
    rw [a0, a1, a2]
  rw [Finset.sum_congr rfl fun r _ => e r, Finset.sum_const, Finset.card_univ, Fintype.card_fin]
  simp only [Torus.sizeOf, Field.ranksOf, Charge.cellsOf, Matrix.cons_val_zero, Matrix.cons_val_one, Matrix.cons_val, nsmul_eq_mul]
  rw [← h.ws]
  ring

lemma rms_final {dV : K} (hdV : dV ≠ 0) (hV : ∀ r, (Z.F r).dV = dV) (rt : K → K) (l : Fin n → K) :
    Field.rmsFinal rt Z.C.eps0 (List.ofFn fun r => (l r * (Z.F r).dV,
      (((Z.F r).g.nx * (Z.F r).g.ny * (Z.F r).g.nz : ℤ) : K) * (Z.F r).dV)) =
    Z.C.eps0 * rt ((∑ r, l r) / ((Torus.sizeOf Z.D 0 * Torus.sizeOf Z.D 1 * Torus.sizeOf Z.D 2 : ℤ) : K)) := by
  unfold Field.rmsFinal
  rw [List.map_ofFn, List.map_ofFn, List.sum_ofFn, List.sum_ofFn, ← volume_sum hZ]
  simp only [Function.comp_apply, hV, ← Finset.sum_mul]
  rw [mul_div_mul_right _ _ hdV, Int.cast_sum]

/-- `compute_rms_div_b_err` on all ranks. -/
lemma rms_b_global {dV : K} (hdV : dV ≠ 0) (hV : ∀ r, (Z.F r).dV = dV) {rt : K → K} {m : Fin n → FMem K} {err : K}
    (h : RmsB Z rt m err) {E : Pos → K} (hE : ∀ r c, CellOn (Z.F r).g c → m r (vox (Z.F r).g c, .divB) = E (siteAt Z.D r c)) :
    err = Z.C.eps0 * rt ((∑ s ∈ sites (Torus.sizeOf Z.D), E s ^ 2) /
      ((Torus.sizeOf Z.D 0 * Torus.sizeOf Z.D 1 * Torus.sizeOf Z.D 2 : ℤ) : K)) := by
  have hF := Field.periodic_world_cart hZ.box.ok Z.t0 hZ.box.grid hZ.box.cells
  obtain ⟨l, h1, rfl⟩ := h
  have e : l = fun r => ((∑ c ∈ boxSet (fun _ => 1) (dims (Z.F r).g), E (siteAt Z.D r c) ^ 2) * (Z.F r).dV,
      (((Z.F r).g.nx * (Z.F r).g.ny * (Z.F r).g.nz : ℤ) : K) * (Z.F r).dV) := by
    funext r
    have := h1 r
    rw [Field.rms_div_b_each_cell_once (hF.mesh r) hZ.rounding hZ.threads.1 hZ.threads.2] at this
    rw [← Option.some.inj this]
    congr 2
    refine Finset.sum_congr rfl fun c hc => ?_
    rw [hE r c (mem_boxSet.mp hc)]
  rw [e, rms_final hZ hdV hV, ← sum_cells hZ.box.ok Z.t0 hZ.box.grid]
  rfl

/-- `compute_rms_div_e_err` on all ranks. -/
lemma rms_e_global {dV : K} (hdV : dV ≠ 0) (hV : ∀ r, (Z.F r).dV = dV) {rt : K → K} {m : Fin n → FMem K} {err : K}
    (h : RmsE Z rt m err) {E : Pos → K} (hE : ∀ r c, NodeOn (Z.F r).g c → m r (vox (Z.F r).g c, .divE) = E (siteAt Z.D r c)) :
    err = Z.C.eps0 * rt ((∑ s ∈ sites (Torus.sizeOf Z.D), E s ^ 2) /
      ((Torus.sizeOf Z.D 0 * Torus.sizeOf Z.D 1 * Torus.sizeOf Z.D 2 : ℤ) : K)) := by
  have hF := Field.periodic_world_cart hZ.box.ok Z.t0 hZ.box.grid hZ.box.cells
  obtain ⟨l, h1, rfl⟩ := h
  have e : l = fun r => ((∑ c ∈ boxSet (fun _ => 1) (fun a => dims (Z.F r).g a + 1), nodeWeight (Z.F r).g c *
      E (siteAt Z.D r c) ^ 2) * (Z.F r).dV, (((Z.F r).g.nx * (Z.F r).g.ny * (Z.F r).g.nz : ℤ) : K) * (Z.F r).dV) := by
    funext r
    have := h1 r
    rw [Field.rms_div_e_each_node_once (hF.mesh r) hZ.rounding hZ.threads.1 hZ.threads.2] at this
    rw [← Option.some.inj this]
    congr 2
    refine Finset.sum_congr rfl fun c hc => ?_
    rw [hE r c (mem_boxSet.mp hc)]
  have sc := fun f : Pos → K => sum_cells hZ.box.ok Z.t0 hZ.box.grid f
  have sc' : ∀ f : Pos → K, ∑ r : Fin n, ∑ c ∈ boxSet (fun _ => 1) (dims (Z.F r).g), f (siteAt Z.D r c) = _ := sc
  have avg := fun r => node_mean (K := K) (Z.F r).g (hF.mesh r).pos fun c => E (siteAt Z.D r c) ^ 2
  have nx := fun a (f : Pos → K) => sum_next (Torus.sizeOf Z.D) a f
  rw [e, rms_final hZ hdV hV]
  congr 3
  rw [Finset.sum_congr rfl fun r _ => avg r, ← Finset.mul_sum]
  simp only [site_up, Finset.sum_add_distrib]
  have n0 := sc' fun s => E s ^ 2
  have n1 := fun a => (sc' fun s => E (next (Torus.sizeOf Z.D) a s) ^ 2).trans (nx a fun s => E s ^ 2)
  have n2 := fun a b => ((sc' fun s => E (next (Torus.sizeOf Z.D) a (next (Torus.sizeOf Z.D) b s)) ^ 2).trans
    (nx b fun s => E (next (Torus.sizeOf Z.D) a s) ^ 2)).trans (nx a fun s => E s ^ 2)
  have n3 := fun a b d => (((sc' fun s => E (next (Torus.sizeOf Z.D) a (next (Torus.sizeOf Z.D) b (next (Torus.sizeOf Z.D) d s))) ^ 2).trans
    (nx d fun s => E (next (Torus.sizeOf Z.D) a (next (Torus.sizeOf Z.D) b s)) ^ 2)).trans
    (nx b fun s => E (next (Torus.sizeOf Z.D) a s) ^ 2)).trans (nx a fun s => E s ^ 2)
  rw [n0, n1, n1, n1, n2, n2, n2, n3]
  ring

end

end

end Verif.Global
