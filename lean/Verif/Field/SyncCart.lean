import Verif.Field.SyncCopies
import Verif.Field.WorldProps

/-!
# The partition functions set up arrays of ranks
-/
namespace Verif.Field

open Grid

variable {K : Type*} [Field K]

/-- The place of a rank in the array of ranks. -/
def coordOf (D : Decomp) {n : ℕ} (r : Fin n) : Pos := ![D.cx r, D.cy r, D.cz r]

/-- The array of ranks. -/
def ranksOf (D : Decomp) : Pos := ![D.gpx, D.gpy, D.gpz]

lemma coordOf_inj {D : Decomp} {n : ℕ} (r r' : Fin n) (e : coordOf D r = coordOf D r') : r = r' := by
  have e0 : D.cx r = D.cx r' := congrFun e 0
  have e1 : D.cy r = D.cy r' := congrFun e 1
  have e2 : D.cz r = D.cz r' := congrFun e 2
  unfold Decomp.cx at e0
  unfold Decomp.cy at e1
  unfold Decomp.cz at e2
  have a1 := Int.mul_ediv_add_emod ((r : ℕ) : ℤ) D.gpx
  have a2 := Int.mul_ediv_add_emod ((r' : ℕ) : ℤ) D.gpx
  have b1 := Int.mul_ediv_add_emod (((r : ℕ) : ℤ) / D.gpx) D.gpy
  have b2 := Int.mul_ediv_add_emod (((r' : ℕ) : ℤ) / D.gpx) D.gpy
  rw [e1, e2, b2] at b1
  rw [← b1, e0, a2] at a1
  apply Fin.ext
  exact_mod_cast a1.symm

lemma cart_of_codes {n : ℕ} {W : World K n} {D : Decomp} (h : D.Valid n) (hL : W.Linked) (wrap : Fin 3 → Bool)
    (outer : ℕ → ℤ → Bool) (fbc : ℤ) (hneg : fbc < 0)
    (hbc : ∀ (r : Fin n) s, sideBC (W r).g s = if outer r (faceOf s : ℕ) then fbc else D.nbrRank r (faceOf s : ℕ))
    (hout : ∀ (r : Fin n) s, outer r (faceOf s : ℕ) = false ↔ (wrap s.1 = true ∨
      (0 ≤ coordOf D r s.1 + dirOf s ∧ coordOf D r s.1 + dirOf s < ranksOf D s.1))) :
    W.Cart (ranksOf D) wrap (coordOf D) where
  toLinked := hL
  range := by
    intro r a
    obtain ⟨p1, p2, p3, p4, p5, p6⟩ := coord_bounds h r r.2
    fin_cases a <;> simp [coordOf, ranksOf, *]
  inj := coordOf_inj
  nbr := by
    intro r s hs
    have ho := (hout r s).mpr hs
    obtain ⟨u, hu, eu, ux, uy, uz⟩ := indexToRank_spec h (D.cx r + fdx (faceOf s : ℕ))
      (D.cy r + fdy (faceOf s : ℕ)) (D.cz r + fdz (faceOf s : ℕ))
    refine ⟨⟨u, hu⟩, ?_, ?_⟩
    · rw [dst_eq, hbc, ho]
      simp only [Bool.false_eq_true, if_false]
      exact eu
    · obtain ⟨p1, p2, p3, p4, p5, p6⟩ := coord_bounds h r r.2
      have q1 := Int.emod_eq_of_lt p1 p2
      have q2 := Int.emod_eq_of_lt p3 p4
      have q3 := Int.emod_eq_of_lt p5 p6
      obtain ⟨X, b⟩ := s
      funext a
      fin_cases X <;> cases b <;> fin_cases a <;>
        simp [coordOf, ranksOf, faceOf, fdx, fdy, fdz, dirOf, Function.update, ux, uy, uz, q1, q2, q3]
  wall := by
    intro r s hs
    have ho : outer r (faceOf s : ℕ) = true := by
      by_contra hc
      exact hs ((hout r s).mp (by simpa using hc))
    unfold World.dst
    rw [dif_neg]
    have := hbc r s
    rw [ho] at this
    simp only [if_true] at this
    omega

/-- `partition_periodic_box`: a ring along every axis. -/
theorem periodic_world_cart {n : ℕ} {W : World K n} {D : Decomp} (hD : D.ok n = true)
    (t0 : ℕ → ℤ → ℤ) (hg : ∀ r : Fin n, gridOf D n t0 r = some (W r).g) (hS : SameCells W D) :
    W.Cart (ranksOf D) (fun _ => true) (coordOf D) := by
  have h := (D.ok_iff n).mp hD
  refine cart_of_codes h (periodic_world_linked hD t0 hg hS).1 _ (fun _ _ => false) (-1) (by norm_num) ?_
    (by simp)
  intro r s
  obtain ⟨g, e, gx, gy, gz, -, -, -, gb, -, -⟩ :=
    partitionPeriodic_T h (fun _ => localNv D) (fun _ => rfl) (t0 r) r r.2
  have := hg r
  rw [gridOf, e] at this
  obtain rfl := Option.some.inj this
  rw [sideBC, portOf_faceOf, gb _ (face_range _)]
  simp

/-- `partition_absorbing_box` and `partition_metal_box`: walls at the ends of every axis with more than one cell;
an axis with one cell stays periodic. -/
theorem walled_world_cart {n : ℕ} {W : World K n} {D : Decomp} (hD : D.ok n = true)
    (t0 : ℕ → ℤ → ℤ) (fbc pbc : ℤ) (hp : pbc < 0) (hfb : fbc = -1 ∨ fbc = -2 ∨ fbc = -3 ∨ fbc = -4)
    (hg : ∀ r : Fin n, partitionWalled fbc pbc n (fun _ => localNv D) (t0 r) D r = some (W r).g)
    (hS : SameCells W D) :
    W.Cart (ranksOf D) (fun a => decide (globalDims D a ≤ 1)) (coordOf D) := by
  have h := (D.ok_iff n).mp hD
  refine cart_of_codes h (walled_world_linked hD t0 fbc pbc hp hfb hg hS) _ (fun r f => outerRank D r f) fbc
    (by omega) ?_ ?_
  · intro r s
    obtain ⟨g1, e, gx, gy, gz, -, -, -, gb, -, -⟩ :=
      partitionPeriodic_T h (fun _ => localNv D) (fun _ => rfl) (t0 r) r r.2
    obtain ⟨g2, a1, a2, a3, a4⟩ := partitionWalled_T h fbc pbc hp hfb _ (t0 r) r g1 e gx gy gz
    have := hg r
    rw [a1] at this
    obtain rfl := Option.some.inj this
    rw [sideBC, portOf_faceOf, a3 _ (face_range _), gb _ (face_range _)]
  · intro r s
    obtain ⟨p1, p2, p3, p4, p5, p6⟩ := coord_bounds h r r.2
    rw [decide_eq_true_iff]
    obtain ⟨X, b⟩ := s
    fin_cases X <;> cases b <;>
      simp [coordOf, ranksOf, faceOf, dirOf, outerRank, globalDims] <;> omega

end Verif.Field
