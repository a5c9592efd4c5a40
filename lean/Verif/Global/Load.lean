import Verif.Global.RunSpec
import Verif.Global.Props

/-!
# Interpolators and charge density of the box
-/
namespace Verif.Global

open Grid MoveP Charge Torus Threads
open Field (Pos FC FMem World CellOn EdgeOn FaceOn EntOn fieldExt vox dims up dn)
open Boundary (Rank Env Species live ids)

section
variable {K : Type} {S : Type*} [Field K] [LinearOrder K] [IsStrictOrderedRing K]
variable {n : ℕ} {Z : Setup K S n} (hZ : Z.Fits)
include hZ

/-- `load_interpolator_array` on all ranks. -/
lemma load_global {m : Fin n → FMem K} {fi fi' : Fin n → ℤ → Boris.Interp K} (h : LoadAll Z m fi fi') {G : Fields K}
    (he : ∀ a, Holds Z.D Z.F m G (.e a)) (hb : ∀ a, Holds Z.D Z.F m G (.cb a)) (r : Fin n) (c : Pos)
    (hc : CellOn (Z.F r).g c) : fi' r (vox (Z.F r).g c) = interpOf (Torus.sizeOf Z.D) G (siteAt Z.D r c) := by
  have hF := Field.periodic_world_cart hZ.box.ok Z.t0 hZ.box.grid hZ.box.cells
  rw [(Interp.load_interpolator_result hZ.rounding (hF.mesh r) hZ.threads.1 hZ.threads.2 (h r)).1 c hc]
  have u : ∀ x y z : ℤ, VOXEL (Z.F r).g.nx (Z.F r).g.ny x y z = vox (Z.F r).g ![x, y, z] := fun _ _ _ => rfl
  have ext : ∀ c d : Pos, c 0 = d 0 → c 1 = d 1 → c 2 = d 2 → c = d := fun c d h0 h1 h2 => by
    funext a; fin_cases a <;> assumption
  have u0 : (![c 0 + 1, c 1, c 2] : Pos) = up 0 c := by apply ext <;> simp [up]
  have u1 : (![c 0, c 1 + 1, c 2] : Pos) = up 1 c := by apply ext <;> simp [up]
  have u2 : (![c 0, c 1, c 2 + 1] : Pos) = up 2 c := by apply ext <;> simp [up]
  have u00 : (![c 0, c 1, c 2] : Pos) = c := by apply ext <;> simp
  have u12 : (![c 0, c 1 + 1, c 2 + 1] : Pos) = up 2 (up 1 c) := by apply ext <;> simp [up]
  have u20 : (![c 0 + 1, c 1, c 2 + 1] : Pos) = up 0 (up 2 c) := by apply ext <;> simp [up]
  have u01 : (![c 0 + 1, c 1 + 1, c 2] : Pos) = up 1 (up 0 c) := by apply ext <;> simp [up]
  have s : Interp.loadStencil (Z.F r).g (c 0) (c 1) (c 2) = ⟨vox (Z.F r).g c, vox (Z.F r).g c, vox (Z.F r).g (up 0 c),
      vox (Z.F r).g (up 1 c), vox (Z.F r).g (up 2 c), vox (Z.F r).g (up 2 (up 1 c)), vox (Z.F r).g (up 0 (up 2 c)),
      vox (Z.F r).g (up 1 (up 0 c))⟩ := by
    unfold Interp.loadStencil
    simp only [u, u0, u1, u2, u00, u12, u20, u01]
  have on : ∀ (a : Fin 3) (d : Pos), (∀ b, d b = c b ∨ (b ≠ a ∧ d b = c b + 1)) → EntOn (Z.F r).g fieldExt (.e a) d := by
    intro a d hd
    refine Field.entOn_edge.1.mpr fun b => ?_
    have := hc b
    rcases hd b with h | ⟨h, h'⟩
    · split <;> omega
    · rw [if_neg (fun e => h e)]; omega
  have onb : ∀ (a : Fin 3) (d : Pos), (∀ b, d b = c b ∨ (b = a ∧ d b = c b + 1)) → EntOn (Z.F r).g fieldExt (.cb a) d := by
    intro a d hd
    refine Field.entOn_face.mpr fun b => ?_
    have := hc b
    rcases hd b with h | ⟨h, h'⟩
    · split <;> omega
    · rw [if_pos h]; omega
  have E : ∀ (a : Fin 3) (d : Pos), (∀ b, d b = c b ∨ (b ≠ a ∧ d b = c b + 1)) →
      m r (vox (Z.F r).g d, .e a) = G (.e a) (siteAt Z.D r d) := fun a d hd => he a r d (on a d hd)
  have B : ∀ (a : Fin 3) (d : Pos), (∀ b, d b = c b ∨ (b = a ∧ d b = c b + 1)) →
      m r (vox (Z.F r).g d, .cb a) = G (.cb a) (siteAt Z.D r d) := fun a d hd => hb a r d (onb a d hd)
  rw [s]
  have e0 := fun a => E a c (fun b => .inl rfl)
  have b0 := fun a => B a c (fun b => .inl rfl)
  have b1 := fun a => B a (up a c) (fun b => by unfold up; split <;> simp_all)
  have e1 := fun a b (hab : b ≠ a) => E a (up b c) (fun d => by
    unfold up
    by_cases hd : d = b
    · subst hd; right; simpa using hab
    · left; simp [hd])
  have e2 := fun a b b' (hab : b ≠ a) (hab' : b' ≠ a) (hbb : b ≠ b') => E a (up b (up b' c)) (fun d => by
    unfold up
    by_cases hd : d = b
    · subst hd; right; simpa [hbb] using hab
    · by_cases hd' : d = b'
      · subst hd'; right; simpa [hd] using hab'
      · left; simp [hd, hd'])
  unfold Interp.coefficients interpOf edge4 mean4 slope1 slope2 mixed
  simp only [e0, b0, b1, e1 0 1 (by decide), e1 0 2 (by decide), e1 1 0 (by decide), e1 1 2 (by decide), e1 2 0 (by decide),
    e1 2 1 (by decide), e2 0 2 1 (by decide) (by decide) (by decide), e2 1 0 2 (by decide) (by decide) (by decide),
    e2 2 1 0 (by decide) (by decide) (by decide), site_up]
  rfl

/-- The charge density that the ranks measure is that of the particles of the box. -/
lemma rho_global {R : Fin n → Rank K S} {nsp : ℕ} {q : ℕ → K} {r8V : K} (hq : ∀ r, ∀ id < nsp, ((R r).sp id).q = q id)
    (hw : ∀ r, ∀ id < nsp, ∀ p ∈ live ((R r).sp id).p ((R r).sp id).np, Within (Z.F r).g p) (s : Pos) :
    rhoOf Z.D Z.F r8V nsp (fun r => (R r).sp) s = ∑ id ∈ Finset.range nsp, ((gather Z.D Z.B R id).map fun p =>
      share (Torus.sizeOf Z.D) (q id * r8V) p s).sum := by
  have one : ∀ r, ∀ p, Within (Z.F r).g p → ∀ q8 : K, weigh (Z.F r).g (onSite K Z.D s r (Z.F r).g) q8 p =
      share (Torus.sizeOf Z.D) q8 (lift Z.D r (Z.B r).g p) s := by
    rintro r p ⟨⟨c, hc, hi⟩, -⟩ q8
    have hm := grid_mesh hZ.box.ok Z.t0 (G := fun r => (Z.F r).g) hZ.box.grid r
    obtain ⟨b1, b2, b3, b4, b5, b6⟩ := hc
    have hp := posOf_voxel hm (x := c.x) (y := c.y) (z := c.z) ⟨by omega, by omega⟩ ⟨by omega, by omega⟩
    unfold weigh share
    refine Finset.sum_congr rfl fun k _ => ?_
    congr 1
    unfold onSite
    have e : posOf (Z.F r).g (p.i + Deposit.nodeOff (Z.F r).g k) =
        ![c.x + (k.1 / 2 ^ 0 % 2 : ℕ), c.y + (k.1 / 2 ^ 1 % 2 : ℕ), c.z + (k.1 / 2 ^ 2 % 2 : ℕ)] := by
      have e' : p.i + Deposit.nodeOff (Z.F r).g k = VOXEL (Z.F r).g.nx (Z.F r).g.ny (c.x + (k.1 / 2 ^ 0 % 2 : ℕ))
          (c.y + (k.1 / 2 ^ 1 % 2 : ℕ)) (c.z + (k.1 / 2 ^ 2 % 2 : ℕ)) := by
        rw [hi]
        unfold VOXEL Deposit.nodeOff
        fin_cases k <;> simp <;> ring
      rw [e', posOf_voxel hm]
      · have : (k.1 / 2 ^ 0 % 2 : ℕ) < 2 := Nat.mod_lt _ (by norm_num)
        omega
      · have : (k.1 / 2 ^ 1 % 2 : ℕ) < 2 := Nat.mod_lt _ (by norm_num)
        omega
    rw [e]
    refine if_congr ?_ rfl rfl
    have : corner (Torus.sizeOf Z.D) (lift Z.D r (Z.B r).g p).cell k =
        siteAt Z.D r ![c.x + (k.1 / 2 ^ 0 % 2 : ℕ), c.y + (k.1 / 2 ^ 1 % 2 : ℕ), c.z + (k.1 / 2 ^ 2 % 2 : ℕ)] := by
      unfold lift
      simp only
      rw [hZ.box.same, hi, hp]
      funext a
      unfold corner siteAt Torus.sizeOf
      rw [Int.emod_add_emod]
      fin_cases a <;> simp <;> congr 1 <;> ring
    rw [this]
    exact ⟨fun h => funext h, fun h a => by rw [h]⟩
  unfold rhoOf gather
  have l : ∀ r, ((ids nsp).map fun id => ((live ((R r).sp id).p ((R r).sp id).np).map (weigh (Z.F r).g
      (onSite K Z.D s r (Z.F r).g) (((R r).sp id).q * r8V))).sum).sum =
      ∑ id ∈ Finset.range nsp, (((live ((R r).sp id).p ((R r).sp id).np : List (MoveP.Part K)) :
        Multiset (MoveP.Part K)).map fun p => share (Torus.sizeOf Z.D) (q id * r8V) (lift Z.D r (Z.B r).g p) s).sum := by
    intro r
    have : ∀ f : ℕ → K, ((ids nsp).map f).sum = ∑ id ∈ Finset.range nsp, f id := fun f => by
      rw [show ids nsp = (List.range nsp).reverse from rfl, List.map_reverse, List.sum_reverse]
      rfl
    rw [this]
    refine Finset.sum_congr rfl fun id hid => ?_
    have hid := Finset.mem_range.mp hid
    rw [Multiset.map_coe, Multiset.sum_coe]
    refine congrArg _ (List.map_congr_left fun p hp => ?_)
    rw [one r p (hw r id hid p hp), hq r id hid]
  rw [Finset.sum_congr rfl fun r _ => l r, Finset.sum_comm]
  refine Finset.sum_congr rfl fun id _ => ?_
  have : ∀ (f : GPart K → K) (P : Fin n → Multiset (GPart K)), ((∑ r, P r).map f).sum = ∑ r, ((P r).map f).sum := fun f P =>
    map_sum (Multiset.sumAddMonoidHom.comp (Multiset.mapAddMonoidHom f)) P Finset.univ
  rw [this]
  refine Finset.sum_congr rfl fun r _ => ?_
  rw [Multiset.map_map]
  rfl

end

end Verif.Global
