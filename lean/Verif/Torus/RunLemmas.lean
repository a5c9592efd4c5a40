import Verif.Torus.Run
import Verif.Field.CleanE

/-!
# A whole run: lemmas about the single calls
-/
namespace Verif.Torus

open Grid Charge
open Field (Pos FC FMem World NodeOn EdgeOn FaceOn CellOn EntOn fieldExt vox dims up dn copies ranksOf coordOf SameCells Filled
  slotsNormE slotsTangB slotsDivB localGhostDivB SynchronizeTangENormB alphadt)
open Boundary (Rank Species live)

section
variable {K : Type} {S : Type*} [Field K] [LinearOrder K] [IsStrictOrderedRing K]

/-- The members that every rank shares with its neighbours between two calls. -/
def Shared (k : FC) : Prop := (∃ a, k = .e a) ∨ (∃ a, k = .cb a) ∨ ∃ a, k = .tca a

section
variable {n : ℕ} {D : Decomp} (hD : D.ok n = true) (t0 : ℕ → ℤ → ℤ) {F : World K n}
  (hg : ∀ r : Fin n, gridOf D n t0 r = some (F r).g) (hS : SameCells F D)
include hD hg hS

/-! ### `synchronize_tang_e_norm_b` -/

/-- The value after the call is the mean over the copies: there are no walls. -/
lemma sync_mean {m m' : Fin n → FMem K} {err : K} (h : SynchronizeTangENormB F m m' err) {k : FC} (hk : Shared k) (r : Fin n)
    (c : Pos) (hc : EntOn (F r).g fieldExt k c) : m' r (vox (F r).g c, k) =
      (∑ z ∈ copies F (ranksOf D) (fun _ => true) (coordOf D) fieldExt k (r, c), m z.1 (vox (F z.1).g z.2, k)) /
        ((copies F (ranksOf D) (fun _ => true) (coordOf D) fieldExt k (r, c)).card : K) := by
  have hF := Field.periodic_world_cart hD t0 hg hS
  have we : ∀ r a c v, Field.eAtWall (F r) a c v = v := fun r a c v => by
    unfold Field.eAtWall
    rw [if_neg (by rintro ⟨s, -, ⟨hw, -⟩, -⟩; exact no_wall hF r s hw)]
  have wb : ∀ r a c v, Field.cbAtWall (F r) a c v = v := fun r a c v => by
    unfold Field.cbAtWall
    rw [if_neg (by rintro ⟨s, -, ⟨hw, -⟩, -⟩; exact no_wall hF r s hw)]
  rcases hk with ⟨a, rfl⟩ | ⟨a, rfl⟩ | ⟨a, rfl⟩
  · have := ((Field.synchronize_tang_e_norm_b_means hF h a r c).1 (Field.entOn_edge.1.mp hc)).1
    simpa only [we] using this
  · have := (Field.synchronize_tang_e_norm_b_means hF h a r c).2 (Field.entOn_face.mp hc)
    simpa only [wb] using this
  · have := ((Field.synchronize_tang_e_norm_b_means hF h a r c).1 (Field.entOn_edge.2.1.mp hc)).2
    simpa only [we] using this

/-- After the call the ranks agree, whatever they held before. -/
lemma sync_any {m m' : Fin n → FMem K} {err : K} (h : SynchronizeTangENormB F m m' err) :
    ∃ G : Fields K, ∀ k, Shared k → Holds D F m' G k := by
  have hF := Field.periodic_world_cart hD t0 hg hS
  have : ∀ k, ∃ J : Pos → K, Shared k → ∀ r c, EntOn (F r).g fieldExt k c → m' r (vox (F r).g c, k) = J (siteAt D r c) := by
    intro k
    by_cases hk : Shared k
    · obtain ⟨J, hJ⟩ := holds_of_agree D F m' k fun x y hx hy hxy => by
        rw [sync_mean hD t0 hg hS h hk x.1 x.2 hx, sync_mean hD t0 hg hS h hk y.1 y.2 hy,
          Field.copies_eq hF (copy_of_site hD t0 hg hy hxy)]
      exact ⟨J, fun _ => hJ⟩
    · exact ⟨fun _ => 0, fun h => absurd h hk⟩
  choose J hJ using this
  exact ⟨fun k s => J k s, fun k hk r c hc => hJ k hk r c hc⟩

/-- Ranks that agree are left alone, and no error is reported. -/
lemma sync_keeps {m m' : Fin n → FMem K} {err : K} (h : SynchronizeTangENormB F m m' err) {G : Fields K}
    (hG : ∀ k, Shared k → Holds D F m G k) : err = 0 ∧ (∀ k, Shared k → Holds D F m' G k) ∧
    ∀ r x, ¬ Shared x.2 → m' r x = m r x := by
  have hF := Field.periodic_world_cart hD t0 hg hS
  have val : ∀ k, Shared k → ∀ r c, ∀ z ∈ copies F (ranksOf D) (fun _ => true) (coordOf D) fieldExt k (r, c),
      m z.1 (vox (F z.1).g z.2, k) = G k (siteAt D r c) := by
    intro k hk r c z hz
    obtain ⟨z1, z2⟩ := Field.mem_copies.mp hz
    rw [hG k hk z.1 z.2 (entOn_dims hD t0 hg z1)]
    congr 1
    funext a
    exact ((sameAt_site hD t0 hg (r, c) z a).mp (z2 a)).symm
  have we : ∀ r a c v, Field.eAtWall (F r) a c v = v := fun r a c v => by
    unfold Field.eAtWall
    rw [if_neg (by rintro ⟨s, -, ⟨hw, -⟩, -⟩; exact no_wall hF r s hw)]
  have wb : ∀ r a c v, Field.cbAtWall (F r) a c v = v := fun r a c v => by
    unfold Field.cbAtWall
    rw [if_neg (by rintro ⟨s, -, ⟨hw, -⟩, -⟩; exact no_wall hF r s hw)]
  refine ⟨?_, ?_, ?_⟩
  · refine (Field.synchronize_error hF h).2.1.mpr ⟨fun a x hx y hy => ?_, fun a x hx y hy => ?_⟩
    · rw [we, we, val _ (.inl ⟨a, rfl⟩) x.1 x.2 y hy, hG _ (.inl ⟨a, rfl⟩) x.1 x.2 (Field.entOn_edge.1.mpr hx)]
    · rw [wb, wb, val _ (.inr (.inl ⟨a, rfl⟩)) x.1 x.2 y hy, hG _ (.inr (.inl ⟨a, rfl⟩)) x.1 x.2 (Field.entOn_face.mpr hx)]
  · intro k hk r c hc
    rw [sync_mean hD t0 hg hS h hk r c hc, Finset.sum_congr rfl (val k hk r c), Finset.sum_const, nsmul_eq_mul, mul_comm]
    refine mul_div_cancel_right₀ _ ?_
    have : (r, c) ∈ copies F (ranksOf D) (fun _ => true) (coordOf D) fieldExt k (r, c) := copy_of_site hD t0 hg hc rfl
    exact_mod_cast (Finset.card_pos.mpr ⟨_, this⟩).ne'
  · intro r x hx
    refine (Field.synchronize_frame hF.toLinked m m' r x).2.2 err h (fun a c _ => ⟨?_, ?_⟩) (fun a c _ => ?_)
    · rintro rfl; exact hx (.inl ⟨a, rfl⟩)
    · rintro rfl; exact hx (.inr (.inr ⟨a, rfl⟩))
    · rintro rfl; exact hx (.inr (.inl ⟨a, rfl⟩))

/-! ### `clean_div_b` -/

/-- The divergence error seen by `clean_div_b`. -/
lemma seen_div_b {m : Fin n → FMem K} {E : Pos → K} (hh : ∀ r c, CellOn (F r).g c → m r (vox (F r).g c, .divB) = E (siteAt D r c))
    {r : Fin n} {mg : FMem K}
    (hf : Filled (F r) (localGhostDivB (F r)) slotsDivB (F.ghostMail slotsDivB m r) (m r) mg) (a : Fin 3)
    (p : Pos) (ha : 0 ≤ p a ∧ p a ≤ dims (F r).g a + 1)
    (ho : ∀ o, o ≠ a → 1 ≤ p o ∧ p o ≤ dims (F r).g o) :
    mg (vox (F r).g p, .divB) = E (siteAt D r p) := by
  have hF := Field.periodic_world_cart hD t0 hg hS
  obtain ⟨lg, rs, h1, h2, rfl⟩ := hf.ex
  obtain ⟨rs', h3, h4⟩ := Field.ghost_exchange hF.toLinked (fun g hg => Field.slotsDivB_ok hg) Field.slots_dims.2.2 m r
  rw [h2] at h3
  obtain rfl := Option.some.inj h3
  have hn := (hF.mesh r).pos a
  have slot : ∀ w, p a = w → (p, FC.divB) ∈ slotsDivB (F r).g a w := by
    intro w hw
    simp only [slotsDivB, List.mem_map, Field.mem_facePlane]
    refine ⟨p, fun y => ?_, rfl⟩
    by_cases hy : y = a
    · subst hy; simp [hw]
    · rw [if_neg hy, if_neg hy]; exact ho y hy
  have cell : ∀ r' w, 1 ≤ w → w ≤ dims (F r').g a → CellOn (F r').g (Function.update p a w) := by
    intro r' w h5 h6 y
    rw [hF.dims r' r] at *
    by_cases hy : y = a
    · subst hy; rw [Function.update_self]; omega
    · rw [Function.update_of_ne hy]
      exact ho y hy
  by_cases hin : 1 ≤ p a ∧ p a ≤ dims (F r).g a
  · have hfa := cell r (p a) hin.1 hin.2
    rw [Function.update_eq_self] at hfa
    rw [(Field.filled_div_b (hF.mesh r) hf).1 p hfa]
    exact hh r p hfa
  · by_cases h0 : p a = 0
    · obtain ⟨r', h5, h6⟩ := ghost_dn hD t0 hg hS r a
      have := (h4 (runSeq lg (m r))).1 (a, false) r' h5 (p, .divB) (slot _ h0)
      rw [this]
      show m r' (vox _ (Function.update p a (dims (F r').g a)), _) = _
      rw [hh r' _ (cell r' _ ((hF.mesh r').pos a) le_rfl), h6 p h0]
    · have h0 : p a = dims (F r).g a + 1 := by omega
      obtain ⟨r', h5, h6⟩ := ghost_up hD t0 hg hS r a
      have := (h4 (runSeq lg (m r))).1 (a, true) r' h5 (p, .divB) (slot _ h0)
      rw [this]
      show m r' (vox _ (Function.update p a 1), _) = _
      rw [hh r' _ (cell r' _ le_rfl ((hF.mesh r').pos a)), h6 p h0]

end

/-! ### The kernels of a setup -/

/-- Divergence of B on the global mesh. -/
def divBAt (N : Pos) (C : Consts K) (G : Fields K) (s : Pos) : K :=
  ∑ a, C.rd a * (G (.cb a) (next N a s) - G (.cb a) s)

omit [LinearOrder K] [IsStrictOrderedRing K] in
/-- Without walls the node kernels fill ghosts of E only. -/
lemma filled_open {E : Field.Env K} (hg : Field.Mesh E.g) (hw : ∀ s, ¬ Field.IsWall E s) {recv : Fin 3 × Bool → Option (List K)}
    {m mg : FMem K} (h : Filled E (Field.localGhostNormE E) slotsNormE recv m mg) (x : Field.Addr) (hx : ∀ a, x.2 ≠ .e a) :
    mg x = m x := by
  obtain ⟨lg, rs, h1, h2, rfl⟩ := h.ex
  rw [Field.endRemote_frame h2 (fun k => ∃ b, k = FC.e b) (Field.slotsNormE_kind E.g),
    (Field.ghost_norm_e hg h1 m).2 x fun s c h => absurd h (hw s)]
  rintro ⟨s, q, hq, rfl⟩
  obtain ⟨b, hb⟩ := Field.slotsNormE_kind _ _ _ q hq
  exact hx b hb

/-- What the kernels need of a setup. -/
structure Setup.Fits {n : ℕ} (Z : Setup K S n) : Prop where
  box : PeriodicBox Z.D Z.t0 Z.F Z.B
  rounding : Z.Rd.Accurate
  threads : 0 < Z.P ∧ Z.P ≤ 2 ^ 16
  resolved : Resolved Z.D
  consts : SameConsts Z.F Z.C
  made : MadeOf Z.D Z.F Z.M

lemma Setup.Ok.fits {n : ℕ} {Z : Setup K S n} (h : Z.Ok) : Z.Fits :=
  ⟨h.box, h.rounding, h.threads, h.resolved, h.consts, h.made⟩

/-- The reciprocal of the cell size, zero along an axis with one cell. -/
def pace (N : Pos) (C : Consts K) (a : Fin 3) : K := if 1 < N a then C.rd a else 0

/-- The step of the diffusion of divergence errors. -/
def marderAlpha (N : Pos) (C : Consts K) : K :=
  3888889 / 10000000 / (pace N C 0 * pace N C 0 + pace N C 1 * pace N C 1 + pace N C 2 * pace N C 2)

/-- One pass of `clean_div_b` on the global mesh. -/
def marderBOf (N : Pos) (C : Consts K) (G : Fields K) (a : Fin 3) (s : Pos) : K :=
  G (.cb a) s + marderAlpha N C * pace N C a * (divBAt N C G s - divBAt N C G (prev N a s))

/-- One pass of `clean_div_e` on the global mesh, for errors `E`. -/
def marderEOf (N : Pos) (C : Consts K) (M : Medium K) (E : Pos → K) (G : Fields K) (a : Fin 3) (s : Pos) : K :=
  G (.e a) s + (M.edge a s).drive a * (marderAlpha N C * pace N C a) * (E (next N a s) - E s)

variable {n : ℕ} {Z : Setup K S n} (hZ : Z.Fits)
include hZ

lemma pace_global (r : Fin n) (a : Fin 3) : Field.invStep (Z.F r) a = pace (sizeOf Z.D) Z.C a := by
  unfold Field.invStep pace
  rw [Charge.dims_cells hZ.box.ok Z.t0 hZ.box.grid, hZ.consts.rd]
  refine if_congr ?_ rfl rfl
  unfold sizeOf
  have h0 := Charge.coord_range hZ.box.ok r a
  rcases hZ.resolved a with h | h
  · have : cellsOf Z.D a ≤ ranksOf Z.D a * cellsOf Z.D a := by nlinarith
    exact ⟨fun _ => by omega, fun _ => h⟩
  · rw [h, one_mul]

lemma alpha_global (r : Fin n) : alphadt (Z.F r) = marderAlpha (sizeOf Z.D) Z.C := by
  unfold alphadt marderAlpha
  simp only [Field.p_eq, one_mul, pace_global hZ]

/-- `compute_div_b_err` finds the divergence of B of the global mesh and changes nothing else. -/
lemma div_b_global {m m' : Fin n → FMem K} (h : RanksDivB Z m m') :
    (∀ r x, x.2 ≠ .divB → m' r x = m r x) ∧
    ∀ G : Fields K, (∀ a, Holds Z.D Z.F m G (.cb a)) → ∀ r c, CellOn (Z.F r).g c →
      m' r (vox (Z.F r).g c, .divB) = divBAt (sizeOf Z.D) Z.C G (siteAt Z.D r c) := by
  have hF := Field.periodic_world_cart hZ.box.ok Z.t0 hZ.box.grid hZ.box.cells
  refine ⟨fun r x hx => ?_, fun G hG r c hc => ?_⟩
  · exact (Field.cell_sweep_result (hF.mesh r) hZ.rounding hZ.threads.1 hZ.threads.2 (h r)).2 x
      (by rintro c _ rfl; exact hx rfl)
  · rw [(Field.cell_sweep_result (hF.mesh r) hZ.rounding hZ.threads.1 hZ.threads.2 (h r)).1 c hc, Field.divBVal_eq]
    refine Finset.sum_congr rfl fun a _ => ?_
    rw [hG a r c (Field.entOn_face.mpr (Field.faceOn_cell hc a)), hG a r _ (Field.entOn_face.mpr (Field.faceOn_up hc a)),
      resolved_up hZ.box.ok Z.t0 hZ.box.grid hZ.box.cells hZ.resolved hZ.consts r a c (G (.cb a)), site_up]

/-- `clean_div_b` keeps the copies of B in agreement and changes nothing else between calls. -/
lemma clean_b_global {m m1 m' : Fin n → FMem K} (h1 : RanksDivB Z m m1) (h : RanksCleanB Z m1 m') {G : Fields K}
    (hG : ∀ a, Holds Z.D Z.F m G (.cb a)) :
    (∀ a, Holds Z.D Z.F m' (fun k s => match k with | .cb a => marderBOf (sizeOf Z.D) Z.C G a s | k => G k s) (.cb a)) ∧
    ∀ r x, x.2 ≠ .divB → (∀ a, x.2 ≠ .cb a) → m' r x = m r x := by
  have hF := Field.periodic_world_cart hZ.box.ok Z.t0 hZ.box.grid hZ.box.cells
  obtain ⟨d1, d2⟩ := div_b_global hZ h1
  have key := fun r => Field.clean_div_b_result (hF.mesh r) hZ.rounding hZ.threads.1 hZ.threads.2 (h r)
  constructor
  · let E := divBAt (sizeOf Z.D) Z.C G
    intro a r c hc
    have hc' := Field.entOn_face.mp hc
    obtain ⟨mg, q1, -, q2, -⟩ := key r
    rw [q2 a c hc' (by rintro ⟨s, -, hw, -⟩; exact no_wall hF r s hw.1), Field.marderB_val,
      (Field.filled_div_b (hF.mesh r) q1).2 _ (by simp), d1 r _ (by simp), hG a r c hc, alpha_global hZ, pace_global hZ]
    have ho : ∀ o, o ≠ a → 1 ≤ c o ∧ c o ≤ dims (Z.F r).g o := fun o h => by
      have := hc' o; rw [if_neg h] at this; omega
    have ha : 1 ≤ c a ∧ c a ≤ dims (Z.F r).g a + 1 := by have := hc' a; rw [if_pos rfl] at this; omega
    rw [seen_div_b hZ.box.ok Z.t0 hZ.box.grid hZ.box.cells (E := E) (d2 G hG) q1 a c (by omega) ho,
      seen_div_b hZ.box.ok Z.t0 hZ.box.grid hZ.box.cells (E := E) (d2 G hG) q1 a (dn a c) (by simp [dn]; omega)
        (fun o h => by have := ho o h; simpa [dn, h] using this)]
    rw [site_dn]
    show _ = marderBOf (sizeOf Z.D) Z.C G a (siteAt Z.D r c)
    unfold marderBOf
    ring
  · intro r x hx hx'
    obtain ⟨mg, q1, -, -, q3⟩ := key r
    rw [q3 x (by rintro a c _ rfl; exact hx' a rfl), (Field.filled_div_b (hF.mesh r) q1).2 x hx, d1 r x hx]

/-- `compute_curl_b` makes the damping term the curl of B, which has no divergence, and changes nothing else. -/
lemma curl_b_global {m m' : Fin n → FMem K} (h : RanksCurl Z m m') {G : Fields K} (hb : ∀ a, Holds Z.D Z.F m G (.cb a)) :
    (∀ a, Holds Z.D Z.F m' (fun k s => match k with
      | .tca a => Z.C.cvac * Z.C.dt * curlH (sizeOf Z.D) Z.C Z.M G a s | k => G k s) (.tca a)) ∧
    (∀ a, Holds Z.D Z.F m' G (.cb a)) ∧ (∀ a, Holds Z.D Z.F m G (.e a) → Holds Z.D Z.F m' G (.e a)) ∧
    ∀ r x, (∀ a, x.2 ≠ .tca a ∧ x.2 ≠ .cb a ∧ x.2 ≠ .e a) → m' r x = m r x := by
  have hF := Field.periodic_world_cart hZ.box.ok Z.t0 hZ.box.grid hZ.box.cells
  have key := fun r => Field.edge_kernel_result (hF.mesh r) hZ.rounding hZ.threads.1 hZ.threads.2
    (Field.updateCurl_local (Z.F r)) (h r)
  have open_ : ∀ r a c, ¬ Field.OnConductor (Z.F r) a c := by
    rintro r a c ⟨s, -, hw, -⟩; exact no_wall hF r s hw.1
  refine ⟨fun a r c hc => ?_, fun a r c hc => ?_, fun a he r c hc => ?_, fun r x hx => ?_⟩ <;>
    obtain ⟨mg, q1, -, q2, q3⟩ := key r
  · have hc' := Field.entOn_edge.2.1.mp hc
    rw [(q2 a c hc' (open_ r a c)).2]
    simp only [Field.updateCurl, Field.setAt, Function.update_self]
    rw [curl_global hZ.box.ok Z.t0 hZ.box.grid hZ.box.cells hZ.resolved hZ.consts hZ.made hb q1 _ a c hc', hZ.consts.cvac,
      hZ.consts.dt]
  · rw [q3 _ (by rintro b d _ (e | e) <;> simp at e), (Field.filled_tang_b (hF.mesh r) q1).1 a c (Field.entOn_face.mp hc)]
    exact hb a r c hc
  · have hc' := Field.entOn_edge.1.mp hc
    rw [(q2 a c hc' (open_ r a c)).1]
    have n1 : ((vox (Z.F r).g c, FC.e a) : Field.Addr) ≠ (vox (Z.F r).g c, .tca a) := by simp
    simp only [Field.updateCurl, Field.setAt, Function.update_of_ne n1]
    rw [(Field.filled_tang_b (hF.mesh r) q1).2 _ (by simp)]
    exact he r c hc
  · rw [q3 x (by rintro a c _ (rfl | rfl); exacts [(hx a).2.2 rfl, (hx a).1 rfl]),
      (Field.filled_tang_b (hF.mesh r) q1).2 x fun a => (hx a).2.1]

/-- `compute_div_e_err` changes the error only. -/
lemma div_e_frame {m m' : Fin n → FMem K} (h : RanksDivE Z.F m m') :
    (∀ G : Fields K, ∀ a, Holds Z.D Z.F m G (.e a) → Holds Z.D Z.F m' G (.e a)) ∧
    ∀ r x, x.2 ≠ .divE → (∀ a, x.2 ≠ .e a) → m' r x = m r x := by
  have hF := Field.periodic_world_cart hZ.box.ok Z.t0 hZ.box.grid hZ.box.cells
  refine ⟨fun G a he r c hc => ?_, fun r x hx hx' => ?_⟩ <;> obtain ⟨R, P, h1, h2, h3, h4⟩ := h r <;>
    obtain ⟨mg, q1, -, -, q3⟩ := Field.compute_div_e_result (hF.mesh r) h1 h2 h3 (Field.updateDivE_local (Z.F r)) h4
  · rw [q3 _ (by simp), (Field.filled_norm_e (hF.mesh r) q1).1 a c (Field.entOn_edge.1.mp hc)]
    exact he r c hc
  · rw [q3 x (by rintro c _ rfl; exact hx rfl), filled_open (hF.mesh r) (no_wall hF r) q1 x hx']

/-- `clean_div_e` changes nothing when there is no error. -/
lemma clean_e_idle {m m' : Fin n → FMem K} (h : RanksCleanE Z m m')
    (h0 : ∀ r c, NodeOn (Z.F r).g c → m r (vox (Z.F r).g c, .divE) = 0) : ∀ r x, m' r x = m r x := by
  have hF := Field.periodic_world_cart hZ.box.ok Z.t0 hZ.box.grid hZ.box.cells
  intro r x
  have open_ : ∀ a c, ¬ Field.OnConductor (Z.F r) a c := by
    rintro a c ⟨s, -, hw, -⟩; exact no_wall hF r s hw.1
  have e := h r
  by_cases hx : ∃ a c, EdgeOn (Z.F r).g a c ∧ x = (vox (Z.F r).g c, .e a)
  · obtain ⟨a, c, hc, rfl⟩ := hx
    exact Field.clean_div_e_keeps_clean (hF.mesh r) hZ.rounding hZ.threads.1 hZ.threads.2 (h0 r) e a c hc (open_ a c)
  · obtain ⟨adj, m1, hadj, hph, e⟩ := e
    rw [e, (Field.tang_e_zero_on_conductor (hF.mesh r) hadj m1).2 x fun a c _ ho => absurd ho (open_ a c)]
    refine (Field.plain_sweep_result (hF.mesh r) hZ.rounding hZ.threads.1 hZ.threads.2 (EdgeOn (Z.F r).g) FC.e
      (fun a b h => by simpa using h) (fun k => k = FC.divE) (by rintro a ha; simp at ha) (Field.marderE_local (Z.F r))
      (Field.hostEdges (Z.F r).g) (Field.hostEdges_nodup (Z.F r).g) (fun a c h => Field.hostEdges_out h)
      (fun a c => Field.edges_host (hF.mesh r)) (fun a c h => h.inArray) hph).2 x ?_
    rintro a c hc rfl
    exact hx ⟨a, c, hc, rfl⟩

/-- `clean_div_e` on all ranks. -/
lemma clean_e_global {m m' : Fin n → FMem K} (h : RanksCleanE Z m m') {G : Fields K} (he : ∀ a, Holds Z.D Z.F m G (.e a))
    {E : Pos → K} (hE : ∀ r c, NodeOn (Z.F r).g c → m r (vox (Z.F r).g c, .divE) = E (siteAt Z.D r c)) :
    (∀ a, Holds Z.D Z.F m' (fun k s => match k with | .e a => marderEOf (sizeOf Z.D) Z.C Z.M E G a s | k => G k s) (.e a)) ∧
    ∀ r x, (∀ a, x.2 ≠ .e a) → m' r x = m r x := by
  have hF := Field.periodic_world_cart hZ.box.ok Z.t0 hZ.box.grid hZ.box.cells
  have open_ : ∀ r a c, ¬ Field.OnConductor (Z.F r) a c := by
    rintro r a c ⟨s, -, hw, -⟩; exact no_wall hF r s hw.1
  have sweep := fun (r : Fin n) {ma mb : FMem K} => Field.plain_sweep_result (hF.mesh r) hZ.rounding hZ.threads.1 hZ.threads.2
    (EdgeOn (Z.F r).g) FC.e (fun a b h => by simpa using h) (fun k => k = FC.divE) (by rintro a ha; simp at ha)
    (Field.marderE_local (Z.F r)) (Field.hostEdges (Z.F r).g) (Field.hostEdges_nodup (Z.F r).g)
    (fun a c h => Field.hostEdges_out h) (fun a c => Field.edges_host (hF.mesh r)) (fun a c h => h.inArray) (m := ma) (m' := mb)
  constructor
  · intro a r c hc
    have hc' := Field.entOn_edge.1.mp hc
    obtain ⟨adj, m1, hadj, hph, e⟩ := h r
    rw [e, (Field.tang_e_zero_on_conductor (hF.mesh r) hadj m1).2 _ fun a c _ ho => absurd ho (open_ r a c),
      (sweep r hph).1 a c hc', Field.marderE_val, he a r c hc, alpha_global hZ, pace_global hZ, hZ.made.edge r a c hc'.inArray]
    have n1 : NodeOn (Z.F r).g c := fun o => by have := hc' o; split at this <;> omega
    have n2 : NodeOn (Z.F r).g (up a c) := fun o => by
      have := hc' o
      unfold up
      split <;> rename_i ho
      · rw [if_pos ho] at this; omega
      · rw [if_neg ho] at this; omega
    rw [hE r c n1, hE r _ n2, site_up]
    rfl
  · intro r x hx
    obtain ⟨adj, m1, hadj, hph, e⟩ := h r
    rw [e, (Field.tang_e_zero_on_conductor (hF.mesh r) hadj m1).2 x fun a c _ ho => absurd ho (open_ r a c),
      (sweep r hph).2 x (by rintro a c _ rfl; exact hx a rfl)]

/-- `compute_rhob` makes the bound charge what Gauss's law asks for. -/
lemma rhob_global {m m' : Fin n → FMem K} (h : RanksRhob Z m m') {G : Fields K} (he : ∀ a, Holds Z.D Z.F m G (.e a))
    (hf : Holds Z.D Z.F m G .rhof) :
    Holds Z.D Z.F m' (fun k s => match k with
      | .rhob => (Z.M.node s).nonconductive * (Z.C.eps0 * ∑ a, Z.C.rd a * ((Z.M.edge a s).eps a * G (.e a) s -
          (Z.M.edge a (prev (sizeOf Z.D) a s)).eps a * G (.e a) (prev (sizeOf Z.D) a s)) - G .rhof s)
      | k => G k s) .rhob ∧
    (∀ a, Holds Z.D Z.F m' G (.e a)) ∧ ∀ r x, x.2 ≠ .rhob → (∀ a, x.2 ≠ .e a) → m' r x = m r x := by
  have hF := Field.periodic_world_cart hZ.box.ok Z.t0 hZ.box.grid hZ.box.cells
  have key := fun r => Field.compute_rhob_result (hF.mesh r) hZ.rounding hZ.threads.1 hZ.threads.2
    (Field.updateRhob_local (Z.F r)) (h r)
  refine ⟨fun r c hc => ?_, fun a r c hc => ?_, fun r x hx hx' => ?_⟩ <;> obtain ⟨mg, q1, -, q2, q3⟩ := key r
  · have hc' := Field.entOn_node.2.1.mp hc
    have fl := (Field.filled_norm_e (hF.mesh r) q1).2
    rw [q2 c hc' (fun s hs => absurd hs.1 (no_wall hF r s))]
    simp only [Field.updateRhob, Field.setAt, Function.update_self, Field.divEps_eq]
    rw [fl _ (by simp), hf r c (Field.entOn_node.1.mpr hc'), hZ.made.node r c hc'.inArray, hZ.consts.eps0]
    unfold Field.divEpsE
    congr 3
    refine Finset.sum_congr rfl fun a _ => ?_
    have i2 : Field.InArray (Z.F r).g (dn a c) := by
      intro y
      have := hc' y
      unfold dn
      split <;> omega
    rw [hZ.made.edge r a c hc'.inArray, hZ.made.edge r a _ i2,
      seen_e hZ.box.ok Z.t0 hZ.box.grid hZ.box.cells (he a) q1 c (by have := hc' a; omega) (fun o _ => hc' o),
      seen_e hZ.box.ok Z.t0 hZ.box.grid hZ.box.cells (he a) q1 (dn a c) (by have := hc' a; simp [dn]; omega)
        (fun o h5 => by have := hc' o; simpa [dn, h5] using this)]
    have := resolved_dn hZ.box.ok Z.t0 hZ.box.grid hZ.box.cells hZ.resolved hZ.consts r a c
      fun s => (Z.M.edge a s).eps a * G (.e a) s
    rw [this, site_dn]
  · rw [q3 _ (by simp), (Field.filled_norm_e (hF.mesh r) q1).1 a c (Field.entOn_edge.1.mp hc)]
    exact he a r c hc
  · rw [q3 x (by rintro c _ rfl; exact hx rfl), filled_open (hF.mesh r) (no_wall hF r) q1 x hx']

/-- The rms error of a field without error is zero. -/
lemma rms_e_zero {rt : K → K} (hrt : rt 0 = 0) {m : Fin n → FMem K} {err : K} (h : RmsE Z rt m err)
    (h0 : ∀ r c, NodeOn (Z.F r).g c → m r (vox (Z.F r).g c, .divE) = 0) : err = 0 := by
  have hF := Field.periodic_world_cart hZ.box.ok Z.t0 hZ.box.grid hZ.box.cells
  obtain ⟨l, h1, rfl⟩ := h
  have : ∀ r, (l r).1 = 0 := by
    intro r
    have := h1 r
    rw [Field.rms_div_e_each_node_once (hF.mesh r) hZ.rounding hZ.threads.1 hZ.threads.2] at this
    rw [← Option.some.inj this]
    dsimp only
    rw [Finset.sum_eq_zero, zero_mul]
    intro c hc
    rw [h0 r c (fun a => Field.mem_boxSet.mp hc a)]
    ring
  have s : ((List.ofFn l).map Prod.fst).sum = 0 := by
    rw [List.map_ofFn]
    refine List.sum_eq_zero fun x hx => ?_
    obtain ⟨r, rfl⟩ := (List.mem_ofFn' _ _).mp hx
    exact this r
  unfold Field.rmsFinal
  rw [s, zero_div, hrt, mul_zero]

end

end Verif.Torus
