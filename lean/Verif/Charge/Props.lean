import Verif.Charge.Step

/-!
# The continuity equation over a time step
-/
namespace Verif.Charge

open Grid Deposit SfInterface MoveP
open Boundary (Env Rank Species live ids Joined Conforming Hit)
open AdvanceP (accBase moverList)
open Distribute (Rounding upTo)
open Field (FMem FC World SynchronizeJf SynchronizeRho Pos coordOf ranksOf dims vox EdgeOn NodeOn InArray SameAt copies
  fieldExt SameCells)

section
variable {K : Type} {S : Type*} [Field K] [LinearOrder K] [IsStrictOrderedRing K]

/-! ### The measured charge -/

lemma rhoAll_weigh {g : LGrid} (h : LocalMesh g) (φ : ℤ → K) (r8V : K) (sp : ℕ → Species K) (l : List ℕ)
    (hw : ∀ id ∈ l, ∀ p ∈ live (sp id).p (sp id).np, Within g p) : ∀ ρ : ℤ → K,
    (∀ v, 0 ≤ v → v < nvox g → ρ v ≠ 0 → ∃ c, NodeOn g c ∧ v = vox g c) →
    ∃ ρ', rhoAll g r8V sp l ρ = some ρ' ∧ (∀ v, 0 ≤ v → v < nvox g → ρ' v ≠ 0 → ∃ c, NodeOn g c ∧ v = vox g c) ∧
      nodeSum g φ ρ' = nodeSum g φ ρ +
        (l.map fun id => ((live (sp id).p (sp id).np).map (weigh g φ ((sp id).q * r8V))).sum).sum := by
  induction l with
  | nil => exact fun ρ hρ => ⟨ρ, rfl, hρ, by simp⟩
  | cons id l ih =>
    intro ρ hρ
    obtain ⟨ρ1, e1, h1⟩ := accumulateRhoP_weigh h φ r8V (sp id).q _ (hw id (by simp)) ρ
    have s1 := rho_support h r8V (sp id).q _ (hw id (by simp)) ρ ρ1 hρ e1
    obtain ⟨ρ2, e2, s2, h2⟩ := ih (fun j hj => hw j (by simp [hj])) ρ1 s1
    refine ⟨ρ2, by rw [rhoAll, e1]; exact e2, s2, ?_⟩
    rw [h2, h1, List.map_cons, List.sum_cons, add_assoc]

lemma no_wall {n : ℕ} {F : World K n} {P : Pos} {coord : Fin n → Pos} (hF : F.Cart P (fun _ => true) coord) (r : Fin n)
    (s : Fin 3 × Bool) : ¬ Field.IsWall (F r) s := by
  obtain ⟨r', h, -⟩ := hF.nbr r s (Or.inl rfl)
  unfold World.dst at h
  unfold Field.IsWall
  rw [hF.ws]
  dsimp only at h
  split at h
  · omega
  · cases h

section
variable {D : Decomp} {n : ℕ} (hD : D.ok n = true) (t0 : ℕ → ℤ → ℤ) {F : World K n}
  (hg : ∀ r : Fin n, gridOf D n t0 r = some (F r).g) (hS : SameCells F D)
include hD hg hS

/-- The measured charge density at a node. -/
lemma measure_value (r8V : K) (nsp : ℕ) (sp : Fin n → ℕ → Species K) (m m' : Fin n → FMem K)
    (hw : ∀ r, ∀ id < nsp, ∀ p ∈ live (sp r id).p (sp r id).np, Within (F r).g p)
    (h : MeasureRho F r8V nsp sp m m') (x : Fin n × Pos) (hx : NodeOn (F x.1).g x.2) :
    m' x.1 (vox (F x.1).g x.2, .rhof) = ∑ r, ((ids nsp).map fun id =>
      ((live (sp r id).p (sp r id).np).map (weigh (F r).g (onSite K D (siteAt D x.1 x.2) r (F r).g)
        ((sp r id).q * r8V))).sum).sum := by
  obtain ⟨ρ, e, hs⟩ := h
  have hF := Field.periodic_world_cart hD t0 hg hS
  have base : ∀ r, (∀ v, 0 ≤ v → v < nvox (F r).g → ρ r v ≠ 0 → ∃ c, NodeOn (F r).g c ∧ v = vox (F r).g c) ∧
      nodeSum (F r).g (onSite K D (siteAt D x.1 x.2) r (F r).g) (ρ r) = ((ids nsp).map fun id =>
        ((live (sp r id).p (sp r id).np).map (weigh (F r).g (onSite K D (siteAt D x.1 x.2) r (F r).g)
          ((sp r id).q * r8V))).sum).sum := by
    intro r
    have z : ∀ v, 0 ≤ v → v < nvox (F r).g → clearRhof (F r).g (m r) (v, FC.rhof) = 0 := by
      intro v h0 h1
      simp [clearRhof, h0, h1]
    obtain ⟨ρ', e1, e2, e3⟩ := rhoAll_weigh (grid_mesh hD t0 (G := fun r => (F r).g) hg r)
      (onSite K D (siteAt D x.1 x.2) r (F r).g) r8V (sp r) (ids nsp) (fun id hid => hw r id ((Boundary.mem_ids _ _).mp hid))
      (fun v => clearRhof (F r).g (m r) (v, .rhof)) (fun v h0 h1 hne => absurd (z v h0 h1) hne)
    rw [e r] at e1
    obtain rfl := Option.some.inj e1
    refine ⟨e2, ?_⟩
    rw [e3]
    have : nodeSum (F r).g (onSite K D (siteAt D x.1 x.2) r (F r).g)
        (fun v => clearRhof (F r).g (m r) (v, .rhof)) = 0 := by
      refine Finset.sum_eq_zero fun v hv => ?_
      have := Finset.mem_Ico.mp hv
      show _ * clearRhof (F r).g (m r) (v, FC.rhof) = 0
      rw [z v this.1 this.2, mul_zero]
    rw [this, zero_add]
  rw [(Field.synchronize_rho_sums hF hs x.1 x.2 hx).1]
  rw [Finset.sum_congr rfl fun r _ => (base r).2.symm, rho_sites hD t0 hg x ρ fun r => (base r).1]
  refine Finset.sum_congr rfl fun z _ => ?_
  unfold Field.rhofAtWall
  rw [if_neg, List.filter_eq_nil_iff.mpr]
  · simp
  · intro s _ hs
    have : Field.IsWall (F z.1) s ∧ z.2 s.1 = Field.wallOf (F z.1).g s := by simpa using hs
    exact no_wall hF z.1 s this.1
  · rintro ⟨s, ⟨hw, -⟩, -⟩
    exact no_wall hF z.1 s hw

/-! ### The currents -/

lemma current_value (Rd : Rounding) (hRd : Rd.Accurate) (P : ℕ) (hP : 0 < P) (hP2 : P ≤ 2 ^ 16) (sc : Scales K)
    (A : Fin n → Accum K) (m m' : Fin n → FMem K) (h : CurrentPhase F Rd P sc A m m') (a : Fin 3) (x : Fin n × Pos)
    (hx : EdgeOn (F x.1).g a x.2) :
    m' x.1 (vox (F x.1).g x.2, .jf a) =
      ∑ z ∈ copies F (ranksOf D) (fun _ => true) (coordOf D) fieldExt (.jf a) x,
        unloadAt (F z.1).g (unloadC sc) (A z.1) (vox (F z.1).g z.2) a := by
  obtain ⟨m1, h1, h2⟩ := h
  have hF := Field.periodic_world_cart hD t0 hg hS
  rw [Field.synchronize_jf_sums hF h2 a x.1 x.2 hx]
  refine Finset.sum_congr rfl fun z hz => ?_
  have hz' := Field.entOn_edge.2.2.mp (Field.ent_dims hF.toLinked _ z.1 (Field.mem_copies.mp hz).1)
  unfold Field.jfAtWall
  rw [if_neg, List.filter_eq_nil_iff.mpr]
  · have hn : NodeOn (F z.1).g z.2 := by
      intro b
      have := hz' b
      split at this <;> omega
    rw [(unload_accumulator_result hRd (hF.mesh z.1) hP hP2 (h1 z.1)).1 z.2 hn a]
    have := vox_range hD t0 hg z.1 hz'.inArray
    simp [clearJf, this.1, this.2]
  · intro s _ hs
    have : s.1 ≠ a ∧ Field.IsWall (F z.1) s ∧ z.2 s.1 = Field.wallOf (F z.1).g s := by simpa using hs
    exact no_wall hF z.1 s this.2.1
  · rintro ⟨s, -, ⟨hw, -⟩, -⟩
    exact no_wall hF z.1 s hw

end

/-! ### The particles -/

omit [IsStrictOrderedRing K] in
lemma placed_live {s : Species K} (h : s.nm = 0) : s.placed = live s.p s.np := by
  unfold Species.placed live
  rw [h]
  simp [moverList]

/-- In a closed domain there is no work for the handlers. -/
lemma closed_conforming {n : ℕ} {B : Fin n → Env K S} (hC : Closed B) (r : Fin n) : Conforming (B r) := by
  intro h k hk _ ⟨c, f, ha⟩
  exfalso
  have hv : h.p.i / 8 = VOXEL (B r).g.nx (B r).g.ny c.x c.y c.z := ha.decode.1
  have hf : h.p.i % 8 = f := ha.decode.2
  have e : h.nn (B r) = (B r).g.neighbor (6 * VOXEL (B r).g.nx (B r).g.ny c.x c.y c.z + f) := by
    unfold Hit.nn Hit.voxel Hit.face
    rw [hv, hf]
  have := hC r c ha.interior f ha.face.1 ha.face.2
  rw [← e] at this
  unfold Hit.fate at hk
  unfold reflectParticles at this
  split_ifs at hk
  omega


lemma sum_ids {M : Type*} [AddCommMonoid M] (nsp : ℕ) (f : ℕ → M) : ((ids nsp).map f).sum = ∑ id ∈ Finset.range nsp, f id := by
  unfold ids
  rw [List.map_reverse, List.sum_reverse, Finset.sum_range, ← List.sum_ofFn, ← List.map_coe_finRange_eq_range,
    List.map_map, List.ofFn_eq_map]
  rfl

lemma ids_nodup (nsp : ℕ) : (ids nsp).Nodup := List.nodup_reverse.mpr List.nodup_range

/-- Balance of the particle half of the step. -/
lemma particle_balance [Archimedean K] {n : ℕ} {B : Fin n → Env K S} (hJ : Joined B) (hcl : Closed B)
    {J : Fin n → Fin 3 → Bool} (hjo : ∀ r, JoinedOn (B r).g (J r)) {φ : Fin n → ℤ → K} (hφ : Compatible B J φ)
    (Rd : Rounding) (hRd : Rd.Accurate) (X : Fin n → PushPar K) (P nf N : ℕ) (hnf : 12 ≤ nf) (hP : 0 < P) (hP2 : P ≤ 2 ^ 16)
    (hint' : ∀ r, (accArgs (B r).g.nx (B r).g.ny (B r).g.nz nf P).n < 2 ^ 31)
    (hint : ∀ r, (P : ℤ) * (pow2Ceil2 (nvOf (B r).g.nx (B r).g.ny (B r).g.nz) * nf) < 2 ^ 31)
    (sc : Scales K) (hdt : sc.dt ≠ 0) (hV : sc.r8V = sc.rd 0 * sc.rd 1 * sc.rd 2 * (1 / 8))
    (R R' : Fin n → Rank K S) (st st' : Fin n → ℤ → K) (ht : ∀ r, TidyAll (B r).g P (accOf nf (st r)))
    (hs : ∀ r, ∀ id < (B r).nsp, Pushable (B r).g (B r).fuel (X r) id ((R r).sp id))
    (hq : ∀ r s, ∀ id < (B r).nsp, ((R r).sp id).q = ((R s).sp id).q)
    (h : ParticlePhase B Rd X P nf N R st R' st') (hnm : ∀ r, ∀ id < (B r).nsp, ((R' r).sp id).nm = 0) :
    (∀ r, Tidy (B r).g (R' r).a ∧ TidyAll (B r).g P (accOf nf (st' r)) ∧ (∀ v, (R' r).rhob v = (R r).rhob v) ∧
      ∀ id < (B r).nsp, ((R' r).sp id).q = ((R r).sp id).q ∧
        ∀ p ∈ live ((R' r).sp id).p ((R' r).sp id).np, Within (B r).g p) ∧
    (∑ r, ((ids (B r).nsp).map fun id => ((live ((R' r).sp id).p ((R' r).sp id).np).map
        (weigh (B r).g (φ r) (((R' r).sp id).q * sc.r8V))).sum).sum) / sc.dt +
      ∑ r, nodeSum (B r).g (φ r) (divJ (B r).g sc (R' r).a) =
    (∑ r, ((ids (B r).nsp).map fun id => ((live ((R r).sp id).p ((R r).sp id).np).map
        (weigh (B r).g (φ r) (((R r).sp id).q * sc.r8V))).sum).sum) / sc.dt := by
  obtain ⟨sp1, st1, hpush, hround, hst⟩ := h
  have phase : ∀ r, Sound (B r) { R r with sp := sp1 r, a := hostAcc (B r).g nf (st1 r) } ∧
      Tidy (B r).g (hostAcc (B r).g nf (st1 r)) ∧ TidyAll (B r).g P (accOf nf (st1 r)) ∧
      (∀ id < (B r).nsp, ((sp1 r) id).q = ((R r).sp id).q) ∧
      charge (B r) (φ r) sc.r8V { R r with sp := sp1 r, a := hostAcc (B r).g nf (st1 r) } / sc.dt +
        nodeSum (B r).g (φ r) (divJ (B r).g sc (hostAcc (B r).g nf (st1 r))) =
      ((ids (B r).nsp).map fun id => ((live ((R r).sp id).p ((R r).sp id).np).map
        (weigh (B r).g (φ r) (((R r).sp id).q * sc.r8V))).sum).sum / sc.dt := by
    intro r
    obtain ⟨s1, s2, c1, c2, c3⟩ := hpush r
    have z := clear_blocks (hJ.mesh r) Rd hRd nf P hnf hP hP2 (hint' r) (st r) s1 (ht r) c1
    have t1 : TidyAll (B r).g P (accOf nf s1) := fun b hb v h0 h1 k hne => absurd (z b hb v h0 h1 k) hne
    have z0 : totalOf (B r).g P (accOf nf s1) = fun _ _ => 0 := by
      funext v k
      unfold totalOf
      split
      · rename_i hv
        apply List.sum_eq_zero
        intro y hy
        obtain ⟨b, hb, rfl⟩ := List.mem_map.mp hy
        exact z b (by have := List.mem_range.mp hb; omega) v hv.1 hv.2 k
      · rfl
    obtain ⟨p1, p2, p3, p4⟩ := pushes_result Rd hRd (B r).g (hJ.mesh r) (B r).fuel (X r) P hP hP2 sc hdt hV (hjo r)
      (hφ.within r) c2 (ids_nodup _) (fun id hid => hs r id ((Boundary.mem_ids _ _).mp hid)) t1
    have e := reduce_host (hJ.mesh r) Rd hRd nf P hnf hP hP2 (hint' r) (hint r) s2 (st1 r) p3 c3
    refine ⟨fun id hid => (p1 id ((Boundary.mem_ids _ _).mpr hid)).1, ?_, ?_,
      fun id hid => (p1 id ((Boundary.mem_ids _ _).mpr hid)).2, ?_⟩
    · rw [e]
      intro v k hne
      unfold totalOf at hne
      split at hne
      · rename_i hv
        by_contra hc
        apply hne
        apply List.sum_eq_zero
        intro y hy
        obtain ⟨b, hb, rfl⟩ := List.mem_map.mp hy
        by_contra hy
        exact hc (p3 b (by have := List.mem_range.mp hb; omega) v hv.1 hv.2 k hy)
      · exact absurd rfl hne
    · exact reduce_tidy (hJ.mesh r) Rd hRd nf P hnf hP hP2 (hint' r) (hint r) s2 (st1 r) p3 c3
    · rw [e]
      have dz : nodeSum (B r).g (φ r) (divJ (B r).g sc fun _ _ => 0) = 0 := by
        have : divJ (B r).g sc (fun _ _ => 0) = fun _ => 0 := by
          funext v
          exact divJ_zero _ _ v
        rw [this, nodeSum_zero]
      rw [z0, dz, add_zero, sum_ids] at p4
      exact p4
  obtain ⟨f1, f2⟩ := rounds_result hJ (closed_conforming hcl) hcl hjo hφ sc hdt hV N _ R' (fun r => (phase r).1)
    (fun r => (phase r).2.1) (fun r s id hid => by
      show ((sp1 r) id).q = ((sp1 s) id).q
      rw [(phase r).2.2.2.1 id hid, (phase s).2.2.2.1 id (by rw [hJ.nsp s r]; exact hid), hq r s id hid]) hround
  refine ⟨fun r => ⟨(f1 r).2.1, ?_, (f1 r).2.2.1, fun id hid => ⟨?_, ?_⟩⟩, ?_⟩
  · intro b hb v h0 h1 k hne
    rw [hst] at hne
    rcases Nat.lt_or_ge b P with hlt | hge
    · have := (base_above (hJ.mesh r) P hlt h0).1
      rw [if_neg (by omega)] at hne
      exact (phase r).2.2.1 b hb v h0 h1 k hne
    · have hbP : b = P := by omega
      subst hbP
      have e : accBase (B r).g b b + v = v := by unfold accBase; simp
      rw [e, if_pos ⟨h0, h1⟩] at hne
      exact (f1 r).2.1 v k hne
  · rw [(f1 r).2.2.2 id hid]; exact (phase r).2.2.2.1 id hid
  · rw [← placed_live (hnm r id hid)]
    exact ((f1 r).1 id hid).within
  · rw [Finset.sum_div, Finset.sum_div, ← Finset.sum_add_distrib]
    have e : ∀ r, ((ids (B r).nsp).map fun id => ((live ((R' r).sp id).p ((R' r).sp id).np).map
        (weigh (B r).g (φ r) (((R' r).sp id).q * sc.r8V))).sum).sum = charge (B r) (φ r) sc.r8V (R' r) := by
      intro r
      rw [sum_ids]
      refine Finset.sum_congr rfl fun id hid => ?_
      rw [placed_live (hnm r id (Finset.mem_range.mp hid))]
    simp only [e]
    rw [f2]
    exact Finset.sum_congr rfl fun r _ => (phase r).2.2.2.2

/-! ### Results -/

/-- Spec: the mesh of the particles and the mesh of the fields of a periodic box partitioned by `D`. -/
structure PeriodicBox {n : ℕ} (D : Decomp) (t0 : ℕ → ℤ → ℤ) (F : World K n) (B : Fin n → Env K S) : Prop where
  ok : D.ok n = true
  grid : ∀ r : Fin n, gridOf D n t0 r = some (F r).g
  cells : SameCells F D
  same : ∀ r, (B r).g = (F r).g
  ws : ∀ r, (B r).ws = n
  rank : ∀ r : Fin n, (B r).rank = r
  nsp : ∀ r s, (B r).nsp = (B s).nsp

/-- Spec: two positions are the same place of the periodic global mesh. -/
def SamePlace {n : ℕ} (D : Decomp) (F : World K n) (x y : Fin n × Pos) : Prop :=
  ∀ a, SameAt F (ranksOf D) (fun _ => true) (coordOf D) a x y

/-- **C69.**  A step on a periodic box: the change of the free charge density over the step divided by the time step plus
the divergence of the current density is zero at every node `x` of every rank.  `out a` is any copy of the edge along `a`
that starts in the node, `inn a` any copy of the edge that ends in it.  The accumulators end as they have to be for the next
step. -/
theorem step_continuity [Archimedean K] {n : ℕ} {D : Decomp} {t0 : ℕ → ℤ → ℤ} {F : World K n} {B : Fin n → Env K S}
    (hB : PeriodicBox D t0 F B) (Rd : Rounding) (hRd : Rd.Accurate) (X : Fin n → PushPar K) (P nf N nsp : ℕ)
    (hsp : ∀ r, (B r).nsp = nsp) (hnf : 12 ≤ nf) (hP : 0 < P) (hP2 : P ≤ 2 ^ 16)
    (hint' : ∀ r, (accArgs (F r).g.nx (F r).g.ny (F r).g.nz nf P).n < 2 ^ 31)
    (hint : ∀ r, (P : ℤ) * (pow2Ceil2 (nvOf (F r).g.nx (F r).g.ny (F r).g.nz) * nf) < 2 ^ 31)
    (sc : Scales K) (hdt : sc.dt ≠ 0) (hV : sc.r8V = sc.rd 0 * sc.rd 1 * sc.rd 2 * (1 / 8))
    (R R' : Fin n → Rank K S) (st st' : Fin n → ℤ → K) (ht : ∀ r, TidyAll (F r).g P (accOf nf (st r)))
    (hs : ∀ r, ∀ id < nsp, Pushable (F r).g (B r).fuel (X r) id ((R r).sp id))
    (hq : ∀ r s, ∀ id < nsp, ((R r).sp id).q = ((R s).sp id).q)
    (m0 m0' m m' m1 m1' : Fin n → FMem K)
    (hρ0 : MeasureRho F sc.r8V nsp (fun r => (R r).sp) m0 m0')
    (hp : ParticlePhase B Rd X P nf N R st R' st') (hnm : ∀ r, ∀ id < nsp, ((R' r).sp id).nm = 0)
    (hj : CurrentPhase F Rd P sc (fun r => (R' r).a) m m')
    (hρ1 : MeasureRho F sc.r8V nsp (fun r => (R' r).sp) m1 m1') :
    (∀ (x : Fin n × Pos) (out inn : Fin 3 → Fin n × Pos), NodeOn (F x.1).g x.2 →
      (∀ a, EdgeOn (F (out a).1).g a (out a).2 ∧ SamePlace D F (out a) x) →
      (∀ a, EdgeOn (F (inn a).1).g a (inn a).2 ∧ SamePlace D F ((inn a).1, Field.up a (inn a).2) x) →
      (m1' x.1 (vox (F x.1).g x.2, .rhof) - m0' x.1 (vox (F x.1).g x.2, .rhof)) / sc.dt +
        ∑ a, sc.rd a * (m' (out a).1 (vox (F (out a).1).g (out a).2, .jf a) -
          m' (inn a).1 (vox (F (inn a).1).g (inn a).2, .jf a)) = 0) ∧
    ∀ r, TidyAll (F r).g P (accOf nf (st' r)) ∧ (∀ v, (R' r).rhob v = (R r).rhob v) ∧
      ∀ id < nsp, ((R' r).sp id).q = ((R r).sp id).q ∧
        ∀ p ∈ live ((R' r).sp id).p ((R' r).sp id).np, Within (F r).g p := by
  have hJ := Boundary.periodic_joined D n hB.ok t0 B (fun r => by rw [hB.same]; exact hB.grid r) hB.ws hB.rank hB.nsp
  have hrange : ∀ r, (B r).g.range n = n * localNv D := by
    intro r
    obtain ⟨g1, e, -, -, -, k4, -⟩ := partitionPeriodic_T ((D.ok_iff n).mp hB.ok) (fun _ => localNv D) (fun _ => rfl)
      (t0 r) r r.2
    have : g1 = (B r).g := by
      have := hB.grid r
      rw [gridOf, e] at this
      rw [hB.same]
      exact Option.some.inj this
    subst this
    rw [k4]
    simp only [Int.toNat_natCast]
    exact rangeOf_const _ _ (fun _ => rfl) n
  have hcl := periodic_closed hB.ok t0 hB.grid hB.same hrange
  have hjo : ∀ r, JoinedOn (B r).g (selfJoined D) := fun r => by
    rw [hB.same]; exact periodic_joinedOn hB.ok t0 hB.grid r
  have bal := fun Y : Pos => particle_balance hJ hcl hjo (onSite_compatible (K := K) hB.ok t0 hB.grid hB.same Y) Rd hRd X P nf N
    hnf hP hP2 (fun r => by rw [hB.same]; exact hint' r) (fun r => by rw [hB.same]; exact hint r) sc hdt hV R R' st st'
    (fun r => by rw [hB.same]; exact ht r) (fun r id hid => by rw [hB.same]; exact hs r id (hsp r ▸ hid))
    (fun r s id hid => hq r s id (hsp r ▸ hid)) hp (fun r id hid => hnm r id (hsp r ▸ hid))
  simp only [hsp, hB.same] at bal
  obtain ⟨b1, -⟩ := bal 0
  have w0 : ∀ r, ∀ id < nsp, ∀ p ∈ live ((R r).sp id).p ((R r).sp id).np, Within (F r).g p := by
    intro r id hid p hp
    obtain ⟨i, hi, rfl⟩ := List.mem_map.mp hp
    simp only [upTo, List.mem_map, List.mem_range] at hi
    obtain ⟨j, hj, rfl⟩ := hi
    exact (hs r id hid).within _ (by omega) (by omega)
  refine ⟨fun x out inn hx ho hi => ?_, fun r => ⟨(b1 r).2.1, (b1 r).2.2.1, (b1 r).2.2.2⟩⟩
  obtain ⟨-, b2⟩ := bal (siteAt D x.1 x.2)
  rw [cur_sites hB.ok t0 hB.grid sc (fun r => (R' r).a) (fun r => (b1 r).1) x out inn
    (fun a b => (sameAt_site hB.ok t0 hB.grid _ _ b).mp ((ho a).2 b))
    (fun a b => (sameAt_site hB.ok t0 hB.grid _ _ b).mp ((hi a).2 b))] at b2
  rw [← measure_value hB.ok t0 hB.grid hB.cells sc.r8V nsp (fun r => (R r).sp) m0 m0' w0 hρ0 x hx,
    ← measure_value hB.ok t0 hB.grid hB.cells sc.r8V nsp (fun r => (R' r).sp) m1 m1'
      (fun r id hid => ((b1 r).2.2.2 id hid).2) hρ1 x hx] at b2
  have cur : ∀ a, m' (out a).1 (vox (F (out a).1).g (out a).2, .jf a) - m' (inn a).1 (vox (F (inn a).1).g (inn a).2, .jf a) =
      ∑ z ∈ copies F (ranksOf D) (fun _ => true) (coordOf D) fieldExt (.jf a) (out a),
            unloadAt (F z.1).g (unloadC sc) (R' z.1).a (vox (F z.1).g z.2) a -
          ∑ z ∈ copies F (ranksOf D) (fun _ => true) (coordOf D) fieldExt (.jf a) (inn a),
            unloadAt (F z.1).g (unloadC sc) (R' z.1).a (vox (F z.1).g z.2) a := by
    intro a
    rw [current_value hB.ok t0 hB.grid hB.cells Rd hRd P hP hP2 sc _ m m' hj a (out a) (ho a).1,
      current_value hB.ok t0 hB.grid hB.cells Rd hRd P hP hP2 sc _ m m' hj a (inn a) (hi a).1]
  simp only [cur]
  linear_combination b2

end

end Verif.Charge
