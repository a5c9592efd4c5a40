import Verif.Torus.GaussLemmas

/-!
# Gauss's law over any number of steps (C72)
-/
namespace Verif.Torus

open Grid Charge
open SfInterface (Scales)
open Boundary (Env Rank Species live ids)
open Distribute (Rounding)
open Field (Pos FC FMem World MC EntOn fieldExt InArray vox ranksOf coordOf SameCells dims up dn EdgeOn FaceOn NodeOn copies)

section
variable {K : Type} {S : Type*} [Field K] [LinearOrder K] [IsStrictOrderedRing K]

/-- The global fields with the charge density of the particles. -/
noncomputable def withRho {n : ℕ} (Z : Setup K S n) (σ : State K S n) (G : Fields K) : Fields K := fun k s =>
  match k with
  | .rhof => rhoOf Z.D Z.F Z.sc.r8V Z.nsp (fun r => (σ.R r).sp) s
  | k => G k s

/-- What `Ready` says of the fields. -/
structure HeldBy {n : ℕ} (Z : Setup K S n) (σ : State K S n) (G : Fields K) : Prop where
  e : ∀ a, Holds Z.D Z.F σ.m G (.e a)
  cb : ∀ a, Holds Z.D Z.F σ.m G (.cb a)
  tca : ∀ a, Holds Z.D Z.F σ.m G (.tca a)
  rhob : Holds Z.D Z.F σ.m G .rhob
  div : ∀ s, Z.C.damp * divTca (sizeOf Z.D) Z.C G s = 0

lemma settled_within {n : ℕ} {Z : Setup K S n} {σ : State K S n} (h : Ready Z σ) (r : Fin n) :
    ∀ id < Z.nsp, ∀ p ∈ live ((σ.R r).sp id).p ((σ.R r).sp id).np, Within (Z.F r).g p :=
  fun id hid => settled_live (h.particles r id hid)

/-- What is reported is the error of the global fields. -/
lemma reports_global {n : ℕ} {Z : Setup K S n} (hZ : Z.Ok) {σ : State K S n} (h : Ready Z σ) {G : Fields K}
    (hG : HeldBy Z σ G) {err : Fin n → Pos → K} (he : Reports Z σ err) (r : Fin n) (c : Pos) (hc : NodeOn (Z.F r).g c) :
    err r c = gaussErr (sizeOf Z.D) Z.C Z.M (withRho Z σ G) (siteAt Z.D r c) := by
  obtain ⟨m1, m2, h1, h2, h3⟩ := he
  obtain ⟨q1, q2, q3⟩ := measure_holds hZ.box.ok Z.t0 hZ.box.grid hZ.box.cells (settled_within h) h1 hG.rhob
  rw [h3 r c hc]
  refine compute_div_e_global hZ.box.ok Z.t0 hZ.box.grid hZ.box.cells hZ.resolved hZ.consts hZ.made ?_ ?_ ?_ h2 r c hc
  · intro a r c hc
    rw [q3 r _ (by simp) (by simp)]
    exact hG.e a r c hc
  · intro r c hc
    exact q1 r c (Field.entOn_node.1.mp hc)
  · exact q2

/-- The continuity equation on the global mesh. -/
lemma continuity_global [Archimedean K] {n : ℕ} {Z : Setup K S n} (hZ : Z.Ok) {σ σ' : State K S n} (h : Ready Z σ)
    {X : Fin n → PushPar K} (hX : ∀ r, Courant (X r))
    (hp : ParticlePhase Z.B Z.Rd X Z.P Z.nf Z.N σ.R σ.st σ'.R σ'.st) (h' : ∀ r, ∀ id < Z.nsp,
      ∀ p ∈ live ((σ'.R r).sp id).p ((σ'.R r).sp id).np, Within (Z.F r).g p) {m3 : Fin n → FMem K}
    (hj : CurrentPhase Z.F Z.Rd Z.P Z.sc (fun r => (σ'.R r).a) σ.m m3) {J : Fin 3 → Pos → K}
    (hJ : ∀ a r c, EdgeOn (Z.F r).g a c → m3 r (vox (Z.F r).g c, .jf a) = J a (siteAt Z.D r c))
    (r : Fin n) (c : Pos) (hc : NodeOn (Z.F r).g c) :
    rhoOf Z.D Z.F Z.sc.r8V Z.nsp (fun r => (σ'.R r).sp) (siteAt Z.D r c) -
      rhoOf Z.D Z.F Z.sc.r8V Z.nsp (fun r => (σ.R r).sp) (siteAt Z.D r c) +
      Z.C.dt * ∑ a, Z.C.rd a * (J a (siteAt Z.D r c) - J a (prev (sizeOf Z.D) a (siteAt Z.D r c))) = 0 := by
  obtain ⟨m0', e0⟩ := box_measure hZ.box Z.sc.r8V Z.nsp (fun r => (σ.R r).sp) (settled_within h) σ.m
  obtain ⟨m1', e1⟩ := box_measure hZ.box Z.sc.r8V Z.nsp (fun r => (σ'.R r).sp) h' σ.m
  obtain ⟨k1, k2⟩ := step_continuity_courant hZ.box Z.Rd hZ.rounding X hX Z.P Z.nf Z.N Z.nsp hZ.rounds hZ.nsp hZ.nf
    hZ.threads.1 hZ.threads.2 hZ.fuel hZ.acc hZ.acc' Z.sc hZ.dt hZ.vol σ.R σ'.R σ.st σ'.st h.tidy h.particles h.charges
    σ.m m0' σ.m m3 σ.m m1' e0 hp hj e1 (r, c) hc
  choose out ho using fun a => (k1 a).1
  choose inn hi using fun a => (k1 a).2
  have key := k2 out inn ho hi
  have v0 := measure_value hZ.box.ok Z.t0 hZ.box.grid hZ.box.cells Z.sc.r8V Z.nsp _ _ _ (settled_within h) e0 (r, c) hc
  have v1 := measure_value hZ.box.ok Z.t0 hZ.box.grid hZ.box.cells Z.sc.r8V Z.nsp _ _ _ h' e1 (r, c) hc
  rw [v0, v1] at key
  have so : ∀ a, m3 (out a).1 (vox (Z.F (out a).1).g (out a).2, .jf a) = J a (siteAt Z.D r c) := by
    intro a
    rw [hJ a _ _ (ho a).1, (samePlace_site hZ.box.ok Z.t0 hZ.box.grid _ _).mp (ho a).2]
  have si : ∀ a, m3 (inn a).1 (vox (Z.F (inn a).1).g (inn a).2, .jf a) =
      J a (prev (sizeOf Z.D) a (siteAt Z.D r c)) := by
    intro a
    rw [hJ a _ _ (hi a).1]
    have := (samePlace_site hZ.box.ok Z.t0 hZ.box.grid _ _).mp (hi a).2
    dsimp only at this
    rw [← this, site_up, prev_next hZ.box.ok]
  simp only [so, si] at key
  have hdt := hZ.dt
  rw [hZ.dt_same] at key hdt
  rw [hZ.rd_same] at key
  have : ∀ A B T : K, A / Z.C.dt + B = 0 → A + Z.C.dt * B = 0 := by
    intro A B T h
    field_simp at h
    linear_combination h
  exact this _ _ 0 key

/-- One step. -/
lemma full_step_gauss [Archimedean K] {n : ℕ} {Z : Setup K S n} (hZ : Z.Ok) {σ σ' : State K S n} (h : Ready Z σ)
    {G : Fields K} (hG : HeldBy Z σ G) (hs : FullStep Z σ σ') :
    Ready Z σ' ∧ ∃ G', HeldBy Z σ' G' ∧ ∀ r c, NodeOn (Z.F r).g c →
      gaussErr (sizeOf Z.D) Z.C Z.M (withRho Z σ' G') (siteAt Z.D r c) =
        gaussErr (sizeOf Z.D) Z.C Z.M (withRho Z σ G) (siteAt Z.D r c) := by
  obtain ⟨X, m3, m4, m5, hX, hp, hj, hb1, he, hb2⟩ := hs.run
  have hD := hZ.box.ok
  have hg := hZ.box.grid
  have hS := hZ.box.cells
  have ex := (exchanges_suffice_periodic hZ.box hZ.rounding hX hZ.rounds hZ.threads.1 hZ.threads.2 hZ.fuel
    (fun r id hid => h.particles r id (hZ.nsp r ▸ hid)) hp).1
  have ex' : ∀ r, ∀ id < Z.nsp, ((σ'.R r).sp id).nm = 0 ∧ ∀ i : ℤ, 0 ≤ i → i < ((σ'.R r).sp id).np →
      Within (Z.F r).g (((σ'.R r).sp id).p i) := fun r id hid =>
    ⟨(ex r id (by rw [hZ.nsp r]; exact hid)).1, (ex r id (by rw [hZ.nsp r]; exact hid)).2.2⟩
  have sized' : ∀ r, ∀ id < Z.nsp, Sized ((σ'.R r).sp id) := fun r id hid =>
    particle_phase_sized hp r id (h.sized r id hid)
  have set' : ∀ r, ∀ id < Z.nsp, Settled (Z.F r).g ((σ'.R r).sp id) := fun r id hid =>
    have l := (ex r id (by rw [hZ.nsp r]; exact hid)).2.1
    ⟨l, l.trans_lt (sized' r id hid).1, (sized' r id hid).2, (ex' r id hid).2⟩
  have w' : ∀ r, ∀ id < Z.nsp, ∀ p ∈ live ((σ'.R r).sp id).p ((σ'.R r).sp id).np, Within (Z.F r).g p :=
    fun r id hid => settled_live (set' r id hid)
  obtain ⟨⟨J, hJ⟩, fr⟩ := current_holds hD Z.t0 hg hS hZ.rounding hZ.threads.1 hZ.threads.2 hj
  have cont := continuity_global hZ h hX hp w' hj hJ
  obtain ⟨m0', e0⟩ := box_measure hZ.box Z.sc.r8V Z.nsp (fun r => (σ.R r).sp) (settled_within h) σ.m
  obtain ⟨m1', e1⟩ := box_measure hZ.box Z.sc.r8V Z.nsp (fun r => (σ'.R r).sp) w' σ.m
  have hm : ∀ r, MoveP.LocalMesh (Z.F r).g := fun r => by rw [← hZ.box.same]; exact (box_joined hZ.box).mesh r
  have sc := (step_continuity hZ.box Z.Rd hZ.rounding X Z.P Z.nf Z.N Z.nsp hZ.nsp hZ.nf hZ.threads.1 hZ.threads.2 hZ.acc
    hZ.acc' Z.sc hZ.dt hZ.vol σ.R σ'.R σ.st σ'.st h.tidy
    (fun r id hid => settled_pushable (hm r) (hZ.fuel r) (hX r) id (h.particles r id hid)) h.charges
    σ.m m0' σ.m m3 σ.m m1' e0 hp (fun r id hid => (ex' r id hid).1) hj e1).2
  let G3 : Fields K := fun k s => match k with | .jf a => J a s | k => G k s
  have u3 : ∀ k, Used k → Holds Z.D Z.F m3 G3 k := by
    rintro k (⟨a, rfl⟩ | ⟨a, rfl⟩ | ⟨a, rfl⟩ | ⟨a, rfl⟩) r c hc
    · rw [fr r _ (by simp)]; exact hG.e a r c hc
    · rw [fr r _ (by simp)]; exact hG.cb a r c hc
    · rw [fr r _ (by simp)]; exact hG.tca a r c hc
    · exact hJ a r c (Field.entOn_edge.2.2.mp hc)
  have r3 := run_global hD Z.t0 hg hS hZ.resolved hZ.consts hZ.made [.b (1 / 2), .e, .b (1 / 2)] u3
    (.cons hb1 (.cons he (.cons hb2 (.nil _))))
  set N := sizeOf Z.D with hN
  let G4 := yeeB N Z.C (1 / 2) G3
  have eG : ∀ k, Used k → Holds Z.D Z.F σ'.m (yeeB N Z.C (1 / 2) (yeeE N Z.C Z.M G4)) k := r3
  have rb : Holds Z.D Z.F σ'.m G .rhob := by
    intro r c hc
    rw [(advance_b_global hD Z.t0 hg hS hZ.resolved hZ.consts (G := yeeE N Z.C Z.M G4) (m := m5) ?_ ?_ hb2).2 _ (by simp) r,
      (advance_e_global hD Z.t0 hg hS hZ.resolved hZ.consts hZ.made (G := G4) (m := m4) ?_ he).2 _ (by simp [Used]) r,
      (advance_b_global hD Z.t0 hg hS hZ.resolved hZ.consts (G := G3) (m := m3) ?_ ?_ hb1).2 _ (by simp) r, fr r _ (by simp)]
    · exact hG.rhob r c hc
    · exact fun a => u3 _ (.inl ⟨a, rfl⟩)
    · exact fun a => u3 _ (.inr (.inl ⟨a, rfl⟩))
    · exact run_global hD Z.t0 hg hS hZ.resolved hZ.consts hZ.made [.b (1 / 2)] u3 (.cons hb1 (.nil _))
    all_goals
      have r2 := run_global hD Z.t0 hg hS hZ.resolved hZ.consts hZ.made [.b (1 / 2), .e] u3 (.cons hb1 (.cons he (.nil _)))
    · exact fun a => r2 _ (.inl ⟨a, rfl⟩)
    · exact fun a => r2 _ (.inr (.inl ⟨a, rfl⟩))
  let G' : Fields K := yeeB N Z.C (1 / 2) (yeeE N Z.C Z.M G4)
  have hdiv4 : ∀ s, Z.C.damp * divTca N Z.C G4 s = 0 := hG.div
  have hG' : HeldBy Z σ' G' :=
    { e := fun a => eG _ (.inl ⟨a, rfl⟩)
      cb := fun a => eG _ (.inr (.inl ⟨a, rfl⟩))
      tca := fun a => eG _ (.inr (.inr (.inl ⟨a, rfl⟩)))
      rhob := rb
      div := fun s => by
        have := div_tcaNew N Z.C Z.M G4 s
        rw [hdiv4 s, neg_zero] at this
        show Z.C.damp * ∑ a, Z.C.rd a * (tcaNew N Z.C Z.M G4 a s - tcaNew N Z.C Z.M G4 a (prev N a s)) = 0
        rw [this, mul_zero] }
  refine ⟨⟨⟨G', hG'.e, hG'.cb, hG'.tca, hG'.rhob, hG'.div⟩, set', sized', ?_, fun r => (sc r).1⟩, G', hG', fun r c hc => ?_⟩
  · intro r s id hid
    rw [((sc r).2.2 id hid).1, ((sc s).2.2 id hid).1]
    exact h.charges r s id hid
  · set s := siteAt Z.D r c
    unfold gaussErr
    rcases hZ.medium s with hz | hins
    · rw [hz, zero_mul, zero_mul]
    · congr 1
      have c1 := cont r c hc
      have d1 := div_tcaNew N Z.C Z.M G4 s
      rw [hdiv4 s, neg_zero] at d1
      have step : ∀ a, Z.C.rd a * ((Z.M.edge a s).eps a * G' (.e a) s - (Z.M.edge a (prev N a s)).eps a * G' (.e a) (prev N a s)) =
          Z.C.rd a * ((Z.M.edge a s).eps a * G (.e a) s - (Z.M.edge a (prev N a s)).eps a * G (.e a) (prev N a s)) +
          Z.C.rd a * (tcaNew N Z.C Z.M G4 a s - tcaNew N Z.C Z.M G4 a (prev N a s)) -
          Z.C.dt / Z.C.eps0 * (Z.C.rd a * (J a s - J a (prev N a s))) := by
        intro a
        have i1 : (Z.M.edge a s).eps a * G' (.e a) s = (Z.M.edge a s).eps a * G (.e a) s + tcaNew N Z.C Z.M G4 a s -
            Z.C.dt / Z.C.eps0 * J a s := insulating_step (G := G4) (hins a).1
        have i2 : (Z.M.edge a (prev N a s)).eps a * G' (.e a) (prev N a s) =
            (Z.M.edge a (prev N a s)).eps a * G (.e a) (prev N a s) + tcaNew N Z.C Z.M G4 a (prev N a s) -
            Z.C.dt / Z.C.eps0 * J a (prev N a s) := insulating_step (G := G4) (hins a).2
        rw [i1, i2]
        ring
      show ∑ a, Z.C.rd a * ((Z.M.edge a s).eps a * G' (.e a) s - (Z.M.edge a (prev N a s)).eps a * G' (.e a) (prev N a s)) -
          1 / Z.C.eps0 * (rhoOf Z.D Z.F Z.sc.r8V Z.nsp (fun r => (σ'.R r).sp) s + G .rhob s) =
        ∑ a, Z.C.rd a * ((Z.M.edge a s).eps a * G (.e a) s - (Z.M.edge a (prev N a s)).eps a * G (.e a) (prev N a s)) -
          1 / Z.C.eps0 * (rhoOf Z.D Z.F Z.sc.r8V Z.nsp (fun r => (σ.R r).sp) s + G .rhob s)
      rw [Finset.sum_congr rfl fun a _ => step a, Finset.sum_sub_distrib, Finset.sum_add_distrib, d1, ← Finset.mul_sum]
      linear_combination (-(1 / Z.C.eps0)) * c1

lemma weigh_charge (g : LGrid) (φ : ℤ → K) (q : K) (l l' : List (MoveP.Part K))
    (h : (l.map chargeAt).Perm (l'.map chargeAt)) : (l.map (weigh g φ q)).sum = (l'.map (weigh g φ q)).sum := by
  have e : ∀ l : List (MoveP.Part K), l.map (weigh g φ q) = (l.map chargeAt).map fun x =>
      weigh g φ q ⟨x.1, x.2.1, fun _ => 0, x.2.2⟩ := by
    intro l
    rw [List.map_map]
    rfl
  rw [e, e]
  exact (h.map _).sum_eq

/-- One shuffle. -/
lemma shuffle_gauss {n : ℕ} {Z : Setup K S n} {σ σ' : State K S n} (h : Ready Z σ)
    {G : Fields K} (hG : HeldBy Z σ G) (hs : Shuffle Z σ σ') :
    Ready Z σ' ∧ HeldBy Z σ' G ∧ withRho Z σ' G = withRho Z σ G := by
  obtain ⟨f1, f2, f3, f4, f5⟩ := hG
  have w : ∀ r, ∀ id < Z.nsp, ∀ p ∈ live ((σ'.R r).sp id).p ((σ'.R r).sp id).np, Within (Z.F r).g p := by
    intro r id hid p hp
    have : chargeAt p ∈ (live ((σ.R r).sp id).p ((σ.R r).sp id).np).map chargeAt :=
      (hs.perm r id hid).mem_iff.mp (List.mem_map.mpr ⟨p, hp, rfl⟩)
    obtain ⟨p', hp', e⟩ := List.mem_map.mp this
    have := settled_within h r id hid p' hp'
    simp only [chargeAt, Prod.mk.injEq] at e
    unfold Within at *
    rw [← e.1, ← e.2.1]
    exact this
  have sz : ∀ r, ∀ id < Z.nsp, Sized ((σ'.R r).sp id) := fun r id hid => by
    unfold Sized
    rw [hs.max_np r id hid, hs.max_nm r id hid]
    exact h.sized r id hid
  refine ⟨⟨⟨G, ?_⟩, ?_, sz, ?_, ?_⟩, ?_, ?_⟩
  · rw [hs.m]; exact ⟨f1, f2, f3, f4, f5⟩
  · intro r id hid
    have np : ((σ'.R r).sp id).np = ((σ.R r).sp id).np := by
      have := (hs.perm r id hid).length_eq
      simpa [live, Distribute.upTo] using this
    have le : ((σ'.R r).sp id).np ≤ ((σ'.R r).sp id).max_np := by
      rw [np, hs.max_np r id hid]; exact (h.particles r id hid).np
    refine ⟨le, le.trans_lt (sz r id hid).1, (sz r id hid).2, fun i h0 h1 => w r id hid _ ?_⟩
    exact List.mem_map.mpr ⟨i, SfInterface.upTo_mem.mpr ⟨h0, h1⟩, rfl⟩
  · intro r s id hid
    rw [hs.q r id hid, hs.q s id hid]
    exact h.charges r s id hid
  · rw [hs.st]; exact h.tidy
  · refine ⟨?_, ?_, ?_, ?_, f5⟩ <;> rw [hs.m] <;> assumption
  · funext k s
    cases k <;> try rfl
    show rhoOf _ _ _ _ _ _ = rhoOf _ _ _ _ _ _
    unfold rhoOf
    refine Finset.sum_congr rfl fun r _ => congrArg List.sum (List.map_congr_left fun id hid => ?_)
    have hid := (Boundary.mem_ids _ _).mp hid
    rw [hs.q r id hid]
    exact weigh_charge _ _ _ _ _ (hs.perm r id hid)

/-- A state between two steps is followed by states between two steps. -/
theorem ready_kept [Archimedean K] {n : ℕ} {Z : Setup K S n} (hZ : Z.Ok) {σ σ' : State K S n} (h : Ready Z σ)
    (hs : Steps Z σ σ') : Ready Z σ' := by
  induction hs with
  | refl => exact h
  | full _ h1 ih =>
    obtain ⟨G, g⟩ := ih.fields
    exact (full_step_gauss hZ ih ⟨g.1, g.2.1, g.2.2.1, g.2.2.2.1, g.2.2.2.2⟩ h1).1
  | shuffle _ h1 ih =>
    obtain ⟨G, g⟩ := ih.fields
    exact (shuffle_gauss ih ⟨g.1, g.2.1, g.2.2.1, g.2.2.2.1, g.2.2.2.2⟩ h1).1

/-- **C72.**  Over any number of steps, with any sorting and any collisions between them, the error of Gauss's law that the
program reports at a node does not change, whatever the number of ranks, threads and exchanges: a run that starts with
consistent fields stays consistent without any cleaning. -/
theorem gauss_kept [Archimedean K] {n : ℕ} {Z : Setup K S n} (hZ : Z.Ok) {σ σ' : State K S n} (h : Ready Z σ)
    (hs : Steps Z σ σ') {err err' : Fin n → Pos → K} (he : Reports Z σ err) (he' : Reports Z σ' err') :
    Ready Z σ' ∧ ∀ r c, NodeOn (Z.F r).g c → err' r c = err r c := by
  obtain ⟨G, hG⟩ := h.fields
  have hG : HeldBy Z σ G := ⟨hG.1, hG.2.1, hG.2.2.1, hG.2.2.2.1, hG.2.2.2.2⟩
  have key : Ready Z σ' ∧ ∃ G', HeldBy Z σ' G' ∧ ∀ r c, NodeOn (Z.F r).g c →
      gaussErr (sizeOf Z.D) Z.C Z.M (withRho Z σ' G') (siteAt Z.D r c) =
        gaussErr (sizeOf Z.D) Z.C Z.M (withRho Z σ G) (siteAt Z.D r c) := by
    clear he'
    induction hs with
    | refl => exact ⟨h, G, hG, fun _ _ _ => rfl⟩
    | full _ h1 ih =>
      obtain ⟨i1, G1, i2, i3⟩ := ih
      obtain ⟨j1, G2, j2, j3⟩ := full_step_gauss hZ i1 i2 h1
      exact ⟨j1, G2, j2, fun r c hc => (j3 r c hc).trans (i3 r c hc)⟩
    | shuffle _ h1 ih =>
      obtain ⟨i1, G1, i2, i3⟩ := ih
      obtain ⟨j1, j2, j3⟩ := shuffle_gauss i1 i2 h1
      exact ⟨j1, G1, j2, fun r c hc => by rw [j3]; exact i3 r c hc⟩
  obtain ⟨k1, G', k2, k3⟩ := key
  refine ⟨k1, fun r c hc => ?_⟩
  rw [reports_global hZ k1 k2 he' r c hc, reports_global hZ h hG he r c hc, k3 r c hc]

end

end Verif.Torus
