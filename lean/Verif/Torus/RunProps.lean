import Verif.Torus.RunLemmas

/-!
# A whole run keeps Gauss's law exactly (C82)
-/
namespace Verif.Torus

open Grid Charge
open Field (Pos FC FMem World NodeOn EdgeOn EntOn fieldExt vox SynchronizeTangENormB)
open Boundary (Rank Species live)

section
variable {K : Type} {S : Type*} [Field K] [LinearOrder K] [IsStrictOrderedRing K]

/-- The ranks agree, and Gauss's law holds at every node. -/
def Exact {n : ℕ} (Z : Setup K S n) (σ : State K S n) : Prop :=
  Ready Z σ ∧ ∃ G, HeldBy Z σ G ∧ ∀ r c, NodeOn (Z.F r).g c →
    gaussErr (sizeOf Z.D) Z.C Z.M (withRho Z σ G) (siteAt Z.D r c) = 0

lemma HeldBy.shared {n : ℕ} {Z : Setup K S n} {σ : State K S n} {G : Fields K} (h : HeldBy Z σ G) :
    ∀ k, Shared k → Holds Z.D Z.F σ.m G k := by
  rintro k (⟨a, rfl⟩ | ⟨a, rfl⟩ | ⟨a, rfl⟩)
  exacts [h.e a, h.cb a, h.tca a]

lemma Silent.append {l l' : List (Msg K)} (h : Silent l) (h' : Silent l') : Silent (l ++ l') := by
  intro e
  simp only [List.mem_append]
  exact ⟨fun x => x.elim (h e).1 (h' e).1, fun x => x.elim (h e).2 (h' e).2⟩

lemma Silent.nil : Silent ([] : List (Msg K)) := by intro e; simp

lemma Ready.of_fields {n : ℕ} {Z : Setup K S n} {σ : State K S n} (h : Placed Z σ) {m : Fin n → FMem K} {G : Fields K}
    (hG : HeldBy Z ⟨σ.R, σ.st, m⟩ G) : Ready Z ⟨σ.R, σ.st, m⟩ :=
  ⟨⟨G, hG.e, hG.cb, hG.tca, hG.rhob, hG.div⟩, h.particles, h.sized, h.charges, h.tidy⟩

lemma Ready.placed {n : ℕ} {Z : Setup K S n} {σ : State K S n} (h : Ready Z σ) : Placed Z σ :=
  ⟨h.particles, h.sized, h.charges, h.tidy⟩

/-- The cleaning loop of E has nothing to do. -/
lemma roundsE_idle {n : ℕ} {Z : Setup K S n} (hZ : Z.Ok) {rt : K → K} (hrt : rt 0 = 0) {N i : ℤ} {m m' : Fin n → FMem K}
    {l : List (Msg K)} (h : RoundsE Z rt N i m m' l) {G : Fields K} (he : ∀ a, Holds Z.D Z.F m G (.e a))
    (hf : Holds Z.D Z.F m G .rhof) (hb : Holds Z.D Z.F m G .rhob)
    (h0 : ∀ r c, NodeOn (Z.F r).g c → gaussErr (sizeOf Z.D) Z.C Z.M G (siteAt Z.D r c) = 0) :
    Silent l ∧ (∀ a, Holds Z.D Z.F m' G (.e a)) ∧ ∀ r x, x.2 ≠ .divE → (∀ a, x.2 ≠ .e a) → m' r x = m r x := by
  have one : ∀ {m m1 m2 : Fin n → FMem K}, (∀ a, Holds Z.D Z.F m G (.e a)) → Holds Z.D Z.F m G .rhof →
      Holds Z.D Z.F m G .rhob → RanksDivE Z.F m m1 → RanksCleanE Z m1 m2 →
      (∀ r c, NodeOn (Z.F r).g c → m1 r (vox (Z.F r).g c, .divE) = 0) ∧ (∀ a, Holds Z.D Z.F m2 G (.e a)) ∧
      ∀ r x, x.2 ≠ .divE → (∀ a, x.2 ≠ .e a) → m2 r x = m r x := by
    intro m m1 m2 he hf hb h1 h2
    have z : ∀ r c, NodeOn (Z.F r).g c → m1 r (vox (Z.F r).g c, .divE) = 0 := fun r c hc => by
      rw [compute_div_e_global hZ.box.ok Z.t0 hZ.box.grid hZ.box.cells hZ.resolved hZ.consts hZ.made he hf hb h1 r c hc,
        h0 r c hc]
    have id := clean_e_idle hZ.fits h2 z
    refine ⟨z, fun a r c hc => ?_, fun r x hx hx' => ?_⟩
    · rw [id]; exact (div_e_frame hZ.fits h1).1 G a (he a) r c hc
    · rw [id, (div_e_frame hZ.fits h1).2 r x hx hx']
  induction h with
  | done _ => exact ⟨.nil, he, fun _ _ _ _ => rfl⟩
  | loud _ h1 _ h3 h4 _ ih =>
    obtain ⟨o1, o2, o3⟩ := one he hf hb h1 h4
    obtain ⟨j1, j2, j3⟩ := ih o2 (fun r c hc => by rw [o3 r _ (by simp) (by simp)]; exact hf r c hc)
      (fun r c hc => by rw [o3 r _ (by simp) (by simp)]; exact hb r c hc)
    refine ⟨?_, j2, fun r x hx hx' => by rw [j3 r x hx hx', o3 r x hx hx']⟩
    have e0 := rms_e_zero hZ.fits hrt h3 o1
    intro e
    simp only [List.mem_cons, reduceCtorEq, false_or, Msg.divE.injEq]
    exact ⟨(j1 e).1, fun x => x.elim (fun y => y.trans e0) (j1 e).2⟩
  | quiet _ h1 _ h4 _ ih =>
    obtain ⟨o1, o2, o3⟩ := one he hf hb h1 h4
    obtain ⟨j1, j2, j3⟩ := ih o2 (fun r c hc => by rw [o3 r _ (by simp) (by simp)]; exact hf r c hc)
      (fun r c hc => by rw [o3 r _ (by simp) (by simp)]; exact hb r c hc)
    exact ⟨j1, j2, fun r x hx hx' => by rw [j3 r x hx hx', o3 r x hx hx']⟩

/-- The cleaning loop of B keeps the copies of B in agreement and touches nothing else. -/
lemma roundsB_global {n : ℕ} {Z : Setup K S n} (hZ : Z.Ok) {rt : K → K} {N i : ℤ} {m m' : Fin n → FMem K}
    {l : List (Msg K)} (h : RoundsB Z rt N i m m' l) {G : Fields K} (hc : ∀ a, Holds Z.D Z.F m G (.cb a)) :
    Silent l ∧
    (∃ B : Fin 3 → Pos → K, ∀ a, Holds Z.D Z.F m' (fun k s => match k with | .cb a => B a s | k => G k s) (.cb a)) ∧
    ∀ r x, x.2 ≠ .divB → (∀ a, x.2 ≠ .cb a) → m' r x = m r x := by
  induction h generalizing G with
  | done _ => exact ⟨.nil, ⟨fun a s => G (.cb a) s, hc⟩, fun _ _ _ _ => rfl⟩
  | loud _ h1 _ h3 h4 _ ih =>
    obtain ⟨o1, o2⟩ := clean_b_global hZ.fits h1 h4 hc
    obtain ⟨j1, ⟨B', j2⟩, j3⟩ := ih o1
    refine ⟨?_, ⟨B', fun a => j2 a⟩, fun r x hx hx' => by rw [j3 r x hx hx', o2 r x hx hx']⟩
    intro e
    simp only [List.mem_cons, reduceCtorEq, false_or]
    exact j1 e
  | quiet _ h1 _ h4 _ ih =>
    obtain ⟨o1, o2⟩ := clean_b_global hZ.fits h1 h4 hc
    obtain ⟨j1, ⟨B', j2⟩, j3⟩ := ih o1
    exact ⟨j1, ⟨B', fun a => j2 a⟩, fun r x hx hx' => by rw [j3 r x hx hx', o2 r x hx hx']⟩

lemma partE_exact {n : ℕ} {Z : Setup K S n} (hZ : Z.Ok) {rt : K → K} (hrt : rt 0 = 0) {A : Settings} {step : ℤ}
    {σ : State K S n} (h : Exact Z σ) {m' : Fin n → FMem K} {l : List (Msg K)} (hp : PartE Z rt A step σ.R σ.m m' l) :
    Exact Z ⟨σ.R, σ.st, m'⟩ ∧ Silent l := by
  rcases hp with ⟨-, m1, h1, h2⟩ | ⟨-, rfl, rfl⟩
  · obtain ⟨hr, G, hG, h0⟩ := h
    obtain ⟨q1, q2, q3⟩ := measure_holds hZ.box.ok Z.t0 hZ.box.grid hZ.box.cells (settled_within hr) h1 hG.rhob
    obtain ⟨j1, j2, j3⟩ := roundsE_idle hZ hrt h2 (G := withRho Z σ G)
      (fun a r c hc => by rw [q3 r _ (by simp) (by simp)]; exact hG.e a r c hc)
      (fun r c hc => q1 r c (Field.entOn_node.1.mp hc)) q2 h0
    have hG' : HeldBy Z ⟨σ.R, σ.st, m'⟩ G :=
      { e := fun a => j2 a
        cb := fun a r c hc => by
          rw [show (State.m ⟨σ.R, σ.st, m'⟩ : Fin n → FMem K) = m' from rfl, j3 r _ (by simp) (by simp),
            q3 r _ (by simp) (by simp)]
          exact hG.cb a r c hc
        tca := fun a r c hc => by
          rw [show (State.m ⟨σ.R, σ.st, m'⟩ : Fin n → FMem K) = m' from rfl, j3 r _ (by simp) (by simp),
            q3 r _ (by simp) (by simp)]
          exact hG.tca a r c hc
        rhob := fun r c hc => by
          rw [show (State.m ⟨σ.R, σ.st, m'⟩ : Fin n → FMem K) = m' from rfl, j3 r _ (by simp) (by simp)]
          exact q2 r c hc
        div := hG.div }
    exact ⟨⟨.of_fields hr.placed hG', G, hG', h0⟩, j1⟩
  · exact ⟨h, .nil⟩

lemma partB_exact {n : ℕ} {Z : Setup K S n} (hZ : Z.Ok) {rt : K → K} {A : Settings} {step : ℤ}
    {σ : State K S n} (h : Exact Z σ) {m' : Fin n → FMem K} {l : List (Msg K)} (hp : PartB Z rt A step σ.m m' l) :
    Exact Z ⟨σ.R, σ.st, m'⟩ ∧ Silent l := by
  rcases hp with ⟨-, h2⟩ | ⟨-, rfl, rfl⟩
  · obtain ⟨hr, G, hG, h0⟩ := h
    obtain ⟨j1, ⟨B, j2⟩, j3⟩ := roundsB_global hZ h2 hG.cb
    have hG' : HeldBy Z ⟨σ.R, σ.st, m'⟩ (fun k s => match k with | .cb a => B a s | k => G k s) :=
      { e := fun a r c hc => (j3 r _ (by simp) (by simp)).trans (hG.e a r c hc)
        cb := j2
        tca := fun a r c hc => (j3 r _ (by simp) (by simp)).trans (hG.tca a r c hc)
        rhob := fun r c hc => (j3 r _ (by simp) (by simp)).trans (hG.rhob r c hc)
        div := hG.div }
    exact ⟨⟨.of_fields hr.placed hG', _, hG', h0⟩, j1⟩
  · exact ⟨h, .nil⟩

lemma sync_exact {n : ℕ} {Z : Setup K S n} (hZ : Z.Ok) {σ : State K S n} (h : Exact Z σ) {m' : Fin n → FMem K} {err : K}
    (hs : SynchronizeTangENormB Z.F σ.m m' err) : Exact Z ⟨σ.R, σ.st, m'⟩ ∧ err = 0 := by
  obtain ⟨hr, G, hG, h0⟩ := h
  obtain ⟨j1, j2, j3⟩ := sync_keeps hZ.box.ok Z.t0 hZ.box.grid hZ.box.cells hs hG.shared
  have hG' : HeldBy Z ⟨σ.R, σ.st, m'⟩ G :=
    { e := fun a => j2 _ (.inl ⟨a, rfl⟩)
      cb := fun a => j2 _ (.inr (.inl ⟨a, rfl⟩))
      tca := fun a => j2 _ (.inr (.inr ⟨a, rfl⟩))
      rhob := fun r c hc => (j3 r _ (by simp [Shared])).trans (hG.rhob r c hc)
      div := hG.div }
  exact ⟨⟨.of_fields hr.placed hG', _, hG', h0⟩, j1⟩

/-- One call of `advance`. -/
lemma advance_exact [Archimedean K] {n : ℕ} {Z : Setup K S n} (hZ : Z.Ok) {rt : K → K} (hrt : rt 0 = 0) {A : Settings}
    {step : ℤ} {σ σ' : State K S n} {l : List (Msg K)} (h : Exact Z σ) (ha : Advance Z rt A step σ σ' l) :
    Exact Z σ' ∧ Silent l := by
  obtain ⟨σ1, σ2, m1, m2, l1, l2, l3, a1, a2, a3, a4, a5, e1, e2, rfl⟩ := ha.run
  obtain ⟨hr, G, hG, h0⟩ := h
  obtain ⟨s1, s2, s3⟩ := shuffle_gauss hr hG a1
  obtain ⟨f1, G2, f2, f3⟩ := full_step_gauss hZ s1 s2 a2
  have x2 : Exact Z σ2 := ⟨f1, G2, f2, fun r c hc => by rw [f3 r c hc, s3, h0 r c hc]⟩
  obtain ⟨x3, y3⟩ := partE_exact hZ hrt x2 a3
  obtain ⟨x4, y4⟩ := partB_exact hZ x3 a4
  have es : σ' = ⟨σ2.R, σ2.st, σ'.m⟩ := by rw [← e1, ← e2]
  rcases a5 with ⟨-, err, h5, rfl⟩ | ⟨-, h5, rfl⟩
  · obtain ⟨x5, y5⟩ := sync_exact hZ x4 h5
    refine ⟨es ▸ x5, (y3.append y4).append ?_⟩
    intro e
    simp only [List.mem_singleton, Msg.sync.injEq, reduceCtorEq, false_imp_iff, and_true]
    exact fun h => h.trans y5
  · refine ⟨?_, (y3.append y4).append .nil⟩
    rw [es, h5]
    exact x4

/-- `initialize` makes Gauss's law hold, whatever the fields of the input deck. -/
lemma initialize_exact {n : ℕ} {Z : Setup K S n} (hZ : Z.Ok) (hZ' : Z.Physical) {rt : K → K} (hrt : rt 0 = 0)
    {σ σ' : State K S n} {l : List (Msg K)} (h : Placed Z σ) (hi : Initialize Z rt σ σ' l) :
    Exact Z σ' ∧ ∃ e1 e2, l = [.sync e1, .divB e2, .divE 0, .sync 0] ∧
      ∃ m1 m2 m3, RanksDivB Z m1 m2 ∧ RmsB Z rt m2 e2 ∧ RanksCleanB Z m2 m3 ∧
        ∀ r a c, Field.FaceOn (Z.F r).g a c → σ'.m r (vox (Z.F r).g c, .cb a) = m3 r (vox (Z.F r).g c, .cb a) := by
  obtain ⟨m1, m2, m3, m4, m5, m6, m7, m8, m9, e1, e2, e3, e4, i1, i2, i3, i4, i5, i6, i7, i8, i9, i10, i11, i12, rfl⟩ := hi.run
  obtain ⟨G1, g1⟩ := sync_any hZ.box.ok Z.t0 hZ.box.grid hZ.box.cells i1
  obtain ⟨g3, f3⟩ := clean_b_global hZ.fits i2 i4 (fun a => g1 _ (.inr (.inl ⟨a, rfl⟩)))
  set G3 : Fields K := fun k s => match k with | .cb a => marderBOf (sizeOf Z.D) Z.C G1 a s | k => G1 k s with hG3
  obtain ⟨t4, b4, e4', f4⟩ := curl_b_global hZ.fits i5 (G := G3) g3
  have e4 := fun a => e4' a fun r c hc => (f3 r _ (by simp) (by simp)).trans (g1 _ (.inl ⟨a, rfl⟩) r c hc)
  have hw : ∀ r, ∀ id < Z.nsp, ∀ p ∈ live ((σ.R r).sp id).p ((σ.R r).sp id).np, Within (Z.F r).g p :=
    fun r id hid => settled_live (h.particles r id hid)
  -- the charge density
  have hF := Field.periodic_world_cart hZ.box.ok Z.t0 hZ.box.grid hZ.box.cells
  have q5 : ∀ r c, NodeOn (Z.F r).g c → m5 r (vox (Z.F r).g c, .rhof) =
      rhoOf Z.D Z.F Z.sc.r8V Z.nsp (fun r => (σ.R r).sp) (siteAt Z.D r c) := fun r c hc =>
    measure_value hZ.box.ok Z.t0 hZ.box.grid hZ.box.cells _ _ _ _ _ hw i6 (r, c) hc
  have f5 : ∀ r x, x.2 ≠ .rhof → x.2 ≠ .rhob → m5 r x = m4 r x := by
    intro r x h1 h2
    obtain ⟨ρ, e, hs⟩ := i6
    rw [(Field.synchronize_frame hF.toLinked _ m5 r x).2.1 hs
      (by rintro c _; exact ⟨by rintro rfl; exact h1 rfl, by rintro rfl; exact h2 rfl⟩)]
    obtain ⟨v, k⟩ := x
    cases k <;> first | rfl | exact absurd rfl h1
  set G5 : Fields K := fun k s => match k with
    | .rhof => rhoOf Z.D Z.F Z.sc.r8V Z.nsp (fun r => (σ.R r).sp) s
    | .tca a => Z.C.cvac * Z.C.dt * curlH (sizeOf Z.D) Z.C Z.M G3 a s
    | k => G3 k s with hG5
  obtain ⟨b6, e6, f6⟩ := rhob_global hZ.fits i7 (G := G5)
    (fun a r c hc => (f5 r _ (by simp) (by simp)).trans (e4 a r c hc))
    (fun r c hc => q5 r c (Field.entOn_node.1.mp hc))
  set G6 : Fields K := fun k s => match k with
      | .rhob => (Z.M.node s).nonconductive * (Z.C.eps0 * ∑ a, Z.C.rd a * ((Z.M.edge a s).eps a * G5 (.e a) s -
          (Z.M.edge a (prev (sizeOf Z.D) a s)).eps a * G5 (.e a) (prev (sizeOf Z.D) a s)) - G5 .rhof s)
      | k => G5 k s with hG6
  have gz : ∀ s, gaussErr (sizeOf Z.D) Z.C Z.M G6 s = 0 := by
    intro s
    unfold gaussErr
    rcases hZ'.nodes s with hn | hn
    · rw [hn, zero_mul]
    · have e : G6 .rhob s = Z.C.eps0 * ∑ a, Z.C.rd a * ((Z.M.edge a s).eps a * G6 (.e a) s -
          (Z.M.edge a (prev (sizeOf Z.D) a s)).eps a * G6 (.e a) (prev (sizeOf Z.D) a s)) - G6 .rhof s := by
        show (Z.M.node s).nonconductive * _ = _
        rw [hn, one_mul]
      rw [e, hn]
      have := hZ'.eps0
      field_simp
      ring
  have rf6 : Holds Z.D Z.F m6 G6 .rhof := fun r c hc =>
    (f6 r _ (by simp) (by simp)).trans (q5 r c (Field.entOn_node.1.mp hc))
  have d7 := fun r c hc => (compute_div_e_global hZ.box.ok Z.t0 hZ.box.grid hZ.box.cells hZ.resolved hZ.consts hZ.made
    (G := G6) e6 rf6 b6 i8 r c hc).trans (gz _)
  have e30 := rms_e_zero hZ.fits hrt i9 d7
  have id8 := clean_e_idle hZ.fits i10 d7
  obtain ⟨e7, f7⟩ := div_e_frame hZ.fits i8
  have f78 : ∀ r x, (∀ a, x.2 ≠ .e a) → x.2 ≠ .divE → m8 r x = m6 r x := fun r x h1 h2 => by
    rw [id8, f7 r x h2 h1]
  have h8 : HeldBy Z ⟨σ.R, σ.st, m8⟩ G6 :=
    { e := fun a r c hc => (id8 r _).trans (e7 G6 a (e6 a) r c hc)
      cb := fun a r c hc => (f78 r _ (by simp) (by simp)).trans
        ((f6 r _ (by simp) (by simp)).trans ((f5 r _ (by simp) (by simp)).trans (b4 a r c hc)))
      tca := fun a r c hc => (f78 r _ (by simp) (by simp)).trans
        ((f6 r _ (by simp) (by simp)).trans ((f5 r _ (by simp) (by simp)).trans (t4 a r c hc)))
      rhob := fun r c hc => (f78 r _ (by simp) (by simp)).trans (b6 r c hc)
      div := fun s => by
        have := div_curlH (sizeOf Z.D) Z.C Z.M G3 s
        have e : divTca (sizeOf Z.D) Z.C G6 s = Z.C.cvac * Z.C.dt *
            ∑ a, Z.C.rd a * (curlH (sizeOf Z.D) Z.C Z.M G3 a s - curlH (sizeOf Z.D) Z.C Z.M G3 a (prev (sizeOf Z.D) a s)) := by
          show ∑ a, Z.C.rd a * (Z.C.cvac * Z.C.dt * curlH (sizeOf Z.D) Z.C Z.M G3 a s -
            Z.C.cvac * Z.C.dt * curlH (sizeOf Z.D) Z.C Z.M G3 a (prev (sizeOf Z.D) a s)) = _
          rw [Finset.mul_sum]
          exact Finset.sum_congr rfl fun a _ => by ring
        rw [e, this]
        ring }
  have wr : withRho Z ⟨σ.R, σ.st, m8⟩ G6 = G6 := by
    funext k s
    cases k <;> rfl
  have x8 : Exact Z ⟨σ.R, σ.st, m8⟩ := ⟨.of_fields h h8, G6, h8, fun r c _ => by rw [wr]; exact gz _⟩
  obtain ⟨⟨r9, G9, g9, z9⟩, e40⟩ := sync_exact hZ x8 i11
  obtain ⟨s1, s2, s3⟩ := shuffle_gauss r9 g9 i12
  obtain ⟨-, k9, -⟩ := sync_keeps hZ.box.ok Z.t0 hZ.box.grid hZ.box.cells i11 h8.shared
  refine ⟨⟨s1, G9, s2, fun r c hc => by rw [s3]; exact z9 r c hc⟩, e1, e2, by rw [e30, e40], m1, m2, m3, i2, i3, i4,
    fun r a c hc => ?_⟩
  rw [i12.m]
  exact (k9 _ (.inr (.inl ⟨a, rfl⟩)) r c (Field.entOn_face.mpr hc)).trans (g3 a r c (Field.entOn_face.mpr hc)).symm

lemma runs_exact [Archimedean K] {n : ℕ} {Z : Setup K S n} (hZ : Z.Ok) {rt : K → K} (hrt : rt 0 = 0) {A : Settings}
    {i j : ℤ} {σ σ' : State K S n} {l : List (Msg K)} (h : Exact Z σ) (hr : Runs Z rt A i σ j σ' l) :
    Exact Z σ' ∧ Silent l := by
  induction hr with
  | refl => exact ⟨h, .nil⟩
  | step _ ha ih =>
    obtain ⟨x1, y1⟩ := ih
    obtain ⟨x2, y2⟩ := advance_exact hZ hrt x1 ha
    exact ⟨x2, y1.append y2⟩

/-- **C82.**  A run keeps Gauss's law exactly.  Start from any fields, even fields on which the ranks do not agree, and any
particles inside the box; let `initialize` run, then any number of calls of `advance`, with any settings of cleaning and
synchronisation, any number of ranks and threads.  Then at any time: the error of Gauss's law that the program would report is
zero at every node; every rms error of E it has printed is zero; and after the first check every desynchronisation error it
has printed is zero. -/
theorem run_keeps_gauss [Archimedean K] {n : ℕ} {Z : Setup K S n} (hZ : Z.Ok) (hZ' : Z.Physical) {rt : K → K} (hrt : rt 0 = 0)
    {A : Settings} {σ0 σ1 σ : State K S n} (h : Placed Z σ0) {l1 l : List (Msg K)} (hi : Initialize Z rt σ0 σ1 l1) {step : ℤ}
    (hr : Runs Z rt A 0 σ1 step σ l) :
    (∀ err, Reports Z σ err → ∀ r c, NodeOn (Z.F r).g c → err r c = 0) ∧
    (∃ e1 e2, l1 = [.sync e1, .divB e2, .divE 0, .sync 0]) ∧ Silent l ∧ Ready Z σ := by
  obtain ⟨x1, e1, e2, y1, -⟩ := initialize_exact hZ hZ' hrt h hi
  obtain ⟨⟨r2, G, hG, h0⟩, y2⟩ := runs_exact hZ hrt x1 hr
  exact ⟨fun err he r c hc => by rw [reports_global hZ r2 hG he r c hc, h0 r c hc], ⟨e1, e2, y1⟩, y2, r2⟩

end

end Verif.Torus
