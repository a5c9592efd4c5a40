import Verif.Field.Results
import Verif.Field.GhostProps

/-!
# The field kernels as called by the user

Each kernel of the standard field solver as a relation between the field memory before and after the
call, for every interleaving of the pipelines and every accurate rounding of the work distribution.
-/
namespace Verif.Field

open Grid

variable {K : Type*} [Field K]

/-- `advance_b`, /repo/src/field_advance/standard/pipeline/advance_b_pipeline.cc:51-125. -/
def AdvanceB (E : Env K) (R : Distribute.Rounding) (P : ℕ) (frac : K) (m m' : FMem K) : Prop :=
  ∃ adj m1, localAdjustNormB E = some adj ∧
    Phase R E.g (fun _ => 1) (dims E.g) P xyz (updateCB E frac) ((hostFaces E.g).map (updateCB E frac)) m m1 ∧
    m' = runSeq adj m1

/-- An edge sweep with its final adjust: `advance_e` (`k = updateE E`) and `vacuum_advance_e`
(`k = updateEVacuum E`), pipeline/advance_e_pipeline.cc:50-331, which stop with an error unless `frac` is one;
`compute_curl_b` and `vacuum_compute_curl_b`, pipeline/compute_curl_b_pipeline.cc:50-327. -/
def EdgeKernel (E : Env K) (R : Distribute.Rounding) (P : ℕ) (k : Fin 3 × Pos → Step K)
    (recv : Fin 3 × Bool → Option (List K)) (m m' : FMem K) : Prop :=
  ∃ adj m1, localAdjustTangE E = some adj ∧ EdgeSweep E R P k recv m m1 ∧ m' = runSeq adj m1

/-- `advance_e` and `vacuum_advance_e` with their argument `frac`, advance_e.cc:9-25. -/
def AdvanceE (E : Env K) (R : Distribute.Rounding) (P : ℕ) (k : Fin 3 × Pos → Step K) (frac : K)
    (recv : Fin 3 × Bool → Option (List K)) (m m' : FMem K) : Prop :=
  frac = 1 ∧ EdgeKernel E R P k recv m m'

/-- `compute_div_e_err` and `vacuum_compute_div_e_err`, pipeline/compute_div_e_err_pipeline.cc:38-173. -/
def ComputeDivE (E : Env K) (R : Distribute.Rounding) (P : ℕ) (k : Pos → Step K)
    (recv : Fin 3 × Bool → Option (List K)) (m m' : FMem K) : Prop :=
  ∃ adj m1, localAdjustDivE E = some adj ∧ NodeSweep E R P k recv m m1 ∧ m' = runSeq adj m1

/-- `compute_rhob` and `vacuum_compute_rhob`, pipeline/compute_rhob_pipeline.cc:39-174. -/
def ComputeRhob (E : Env K) (R : Distribute.Rounding) (P : ℕ) (k : Pos → Step K)
    (recv : Fin 3 × Bool → Option (List K)) (m m' : FMem K) : Prop :=
  ∃ adj m1, localAdjustRhob E = some adj ∧ NodeSweep E R P k recv m m1 ∧ m' = runSeq adj m1

/-- `clean_div_e` and `vacuum_clean_div_e`, pipeline/clean_div_e_pipeline.cc:38-115. -/
def CleanDivE (E : Env K) (R : Distribute.Rounding) (P : ℕ) (k : Fin 3 × Pos → Step K) (m m' : FMem K) :
    Prop :=
  ∃ adj m1, localAdjustTangE E = some adj ∧
    Phase R E.g (fun _ => 1) (dims E.g) P xyz k ((hostEdges E.g).map k) m m1 ∧ m' = runSeq adj m1

/-- `compute_div_b_err`, pipeline/compute_div_b_err_pipeline.cc:68-90. -/
def ComputeDivB (E : Env K) (R : Distribute.Rounding) (P : ℕ) (m m' : FMem K) : Prop :=
  Phase R E.g (fun _ => 1) (dims E.g) P (fun c => [c]) (updateDivB E) [] m m'

/-- `clean_div_b`, pipeline/clean_div_b_pipeline.cc:124-328. -/
def CleanDivB (E : Env K) (R : Distribute.Rounding) (P : ℕ)
    (recv : Fin 3 × Bool → Option (List K)) (m m' : FMem K) : Prop :=
  ∃ adj m1, localAdjustNormB E = some adj ∧ FaceSweep E R P (marderB E) recv m m1 ∧
    m' = runSeq adj m1

/-! ### Ghosts -/

/-- The ghosts a kernel fills before the surface is updated. -/
structure Filled (E : Env K) (loc : Option (List (Step K))) (slots : Slots)
    (recv : Fin 3 × Bool → Option (List K)) (m mg : FMem K) : Prop where
  ex : ∃ lg rs, loc = some lg ∧ endRemote E slots recv = some rs ∧ mg = runSeq rs (runSeq lg m)

/-- The face is normal to a wall with the `symmetric_fields` code and lies on it. -/
def OnSymmetric (E : Env K) (a : Fin 3) (c : Pos) : Prop :=
  ∃ s, s.1 = a ∧ OnWall E s c ∧ sideBC E.g s = symmetricFields

/-- Outside of ghosts nothing is filled. -/
lemma endRemote_frame {E : Env K} {slots : Slots} {recv : Fin 3 × Bool → Option (List K)}
    {rs : List (Step K)} (h : endRemote E slots recv = some rs) (kind : FC → Prop)
    (hk : ∀ X w, ∀ q ∈ slots E.g X w, kind q.2) (m : FMem K) (x : Addr) (hx : ¬ Ghost E.g slots x) :
    runSeq rs m x = m x := by
  have hl := endRemote_local h kind hk
  revert hl
  clear h
  induction rs generalizing m with
  | nil => intro _; rfl
  | cons f rs ih =>
    intro hl
    rw [runSeq_cons, ih (m := f m) (fun g hg => hl g (by simp [hg]))]
    exact (hl f (by simp)).frame m x hx

/-- Where nothing is filled: the local mesh. -/
lemma not_ghostTangB {E : Env K} (hg : Mesh E.g) {a : Fin 3} {c : Pos} (hc : FaceOn E.g a c) :
    ¬ Ghost E.g slotsTangB (vox E.g c, .cb a) := by
  rintro ⟨s, q, hq, he⟩
  have hp := hg.pos s.1
  have hin : InArray E.g q.1 := (slotsTangB_plane _).inArr s.1 _ (by unfold fillPlane; split <;> omega)
    (by unfold fillPlane; split <;> omega) q hq
  have hpl := (slotsTangB_plane _).plane _ _ q hq
  have e1 := vox_inj hc.inArray hin (Prod.mk.inj he).1
  have e2 := (Prod.mk.inj he).2
  have hne : a ≠ s.1 := by
    obtain ⟨n1, n2, n3⟩ := add_one_ne s.1
    simp only [slotsTangB, List.mem_append, List.mem_map] at hq
    rcases hq with ⟨d, -, rfl⟩ | ⟨d, -, rfl⟩ <;> simp only [FC.cb.injEq] at e2 <;> subst e2
    · exact n1
    · exact n2
  have h1 := hc s.1
  rw [e1, hpl, if_neg (Ne.symm hne)] at h1
  unfold fillPlane at h1
  split at h1 <;> omega

/-- Filling the ghosts of the tangential magnetic field leaves everything but ghosts alone. -/
lemma filled_tang_b {E : Env K} (hg : Mesh E.g) {recv : Fin 3 × Bool → Option (List K)}
    {m mg : FMem K} (h : Filled E (localGhostTangB E) slotsTangB recv m mg) :
    (∀ a c, FaceOn E.g a c → mg (vox E.g c, .cb a) = m (vox E.g c, .cb a)) ∧
    ∀ x, (∀ a, x.2 ≠ .cb a) → mg x = m x := by
  obtain ⟨lg, rs, h1, h2, rfl⟩ := h.ex
  have hl := (ghost_tang_b hg h1 m).2
  constructor
  · intro a c hc
    rw [endRemote_frame h2 (fun k => ∃ b, k = FC.cb b) (slotsTangB_kind E.g) _ _ (not_ghostTangB hg hc)]
    apply hl
    rintro s d b hw hne hd e
    simp only [Prod.mk.injEq, FC.cb.injEq] at e
    obtain ⟨e1, rfl⟩ := e
    have e2 := vox_inj hc.inArray (hd.inArray hg) e1
    have h3 := hc s.1
    rw [e2, hd.1, if_neg (Ne.symm hne)] at h3
    unfold ghostOf at h3
    split at h3 <;> omega
  · intro x hx
    rw [endRemote_frame h2 (fun k => ∃ b, k = FC.cb b) (slotsTangB_kind E.g)]
    · apply hl
      rintro s d b _ _ _ rfl
      exact hx b rfl
    · rintro ⟨s, q, hq, rfl⟩
      obtain ⟨b, hb⟩ := slotsTangB_kind _ _ _ q hq
      exact hx b hb

/-- Filling the ghosts of the normal electric field leaves everything but ghosts alone. -/
lemma filled_norm_e {E : Env K} (hg : Mesh E.g) {recv : Fin 3 × Bool → Option (List K)}
    {m mg : FMem K} (h : Filled E (localGhostNormE E) slotsNormE recv m mg) :
    (∀ a c, EdgeOn E.g a c → mg (vox E.g c, .e a) = m (vox E.g c, .e a)) ∧
    ∀ x, (∀ a, x.2 ≠ .e a ∧ x.2 ≠ .tca a) → mg x = m x := by
  obtain ⟨lg, rs, h1, h2, rfl⟩ := h.ex
  have hl := (ghost_norm_e hg h1 m).2
  constructor
  · intro a c hc
    rw [endRemote_frame h2 (fun k => ∃ b, k = FC.e b) (slotsNormE_kind E.g)]
    · apply hl
      rintro s d hw hd
      refine ⟨?_, by simp⟩
      intro e
      simp only [Prod.mk.injEq, FC.e.injEq] at e
      obtain ⟨e1, rfl⟩ := e
      have e2 := vox_inj hc.inArray (hd.inArray hg) e1
      have h3 := hc s.1
      rw [e2, hd.1, if_pos rfl] at h3
      unfold ghostOf at h3
      split at h3 <;> omega
    · rintro ⟨s, q, hq, he⟩
      have hp := hg.pos s.1
      have hin : InArray E.g q.1 := (slotsNormE_plane _).inArr s.1 _ (by unfold fillPlane; split <;> omega)
        (by unfold fillPlane; split <;> omega) q hq
      have hpl := (slotsNormE_plane _).plane _ _ q hq
      have e1 := vox_inj hc.inArray hin (Prod.mk.inj he).1
      have e2 := (Prod.mk.inj he).2
      simp only [slotsNormE, List.mem_map] at hq
      obtain ⟨d, -, rfl⟩ := hq
      simp only [FC.e.injEq] at e2
      subst e2
      have h3 := hc s.1
      rw [e1, hpl, if_pos rfl] at h3
      unfold fillPlane at h3
      split at h3 <;> omega
  · intro x hx
    rw [endRemote_frame h2 (fun k => ∃ b, k = FC.e b) (slotsNormE_kind E.g)]
    · apply hl
      rintro s d _ _
      constructor <;> rintro rfl
      · exact (hx _).1 rfl
      · exact (hx _).2 rfl
    · rintro ⟨s, q, hq, rfl⟩
      obtain ⟨b, hb⟩ := slotsNormE_kind _ _ _ q hq
      exact (hx b).1 hb

/-- Filling the ghosts of the divergence error leaves everything but ghosts alone. -/
lemma filled_div_b {E : Env K} (hg : Mesh E.g) {recv : Fin 3 × Bool → Option (List K)}
    {m mg : FMem K} (h : Filled E (localGhostDivB E) slotsDivB recv m mg) :
    (∀ c, CellOn E.g c → mg (vox E.g c, .divB) = m (vox E.g c, .divB)) ∧
    ∀ x, x.2 ≠ .divB → mg x = m x := by
  obtain ⟨lg, rs, h1, h2, rfl⟩ := h.ex
  have hl := (ghost_div_b hg h1 m).2
  constructor
  · intro c hc
    rw [endRemote_frame h2 (fun k => k = FC.divB) (slotsDivB_kind E.g) _ _
      (not_ghost hg (slotsDivB_plane _) hc _)]
    apply hl
    rintro s d hw hd e
    have e2 := vox_inj hc.inArray (hd.inArray hg) (Prod.mk.inj e).1
    have h3 := hc s.1
    rw [e2, hd.1] at h3
    unfold ghostOf at h3
    split at h3 <;> omega
  · intro x hx
    rw [endRemote_frame h2 (fun k => k = FC.divB) (slotsDivB_kind E.g)]
    · apply hl
      rintro s d _ _ rfl
      exact hx rfl
    · rintro ⟨s, q, hq, rfl⟩
      exact hx (slotsDivB_kind _ _ _ q hq)

/-! ### Results -/

/-- `advance_b`: every face of the local mesh is advanced once, from the field at the call; on symmetric
walls the result is zero; nothing else changes. -/
theorem advance_b_result {E : Env K} (hg : Mesh E.g) {R : Distribute.Rounding} (hR : R.Accurate)
    {P : ℕ} (hP : 0 < P) (hP2 : P ≤ 2 ^ 16) {frac : K} {m m' : FMem K} (h : AdvanceB E R P frac m m') :
    (∀ a c, FaceOn E.g a c → OnSymmetric E a c → m' (vox E.g c, .cb a) = 0) ∧
    (∀ a c, FaceOn E.g a c → ¬ OnSymmetric E a c → m' (vox E.g c, .cb a) = cbVal E frac a c m) ∧
    ∀ x, (∀ a c, FaceOn E.g a c → x ≠ (vox E.g c, .cb a)) → m' x = m x := by
  obtain ⟨adj, m1, hadj, hph, rfl⟩ := h
  obtain ⟨s1, s2⟩ := plain_sweep_result hg hR hP hP2 (FaceOn E.g) FC.cb (fun a b h => by simpa using h)
    (fun k => ∃ b, k = FC.e b) (by rintro a ⟨b, hb⟩; simp at hb) (updateCB_local E frac)
    (hostFaces E.g) (hostFaces_nodup E.g) (fun a c h => hostFaces_out h) (fun a c => faces_host hg)
    (fun a c h => h.inArray) hph
  obtain ⟨w1, w2⟩ := norm_b_zero_on_symmetric hg hadj m1
  refine ⟨?_, ?_, ?_⟩
  · rintro a c hc ⟨s, rfl, hw, hbc⟩
    exact w1 s c hc hw hbc
  · intro a c hc hn
    rw [w2, s1 a c hc]
    · simp [updateCB, setAt]
    · rintro s d hd hw hbc e
      simp only [Prod.mk.injEq, FC.cb.injEq] at e
      obtain ⟨e1, rfl⟩ := e
      have := vox_inj hc.inArray hd.inArray e1
      subst this
      exact hn ⟨s, rfl, hw, hbc⟩
  · intro x hx
    rw [w2, s2 x hx]
    rintro s d hd hw hbc
    exact hx s.1 d hd

/-- The edge kernels: every edge of the local mesh is updated once, from the field with its ghosts filled;
on conducting walls the result is zero; nothing else changes but ghosts. -/
theorem edge_kernel_result {E : Env K} (hg : Mesh E.g) {R : Distribute.Rounding} (hR : R.Accurate)
    {P : ℕ} (hP : 0 < P) (hP2 : P ≤ 2 ^ 16) {k : Fin 3 × Pos → Step K}
    (hk : ∀ o, Local (V := fun _ => K) (EW E.g o) (ERd E.g o) (k o))
    {recv : Fin 3 × Bool → Option (List K)} {m m' : FMem K} (h : EdgeKernel E R P k recv m m') :
    ∃ mg, Filled E (localGhostTangB E) slotsTangB recv m mg ∧
      (∀ a c, EdgeOn E.g a c → OnConductor E a c → m' (vox E.g c, .e a) = 0 ∧ m' (vox E.g c, .tca a) = 0) ∧
      (∀ a c, EdgeOn E.g a c → ¬ OnConductor E a c →
        m' (vox E.g c, .e a) = k (a, c) mg (vox E.g c, .e a) ∧
        m' (vox E.g c, .tca a) = k (a, c) mg (vox E.g c, .tca a)) ∧
      ∀ x, (∀ a c, EdgeOn E.g a c → ¬ EW E.g (a, c) x) → m' x = mg x := by
  obtain ⟨adj, m1, hadj, hsw, rfl⟩ := h
  obtain ⟨lg, rs, hlg, hrs, s1, s2⟩ := edge_sweep_result hg hR hP hP2 hk hsw
  obtain ⟨w1, w2⟩ := tang_e_zero_on_conductor hg hadj m1
  refine ⟨_, ⟨lg, rs, hlg, hrs, rfl⟩, w1, ?_, ?_⟩
  · intro a c hc hn
    have key : ∀ x, EW E.g (a, c) x → runSeq adj m1 x = k (a, c) (runSeq rs (runSeq lg m)) x := by
      intro x hx
      rw [w2, s1 a c hc x hx]
      intro b d hd hcon hx'
      by_cases he : (a, c) = (b, d)
      · obtain ⟨rfl, rfl⟩ := Prod.mk.inj he
        exact hn hcon
      · exact EW_disjoint (o := (a, c)) (o' := (b, d)) hc.inArray hd.inArray he x hx hx'
    exact ⟨key _ (Or.inl rfl), key _ (Or.inr rfl)⟩
  · intro x hx
    rw [w2, s2 x hx]
    intro b d hd _
    exact hx b d hd

/-- `compute_div_e_err`: every node is computed once, from the field with its ghosts filled; on conducting and
absorbing walls the result is zero; nothing else changes but ghosts. -/
theorem compute_div_e_result {E : Env K} (hg : Mesh E.g) {R : Distribute.Rounding} (hR : R.Accurate)
    {P : ℕ} (hP : 0 < P) (hP2 : P ≤ 2 ^ 16) {k : Pos → Step K}
    (hk : ∀ c, Local (V := fun _ => K) (fun y => y = (vox E.g c, .divE)) (NRd E.g .divE c) (k c))
    {recv : Fin 3 × Bool → Option (List K)} {m m' : FMem K} (h : ComputeDivE E R P k recv m m') :
    ∃ mg, Filled E (localGhostNormE E) slotsNormE recv m mg ∧
      (∀ c, NodeOn E.g c → (∃ s, OnWall E s c ∧ (sideBC E.g s = antiSymmetricFields ∨
        sideBC E.g s = absorbFields)) → m' (vox E.g c, .divE) = 0) ∧
      (∀ c, NodeOn E.g c → (∀ s, OnWall E s c → ¬ (sideBC E.g s = antiSymmetricFields ∨
        sideBC E.g s = absorbFields)) → m' (vox E.g c, .divE) = k c mg (vox E.g c, .divE)) ∧
      ∀ x, (∀ c, NodeOn E.g c → x ≠ (vox E.g c, .divE)) → m' x = mg x := by
  obtain ⟨adj, m1, hadj, hsw, rfl⟩ := h
  obtain ⟨lg, rs, hlg, hrs, s1, s2⟩ := node_sweep_result hg hR hP hP2 (Or.inl rfl) hk hsw
  obtain ⟨w1, w2, w3⟩ := div_e_zero_on_walls hg hadj m1
  refine ⟨_, ⟨lg, rs, hlg, hrs, rfl⟩, w1, ?_, ?_⟩
  · intro c hc hn
    rw [w2 c hc hn, s1 c hc]
  · intro x hx
    rw [w3 x (fun c s hc _ => hx c hc), s2 x hx]

/-- `compute_rhob`: likewise, with zero on conducting walls. -/
theorem compute_rhob_result {E : Env K} (hg : Mesh E.g) {R : Distribute.Rounding} (hR : R.Accurate)
    {P : ℕ} (hP : 0 < P) (hP2 : P ≤ 2 ^ 16) {k : Pos → Step K}
    (hk : ∀ c, Local (V := fun _ => K) (fun y => y = (vox E.g c, .rhob)) (NRd E.g .rhob c) (k c))
    {recv : Fin 3 × Bool → Option (List K)} {m m' : FMem K} (h : ComputeRhob E R P k recv m m') :
    ∃ mg, Filled E (localGhostNormE E) slotsNormE recv m mg ∧
      (∀ c, NodeOn E.g c → (∃ s, OnWall E s c ∧ sideBC E.g s = antiSymmetricFields) →
        m' (vox E.g c, .rhob) = 0) ∧
      (∀ c, NodeOn E.g c → (∀ s, OnWall E s c → sideBC E.g s ≠ antiSymmetricFields) →
        m' (vox E.g c, .rhob) = k c mg (vox E.g c, .rhob)) ∧
      ∀ x, (∀ c, NodeOn E.g c → x ≠ (vox E.g c, .rhob)) → m' x = mg x := by
  obtain ⟨adj, m1, hadj, hsw, rfl⟩ := h
  obtain ⟨lg, rs, hlg, hrs, s1, s2⟩ := node_sweep_result hg hR hP hP2 (Or.inr rfl) hk hsw
  obtain ⟨w1, w2, w3⟩ := rhob_zero_on_conductor hg hadj m1
  refine ⟨_, ⟨lg, rs, hlg, hrs, rfl⟩, w1, ?_, ?_⟩
  · intro c hc hn
    rw [w2 c hc hn, s1 c hc]
  · intro x hx
    rw [w3 x (fun c s hc _ => hx c hc), s2 x hx]

/-- `clean_div_e`: every edge is corrected once from the errors at the call; on conducting walls the result is
zero; nothing else changes, but the damping term on conducting walls is cleared. -/
theorem clean_div_e_result {E : Env K} (hg : Mesh E.g) {R : Distribute.Rounding} (hR : R.Accurate)
    {P : ℕ} (hP : 0 < P) (hP2 : P ≤ 2 ^ 16) {k : Fin 3 × Pos → Step K}
    (hk : ∀ o, Local (V := fun _ => K) (fun y => y = (vox E.g o.2, .e o.1)) (fun y => y.2 = .divE) (k o))
    {m m' : FMem K} (h : CleanDivE E R P k m m') :
    (∀ a c, EdgeOn E.g a c → OnConductor E a c → m' (vox E.g c, .e a) = 0) ∧
    (∀ a c, EdgeOn E.g a c → ¬ OnConductor E a c →
      m' (vox E.g c, .e a) = k (a, c) m (vox E.g c, .e a)) ∧
    ∀ x, (∀ a c, EdgeOn E.g a c → ¬ EW E.g (a, c) x) → m' x = m x := by
  obtain ⟨adj, m1, hadj, hph, rfl⟩ := h
  obtain ⟨s1, s2⟩ := plain_sweep_result hg hR hP hP2 (EdgeOn E.g) FC.e (fun a b h => by simpa using h)
    (fun k => k = FC.divE) (by rintro a ha; simp at ha) hk
    (hostEdges E.g) (hostEdges_nodup E.g) (fun a c h => hostEdges_out h) (fun a c => edges_host hg)
    (fun a c h => h.inArray) hph
  obtain ⟨w1, w2⟩ := tang_e_zero_on_conductor hg hadj m1
  refine ⟨fun a c hc hn => (w1 a c hc hn).1, ?_, ?_⟩
  · intro a c hc hn
    rw [w2, s1 a c hc]
    intro b d hd hcon hx
    rcases hx with hx | hx
    · simp only [Prod.mk.injEq, FC.e.injEq] at hx
      obtain ⟨e1, rfl⟩ := hx
      have := vox_inj hc.inArray hd.inArray e1
      subst this
      exact hn hcon
    · simp at hx
  · intro x hx
    rw [w2, s2 x fun a c hc e => hx a c hc (Or.inl e)]
    intro b d hd _
    exact hx b d hd

/-- `clean_div_b`: every face is corrected once from the errors at the call and those received; on symmetric
walls the result is zero; nothing else changes but ghosts. -/
theorem clean_div_b_result {E : Env K} (hg : Mesh E.g) {R : Distribute.Rounding} (hR : R.Accurate)
    {P : ℕ} (hP : 0 < P) (hP2 : P ≤ 2 ^ 16)
    {recv : Fin 3 × Bool → Option (List K)} {m m' : FMem K} (h : CleanDivB E R P recv m m') :
    ∃ mg, Filled E (localGhostDivB E) slotsDivB recv m mg ∧
      (∀ a c, FaceOn E.g a c → OnSymmetric E a c → m' (vox E.g c, .cb a) = 0) ∧
      (∀ a c, FaceOn E.g a c → ¬ OnSymmetric E a c →
        m' (vox E.g c, .cb a) = marderB E (a, c) mg (vox E.g c, .cb a)) ∧
      ∀ x, (∀ a c, FaceOn E.g a c → x ≠ (vox E.g c, .cb a)) → m' x = mg x := by
  obtain ⟨adj, m1, hadj, hsw, rfl⟩ := h
  obtain ⟨lg, rs, hlg, hrs, s1, s2⟩ := face_sweep_result hg hR hP hP2 hsw
  obtain ⟨w1, w2⟩ := norm_b_zero_on_symmetric hg hadj m1
  refine ⟨_, ⟨lg, rs, hlg, hrs, rfl⟩, ?_, ?_, ?_⟩
  · rintro a c hc ⟨s, rfl, hw, hbc⟩
    exact w1 s c hc hw hbc
  · intro a c hc hn
    rw [w2, s1 a c hc]
    rintro s d hd hw hbc e
    simp only [Prod.mk.injEq, FC.cb.injEq] at e
    obtain ⟨e1, rfl⟩ := e
    have := vox_inj hc.inArray hd.inArray e1
    subst this
    exact hn ⟨s, rfl, hw, hbc⟩
  · intro x hx
    rw [w2, s2 x hx]
    rintro s d hd hw hbc
    exact hx s.1 d hd

end Verif.Field
