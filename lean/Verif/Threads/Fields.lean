import Verif.Simd.FieldSame
import Verif.Torus.Run
import Verif.Interp.Props
import Verif.SfInterface.UnloadProps
import Verif.Threads.Exchange

/-!
# Fields and threads

Every kernel on the fields and every message between ranks gives one result, whatever the number of pipelines, the rounding of
the work distribution and the schedule.
-/
namespace Verif.Threads

open Grid Charge Torus
open Field
open Boundary (Rank Species live ids)
open Simd (advance_b_unique edge_kernel_unique clean_div_b_unique)

section
variable {K : Type*} [Field K]
variable {E : Env K} (hg : Mesh E.g) {R R' : Distribute.Rounding} (hR : R.Accurate) (hR' : R'.Accurate) {P P' : ℕ} (hP : 0 < P)
  (hP2 : P ≤ 2 ^ 16) (hP' : 0 < P') (hP2' : P' ≤ 2 ^ 16)
include hg hR hR' hP hP2 hP' hP2'

lemma compute_div_b_unique {m m1 m2 : FMem K} (h1 : ComputeDivB E R P m m1) (h2 : ComputeDivB E R' P' m m2) : m1 = m2 := by
  obtain ⟨a1, a2⟩ := cell_sweep_result hg hR hP hP2 h1
  obtain ⟨b1, b2⟩ := cell_sweep_result hg hR' hP' hP2' h2
  funext x
  by_cases hx : ∃ c, CellOn E.g c ∧ x = (vox E.g c, .divB)
  · obtain ⟨c, hc, rfl⟩ := hx
    rw [a1 c hc, b1 c hc]
  · push Not at hx
    rw [a2 x hx, b2 x hx]

lemma compute_div_e_unique {recv : Fin 3 × Bool → Option (List K)} {m m1 m2 : FMem K}
    (h1 : ComputeDivE E R P (updateDivE E) recv m m1) (h2 : ComputeDivE E R' P' (updateDivE E) recv m m2) : m1 = m2 := by
  obtain ⟨mg, f1, a1, a2, a3⟩ := compute_div_e_result hg hR hP hP2 (updateDivE_local E) h1
  obtain ⟨mg', f2, b1, b2, b3⟩ := compute_div_e_result hg hR' hP' hP2' (updateDivE_local E) h2
  obtain rfl : mg = mg' := by
    obtain ⟨lg, rs, e1, e2, rfl⟩ := f1.ex
    obtain ⟨lg', rs', e1', e2', rfl⟩ := f2.ex
    rw [e1] at e1'; rw [e2] at e2'
    rw [Option.some.inj e1', Option.some.inj e2']
  funext x
  by_cases hx : ∃ c, NodeOn E.g c ∧ x = (vox E.g c, .divE)
  · obtain ⟨c, hc, rfl⟩ := hx
    by_cases hs : ∃ s, OnWall E s c ∧ (sideBC E.g s = antiSymmetricFields ∨ sideBC E.g s = absorbFields)
    · rw [a1 c hc hs, b1 c hc hs]
    · push Not at hs
      rw [a2 c hc (fun s hw => by have := hs s hw; tauto), b2 c hc (fun s hw => by have := hs s hw; tauto)]
  · push Not at hx
    rw [a3 x hx, b3 x hx]

lemma compute_rhob_unique {recv : Fin 3 × Bool → Option (List K)} {m m1 m2 : FMem K}
    (h1 : ComputeRhob E R P (updateRhob E) recv m m1) (h2 : ComputeRhob E R' P' (updateRhob E) recv m m2) : m1 = m2 := by
  obtain ⟨mg, f1, a1, a2, a3⟩ := compute_rhob_result hg hR hP hP2 (updateRhob_local E) h1
  obtain ⟨mg', f2, b1, b2, b3⟩ := compute_rhob_result hg hR' hP' hP2' (updateRhob_local E) h2
  obtain rfl : mg = mg' := by
    obtain ⟨lg, rs, e1, e2, rfl⟩ := f1.ex
    obtain ⟨lg', rs', e1', e2', rfl⟩ := f2.ex
    rw [e1] at e1'; rw [e2] at e2'
    rw [Option.some.inj e1', Option.some.inj e2']
  funext x
  by_cases hx : ∃ c, NodeOn E.g c ∧ x = (vox E.g c, .rhob)
  · obtain ⟨c, hc, rfl⟩ := hx
    by_cases hs : ∃ s, OnWall E s c ∧ sideBC E.g s = antiSymmetricFields
    · rw [a1 c hc hs, b1 c hc hs]
    · push Not at hs
      rw [a2 c hc hs, b2 c hc hs]
  · push Not at hx
    rw [a3 x hx, b3 x hx]

lemma clean_div_e_unique {m m1 m2 : FMem K} (h1 : CleanDivE E R P (marderE E) m m1) (h2 : CleanDivE E R' P' (marderE E) m m2) :
    m1 = m2 := by
  obtain ⟨adj, n1, hadj, hph, rfl⟩ := h1
  obtain ⟨adj', n2, hadj', hph', rfl⟩ := h2
  rw [hadj] at hadj'
  obtain rfl := Option.some.inj hadj'
  congr 1
  obtain ⟨s1, s2⟩ := plain_sweep_result hg hR hP hP2 (EdgeOn E.g) FC.e (fun a b h => by simpa using h)
    (fun k => k = FC.divE) (by rintro a ha; simp at ha) (marderE_local E)
    (hostEdges E.g) (hostEdges_nodup E.g) (fun a c h => hostEdges_out h) (fun a c => edges_host hg)
    (fun a c h => h.inArray) hph
  obtain ⟨t1, t2⟩ := plain_sweep_result hg hR' hP' hP2' (EdgeOn E.g) FC.e (fun a b h => by simpa using h)
    (fun k => k = FC.divE) (by rintro a ha; simp at ha) (marderE_local E)
    (hostEdges E.g) (hostEdges_nodup E.g) (fun a c h => hostEdges_out h) (fun a c => edges_host hg)
    (fun a c h => h.inArray) hph'
  funext x
  by_cases hx : ∃ a c, EdgeOn E.g a c ∧ x = (vox E.g c, .e a)
  · obtain ⟨a, c, hc, rfl⟩ := hx
    rw [s1 a c hc, t1 a c hc]
  · push Not at hx
    rw [s2 x hx, t2 x hx]

omit hg in
lemma load_interpolator_unique {g : LGrid} (hg : Mesh g) {f : FMem K} {m m1 m2 : Interp.IMem K}
    (h1 : Interp.LoadInterpolator R g P f m m1) (h2 : Interp.LoadInterpolator R' g P' f m m2) : m1 = m2 := by
  obtain ⟨a1, a2⟩ := Interp.load_interpolator_result hR hg hP hP2 h1
  obtain ⟨b1, b2⟩ := Interp.load_interpolator_result hR' hg hP' hP2' h2
  funext v
  by_cases hx : ∃ c, CellOn g c ∧ v = vox g c
  · obtain ⟨c, hc, rfl⟩ := hx
    rw [a1 c hc, b1 c hc]
  · push Not at hx
    rw [a2 v hx, b2 v hx]

omit hg in
lemma unload_accumulator_unique {g : LGrid} (hg : Mesh g) {sc : SfInterface.Scales K} {a : MoveP.Accum K} {m m1 m2 : FMem K}
    (h1 : SfInterface.UnloadAccumulator R g P sc a m m1) (h2 : SfInterface.UnloadAccumulator R' g P' sc a m m2) : m1 = m2 := by
  obtain ⟨a1, a2⟩ := SfInterface.unload_accumulator_result hR hg hP hP2 h1
  obtain ⟨b1, b2⟩ := SfInterface.unload_accumulator_result hR' hg hP' hP2' h2
  funext x
  by_cases hx : ∃ c k, NodeOn g c ∧ x = (vox g c, FC.jf k)
  · obtain ⟨c, k, hc, rfl⟩ := hx
    rw [a1 c hc, b1 c hc]
  · push Not at hx
    rw [a2 x hx, b2 x hx]

end

/-! ### Messages -/

section
variable {K : Type*} [Field K] [LinearOrder K] {n : ℕ} {W : World K n}

lemma syncPass_unique {C : Type*} [DecidableEq C] {O : SyncOp C K} {X : Fin 3} {s s1 s2 : Fin n → CMem C K × K}
    (h1 : SyncPass W O X s s1) (h2 : SyncPass W O X s s2) : s1 = s2 := by
  funext r
  exact Option.some.inj ((h1 r).symm.trans (h2 r))

lemma syncPasses_unique {C : Type*} [DecidableEq C] {O : SyncOp C K} {s s1 s2 : Fin n → CMem C K × K}
    (h1 : SyncPasses W O s s1) (h2 : SyncPasses W O s s2) : s1 = s2 := by
  obtain ⟨a, b, p, q, t⟩ := h1
  obtain ⟨a', b', p', q', t'⟩ := h2
  obtain rfl := syncPass_unique p p'
  obtain rfl := syncPass_unique q q'
  exact syncPass_unique t t'

lemma sync_tang_unique {m m1 m2 : Fin n → FMem K} {e1 e2 : K} (h1 : SynchronizeTangENormB W m m1 e1)
    (h2 : SynchronizeTangENormB W m m2 e2) : m1 = m2 ∧ e1 = e2 := by
  obtain ⟨ae, ab, a, st, p, q, rfl⟩ := h1
  obtain ⟨ae', ab', a', st', p', q', rfl⟩ := h2
  obtain rfl : ae = ae' := funext fun r => Option.some.inj ((a r).1.symm.trans (a' r).1)
  obtain rfl : ab = ab' := funext fun r => Option.some.inj ((a r).2.symm.trans (a' r).2)
  obtain rfl := syncPasses_unique p p'
  exact ⟨funext fun r => (q r).trans (q' r).symm, rfl⟩

lemma sync_jf_unique {m m1 m2 : Fin n → FMem K} (h1 : SynchronizeJf W m m1) (h2 : SynchronizeJf W m m2) : m1 = m2 := by
  obtain ⟨a, ha, st, p, q⟩ := h1
  obtain ⟨a', ha', st', p', q'⟩ := h2
  obtain rfl : a = a' := funext fun r => Option.some.inj ((ha r).symm.trans (ha' r))
  obtain rfl := syncPasses_unique p p'
  exact funext fun r => (q r).trans (q' r).symm

lemma sync_rho_unique {m m1 m2 : Fin n → FMem K} (h1 : SynchronizeRho W m m1) (h2 : SynchronizeRho W m m2) : m1 = m2 := by
  obtain ⟨ae, ab, a, st, p, q⟩ := h1
  obtain ⟨ae', ab', a', st', p', q'⟩ := h2
  obtain rfl : ae = ae' := funext fun r => Option.some.inj ((a r).1.symm.trans (a' r).1)
  obtain rfl : ab = ab' := funext fun r => Option.some.inj ((a r).2.symm.trans (a' r).2)
  obtain rfl := syncPasses_unique p p'
  exact funext fun r => (q r).trans (q' r).symm

end

/-! ### All ranks -/

section
variable {K : Type} {S : Type*} [Field K] [LinearOrder K] [IsStrictOrderedRing K]

omit [Field K] [LinearOrder K] [IsStrictOrderedRing K] in
lemma live_same {s t : Species K} (h : SameSp s t) : live s.p s.np = live t.p t.np := by
  rw [← h.np]
  refine List.map_congr_left fun i hi => ?_
  obtain ⟨h0, h1⟩ := SfInterface.upTo_mem.mp hi
  exact h.p i h0 h1

omit [IsStrictOrderedRing K] in
lemma rhoAll_same (g : LGrid) (r8V : K) {sp tp : ℕ → Species K} (h : ∀ id, SameSp (sp id) (tp id)) (l : List ℕ) :
    rhoAll g r8V sp l = rhoAll g r8V tp l := by
  induction l with
  | nil => rfl
  | cons id l ih =>
    funext ρ
    simp only [rhoAll]
    rw [(h id).q, live_same (h id), ih]

omit [IsStrictOrderedRing K] in
lemma measure_rho_unique {n : ℕ} {F : World K n} {r8V : K} {nsp : ℕ} {sp tp : Fin n → ℕ → Species K}
    (h : ∀ r id, SameSp (sp r id) (tp r id)) {m m1 m2 : Fin n → FMem K} (h1 : MeasureRho F r8V nsp sp m m1)
    (h2 : MeasureRho F r8V nsp tp m m2) : m1 = m2 := by
  obtain ⟨ρ, a, b⟩ := h1
  obtain ⟨ρ', a', b'⟩ := h2
  obtain rfl : ρ = ρ' := funext fun r => Option.some.inj ((a r).symm.trans (by rw [rhoAll_same _ _ (h r)]; exact a' r))
  exact sync_rho_unique b b'

variable {n : ℕ} {F : World K n} (hg : ∀ r, Mesh (F r).g)
include hg

omit [LinearOrder K] [IsStrictOrderedRing K] in
lemma ranksB_unique {frac : K} {m m1 m2 : Fin n → FMem K} (h1 : RanksB F frac m m1) (h2 : RanksB F frac m m2) : m1 = m2 := by
  funext r
  obtain ⟨R, P, a, b, c, d⟩ := h1 r
  obtain ⟨R', P', a', b', c', d'⟩ := h2 r
  exact advance_b_unique (hg r) a a' b c b' c' d d'

omit [LinearOrder K] [IsStrictOrderedRing K] in
lemma ranksE_unique {m m1 m2 : Fin n → FMem K} (h1 : RanksE F m m1) (h2 : RanksE F m m2) : m1 = m2 := by
  funext r
  obtain ⟨R, P, a, b, c, d⟩ := h1 r
  obtain ⟨R', P', a', b', c', d'⟩ := h2 r
  exact edge_kernel_unique (hg r) a a' b c b' c' (updateE_local _) d.2 d'.2

omit [LinearOrder K] [IsStrictOrderedRing K] in
lemma ranksDivE_unique {m m1 m2 : Fin n → FMem K} (h1 : RanksDivE F m m1) (h2 : RanksDivE F m m2) : m1 = m2 := by
  funext r
  obtain ⟨R, P, a, b, c, d⟩ := h1 r
  obtain ⟨R', P', a', b', c', d'⟩ := h2 r
  exact compute_div_e_unique (hg r) a a' b c b' c' d d'

omit hg

/-- Spec: two setups that differ at most in the number of pipelines and in the rounding of the work distribution. -/
structure Twins (Z Z' : Setup K S n) : Prop where
  same : Z' = { Z with Rd := Z'.Rd, P := Z'.P }
  mesh : ∀ r, Mesh (Z.F r).g
  rounding : Z.Rd.Accurate
  rounding' : Z'.Rd.Accurate
  threads : 0 < Z.P ∧ Z.P ≤ 2 ^ 16
  threads' : 0 < Z'.P ∧ Z'.P ≤ 2 ^ 16

omit [LinearOrder K] [IsStrictOrderedRing K] in
lemma Twins.world {Z Z' : Setup K S n} (h : Twins Z Z') : Z'.F = Z.F := by rw [h.same]

omit [LinearOrder K] [IsStrictOrderedRing K] in
lemma Twins.consts {Z Z' : Setup K S n} (h : Twins Z Z') : Z'.C = Z.C := by rw [h.same]

variable {Z Z' : Setup K S n} (h : Twins Z Z') {m m1 m2 : Fin n → FMem K}
include h

omit [LinearOrder K] [IsStrictOrderedRing K] in
lemma ranksDivB_unique (h1 : RanksDivB Z m m1) (h2 : RanksDivB Z' m m2) : m1 = m2 := by
  funext r
  have := h2 r
  rw [h.world] at this
  exact compute_div_b_unique (h.mesh r) h.rounding h.rounding' h.threads.1 h.threads.2 h.threads'.1 h.threads'.2 (h1 r) this

omit [LinearOrder K] [IsStrictOrderedRing K] in
lemma ranksCleanB_unique (h1 : RanksCleanB Z m m1) (h2 : RanksCleanB Z' m m2) : m1 = m2 := by
  funext r
  have := h2 r
  rw [h.world] at this
  exact clean_div_b_unique (h.mesh r) h.rounding h.rounding' h.threads.1 h.threads.2 h.threads'.1 h.threads'.2 (h1 r) this

omit [LinearOrder K] [IsStrictOrderedRing K] in
lemma ranksCleanE_unique (h1 : RanksCleanE Z m m1) (h2 : RanksCleanE Z' m m2) : m1 = m2 := by
  funext r
  have := h2 r
  rw [h.world] at this
  exact clean_div_e_unique (h.mesh r) h.rounding h.rounding' h.threads.1 h.threads.2 h.threads'.1 h.threads'.2 (h1 r) this

omit [LinearOrder K] [IsStrictOrderedRing K] in
lemma ranksCurl_unique (h1 : RanksCurl Z m m1) (h2 : RanksCurl Z' m m2) : m1 = m2 := by
  funext r
  have := h2 r
  rw [h.world] at this
  exact edge_kernel_unique (h.mesh r) h.rounding h.rounding' h.threads.1 h.threads.2 h.threads'.1 h.threads'.2
    (updateCurl_local _) (h1 r) this

omit [LinearOrder K] [IsStrictOrderedRing K] in
lemma ranksRhob_unique (h1 : RanksRhob Z m m1) (h2 : RanksRhob Z' m m2) : m1 = m2 := by
  funext r
  have := h2 r
  rw [h.world] at this
  exact compute_rhob_unique (h.mesh r) h.rounding h.rounding' h.threads.1 h.threads.2 h.threads'.1 h.threads'.2 (h1 r) this

lemma rmsE_unique {rt : K → K} {e1 e2 : K} (h1 : RmsE Z rt m e1) (h2 : RmsE Z' rt m e2) : e1 = e2 := by
  obtain ⟨l, a, rfl⟩ := h1
  obtain ⟨l', a', rfl⟩ := h2
  rw [h.consts]
  obtain rfl : l = l' := funext fun r => by
    have b := a r; have b' := a' r
    rw [h.world, rms_div_e_each_node_once (h.mesh r) h.rounding' h.threads'.1 h.threads'.2] at b'
    rw [rms_div_e_each_node_once (h.mesh r) h.rounding h.threads.1 h.threads.2, b'] at b
    exact (Option.some.inj b).symm
  rfl

omit [LinearOrder K] [IsStrictOrderedRing K] in
lemma rmsB_unique {rt : K → K} {e1 e2 : K} (h1 : RmsB Z rt m e1) (h2 : RmsB Z' rt m e2) : e1 = e2 := by
  obtain ⟨l, a, rfl⟩ := h1
  obtain ⟨l', a', rfl⟩ := h2
  rw [h.consts]
  obtain rfl : l = l' := funext fun r => by
    have b := a r; have b' := a' r
    rw [h.world, rms_div_b_each_cell_once (h.mesh r) h.rounding' h.threads'.1 h.threads'.2] at b'
    rw [rms_div_b_each_cell_once (h.mesh r) h.rounding h.threads.1 h.threads.2, b'] at b
    exact (Option.some.inj b).symm
  rfl

lemma roundsE_unique {rt : K → K} {N i : ℤ} {l1 : List (Msg K)} (h1 : RoundsE Z rt N i m m1 l1) : ∀ {m2 l2},
    RoundsE Z' rt N i m m2 l2 → m1 = m2 ∧ l1 = l2 := by
  induction h1 with
  | done hi =>
    intro m2 l2 h2
    cases h2 with
    | done => exact ⟨rfl, rfl⟩
    | loud hi' => exact absurd hi' hi
    | quiet hi' => exact absurd hi' hi
  | loud hi d w e c _ ih =>
    intro m2 l2 h2
    cases h2 with
    | done hi' => exact absurd hi hi'
    | loud _ d' _ e' c' t =>
      rw [h.world] at d'
      obtain rfl := ranksDivE_unique h.mesh d d'
      obtain rfl := rmsE_unique h e e'
      obtain rfl := ranksCleanE_unique h c c'
      obtain ⟨rfl, rfl⟩ := ih t
      exact ⟨rfl, rfl⟩
    | quiet _ _ w' => exact absurd w w'
  | quiet hi d w c _ ih =>
    intro m2 l2 h2
    cases h2 with
    | done hi' => exact absurd hi hi'
    | loud _ _ w' => exact absurd w' w
    | quiet _ d' _ c' t =>
      rw [h.world] at d'
      obtain rfl := ranksDivE_unique h.mesh d d'
      obtain rfl := ranksCleanE_unique h c c'
      exact ih t

omit [LinearOrder K] [IsStrictOrderedRing K] in
lemma roundsB_unique {rt : K → K} {N i : ℤ} {l1 : List (Msg K)} (h1 : RoundsB Z rt N i m m1 l1) : ∀ {m2 l2},
    RoundsB Z' rt N i m m2 l2 → m1 = m2 ∧ l1 = l2 := by
  induction h1 with
  | done hi =>
    intro m2 l2 h2
    cases h2 with
    | done => exact ⟨rfl, rfl⟩
    | loud hi' => exact absurd hi' hi
    | quiet hi' => exact absurd hi' hi
  | loud hi d w e c _ ih =>
    intro m2 l2 h2
    cases h2 with
    | done hi' => exact absurd hi hi'
    | loud _ d' _ e' c' t =>
      obtain rfl := ranksDivB_unique h d d'
      obtain rfl := rmsB_unique h e e'
      obtain rfl := ranksCleanB_unique h c c'
      obtain ⟨rfl, rfl⟩ := ih t
      exact ⟨rfl, rfl⟩
    | quiet _ _ w' => exact absurd w w'
  | quiet hi d w c _ ih =>
    intro m2 l2 h2
    cases h2 with
    | done hi' => exact absurd hi hi'
    | loud _ _ w' => exact absurd w' w
    | quiet _ d' _ c' t =>
      obtain rfl := ranksDivB_unique h d d'
      obtain rfl := ranksCleanB_unique h c c'
      exact ih t

lemma partE_unique {rt : K → K} {A : Settings} {step : ℤ} {R T : Fin n → Rank K S}
    (hs : ∀ r id, SameSp ((R r).sp id) ((T r).sp id)) {l1 l2 : List (Msg K)} (h1 : PartE Z rt A step R m m1 l1)
    (h2 : PartE Z' rt A step T m m2 l2) : m1 = m2 ∧ l1 = l2 := by
  rcases h1 with ⟨d, m3, a, b⟩ | ⟨d, rfl, rfl⟩ <;> rcases h2 with ⟨d', m3', a', b'⟩ | ⟨d', rfl, rfl⟩
  · have e1 : Z'.sc = Z.sc := by rw [h.same]
    have e2 : Z'.nsp = Z.nsp := by rw [h.same]
    rw [h.world, e1, e2] at a'
    obtain rfl := measure_rho_unique hs a a'
    exact roundsE_unique h b b'
  · exact absurd d d'
  · exact absurd d' d
  · exact ⟨rfl, rfl⟩

omit [IsStrictOrderedRing K] in
lemma partB_unique {rt : K → K} {A : Settings} {step : ℤ} {l1 l2 : List (Msg K)} (h1 : PartB Z rt A step m m1 l1)
    (h2 : PartB Z' rt A step m m2 l2) : m1 = m2 ∧ l1 = l2 := by
  rcases h1 with ⟨d, b⟩ | ⟨d, rfl, rfl⟩ <;> rcases h2 with ⟨d', b'⟩ | ⟨d', rfl, rfl⟩
  · exact roundsB_unique h b b'
  · exact absurd d d'
  · exact absurd d' d
  · exact ⟨rfl, rfl⟩

lemma partSync_unique {A : Settings} {step : ℤ} {l1 l2 : List (Msg K)} (h1 : PartSync Z A step m m1 l1)
    (h2 : PartSync Z' A step m m2 l2) : m1 = m2 ∧ l1 = l2 := by
  rcases h1 with ⟨d, e, b, rfl⟩ | ⟨d, rfl, rfl⟩ <;> rcases h2 with ⟨d', e', b', rfl⟩ | ⟨d', rfl, rfl⟩
  · rw [h.world] at b'
    obtain ⟨rfl, rfl⟩ := sync_tang_unique b b'
    exact ⟨rfl, rfl⟩
  · exact absurd d d'
  · exact absurd d' d
  · exact ⟨rfl, rfl⟩

omit [IsStrictOrderedRing K] in
lemma currents_unique {A : Fin n → MoveP.Accum K} (h1 : CurrentPhase Z.F Z.Rd Z.P Z.sc A m m1)
    (h2 : CurrentPhase Z.F Z'.Rd Z'.P Z.sc A m m2) : m1 = m2 := by
  obtain ⟨u, a, b⟩ := h1
  obtain ⟨u', a', b'⟩ := h2
  obtain rfl : u = u' := funext fun r =>
    unload_accumulator_unique h.rounding h.rounding' h.threads.1 h.threads.2 h.threads'.1 h.threads'.2 (h.mesh r) (a r) (a' r)
  exact sync_jf_unique b b'

end

end Verif.Threads
