import Verif.Torus.RunProps

/-!
# The divergence of B never grows during a run (C83)
-/
namespace Verif.Torus

open Grid Charge
open Field (Pos FC FMem World NodeOn EdgeOn FaceOn CellOn EntOn fieldExt vox dims SynchronizeTangENormB boxSet slotsDivB
  ComputeDivB)
open Boundary (Rank Species live)

section
variable {K : Type} {S : Type*} [Field K] [LinearOrder K] [IsStrictOrderedRing K]

/-- Sum of the squared divergence of B over all cells of all ranks. -/
def sqB {n : ℕ} (Z : Setup K S n) (m : Fin n → FMem K) : K :=
  ∑ r, ∑ c ∈ boxSet (fun _ => 1) (dims (Z.F r).g), Field.divB (Z.F r) c (m r) ^ 2

/-- Spec: cells of the same positive volume on all ranks, a direction with more than one cell and a step. -/
structure Setup.Metric {n : ℕ} (Z : Setup K S n) : Prop where
  vol : ∃ V : K, 0 < V ∧ ∀ r, (Z.F r).dV = V
  eps0 : 0 ≤ Z.C.eps0
  wide : ∀ r, ∃ a, 1 < dims (Z.F r).g a ∧ (Z.F r).rd a ≠ 0

/-- The printed error for a sum of squares. -/
noncomputable def printed {n : ℕ} (Z : Setup K S n) (rt : K → K) (x : K) : K :=
  Z.C.eps0 * rt (x / ∑ r, (((Z.F r).g.nx * (Z.F r).g.ny * (Z.F r).g.nz : ℤ) : K))

omit [LinearOrder K] [IsStrictOrderedRing K] in
lemma sqB_congr {n : ℕ} {Z : Setup K S n} {m m' : Fin n → FMem K}
    (h : ∀ r a c, FaceOn (Z.F r).g a c → m' r (vox (Z.F r).g c, .cb a) = m r (vox (Z.F r).g c, .cb a)) : sqB Z m' = sqB Z m := by
  refine Finset.sum_congr rfl fun r _ => Finset.sum_congr rfl fun c hc => ?_
  have hc : CellOn (Z.F r).g c := Field.mem_boxSet.mp hc
  congr 1
  refine Finset.sum_congr rfl fun a _ => ?_
  rw [h r a _ (Field.faceOn_up hc a), h r a _ (Field.faceOn_cell hc a)]

lemma sqB_nonneg {n : ℕ} (Z : Setup K S n) (m : Fin n → FMem K) : 0 ≤ sqB Z m :=
  Finset.sum_nonneg fun _ _ => Finset.sum_nonneg fun _ _ => sq_nonneg _

lemma printed_mono {n : ℕ} {Z : Setup K S n} (hZ : Z.Ok) (hM : Z.Metric) {rt : K → K} (hrt : ∀ x y, 0 ≤ x → x ≤ y → rt x ≤ rt y)
    {x y : K} (hx : 0 ≤ x) (hxy : x ≤ y) : printed Z rt x ≤ printed Z rt y := by
  have hF := Field.periodic_world_cart hZ.box.ok Z.t0 hZ.box.grid hZ.box.cells
  have : 0 ≤ ∑ r, (((Z.F r).g.nx * (Z.F r).g.ny * (Z.F r).g.nz : ℤ) : K) := by
    refine Finset.sum_nonneg fun r _ => ?_
    have hp := (hF.mesh r).pos
    have h0 : 0 < (Z.F r).g.nx := hp 0
    have h1 : 0 < (Z.F r).g.ny := hp 1
    have h2 : 0 < (Z.F r).g.nz := hp 2
    exact_mod_cast (mul_pos (mul_pos h0 h1) h2).le
  exact mul_le_mul_of_nonneg_left (hrt _ _ (div_nonneg hx this) (div_le_div_of_nonneg_right hxy this)) hM.eps0

/-- All errors printed lie between those of two sums of squares, and fall. -/
structure Desc {n : ℕ} (Z : Setup K S n) (rt : K → K) (x y : K) (l : List (Msg K)) : Prop where
  le : y ≤ x
  nonneg : 0 ≤ y
  hi : ∀ e, Msg.divB e ∈ l → e ≤ printed Z rt x
  lo : ∀ e, Msg.divB e ∈ l → printed Z rt y ≤ e
  fall : Falling l

section
variable {n : ℕ} {Z : Setup K S n} (hZ : Z.Ok) (hM : Z.Metric) {rt : K → K} (hrt : ∀ x y, 0 ≤ x → x ≤ y → rt x ≤ rt y)

omit [IsStrictOrderedRing K] in
lemma Desc.quiet {x : K} (hx : 0 ≤ x) {l : List (Msg K)} (h : ∀ e, Msg.divB e ∉ l) : Desc Z rt x x l :=
  ⟨le_rfl, hx, fun e he => absurd he (h e), fun e he => absurd he (h e),
    by
      refine List.pairwise_iff_forall_sublist.mpr fun {a b} hab x y e _ => absurd ?_ (h x)
      exact hab.subset (by simp [e])⟩

include hZ hM hrt in
lemma Desc.append {x y z : K} {l l' : List (Msg K)} (h : Desc Z rt x y l) (h' : Desc Z rt y z l') : Desc Z rt x z (l ++ l') := by
  have m1 := printed_mono hZ hM hrt h.nonneg h.le
  have m2 := printed_mono hZ hM hrt h'.nonneg h'.le
  refine ⟨h'.le.trans h.le, h'.nonneg, fun e he => ?_, fun e he => ?_, ?_⟩
  · rcases List.mem_append.mp he with he | he
    · exact h.hi e he
    · exact (h'.hi e he).trans m1
  · rcases List.mem_append.mp he with he | he
    · exact m2.trans (h.lo e he)
    · exact h'.lo e he
  · refine List.pairwise_append.mpr ⟨h.fall, h'.fall, ?_⟩
    rintro a ha b hb p q rfl rfl
    exact (h'.hi q hb).trans (h.lo p ha)

include hZ hM hrt in
/-- The sum of squares may fall without anything being printed. -/
lemma Desc.drop {x y : K} (hy : 0 ≤ y) (h : y ≤ x) : Desc Z rt x y [] :=
  ⟨h, hy, by simp, by simp, List.Pairwise.nil⟩

include hZ

lemma div_b_sum {m m1 : Fin n → FMem K} (h : RanksDivB Z m m1) : Field.errB Z.F m1 = sqB Z m := by
  have hF := Field.periodic_world_cart hZ.box.ok Z.t0 hZ.box.grid hZ.box.cells
  refine Finset.sum_congr rfl fun r _ => Finset.sum_congr rfl fun c hc => ?_
  rw [(Field.cell_sweep_result (hF.mesh r) hZ.rounding hZ.threads.1 hZ.threads.2 (h r)).1 c (Field.mem_boxSet.mp hc),
    Field.divBVal_eq]

lemma div_b_same {m m1 : Fin n → FMem K} (h : RanksDivB Z m m1) : sqB Z m1 = sqB Z m :=
  sqB_congr fun r a c _ => (div_b_global hZ.fits h).1 r _ (by simp)

lemma advance_b_sq {frac : K} {m m' : Fin n → FMem K} (h : RanksB Z.F frac m m') : sqB Z m' = sqB Z m := by
  have hF := Field.periodic_world_cart hZ.box.ok Z.t0 hZ.box.grid hZ.box.cells
  refine Finset.sum_congr rfl fun r _ => Finset.sum_congr rfl fun c hc => ?_
  obtain ⟨R, P, h1, h2, h3, h4⟩ := h r
  rw [Field.advance_b_keeps_div_b (hF.mesh r) h1 h2 h3 h4 c (Field.mem_boxSet.mp hc)]
  intro a _
  constructor <;> (rintro ⟨s, -, hw, -⟩; exact no_wall hF r s hw.1)

include hM in
/-- Cleaning does not make the sum of squares larger. -/
lemma clean_b_sq {m m1 m2 : Fin n → FMem K} (h1 : RanksDivB Z m m1) (h2 : RanksCleanB Z m1 m2) : sqB Z m2 ≤ sqB Z m := by
  have hF := Field.periodic_world_cart hZ.box.ok Z.t0 hZ.box.grid hZ.box.cells
  choose N hN using fun r s => hF.nbr r s (Or.inl rfl)
  have hP : Z.F.Periodic N :=
    { toLinked := hF.toLinked
      nbr := fun r s => (hN r s).1
      rd := fun r r' => by rw [hZ.consts.rd, hZ.consts.rd] }
  choose m3 h3 using fun r => Field.compute_div_b_runs (hF.mesh r) hZ.rounding hZ.threads.1 hZ.threads.2 (m2 r)
  have := Field.clean_div_b_contracts hP hZ.rounding hZ.threads.1 hZ.threads.2 hM.wide h1 h2 h3
  rwa [div_b_sum hZ h1, div_b_sum hZ h3] at this

include hM in
/-- What is printed. -/
lemma rms_b_printed {m m1 : Fin n → FMem K} (h1 : RanksDivB Z m m1) {err : K} (h : RmsB Z rt m1 err) :
    err = printed Z rt (sqB Z m) := by
  have hF := Field.periodic_world_cart hZ.box.ok Z.t0 hZ.box.grid hZ.box.cells
  obtain ⟨V, V0, hV⟩ := hM.vol
  obtain ⟨l, e1, rfl⟩ := h
  have el : ∀ r, l r = ((∑ c ∈ boxSet (fun _ => 1) (dims (Z.F r).g), (m1 r (vox (Z.F r).g c, .divB)) ^ 2) * V,
      (((Z.F r).g.nx * (Z.F r).g.ny * (Z.F r).g.nz : ℤ) : K) * V) := by
    intro r
    have := e1 r
    rw [Field.rms_div_b_each_cell_once (hF.mesh r) hZ.rounding hZ.threads.1 hZ.threads.2, hV] at this
    exact (Option.some.inj this).symm
  unfold Field.rmsFinal printed
  rw [List.map_ofFn, List.map_ofFn, List.sum_ofFn, List.sum_ofFn]
  simp only [Function.comp_apply, el]
  rw [← Finset.sum_mul, ← Finset.sum_mul, mul_div_mul_right _ _ V0.ne', ← div_b_sum hZ h1]
  rfl

include hM hrt

lemma roundsB_desc {N i : ℤ} {m m' : Fin n → FMem K} {l : List (Msg K)} (h : RoundsB Z rt N i m m' l) :
    Desc Z rt (sqB Z m) (sqB Z m') l := by
  induction h with
  | done _ => exact .quiet (sqB_nonneg _ _) (by simp)
  | loud _ h1 _ h3 h4 _ ih =>
    have c := clean_b_sq hZ hM h1 h4
    have e := rms_b_printed hZ hM h1 h3
    refine Desc.append hZ hM hrt (l := [_]) ⟨le_rfl, sqB_nonneg _ _, ?_, ?_, List.pairwise_singleton _ _⟩
      (Desc.append hZ hM hrt (.drop hZ hM hrt (sqB_nonneg _ _) c) ih)
    · intro e' he
      simp only [List.mem_singleton, Msg.divB.injEq] at he
      rw [he, e]
    · intro e' he
      simp only [List.mem_singleton, Msg.divB.injEq] at he
      rw [he, e]
  | quiet _ h1 _ h4 _ ih =>
    exact Desc.append hZ hM hrt (l := []) (.drop hZ hM hrt (sqB_nonneg _ _) (clean_b_sq hZ hM h1 h4)) ih

omit hM hrt in
lemma roundsE_messages {N i : ℤ} {m m' : Fin n → FMem K} {l : List (Msg K)} (h : RoundsE Z rt N i m m' l) :
    (∀ e, Msg.divB e ∉ l) ∧ sqB Z m' = sqB Z m := by
  have hF := Field.periodic_world_cart hZ.box.ok Z.t0 hZ.box.grid hZ.box.cells
  have one : ∀ {m m1 m2 : Fin n → FMem K}, RanksDivE Z.F m m1 → RanksCleanE Z m1 m2 → sqB Z m2 = sqB Z m := by
    intro m m1 m2 h1 h2
    refine sqB_congr fun r a c hc => ?_
    rw [(Field.clean_div_e_result (hF.mesh r) hZ.rounding hZ.threads.1 hZ.threads.2 (Field.marderE_local _) (h2 r)).2.2 _
      (by rintro b d _ (e | e) <;> simp at e), (div_e_frame hZ.fits h1).2 r _ (by simp) (by simp)]
  induction h with
  | done _ => exact ⟨by simp, rfl⟩
  | loud _ h1 _ h3 h4 _ ih => exact ⟨fun e => by simp [ih.1 e], ih.2.trans (one h1 h4)⟩
  | quiet _ h1 _ h4 _ ih => exact ⟨ih.1, ih.2.trans (one h1 h4)⟩

omit hM hrt in
/-- The step leaves the divergence of B alone. -/
lemma full_step_sq {σ σ' : State K S n} (hs : FullStep Z σ σ') : sqB Z σ'.m = sqB Z σ.m := by
  obtain ⟨X, m3, m4, m5, hX, hp, hj, hb1, he, hb2⟩ := hs.run
  have hF := Field.periodic_world_cart hZ.box.ok Z.t0 hZ.box.grid hZ.box.cells
  rw [advance_b_sq hZ hb2]
  have : sqB Z m5 = sqB Z m4 := by
    refine sqB_congr fun r a c hc => ?_
    obtain ⟨R, P, h1, h2, h3, h4⟩ := he r
    obtain ⟨mg, q1, -, -, q3⟩ := Field.edge_kernel_result (hF.mesh r) h1 h2 h3 (Field.updateE_local (Z.F r)) h4.2
    rw [q3 _ (by rintro b d _ (e | e) <;> simp at e), (Field.filled_tang_b (hF.mesh r) q1).1 a c hc]
  rw [this, advance_b_sq hZ hb1]
  refine sqB_congr fun r a c _ => ?_
  exact (current_holds hZ.box.ok Z.t0 hZ.box.grid hZ.box.cells hZ.rounding hZ.threads.1 hZ.threads.2 hj).2 r _ (by simp)

lemma advance_desc [Archimedean K] {A : Settings} {step : ℤ} {σ σ' : State K S n} {l : List (Msg K)} (h0 : rt 0 = 0)
    (h : Exact Z σ) (ha : Advance Z rt A step σ σ' l) : Desc Z rt (sqB Z σ.m) (sqB Z σ'.m) l := by
  obtain ⟨σ1, σ2, m1, m2, l1, l2, l3, a1, a2, a3, a4, a5, e1, e2, rfl⟩ := ha.run
  obtain ⟨hr, G, hG, hz⟩ := h
  obtain ⟨s1, s2, s3⟩ := shuffle_gauss hr hG a1
  obtain ⟨f1, G2, f2, f3⟩ := full_step_gauss hZ s1 s2 a2
  have x2 : Exact Z σ2 := ⟨f1, G2, f2, fun r c hc => by rw [f3 r c hc, s3, hz r c hc]⟩
  obtain ⟨x3, -⟩ := partE_exact hZ h0 x2 a3
  obtain ⟨⟨-, G4, g4, -⟩, -⟩ := partB_exact hZ x3 a4
  have d1 : Desc Z rt (sqB Z σ.m) (sqB Z m1) l1 := by
    have e : sqB Z σ2.m = sqB Z σ.m := by rw [full_step_sq hZ a2, a1.m]
    rcases a3 with ⟨-, m0, h1, h2⟩ | ⟨-, rfl, rfl⟩
    · obtain ⟨n1, n2⟩ := roundsE_messages hZ h2
      have e' : sqB Z m0 = sqB Z σ2.m := sqB_congr fun r a c hc =>
        (measure_holds hZ.box.ok Z.t0 hZ.box.grid hZ.box.cells (settled_within f1) h1 f2.rhob).2.2 r _ (by simp) (by simp)
      rw [n2, e', e]
      exact .quiet (sqB_nonneg _ _) n1
    · rw [e]; exact .quiet (sqB_nonneg _ _) (by simp)
  have d2 : Desc Z rt (sqB Z m1) (sqB Z m2) l2 := by
    rcases a4 with ⟨-, h2⟩ | ⟨-, rfl, rfl⟩
    · exact roundsB_desc hZ hM hrt h2
    · exact .quiet (sqB_nonneg _ _) (by simp)
  have d3 : Desc Z rt (sqB Z m2) (sqB Z σ'.m) l3 := by
    rcases a5 with ⟨-, err, h5, rfl⟩ | ⟨-, h5, rfl⟩
    · obtain ⟨-, j2, -⟩ := sync_keeps hZ.box.ok Z.t0 hZ.box.grid hZ.box.cells h5 g4.shared
      have : sqB Z σ'.m = sqB Z m2 := sqB_congr fun r a c hc => by
        rw [j2 _ (.inr (.inl ⟨a, rfl⟩)) r c (Field.entOn_face.mpr hc)]
        exact (g4.cb a r c (Field.entOn_face.mpr hc)).symm
      rw [this]
      exact .quiet (sqB_nonneg _ _) (by simp)
    · rw [h5]; exact .quiet (sqB_nonneg _ _) (by simp)
  exact (d1.append hZ hM hrt d2).append hZ hM hrt d3

/-- **C83.**  The divergence of B never grows during a run: whatever the settings, the rms errors of B that `initialize` and all
calls of `advance` print form a falling sequence. -/
theorem run_div_b_falls [Archimedean K] (h0 : rt 0 = 0) (hZ' : Z.Physical)
    {A : Settings} {σ0 σ1 σ : State K S n} (h : Placed Z σ0) {l1 l : List (Msg K)} (hi : Initialize Z rt σ0 σ1 l1) {step : ℤ}
    (hr : Runs Z rt A 0 σ1 step σ l) : Falling (l1 ++ l) := by
  obtain ⟨x1, e1, e2, rfl, m1, m2, m3, i2, i3, i4, i5⟩ := initialize_exact hZ hZ' h0 h hi
  have d : Exact Z σ ∧ Desc Z rt (sqB Z σ1.m) (sqB Z σ.m) l := by
    generalize (0 : ℤ) = i at hr
    induction hr with
    | refl => exact ⟨x1, .quiet (sqB_nonneg _ _) (by simp)⟩
    | step _ ha ih =>
      obtain ⟨y1, y2⟩ := ih
      exact ⟨(advance_exact hZ h0 y1 ha).1, y2.append hZ hM hrt (advance_desc hZ hM hrt h0 y1 ha)⟩
  have e : sqB Z σ1.m = sqB Z m3 := sqB_congr i5
  have d0 : Desc Z rt (sqB Z m1) (sqB Z σ1.m) [.sync e1, .divB e2, .divE 0, .sync 0] := by
    have c := clean_b_sq hZ hM i2 i4
    rw [← e] at c
    have e' := rms_b_printed hZ hM i2 i3
    refine ⟨c, sqB_nonneg _ _, ?_, ?_, ?_⟩
    · intro x hx
      have : x = e2 := by simpa using hx
      rw [this, e']
    · intro x hx
      have : x = e2 := by simpa using hx
      rw [this, e']
      exact printed_mono hZ hM hrt (sqB_nonneg _ _) c
    · simp [Falling]
  exact (d0.append hZ hM hrt d.2).fall

end

end

end Verif.Torus
