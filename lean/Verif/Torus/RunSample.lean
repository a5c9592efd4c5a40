import Verif.Torus.GaussSample
import Verif.Torus.RunDivB

/-!
# Whole runs exist, and a concrete case (C82, C83)
-/
namespace Verif.Torus

open Grid Charge
open Boundary (Rank Species live fitsMsg grow)
open Field (Pos FC FMem World NodeOn vox slotsNormE slotsTangB slotsDivB SynchronizeTangENormB)

section
variable {K : Type} {S : Type*} [Field K] [LinearOrder K] [IsStrictOrderedRing K] {n : ℕ} {Z : Setup K S n} (hZ : Z.Ok)

include hZ

/-- None of the kernels can fail on a periodic box. -/
lemma kernels_run (rt : K → K) (m : Fin n → FMem K) :
    (∃ m' e, SynchronizeTangENormB Z.F m m' e) ∧ (∃ m', RanksDivB Z m m') ∧ (∃ e, RmsB Z rt m e) ∧ (∃ m', RanksCleanB Z m m') ∧
    (∃ m', RanksCurl Z m m') ∧ (∃ m', RanksRhob Z m m') ∧ (∃ m', RanksDivE Z.F m m') ∧ (∃ e, RmsE Z rt m e) ∧
    ∃ m', RanksCleanE Z m m' := by
  have hF := Field.periodic_world_cart hZ.box.ok Z.t0 hZ.box.grid hZ.box.cells
  have hk : ∀ r, Field.AllKnown (Z.F r) := fun r s hs => absurd hs (Charge.no_wall hF r s)
  have g1 : ∀ r, Field.endRemote (Z.F r) slotsTangB (Z.F.ghostMail slotsTangB m r) ≠ none := fun r => by
    obtain ⟨rs, e, -⟩ := Field.ghost_exchange hF.toLinked (fun g hg => Field.slotsTangB_ok hg) Field.slots_dims.1 m r
    rw [e]; simp
  have g2 : ∀ r, Field.endRemote (Z.F r) slotsNormE (Z.F.ghostMail slotsNormE m r) ≠ none := fun r => by
    obtain ⟨rs, e, -⟩ := Field.ghost_exchange hF.toLinked (fun g hg => Field.slotsNormE_ok hg) Field.slots_dims.2.1 m r
    rw [e]; simp
  have g3 : ∀ r, Field.endRemote (Z.F r) slotsDivB (Z.F.ghostMail slotsDivB m r) ≠ none := fun r => by
    obtain ⟨rs, e, -⟩ := Field.ghost_exchange hF.toLinked (fun g hg => Field.slotsDivB_ok hg) Field.slots_dims.2.2 m r
    rw [e]; simp
  choose mb hb using fun r => Field.compute_div_b_runs (hF.mesh r) hZ.rounding hZ.threads.1 hZ.threads.2 (m r)
  choose mc hc using fun r => Field.clean_div_b_runs (hF.mesh r) (hk r) hZ.rounding hZ.threads.1 hZ.threads.2 (m r) _ (g3 r)
  choose md hd using fun r => Field.edge_kernel_runs (hF.mesh r) (hk r) hZ.rounding hZ.threads.1 hZ.threads.2
    (Field.updateCurl (Z.F r)) (m r) _ (g1 r)
  choose me he using fun r => (Field.compute_div_e_runs (hF.mesh r) (hk r) hZ.rounding hZ.threads.1 hZ.threads.2
    (Field.updateRhob (Z.F r)) (m r) _ (g2 r)).2
  choose mf hf using fun r => (Field.compute_div_e_runs (hF.mesh r) (hk r) hZ.rounding hZ.threads.1 hZ.threads.2
    (Field.updateDivE (Z.F r)) (m r) _ (g2 r)).1
  choose mg hg using fun r => Field.clean_div_e_runs (hF.mesh r) (hk r) hZ.rounding hZ.threads.1 hZ.threads.2
    (Field.marderE (Z.F r)) (m r)
  exact ⟨(Field.synchronize_runs hF.toLinked hk m fun _ _ => 0).1, ⟨mb, hb⟩,
    ⟨_, _, fun r => Field.rms_div_b_each_cell_once (hF.mesh r) hZ.rounding hZ.threads.1 hZ.threads.2 (m r), rfl⟩, ⟨mc, hc⟩,
    ⟨md, hd⟩, ⟨me, he⟩, ⟨mf, fun r => ⟨_, _, hZ.rounding, hZ.threads.1, hZ.threads.2, hf r⟩⟩,
    ⟨_, _, fun r => Field.rms_div_e_each_node_once (hF.mesh r) hZ.rounding hZ.threads.1 hZ.threads.2 (m r), rfl⟩, mg, hg⟩

/-- Cleaning loops of any length run. -/
lemma rounds_run (rt : K → K) (N : ℤ) : ∀ (k : ℕ) (i : ℤ) (m : Fin n → FMem K), N ≤ i + k →
    (∃ m' l, RoundsE Z rt N i m m' l) ∧ ∃ m' l, RoundsB Z rt N i m m' l := by
  intro k
  induction k with
  | zero =>
    intro i m hi
    have : ¬ i < N := by push_cast at hi; omega
    exact ⟨⟨m, [], .done this⟩, m, [], .done this⟩
  | succ k ih =>
    intro i m hi
    by_cases h : i < N
    · have k1 := kernels_run hZ rt m
      obtain ⟨-, ⟨b1, hb1⟩, -, -, -, -, ⟨e1, he1⟩, -⟩ := k1
      obtain ⟨-, -, ⟨eb, hb2⟩, ⟨b3, hb3⟩, -⟩ := kernels_run hZ rt b1
      obtain ⟨-, -, -, -, -, -, -, ⟨ee, he2⟩, ⟨e3, he3⟩⟩ := kernels_run hZ rt e1
      obtain ⟨b4, lb, hb4⟩ := (ih (i + 1) b3 (by push_cast at hi; omega)).2
      obtain ⟨e4, le, he4⟩ := (ih (i + 1) e3 (by push_cast at hi; omega)).1
      by_cases hl : i = 0 ∨ i = N - 1
      · exact ⟨⟨_, _, .loud h he1 hl he2 he3 he4⟩, _, _, .loud h hb1 hl hb2 hb3 hb4⟩
      · exact ⟨⟨_, _, .quiet h he1 hl he3 he4⟩, _, _, .quiet h hb1 hl hb3 hb4⟩
    · exact ⟨⟨m, [], .done h⟩, m, [], .done h⟩

/-- `initialize` runs from every state an input deck may have set up. -/
theorem initialize_runs (rt : K → K) {σ : State K S n} (h : Placed Z σ) :
    ∃ σ' l, Initialize Z rt σ σ' l ∧ total Z σ' = total Z σ := by
  have hw : ∀ r, ∀ id < Z.nsp, ∀ p ∈ live ((σ.R r).sp id).p ((σ.R r).sp id).np, Within (Z.F r).g p :=
    fun r id hid => settled_live (h.particles r id hid)
  obtain ⟨⟨m1, e1, h1⟩, -⟩ := kernels_run hZ rt σ.m
  obtain ⟨-, ⟨m2, h2⟩, -⟩ := kernels_run hZ rt m1
  obtain ⟨-, -, ⟨e2, h3⟩, ⟨m3, h4⟩, -⟩ := kernels_run hZ rt m2
  obtain ⟨-, -, -, -, ⟨m4, h5⟩, -⟩ := kernels_run hZ rt m3
  obtain ⟨m5, h6⟩ := box_measure hZ.box Z.sc.r8V Z.nsp (fun r => (σ.R r).sp) hw m4
  obtain ⟨-, -, -, -, -, ⟨m6, h7⟩, -⟩ := kernels_run hZ rt m5
  obtain ⟨-, -, -, -, -, -, ⟨m7, h8⟩, -⟩ := kernels_run hZ rt m6
  obtain ⟨-, -, -, -, -, -, -, ⟨e3, h9⟩, ⟨m8, h10⟩⟩ := kernels_run hZ rt m7
  obtain ⟨⟨m9, e4, h11⟩, -⟩ := kernels_run hZ rt m8
  exact ⟨⟨σ.R, σ.st, m9⟩, _, ⟨m1, m2, m3, m4, m5, m6, m7, m8, m9, e1, e2, e3, e4, h1, h2, h3, h4, h5, h6, h7, h8, h9, h10, h11,
    ⟨rfl, rfl, fun _ _ _ => rfl, fun _ _ _ => rfl, fun _ _ _ => rfl, fun _ _ _ => .refl _⟩, rfl⟩, rfl⟩

/-- So does `advance`, as long as the messages and arrays can hold all particles and steps are left. -/
theorem advance_runs [Archimedean K] (h32 : Z.nsp ≤ 32) (hnb : ∀ r, (Z.B r).nb ≤ 32) {X : Fin n → PushPar K}
    (hX : ∀ r, Courant (X r)) (rt : K → K) (A : Settings) (step : ℤ) (go : ¬ (0 < A.num_step ∧ A.num_step ≤ step))
    {σ : State K S n} (h : Exact Z σ) (hmsg : fitsMsg (total Z σ)) (hgrow : grow (2 * total Z σ) < 2 ^ 31) :
    ∃ σ' l, Advance Z rt A step σ σ' l ∧ total Z σ' = total Z σ := by
  obtain ⟨σ2, h2, t2⟩ := full_step_runs hZ h32 hnb hX h.1 hmsg hgrow
  obtain ⟨G, hG, hz⟩ := h.2
  obtain ⟨r2, -⟩ := full_step_gauss hZ h.1 hG h2
  have rounds := fun N m => rounds_run hZ rt N N.toNat 0 m (by omega)
  have hE : ∃ m1 l1, PartE Z rt A step σ2.R σ2.m m1 l1 := by
    by_cases hd : due A.clean_div_e_interval step
    · obtain ⟨m0, e0⟩ := box_measure hZ.box Z.sc.r8V Z.nsp (fun r => (σ2.R r).sp) (settled_within r2) σ2.m
      obtain ⟨m', l, e⟩ := (rounds A.num_div_e_round m0).1
      exact ⟨m', l, .inl ⟨hd, m0, e0, e⟩⟩
    · exact ⟨_, _, .inr ⟨hd, rfl, rfl⟩⟩
  obtain ⟨m1, l1, hE⟩ := hE
  have hB : ∃ m2 l2, PartB Z rt A step m1 m2 l2 := by
    by_cases hd : due A.clean_div_b_interval step
    · obtain ⟨m', l, e⟩ := (rounds A.num_div_b_round m1).2
      exact ⟨m', l, .inl ⟨hd, e⟩⟩
    · exact ⟨_, _, .inr ⟨hd, rfl, rfl⟩⟩
  obtain ⟨m2, l2, hB⟩ := hB
  have hS : ∃ m3 l3, PartSync Z A step m2 m3 l3 := by
    by_cases hd : due A.sync_shared_interval step
    · obtain ⟨⟨m', e, h⟩, -⟩ := kernels_run hZ rt m2
      exact ⟨m', _, .inl ⟨hd, e, h, rfl⟩⟩
    · exact ⟨_, _, .inr ⟨hd, rfl, rfl⟩⟩
  obtain ⟨m3, l3, hS⟩ := hS
  exact ⟨⟨σ2.R, σ2.st, m3⟩, _, ⟨go, σ, σ2, m1, m2, l1, l2, l3,
    ⟨rfl, rfl, fun _ _ _ => rfl, fun _ _ _ => rfl, fun _ _ _ => rfl, fun _ _ _ => .refl _⟩, h2, hE, hB, hS, rfl, rfl, rfl⟩, t2⟩

/-- Whole runs exist, of any length. -/
theorem runs_run [Archimedean K] (h32 : Z.nsp ≤ 32) (hnb : ∀ r, (Z.B r).nb ≤ 32) {X : Fin n → PushPar K}
    (hX : ∀ r, Courant (X r)) {rt : K → K} (h0 : rt 0 = 0) (A : Settings) (hA : A.num_step ≤ 0)
    {σ : State K S n} (h : Exact Z σ) (hmsg : fitsMsg (total Z σ)) (hgrow : grow (2 * total Z σ) < 2 ^ 31) (k : ℕ) :
    ∃ σ' l, Runs Z rt A 0 σ k σ' l := by
  have key : ∃ σ' l, Runs Z rt A 0 σ k σ' l ∧ Exact Z σ' ∧ total Z σ' = total Z σ := by
    induction k with
    | zero => exact ⟨σ, [], .refl _ _, h, rfl⟩
    | succ k ih =>
      obtain ⟨σ1, l, r1, x1, t1⟩ := ih
      obtain ⟨σ2, l2, a, t2⟩ := advance_runs hZ h32 hnb hX rt A k (by omega) x1 (by rw [t1]; exact hmsg) (by rw [t1]; exact hgrow)
      refine ⟨σ2, l ++ l2, ?_, (advance_exact hZ h0 x1 a).1, t2.trans t1⟩
      push_cast
      exact .step r1 a
  obtain ⟨σ', l, r, -⟩ := key
  exact ⟨σ', l, r⟩

end

/-- The hypotheses of `run_keeps_gauss` and `run_div_b_falls` hold together: two ranks with a particle each, any fields, even
fields on which the ranks do not agree, cleaning in every step, any number of steps. -/
example (m : Fin 2 → FMem ℝ) (k : ℕ) : ∃ (Z : Setup ℝ Unit 2) (σ0 σ1 σ : State ℝ Unit 2) (A : Settings) (l1 l : List (Msg ℝ)),
    Z.Ok ∧ Z.Physical ∧ Z.Metric ∧ σ0.m = m ∧ Placed Z σ0 ∧ total Z σ0 = 2 ∧ Initialize Z Real.sqrt σ0 σ1 l1 ∧
    Runs Z Real.sqrt A 0 σ1 k σ l ∧ due A.clean_div_e_interval k ∧ due A.clean_div_b_interval k ∧ due A.sync_shared_interval k ∧
    (∃ err, Reports Z σ err ∧ ∀ r c, NodeOn (Z.F r).g c → err r c = 0) ∧ Falling (l1 ++ l) := by
  obtain ⟨g, hg, hn, hZ, hs⟩ := gaussSetup_case
  have hP : (gaussSetup g).Physical := ⟨fun _ => .inr rfl, by norm_num [gaussSetup]⟩
  have hM : (gaussSetup g).Metric :=
    { vol := ⟨1, one_pos, fun _ => rfl⟩
      eps0 := by norm_num [gaussSetup]
      wide := fun r => ⟨0, by show 1 < (g r).nx; rw [hn r]; norm_num, by norm_num [gaussSetup, stepWorld]⟩ }
  have hR : Placed (gaussSetup g) ⟨fun _ => stepRank, fun _ _ => 0, m⟩ :=
    { particles := hs
      sized := fun r id _ => by simp [Sized, stepRank, stepSpecies]
      charges := fun _ _ _ _ => rfl
      tidy := fun r b _ v _ _ k hne => absurd rfl hne }
  have tot : total (gaussSetup g) ⟨fun _ => stepRank, fun _ _ => 0, m⟩ = 2 := by
    simp [total, gaussSetup, stepRank, stepSpecies]
  obtain ⟨σ1, l1, hi, t1⟩ := initialize_runs hZ Real.sqrt hR
  have x1 := (initialize_exact hZ hP Real.sqrt_zero hR hi).1
  obtain ⟨σ, l, hr⟩ := runs_run hZ (by simp [gaussSetup]) (fun _ => by simp [gaussSetup, stepEnv]) (X := fun _ => stepPush)
    (fun _ => stepPush_courant) Real.sqrt_zero ⟨0, 2, 1, 3, 1, 1⟩ le_rfl x1 (by rw [t1, tot]; decide) (by rw [t1, tot]; decide) k
  obtain ⟨e1, -, -, e2⟩ := run_keeps_gauss hZ hP Real.sqrt_zero hR hi hr
  obtain ⟨err, he⟩ := reports_runs hZ e2
  refine ⟨_, _, σ1, σ, _, l1, l, hZ, hP, hM, rfl, hR, tot, hi, hr, by simp [due], by simp [due], by simp [due], ⟨err, he, e1 err he⟩,
    run_div_b_falls hZ hM (fun x y _ h => Real.sqrt_le_sqrt h) Real.sqrt_zero hP hR hi hr⟩

end Verif.Torus
