import Verif.Torus.GaussProps
import Verif.Torus.Sample
import Verif.Charge.Sample

/-!
# Steps exist, and a concrete case for Gauss's law
-/
namespace Verif.Torus

open Grid Charge
open SfInterface (Scales)
open Boundary (Env Rank Species live ids fitsMsg grow sampleD sample_grids)
open Distribute (Rounding doubleRounding doubleRounding_accurate)
open Field (Pos FC FMem World NodeOn vox slotsNormE SameCells)

section
variable {K : Type} {S : Type*} [Field K] [LinearOrder K] [IsStrictOrderedRing K]

/-- The number of particles of all ranks and species. -/
def total {n : ℕ} (Z : Setup K S n) (σ : State K S n) : ℕ := ∑ r, ∑ id ∈ Finset.range Z.nsp, ((σ.R r).sp id).np

/-- A step is possible from every state between steps, as long as the messages and arrays can hold all particles, and it
keeps their number. -/
theorem full_step_runs [Archimedean K] {n : ℕ} {Z : Setup K S n} (hZ : Z.Ok) (h32 : Z.nsp ≤ 32) (hnb : ∀ r, (Z.B r).nb ≤ 32)
    {X : Fin n → PushPar K} (hX : ∀ r, Courant (X r)) {σ : State K S n} (h : Ready Z σ) (hmsg : fitsMsg (total Z σ))
    (hgrow : grow (2 * total Z σ) < 2 ^ 31) : ∃ σ', FullStep Z σ σ' ∧ total Z σ' = total Z σ := by
  obtain ⟨-, ⟨R', st', h1⟩, h2⟩ := step_runs hZ.box Z.Rd hZ.rounding X hX Z.P Z.nf Z.N Z.nsp hZ.rounds hZ.nsp h32 hnb hZ.nf
    hZ.threads.1 hZ.threads.2 hZ.fuel hZ.acc hZ.acc' Z.sc σ.R σ.st h.particles hmsg hgrow σ.m σ.m σ.m
  obtain ⟨m3, h3⟩ := (h2 R' st' h1).1
  obtain ⟨m', h4⟩ := ops_run hZ.box.ok Z.t0 hZ.box.grid hZ.box.cells [.b (1 / 2), .e, .b (1 / 2)] m3
  have cnt := (exchanges_suffice_periodic hZ.box hZ.rounding hX hZ.rounds hZ.threads.1 hZ.threads.2 hZ.fuel
    (fun r id hid => h.particles r id (hZ.nsp r ▸ hid)) h1).2
  cases h4 with
  | cons a1 a2 =>
    cases a2 with
    | cons a2 a3 =>
      cases a3 with
      | cons a3 a4 =>
        cases a4
        refine ⟨⟨R', st', m'⟩, ⟨X, m3, _, _, hX, h1, h3, a1, a2, a3⟩, ?_⟩
        unfold total
        rw [Finset.sum_comm, Finset.sum_comm (s := Finset.univ)]
        refine Finset.sum_congr rfl fun id hid => cnt id fun r => ?_
        rw [hZ.nsp r]
        exact Finset.mem_range.mp hid

/-- The error can be measured in every state between steps. -/
theorem reports_runs {n : ℕ} {Z : Setup K S n} (hZ : Z.Ok) {σ : State K S n} (h : Ready Z σ) :
    ∃ err, Reports Z σ err := by
  have hF := Field.periodic_world_cart hZ.box.ok Z.t0 hZ.box.grid hZ.box.cells
  have hk : ∀ r, Field.AllKnown (Z.F r) := fun r s hs => absurd hs (Charge.no_wall hF r s)
  obtain ⟨m1, h1⟩ := box_measure hZ.box Z.sc.r8V Z.nsp (fun r => (σ.R r).sp) (settled_within h) σ.m
  choose m2 h2 using fun r => (Field.compute_div_e_runs (hF.mesh r) (hk r) doubleRounding_accurate (P := 3) (by norm_num)
    (by norm_num) (Field.updateDivE (Z.F r)) (m1 r) (Z.F.ghostMail slotsNormE m1 r) (by
      obtain ⟨rs, e, -⟩ := Field.ghost_exchange hF.toLinked (fun g hg => Field.slotsNormE_ok hg) Field.slots_dims.2.1 m1 r
      rw [e]; simp)).1
  exact ⟨_, m1, m2, h1, fun r => ⟨_, 3, doubleRounding_accurate, by norm_num, by norm_num, h2 r⟩, fun _ _ _ => rfl⟩

/-- Runs of any length exist: `k` steps. -/
theorem steps_run [Archimedean K] {n : ℕ} {Z : Setup K S n} (hZ : Z.Ok) (h32 : Z.nsp ≤ 32) (hnb : ∀ r, (Z.B r).nb ≤ 32)
    (X : ℕ → Fin n → PushPar K) (hX : ∀ k r, Courant (X k r)) {σ : State K S n} (h : Ready Z σ) (hmsg : fitsMsg (total Z σ))
    (hgrow : grow (2 * total Z σ) < 2 ^ 31) (k : ℕ) :
    ∃ σs : ℕ → State K S n, σs 0 = σ ∧ ∀ i < k, FullStep Z (σs i) (σs (i + 1)) := by
  have key : ∀ k, ∃ σs : ℕ → State K S n, σs 0 = σ ∧ (∀ i < k, FullStep Z (σs i) (σs (i + 1))) ∧ Ready Z (σs k) ∧
      total Z (σs k) = total Z σ := by
    intro k
    induction k with
    | zero => exact ⟨fun _ => σ, rfl, fun i hi => absurd hi (Nat.not_lt_zero i), h, rfl⟩
    | succ k ih =>
      obtain ⟨σs, e0, e1, e2, e3⟩ := ih
      obtain ⟨σ', s1, s2⟩ := full_step_runs hZ h32 hnb (hX k) e2 (by rw [e3]; exact hmsg) (by rw [e3]; exact hgrow)
      obtain ⟨G, g⟩ := e2.fields
      have r' := (full_step_gauss hZ e2 ⟨g.1, g.2.1, g.2.2.1, g.2.2.2.1, g.2.2.2.2⟩ s1).1
      refine ⟨fun i => if i ≤ k then σs i else σ', by simp [e0], fun i hi => ?_, by simp [r'], by simp [s2, e3]⟩
      rcases Nat.lt_succ_iff_lt_or_eq.mp hi with hi | rfl
      · simpa [hi.le, Nat.succ_le_of_lt hi] using e1 i hi
      · simpa using s1
  obtain ⟨σs, e0, e1, -⟩ := key k
  exact ⟨σs, e0, e1⟩

end

/-- The setup of the sample. -/
noncomputable def gaussSetup (g : Fin 2 → LGrid) : Setup ℝ Unit 2 where
  D := sampleD
  t0 := fun _ _ => 77
  F := stepWorld g
  B := stepEnv g
  Rd := doubleRounding
  P := 3
  nf := 16
  N := 3
  nsp := 1
  sc := ⟨1 / 2, fun _ => 1, 1 / 8⟩
  C := ⟨1, 1 / 2, 1, 0, fun _ => 1⟩
  M := ⟨fun _ _ => ⟨fun _ => 1, fun _ => 1, fun _ => 1, 1, fun _ => 1⟩,
    fun _ _ => ⟨fun _ => 1, fun _ => 1, fun _ => 1, 1, fun _ => 1⟩,
    fun _ => ⟨fun _ => 1, fun _ => 1, fun _ => 1, 1, fun _ => 1⟩⟩

/-- The push of the sample fits the Courant condition. -/
lemma stepPush_courant : Courant stepPush :=
  ⟨fun x hx => ⟨Real.sqrt_nonneg x, Real.mul_self_sqrt hx⟩, fun k => by norm_num [stepPush, abs_le]⟩

/-- The sample meets the hypotheses on the setup and on the particles. -/
lemma gaussSetup_case : ∃ g : Fin 2 → LGrid, (∀ r : Fin 2, gridOf sampleD 2 (fun _ _ => 77) r = some (g r)) ∧ (∀ r, (g r).nx = 2) ∧
    (gaussSetup g).Ok ∧ ∀ r, ∀ id < 1, Settled (stepWorld g r).g (stepRank.sp id) := by
  obtain ⟨g, hg⟩ := sample_grids
  have hB : PeriodicBox sampleD (fun _ _ => 77) (stepWorld g) (stepEnv g) :=
    { ok := by decide
      grid := fun r => (hg r).1
      cells := ⟨fun _ => rfl, fun _ _ => rfl, fun _ _ => by norm_num [stepWorld], by decide⟩
      same := fun _ => rfl
      ws := fun _ => rfl
      rank := fun _ => rfl
      nsp := fun _ _ => rfl }
  have hs : ∀ r, ∀ id < 1, Settled (stepWorld g r).g (stepRank.sp id) := by
    intro r id _
    refine ⟨by simp [stepRank, stepSpecies], by simp [stepRank, stepSpecies], by simp [stepRank, stepSpecies], ?_⟩
    intro i _ _
    refine ⟨⟨⟨2, 1, 1⟩, ?_, ?_⟩, ?_⟩
    · simp [Cell.Interior, stepWorld, (hg r).2.1, (hg r).2.2.1, (hg r).2.2.2.1]
    · simp [stepRank, stepSpecies, VOXEL, stepWorld, (hg r).2.1, (hg r).2.2.1]
    · intro k
      fin_cases k <;> norm_num [stepRank, stepSpecies]
  have hZ : (gaussSetup g).Ok :=
    { box := hB
      rounding := doubleRounding_accurate
      rounds := le_rfl
      nsp := fun _ => rfl
      nf := by simp [gaussSetup]
      threads := by simp [gaussSetup]
      fuel := fun _ => by simp [gaussSetup, stepEnv]
      acc := by
        intro r
        show (SfInterface.accArgs (g r).nx (g r).ny (g r).nz 16 3).n < 2 ^ 31
        rw [(hg r).2.1, (hg r).2.2.1, (hg r).2.2.2.1]
        decide
      acc' := by
        intro r
        show ((3 : ℕ) : ℤ) * (SfInterface.pow2Ceil2 (SfInterface.nvOf (g r).nx (g r).ny (g r).nz) * ((16 : ℕ) : ℤ)) < 2 ^ 31
        rw [(hg r).2.1, (hg r).2.2.1, (hg r).2.2.2.1]
        decide
      dt := by norm_num [gaussSetup]
      vol := by norm_num [gaussSetup]
      dt_same := rfl
      rd_same := rfl
      resolved := by show Resolved sampleD; unfold Resolved; decide
      consts := ⟨fun _ => rfl, fun _ => rfl, fun _ => rfl, fun _ => rfl, fun _ => rfl⟩
      made := ⟨fun _ _ _ _ => rfl, fun _ _ _ _ => rfl, fun _ _ _ => rfl⟩
      medium := fun s => .inr fun a => by simp [Insulating, gaussSetup] }
  exact ⟨g, fun r => (hg r).1, fun r => (hg r).2.1, hZ, hs⟩

/-- The hypotheses of `gauss_kept` hold together, for any initial fields and any number of steps. -/
example (G : Fields ℝ) (k : ℕ) : ∃ (Z : Setup ℝ Unit 2) (σ σ' : State ℝ Unit 2) (err err' : Fin 2 → Pos → ℝ), Z.Ok ∧ Ready Z σ ∧
    (∀ k, Holds Z.D Z.F σ.m G k) ∧ total Z σ = 2 ∧ (∃ σs : ℕ → State ℝ Unit 2, σs 0 = σ ∧ σs k = σ' ∧
      ∀ i < k, FullStep Z (σs i) (σs (i + 1))) ∧ Reports Z σ err ∧ Reports Z σ' err' ∧
    ∀ r c, NodeOn (Z.F r).g c → err' r c = err r c := by
  obtain ⟨g, hg, -, hZ, hs⟩ := gaussSetup_case
  obtain ⟨m, hm⟩ := holds_exists hZ.box.ok (fun _ _ => 77) (F := stepWorld g) hg G
  have hR : Ready (gaussSetup g) ⟨fun _ => stepRank, fun _ _ => 0, m⟩ :=
    { fields := ⟨G, fun _ => hm _, fun _ => hm _, fun _ => hm _, hm _, fun s => by simp [gaussSetup]⟩
      particles := hs
      sized := fun r id _ => by simp [Sized, stepRank, stepSpecies]
      charges := fun _ _ _ _ => rfl
      tidy := fun r b _ v _ _ k hne => absurd rfl hne }
  have tot : total (gaussSetup g) ⟨fun _ => stepRank, fun _ _ => 0, m⟩ = 2 := by
    simp [total, gaussSetup, stepRank, stepSpecies]
  obtain ⟨σs, e0, e1⟩ := steps_run hZ (by simp [gaussSetup]) (fun _ => by simp [gaussSetup, stepEnv]) (fun _ _ => stepPush)
    (fun _ _ => stepPush_courant) hR (by rw [tot]; decide) (by rw [tot]; decide) k
  have st : ∀ j ≤ k, Steps (gaussSetup g) (σs 0) (σs j) := by
    intro j
    induction j with
    | zero => exact fun _ => .refl _
    | succ j ih => exact fun hj => .full (ih (by omega)) (e1 j (by omega))
  obtain ⟨err, he⟩ := reports_runs hZ hR
  have hR' : Ready (gaussSetup g) (σs k) := by
    have := st k le_rfl
    rw [e0] at this
    exact ready_kept hZ hR this
  obtain ⟨err', he'⟩ := reports_runs hZ hR'
  refine ⟨_, _, σs k, err, err', hZ, hR, hm, tot, ⟨σs, e0, rfl, e1⟩, he, he', ?_⟩
  have := st k le_rfl
  rw [e0] at this
  exact (gauss_kept hZ hR this he he').2

end Verif.Torus
