import Verif.Threads.Props
import Verif.Torus.RunSample

/-!
# Runs exist, and a concrete case (C86, C87)
-/
namespace Verif.Threads

open Grid MoveP Charge Torus
open Boundary (Rank Species Env ids live fitsMsg grow sampleD)
open Field (Pos FC FMem World)
open Distribute (Rounding)
open AdvanceP (Mem)
open SfInterface (accArgs pow2Ceil2 nvOf clear_zeroes reduce_sums accArgs_ok accArgs_fits unload_accumulator_runs)

section
variable {K : Type} {S : Type*} [Field K] [LinearOrder K] [IsStrictOrderedRing K]

/-- Enough movers for every particle to leave its domain. -/
def Room (P : ℕ) (s : Species K) : Prop := s.np + 24 * P ≤ s.max_nm

lemma quiet_exist {Rd : Rounding} (hRd : Rd.Accurate) {g : LGrid} (h : LocalMesh g) {fuel : ℕ} {X : PushPar K} {P : ℕ}
    (hP : 0 < P) (hP2 : P ≤ 2 ^ 16) (l : List ℕ) (hl : l.Nodup) : ∀ (sp : ℕ → Species K) (acc : ℤ → Fin 12 → K),
    (∀ id ∈ l, Pushable g fuel X id (sp id) ∧ Room P (sp id)) → ∃ sp' acc', QuietPushes Rd g fuel X P l sp acc sp' acc' := by
  induction l with
  | nil => exact fun sp acc _ => ⟨_, _, .nil sp acc⟩
  | cons id l ih =>
    intro sp acc hs
    rw [List.nodup_cons] at hl
    obtain ⟨hj, hr⟩ := hs id (by simp)
    let m : Mem K := Mem.mk (sp id).p acc (sp id).pm fun _ => ⟨0, 0, true⟩
    obtain ⟨m', res, hadv⟩ := AdvanceP.advance_exists Rd hRd (pushArgs g fuel X id (sp id)) P hP hP2 hj.nm31 m
    have hq := room_quiet Rd hRd (pushArgs g fuel X id (sp id)) P hP hP2 hj.np31 hj.nm31 (nvox_nonneg' h) hr m m' hj.ok res hadv
    obtain ⟨pm, nm, rfl, -⟩ := AdvanceP.advance_p_movers Rd hRd (pushArgs g fuel X id (sp id)) P hP hP2 hj.np31
      hj.nm31 (nvox_nonneg' h) m m' hj.ok _ hadv
    obtain ⟨sp', acc', hp⟩ := ih hl.2 (Function.update sp id { sp id with p := m'.part, pm := pm, nm := nm }) m'.acc
      (fun j hjl => by
        have hne : j ≠ id := fun e => hl.1 (e ▸ hjl)
        rw [Function.update_of_ne hne]
        exact hs j (by simp [hjl]))
    exact ⟨sp', acc', .cons id l sp m m' pm nm sp' acc' rfl rfl hadv hq hp⟩

lemma sortAll_exist {Rd : Rounding} (hRd : Rd.Accurate) {P nsp : ℕ} (hP : 0 < P) (hP2 : P ≤ 256) {g : LGrid} (h : LocalMesh g)
    (interval : ℕ → ℤ) (step : ℤ) (sp : ℕ → Species K) (hs : ∀ id < nsp, Settled g (sp id)) :
    ∃ sp', SortAll Rd P nsp g interval step sp sp' := by
  classical
  have : ∀ id, ∃ s', (id < nsp ∧ due (interval id) step → SortSpecies Rd P g (sp id) s') ∧
      (¬ (id < nsp ∧ due (interval id) step) → s' = sp id) := by
    intro id
    by_cases hd : id < nsp ∧ due (interval id) step
    · obtain ⟨p', part', e, -⟩ := SortP.sort_stable Rd hRd MoveP.Part.i
        ⟨Verif.Sched.rev _, Verif.Sched.seq _, Verif.Sched.rev _, Verif.Sched.rev _⟩
        ⟨fun _ => (sp id).p 0, fun _ => 0, fun _ => 0⟩ P hP hP2 g.nx g.ny g.nz h.nx h.ny h.nz (sp id).np (hs id hd.1).np31 (sp id).p (fun _ => 0) (settled_inDomain h (hs id hd.1))
      exact ⟨_, fun _ => ⟨_, _, _, _, _, e, rfl⟩, fun hn => absurd hd hn⟩
    · exact ⟨_, fun hn => absurd hn hd, fun _ => rfl⟩
  choose sp' h using this
  exact ⟨sp', h⟩

lemma finish_nothing (g : LGrid) (r8V : K) (l : List ℕ) (sp : ℕ → Species K) (rhob : ℤ → K) (h : ∀ id ∈ l, (sp id).nm = 0) :
    finishAll g r8V l sp rhob = some (sp, rhob) := by
  induction l with
  | nil => rfl
  | cons id l ih =>
    have e : Boundary.finishSpecies g r8V (sp id) rhob = some (sp id, rhob) := by
      have h0 := h id (by simp)
      unfold Boundary.finishSpecies
      rw [h0]
      simp only [Boundary.dropMovers, Option.map_some, Option.some.injEq, Prod.mk.injEq, and_true]
      rw [← h0]
    simp only [finishAll, e, Option.bind_some, Function.update_eq_self]
    exact ih fun j hj => h j (by simp [hj])

section
variable {n : ℕ} {Z : Setup K S n} (hZ : Z.Ok)
include hZ

/-- A periodic box fits together as `Sane` asks. -/
lemma box_sane {V : Drive K} (hr : ∀ x, 0 ≤ x → 0 ≤ V.rt x ∧ V.rt x * V.rt x = x) (hc : ∀ k, |V.cdt_d k| ≤ 1) : Sane Z V where
  joined := box_joined hZ.box
  handlers := closed_conforming (box_closed hZ.box)
  grid := fun r => by rw [hZ.box.same]
  mesh := (Field.periodic_world_cart hZ.box.ok Z.t0 hZ.box.grid hZ.box.cells).mesh
  fuel := hZ.fuel
  rounding := hZ.rounding
  threads := hZ.threads
  nf := hZ.nf
  acc := fun r => by rw [hZ.box.same]; exact hZ.acc r
  acc' := fun r => by rw [hZ.box.same]; exact hZ.acc' r
  root := hr
  cfl := hc

lemma load_runs (m : Fin n → FMem K) (fi : Fin n → ℤ → Boris.Interp K) : ∃ fi', LoadAll Z m fi fi' := by
  have hF := Field.periodic_world_cart hZ.box.ok Z.t0 hZ.box.grid hZ.box.cells
  choose fi' h using fun r => Interp.load_interpolator_runs hZ.rounding (hF.mesh r) hZ.threads.1 hZ.threads.2 (m r) (fi r)
  exact ⟨fi', h⟩

/-- `initialize` runs. -/
theorem begin_runs (V : Drive K) {μ : Machine K S n} (h : Fit Z μ) : ∃ μ' l, Begin Z V μ μ' l ∧
    ∀ r id, ((μ'.R r).sp id).np = ((μ.R r).sp id).np ∧ ((μ'.R r).sp id).max_nm = ((μ.R r).sp id).max_nm := by
  classical
  have hs : ∀ r, ∀ id < Z.nsp, Settled (Z.F r).g ((μ.R r).sp id) := fun r id hid => by
    rw [← hZ.box.same]; exact h.particles r id (by rw [hZ.nsp]; exact hid)
  obtain ⟨⟨m1, e1, h1⟩, -⟩ := kernels_run hZ V.rt μ.m
  obtain ⟨-, ⟨m2, h2⟩, -⟩ := kernels_run hZ V.rt m1
  obtain ⟨-, -, ⟨e2, h3⟩, ⟨m3, h4⟩, -⟩ := kernels_run hZ V.rt m2
  obtain ⟨-, -, -, -, ⟨m4, h5⟩, -⟩ := kernels_run hZ V.rt m3
  obtain ⟨m5, h6⟩ := box_measure hZ.box Z.sc.r8V Z.nsp (fun r => (μ.R r).sp) (fun r id hid => settled_live (hs r id hid)) m4
  obtain ⟨-, -, -, -, -, ⟨m6, h7⟩, -⟩ := kernels_run hZ V.rt m5
  obtain ⟨-, -, -, -, -, -, ⟨m7, h8⟩, -⟩ := kernels_run hZ V.rt m6
  obtain ⟨-, -, -, -, -, -, -, ⟨e3, h9⟩, ⟨m8, h10⟩⟩ := kernels_run hZ V.rt m7
  obtain ⟨⟨m9, e4, h11⟩, -⟩ := kernels_run hZ V.rt m8
  obtain ⟨fi', h12⟩ := load_runs hZ m9 μ.fi
  have hu : ∀ r id, ∃ s', (id < (Z.B r).nsp → ∃ p', Boris.UncenterP V.rt (V.qdt_2mc id) (fi' r) Z.Rd ((μ.R r).sp id).np Z.P
      ((μ.R r).sp id).p p' ∧ s' = { (μ.R r).sp id with p := p' }) ∧ (¬ id < (Z.B r).nsp → s' = (μ.R r).sp id) ∧
      s'.np = ((μ.R r).sp id).np ∧ s'.max_nm = ((μ.R r).sp id).max_nm := by
    intro r id
    by_cases hid : id < (Z.B r).nsp
    · obtain ⟨p', u⟩ := Boris.updates_exist Z.Rd hZ.rounding ((μ.R r).sp id).np Z.P (h.particles r id hid).np31 hZ.threads.1
        hZ.threads.2 (Boris.uncenterPart V.rt (V.qdt_2mc id) (fi' r)) ((μ.R r).sp id).p
      exact ⟨_, fun _ => ⟨p', u, rfl⟩, fun hn => absurd hid hn, rfl, rfl⟩
    · exact ⟨_, fun hn => absurd hn hid, fun _ => rfl, rfl, rfl⟩
  choose sp' k1 k2 k3 using hu
  exact ⟨⟨⟨fun r => { μ.R r with sp := sp' r }, μ.st, m9⟩, fi'⟩, _,
    ⟨⟨m1, m2, m3, m4, m5, m6, m7, m8, e1, e2, e3, e4, h1, h2, h3, h4, h5, h6, h7, h8, h9, h10, h11, h12, rfl⟩, rfl,
      fun r => ⟨sp' r, rfl, fun id => ⟨k1 r id, k2 r id⟩⟩⟩, fun r id => k3 r id⟩

/-- The part that moves the particles runs, and leaves no particle on its way. -/
lemma moved_runs [Archimedean K] (h32 : Z.nsp ≤ 32) (hnb : ∀ r, (Z.B r).nb ≤ 32) (h256 : Z.P ≤ 256) {V : Drive K} (hV : Sane Z V)
    (step : ℤ) {μ : Machine K S n} (h : Fit Z μ) (hroom : ∀ r, ∀ id < Z.nsp, Room Z.P ((μ.R r).sp id))
    (hmsg : fitsMsg (total Z μ.toState)) (hgrow : grow (2 * total Z μ.toState) < 2 ^ 31) :
    ∃ R' st', Moved Z V step μ R' st' := by
  have hJ := box_joined hZ.box
  have hcl := box_closed hZ.box
  choose sp1 hs1 using fun r => sortAll_exist hZ.rounding hZ.threads.1 h256 (hJ.mesh r) V.sort_interval step (μ.R r).sp
    (h.particles r)
  have sized : ∀ r id, (sp1 r id).np = ((μ.R r).sp id).np ∧ (sp1 r id).max_nm = ((μ.R r).sp id).max_nm := by
    intro r id
    by_cases hd : id < (Z.B r).nsp ∧ due (V.sort_interval id) step
    · obtain ⟨_, _, _, _, _, -, e⟩ := (hs1 r id).1 hd
      rw [e]; exact ⟨rfl, rfl⟩
    · rw [(hs1 r id).2 hd]; exact ⟨rfl, rfl⟩
  have hs : ∀ r, ∀ id < (Z.B r).nsp, Settled (Z.B r).g (sp1 r id) := fun r id hid => (sorted_settled hV h (hs1 r) id hid).1
  have hq : ∀ r, ∃ sp2 st1, QuietPhase Z.Rd (Z.B r).g (Z.B r).fuel (V.par (μ.fi r)) Z.P Z.nf (ids (Z.B r).nsp) (sp1 r)
      (μ.st r) sp2 st1 := by
    intro r
    have g := hJ.mesh r
    obtain ⟨s1, a1⟩ := (clear_zeroes Z.Rd hZ.rounding _ (accArgs_ok g.nx g.ny g.nz Z.nf Z.P) Z.P (by simp [accArgs]) (hV.acc r)
      hZ.threads.1 hZ.threads.2 (μ.st r)).1
    obtain ⟨sp', acc', a2⟩ := quiet_exist hZ.rounding g (fuel := (Z.B r).fuel) (X := V.par (μ.fi r)) hZ.threads.1 hZ.threads.2
      (ids (Z.B r).nsp) (ids_nodup _) (sp1 r) (accOf Z.nf s1) (fun id hid => by
        have hid' := (Boundary.mem_ids _ _).mp hid
        refine ⟨settled_pushable g (hZ.fuel r) (courant hV _) id (hs r id hid'), ?_⟩
        have := hroom r id (by rw [← hZ.nsp r]; exact hid')
        unfold Room at *
        rw [(sized r id).1, (sized r id).2]
        exact this)
    obtain ⟨s2, rfl⟩ := accOf_surj Z.nf hZ.nf acc'
    obtain ⟨s3, a3⟩ := (reduce_sums Z.Rd hZ.rounding _ (accArgs_ok g.nx g.ny g.nz Z.nf Z.P)
      (accArgs_fits g.nx g.ny g.nz Z.nf Z.P (hV.acc' r)) Z.P (hV.acc r) hZ.threads.1 hZ.threads.2 s2).1
    exact ⟨sp', s3, s1, s2, a1, a2, a3⟩
  choose sp2 st1 hq using hq
  have hp : ∀ r, PushPhase Z.Rd (Z.B r).g (Z.B r).fuel (V.par (μ.fi r)) Z.P Z.nf (ids (Z.B r).nsp) (sp1 r) (μ.st r) (sp2 r)
      (st1 r) := fun r => by
    obtain ⟨s1, s2, a1, a2, a3⟩ := hq r
    exact ⟨s1, s2, a1, quiet_pushes a2, a3⟩
  let R0 : Fin n → Rank K S := fun r => entering (μ.R r) (sp1 r) (μ.R r).a (μ.m r)
  have k := fun r => push_phase_result hZ.rounding (hJ.mesh r) (courant hV (μ.fi r)) hZ.threads.1 hZ.threads.2 (R := R0 r)
    (hostAcc (Z.B r).g Z.nf (st1 r)) (hZ.fuel r) (hs r) (hp r)
  obtain ⟨R2, hr⟩ := rounds_exist hJ hcl hnb hZ.nsp h32 (total Z μ.toState) hmsg hgrow Z.N 3
    (fun r => entering (μ.R r) (sp2 r) (hostAcc (Z.B r).g Z.nf (st1 r)) (μ.m r)) (fun r => (k r).1) (fun r => (k r).2.1) hZ.fuel
    (le_of_eq (Finset.sum_congr rfl fun r _ => Finset.sum_congr rfl fun id hid =>
      ((k r).2.2 id (by rw [hZ.nsp r]; exact Finset.mem_range.mp hid)).trans (sized r id).1))
  choose st' hst using fun r => accOf_surj Z.nf hZ.nf (fun j k =>
    if 0 ≤ j ∧ j < nvox (Z.B r).g then (R2 r).a j k else accOf Z.nf (st1 r) j k)
  have hph : ParticlePhase Z.B Z.Rd (fun r => V.par (μ.fi r)) Z.P Z.nf Z.N R0 μ.st R2 st' :=
    ⟨sp2, st1, hp, hr, fun r j k => by rw [hst r]⟩
  have hnm := (exchanges_suffice_periodic hZ.box hZ.rounding (fun r => courant hV (μ.fi r)) hZ.rounds hZ.threads.1 hZ.threads.2
    hZ.fuel (fun r id hid => by rw [← hZ.box.same]; exact hs r id hid) hph).1
  refine ⟨R2, st', ⟨sp1, sp2, st1, R2, hs1, hq, hr, fun r => ?_, fun r j k => by rw [hst r]⟩⟩
  unfold finishRank
  rw [finish_nothing _ _ _ _ _ (fun id hid => (hnm r id ((Boundary.mem_ids _ _).mp hid)).1)]
  rfl

/-- `advance` runs. -/
theorem cycle_runs [Archimedean K] (h32 : Z.nsp ≤ 32) (hnb : ∀ r, (Z.B r).nb ≤ 32) (h256 : Z.P ≤ 256) {V : Drive K} (hV : Sane Z V)
    (A : Settings) (step : ℤ) (go : ¬ (0 < A.num_step ∧ A.num_step ≤ step)) {μ : Machine K S n} (h : Fit Z μ)
    (hroom : ∀ r, ∀ id < Z.nsp, Room Z.P ((μ.R r).sp id)) (hmsg : fitsMsg (total Z μ.toState))
    (hgrow : grow (2 * total Z μ.toState) < 2 ^ 31) : ∃ μ' l, Cycle Z V A step μ μ' l := by
  obtain ⟨R', st', hm⟩ := moved_runs hZ h32 hnb h256 hV step h hroom hmsg hgrow
  have fit := moved_fit hV h hm μ.m μ.fi
  have hw : ∀ r, ∀ id < Z.nsp, ∀ p ∈ live ((R' r).sp id).p ((R' r).sp id).np, Within (Z.F r).g p := fun r id hid => by
    rw [← hZ.box.same]
    exact settled_live (fit.particles r id (by rw [hZ.nsp]; exact hid))
  have hF := Field.periodic_world_cart hZ.box.ok Z.t0 hZ.box.grid hZ.box.cells
  choose n1 hn1 using fun r => unload_accumulator_runs hZ.rounding (hF.mesh r) hZ.threads.1 hZ.threads.2 Z.sc (R' r).a
    (clearJf (Z.F r).g (withRhob (μ.m r) (R' r).rhob))
  obtain ⟨m1, h1⟩ := box_sync_jf hZ.box n1
  obtain ⟨m4, h4⟩ := ops_run hZ.box.ok Z.t0 hZ.box.grid hZ.box.cells [.b (1 / 2), .e, .b (1 / 2)] m1
  have rounds := fun N m => rounds_run hZ V.rt N N.toNat 0 m (by omega)
  have hE : ∃ m5 l1, PartE Z V.rt A step R' m4 m5 l1 := by
    by_cases hd : due A.clean_div_e_interval step
    · obtain ⟨m0, e0⟩ := box_measure hZ.box Z.sc.r8V Z.nsp (fun r => (R' r).sp) hw m4
      obtain ⟨m', l, e⟩ := (rounds A.num_div_e_round m0).1
      exact ⟨m', l, .inl ⟨hd, m0, e0, e⟩⟩
    · exact ⟨_, _, .inr ⟨hd, rfl, rfl⟩⟩
  obtain ⟨m5, l1, h5⟩ := hE
  have hB : ∃ m6 l2, PartB Z V.rt A step m5 m6 l2 := by
    by_cases hd : due A.clean_div_b_interval step
    · obtain ⟨m', l, e⟩ := (rounds A.num_div_b_round m5).2
      exact ⟨m', l, .inl ⟨hd, e⟩⟩
    · exact ⟨_, _, .inr ⟨hd, rfl, rfl⟩⟩
  obtain ⟨m6, l2, h6⟩ := hB
  have hS : ∃ m7 l3, PartSync Z A step m6 m7 l3 := by
    by_cases hd : due A.sync_shared_interval step
    · obtain ⟨⟨m', e, h⟩, -⟩ := kernels_run hZ V.rt m6
      exact ⟨m', _, .inl ⟨hd, e, h, rfl⟩⟩
    · exact ⟨_, _, .inr ⟨hd, rfl, rfl⟩⟩
  obtain ⟨m7, l3, h7⟩ := hS
  obtain ⟨fi', h8⟩ := load_runs hZ m7 μ.fi
  cases h4 with
  | cons a1 a2 =>
    cases a2 with
    | cons a2 a3 =>
      cases a3 with
      | cons a3 a4 =>
        cases a4
        exact ⟨⟨⟨R', st', m7⟩, fi'⟩, _, ⟨go, hm, m1, _, _, m4, m5, m6, l1, l2, l3, ⟨n1, hn1, h1⟩, a1, a2, a3, h5, h6, h7, h8, rfl⟩⟩

end

end

/-- The sample of `Torus` with `P` pipelines. -/
noncomputable def threadSetup (g : Fin 2 → LGrid) (P : ℕ) : Setup ℝ Unit 2 := { gaussSetup g with P := P }

/-- The sample particle, with room for movers. -/
noncomputable def threadRank : Rank ℝ Unit := ⟨fun _ => { stepSpecies with max_nm := 100 }, fun _ _ => 0, fun _ => 0, (), 0, 0⟩

/-- The square root, charge over mass, time step and sorting interval of the sample. -/
noncomputable def threadDrive : Drive ℝ := ⟨Real.sqrt, fun _ => 1, fun _ => 1 / 2, fun _ => 1⟩

lemma threadSetup_ok {g : Fin 2 → LGrid} (hg : (gaussSetup g).Ok)
    (hx : ∀ r, (g r).nx = 2 ∧ (g r).ny = 3 ∧ (g r).nz = 2) {P : ℕ} (hP : P = 1 ∨ P = 3) : (threadSetup g P).Ok where
  box := hg.box
  rounding := hg.rounding
  rounds := hg.rounds
  nsp := hg.nsp
  nf := hg.nf
  threads := by rcases hP with rfl | rfl <;> simp [threadSetup]
  fuel := hg.fuel
  acc := by
    intro r
    show (SfInterface.accArgs (g r).nx (g r).ny (g r).nz 16 P).n < 2 ^ 31
    rw [(hx r).1, (hx r).2.1, (hx r).2.2]
    rcases hP with rfl | rfl <;> decide
  acc' := by
    intro r
    show (P : ℤ) * (SfInterface.pow2Ceil2 (SfInterface.nvOf (g r).nx (g r).ny (g r).nz) * ((16 : ℕ) : ℤ)) < 2 ^ 31
    rw [(hx r).1, (hx r).2.1, (hx r).2.2]
    rcases hP with rfl | rfl <;> decide
  dt := hg.dt
  vol := hg.vol
  dt_same := hg.dt_same
  rd_same := hg.rd_same
  resolved := hg.resolved
  consts := hg.consts
  made := hg.made
  medium := hg.medium

/-- The hypotheses of `run_any_threads` hold together: two ranks with a particle each, any fields, one thread in one run and
three in the other, sorting and cleaning in the step. -/
example (m : Fin 2 → FMem ℝ) (fi : Fin 2 → ℤ → Boris.Interp ℝ) : ∃ (Z Z' : Setup ℝ Unit 2) (V : Drive ℝ) (A : Settings)
    (μ μ0 μ1 ν ν0 ν1 : Machine ℝ Unit 2) (l0 l k0 k : List (Msg ℝ)), Sane Z V ∧ Sane Z' V ∧ OnlyThreads Z Z' ∧ Z.P = 1 ∧ Z'.P = 3 ∧
    Fit Z μ ∧ Fit Z' ν ∧ Same μ ν ∧ μ.m = m ∧ total Z μ.toState = 2 ∧ Begin Z V μ μ0 l0 ∧ Begin Z' V ν ν0 k0 ∧
    Cycles Z V A 0 μ0 1 μ1 l ∧ Cycles Z' V A 0 ν0 1 ν1 k ∧ Same μ1 ν1 ∧ l0 ++ l = k0 ++ k ∧ due A.clean_div_e_interval 0 := by
  obtain ⟨g, hg, -, hZ, hs⟩ := gaussSetup_case
  have hx : ∀ r, (g r).nx = 2 ∧ (g r).ny = 3 ∧ (g r).nz = 2 := by
    obtain ⟨g', hg'⟩ := Boundary.sample_grids
    intro r
    have e := (hg' r).1
    rw [hg r, Option.some.injEq] at e
    rw [e]
    exact ⟨(hg' r).2.1, (hg' r).2.2.1, (hg' r).2.2.2.1⟩
  let μ : Machine ℝ Unit 2 := ⟨⟨fun _ => threadRank, fun _ _ => 0, m⟩, fi⟩
  have key : ∀ P, P = 1 ∨ P = 3 → Sane (threadSetup g P) threadDrive ∧ Fit (threadSetup g P) μ ∧ ∃ μ0 μ1 l0 l,
      Begin (threadSetup g P) threadDrive μ μ0 l0 ∧ Cycle (threadSetup g P) threadDrive ⟨0, 1, 1, 1, 1, 1⟩ 0 μ0 μ1 l := by
    intro P hP
    have ok := threadSetup_ok hZ hx hP
    have sane : Sane (threadSetup g P) threadDrive := box_sane ok
      (fun x hx => ⟨Real.sqrt_nonneg x, Real.mul_self_sqrt hx⟩) (fun k => by norm_num [threadDrive, abs_le])
    have fit : Fit (threadSetup g P) μ :=
      { particles := fun r id hid => by
          have := hs r id hid
          exact ⟨this.np, this.np31, by norm_num [μ, threadRank], this.within⟩
        sized := fun r id _ => by simp [Sized, μ, threadRank, stepSpecies]
        tidy := fun r b _ v _ _ k hne => absurd rfl hne }
    obtain ⟨μ0, l0, hb, hk⟩ := begin_runs ok threadDrive fit
    have tot : total (threadSetup g P) μ0.toState = 2 := by
      unfold total
      simp only [hk]
      simp [threadSetup, gaussSetup, μ, threadRank, stepSpecies]
    obtain ⟨μ1, l, hc⟩ := cycle_runs ok (by simp [threadSetup, gaussSetup]) (fun _ => by simp [threadSetup, gaussSetup, stepEnv])
      (by rcases hP with rfl | rfl <;> simp [threadSetup]) sane ⟨0, 1, 1, 1, 1, 1⟩ 0 (by simp) (begin_fit sane fit hb)
      (fun r id _ => by
        unfold Room
        rw [(hk r id).1, (hk r id).2]
        rcases hP with rfl | rfl <;> simp [threadSetup, μ, threadRank, stepSpecies])
      (by rw [tot]; decide) (by rw [tot]; decide)
    exact ⟨sane, fit, μ0, μ1, l0, l, hb, hc⟩
  obtain ⟨s1, f1, μ0, μ1, l0, l, b1, c1⟩ := key 1 (.inl rfl)
  obtain ⟨s2, f2, ν0, ν1, k0, k, b2, c2⟩ := key 3 (.inr rfl)
  have hT : OnlyThreads (threadSetup g 1) (threadSetup g 3) := rfl
  have hS : Same μ μ := ⟨fun r => SameRank.refl _, rfl, rfl⟩
  have d1 : Cycles (threadSetup g 1) threadDrive ⟨0, 1, 1, 1, 1, 1⟩ 0 μ0 1 μ1 ([] ++ l) := .step (.refl _ _) c1
  have d2 : Cycles (threadSetup g 3) threadDrive ⟨0, 1, 1, 1, 1, 1⟩ 0 ν0 1 ν1 ([] ++ k) := .step (.refl _ _) c2
  obtain ⟨r1, r2⟩ := run_any_threads s1 s2 hT f1 f2 hS b1 b2 d1 d2
  refine ⟨_, _, _, _, μ, μ0, μ1, μ, ν0, ν1, _, _, _, _, s1, s2, hT, rfl, rfl, f1, f2, hS, rfl, ?_, b1, b2, d1, d2, r1, r2, by simp [due]⟩
  simp [total, threadSetup, gaussSetup, μ, threadRank, stepSpecies]

end Verif.Threads
