import Verif.Threads.Lemmas

/-!
# C87: a run does not depend on the number of threads
-/
namespace Verif.Threads

open Grid MoveP Charge Torus
open Boundary (Rank Species Env ids finishSpecies live)
open Field (Pos FC FMem World SynchronizeTangENormB)
open Distribute (Rounding upTo)
open AdvanceP (Args Mem Advance moverList PushOk accBase)
open SfInterface (Clear Reduce accArgs pow2Ceil2 nvOf)

section
variable {K : Type} {S : Type*} [Field K] [LinearOrder K] [IsStrictOrderedRing K] {n : ℕ}

/-- Spec: two machines with the same particles in the same order, the same fields and the same interpolators.  Storage of
movers that is not in use and the accumulators of the pipelines may differ. -/
structure Same (μ ν : Machine K S n) : Prop where
  ranks : ∀ r, SameRank (μ.R r) (ν.R r)
  m : μ.m = ν.m
  fi : μ.fi = ν.fi

/-- Spec: the same setup but for the number of pipelines and the rounding of the work distribution. -/
def OnlyThreads (Z Z' : Setup K S n) : Prop := Z' = { Z with Rd := Z'.Rd, P := Z'.P }

lemma twins {Z Z' : Setup K S n} {V : Drive K} (hZ : Sane Z V) (hZ' : Sane Z' V) (h : OnlyThreads Z Z') : Twins Z Z' :=
  ⟨h, hZ.mesh, hZ.rounding, hZ'.rounding, hZ.threads, hZ'.threads⟩

lemma sorted_settled {Z : Setup K S n} {V : Drive K} (hZ : Sane Z V) {μ : Machine K S n} (hμ : Fit Z μ) {step : ℤ}
    {sp1 : Fin n → ℕ → Species K} {r : Fin n}
    (h : SortAll Z.Rd Z.P (Z.B r).nsp (Z.B r).g V.sort_interval step (μ.R r).sp (sp1 r)) :
    ∀ id < (Z.B r).nsp, Settled (Z.B r).g (sp1 r id) ∧ Sized (sp1 r id) := by
  intro id hid
  by_cases hd : id < (Z.B r).nsp ∧ due (V.sort_interval id) step
  · have := (h id).1 hd
    refine ⟨sort_settled hZ.rounding hZ.threads.1 (hZ.joined.mesh r) (hμ.particles r id hid) this, ?_⟩
    obtain ⟨_, _, _, _, _, -, e⟩ := this
    rw [e]
    exact hμ.sized r id hid
  · rw [(h id).2 hd]
    exact ⟨hμ.particles r id hid, hμ.sized r id hid⟩

lemma courant {Z : Setup K S n} {V : Drive K} (hZ : Sane Z V) (fi : ℤ → Boris.Interp K) : Courant (V.par fi) :=
  ⟨hZ.root, hZ.cfl⟩

/-- What the moving part keeps; currents are in interior cells only. -/
lemma moved_keeps [Archimedean K] {Z : Setup K S n} {V : Drive K} (hZ : Sane Z V) {μ : Machine K S n} (hμ : Fit Z μ) {step : ℤ}
    {R' : Fin n → Rank K S} {st' : Fin n → ℤ → K} (h : Moved Z V step μ R' st') (m : Fin n → FMem K)
    (fi : Fin n → ℤ → Boris.Interp K) : Fit Z ⟨⟨R', st', m⟩, fi⟩ ∧ ∀ r, Tidy (Z.B r).g (R' r).a := by
  obtain ⟨sp1, sp2, st1, R2, h1, h2, h3, h4, h5⟩ := h.run
  have hs := fun r => sorted_settled hZ hμ (h1 r)
  have hpu : ∀ r, ∀ id ∈ ids (Z.B r).nsp, Pushable (Z.B r).g (Z.B r).fuel (V.par (μ.fi r)) id (sp1 r id) := fun r id hid =>
    settled_pushable (hZ.joined.mesh r) (hZ.fuel r) (courant hZ _) id (hs r id ((Boundary.mem_ids _ _).mp hid)).1
  have phase : ∀ r, TidyAll (Z.B r).g Z.P (accOf Z.nf (st1 r)) ∧ Tidy (Z.B r).g (hostAcc (Z.B r).g Z.nf (st1 r)) ∧
      (∀ id < (Z.B r).nsp, SoundSp (Z.B r).g (sp2 r id) ∧ Sized (sp2 r id)) := by
    intro r
    obtain ⟨a1, a2, c1, c2, c3⟩ := h2 r
    obtain ⟨k1, k2, -⟩ := phase_facts hZ.rounding hZ.threads.1 hZ.threads.2 hZ.nf (hZ.joined.mesh r) (hZ.acc r) (hZ.acc' r)
      (ids_nodup _) (hpu r) (hμ.tidy r) c1 c2 c3
    refine ⟨k1, k2, fun id hid => ⟨?_, ?_⟩⟩
    · exact pushes_sound Z.Rd hZ.rounding (Z.B r).g (hZ.joined.mesh r) (Z.B r).fuel (V.par (μ.fi r)) Z.P hZ.threads.1
        hZ.threads.2 (quiet_pushes c2) (ids_nodup _) (hpu r) id ((Boundary.mem_ids _ _).mpr hid)
    · exact pushes_sized (quiet_pushes c2) id (hs r id hid).2
  have sound := rounds_sound hZ.joined hZ.handlers Z.N _ R2 h3 (fun r id hid => ((phase r).2.2 id hid).1)
  have tidy : ∀ r, Tidy (Z.B r).g (R2 r).a := by
    have : ∀ (k : ℕ) (Q Q' : Fin n → Rank K S), Rounds Z.B k Q Q' → (∀ r, Boundary.Env.g (Z.B r) = (Z.B r).g) →
        (∀ r, Sound (Z.B r) (Q r)) → (∀ r, Tidy (Z.B r).g (Q r).a) → ∀ r, Tidy (Z.B r).g (Q' r).a := by
      intro k Q Q' hk _
      induction hk with
      | zero => exact fun _ ht => ht
      | succ k Q Q1 Q' hr _ ih =>
        intro hQ ht
        exact ih (fun r => (round_sound hZ.joined hZ.handlers Q Q1 hQ hr r).1)
          (fun r => (round_sound hZ.joined hZ.handlers Q Q1 hQ hr r).2.1 (ht r))
    exact this _ _ _ h3 (fun _ => rfl) (fun r id hid => ((phase r).2.2 id hid).1) (fun r => (phase r).2.1)
  have fin : ∀ r, (R' r).a = (R2 r).a ∧ ∀ id < (Z.B r).nsp, Settled (Z.B r).g ((R' r).sp id) ∧ Sized ((R' r).sp id) := by
    intro r
    have e := h4 r
    unfold finishRank at e
    rw [Option.map_eq_some_iff] at e
    obtain ⟨⟨sp, ρ⟩, e1, e2⟩ := e
    rw [← e2]
    refine ⟨rfl, fun id hid => (finishAll_settled (hZ.joined.mesh r) _ _ (ids_nodup _) (fun id hid => ?_) e1).1 id
      ((Boundary.mem_ids _ _).mpr hid)⟩
    have hid := (Boundary.mem_ids _ _).mp hid
    exact ⟨sound r id hid, rounds_sized Z.N h3 r id ((phase r).2.2 id hid).2⟩
  refine ⟨⟨fun r id hid => ((fin r).2 id hid).1, fun r id hid => ((fin r).2 id hid).2, fun r => ?_⟩,
    fun r => by rw [(fin r).1]; exact tidy r⟩
  intro b hb v h0 h1 k hne
  have e5 := h5 r
  change accOf Z.nf (st' r) (accBase (Z.B r).g Z.P b + v) k ≠ 0 at hne
  rw [e5] at hne
  rcases Nat.lt_or_ge b Z.P with hlt | hge
  · have := (base_above (hZ.joined.mesh r) Z.P hlt h0).1
    rw [if_neg (by omega)] at hne
    exact (phase r).1 b hb v h0 h1 k hne
  · have hbP : b = Z.P := by omega
    have e : accBase (Z.B r).g Z.P b + v = v := by unfold accBase; rw [hbP]; simp
    rw [e, if_pos ⟨h0, h1⟩, (fin r).1] at hne
    exact tidy r v k hne

lemma moved_fit [Archimedean K] {Z : Setup K S n} {V : Drive K} (hZ : Sane Z V) {μ : Machine K S n} (hμ : Fit Z μ) {step : ℤ}
    {R' : Fin n → Rank K S} {st' : Fin n → ℤ → K} (h : Moved Z V step μ R' st') (m : Fin n → FMem K)
    (fi : Fin n → ℤ → Boris.Interp K) : Fit Z ⟨⟨R', st', m⟩, fi⟩ := (moved_keeps hZ hμ h m fi).1

/-- Two moving parts stay together. -/
lemma moved_same [Archimedean K] {Z Z' : Setup K S n} {V : Drive K} (hZ : Sane Z V) (hZ' : Sane Z' V) (hT : OnlyThreads Z Z')
    {μ ν : Machine K S n} (hμ : Fit Z μ) (hν : Fit Z' ν) (hS : Same μ ν) {step : ℤ} {R' T' : Fin n → Rank K S}
    {st' su' : Fin n → ℤ → K} (h1 : Moved Z V step μ R' st') (h2 : Moved Z' V step ν T' su') :
    ∀ r, SameRank (R' r) (T' r) := by
  have eB : Z'.B = Z.B := by rw [hT]
  have en : Z'.nf = Z.nf := by rw [hT]
  have eN : Z'.N = Z.N := by rw [hT]
  obtain ⟨sp1, sp2, st1, R2, a1, a2, a3, a4, -⟩ := h1.run
  obtain ⟨tp1, tp2, su1, T2, b1, b2, b3, b4, -⟩ := h2.run
  have hu := hν.tidy
  have i1 := hZ'.acc
  have i2 := hZ'.acc'
  simp only [eB, en, eN] at b1 b2 b3 b4 hu i1 i2
  have hs := fun r => sorted_settled hZ hμ (a1 r)
  have hpu : ∀ r, ∀ id ∈ ids (Z.B r).nsp, Pushable (Z.B r).g (Z.B r).fuel (V.par (μ.fi r)) id (sp1 r id) := fun r id hid =>
    settled_pushable (hZ.joined.mesh r) (hZ.fuel r) (courant hZ _) id (hs r id ((Boundary.mem_ids _ _).mp hid)).1
  have k1 : ∀ r id, SameSp (sp1 r id) (tp1 r id) := by
    intro r id
    by_cases hd : id < (Z.B r).nsp ∧ due (V.sort_interval id) step
    · exact sort_same hZ.rounding hZ'.rounding hZ.threads.1 hZ'.threads.1 (hZ.joined.mesh r) ((hS.ranks r).sp id)
        (hμ.particles r id hd.1) ((a1 r id).1 hd) ((b1 r id).1 hd)
    · rw [(a1 r id).2 hd, (b1 r id).2 hd]
      exact (hS.ranks r).sp id
  have k2 : ∀ r, (∀ id, SameSp (sp2 r id) (tp2 r id)) ∧ hostAcc (Z.B r).g Z.nf (st1 r) = hostAcc (Z.B r).g Z.nf (su1 r) := by
    intro r
    have c2 := b2 r
    rw [← hS.fi] at c2
    exact phase_same hZ.rounding hZ'.rounding hZ.threads.1 hZ.threads.2 hZ'.threads.1 hZ'.threads.2 hZ.nf (hZ.joined.mesh r)
      (hZ.acc r) (hZ.acc' r) (i1 r) (i2 r) (ids_nodup _) (hpu r) (k1 r) (hμ.tidy r) (hu r) (a2 r) c2
  have k0 : ∀ r, SameRank (entering (μ.R r) (sp2 r) (hostAcc (Z.B r).g Z.nf (st1 r)) (μ.m r))
      (entering (ν.R r) (tp2 r) (hostAcc (Z.B r).g Z.nf (su1 r)) (ν.m r)) := fun r =>
    ⟨(k2 r).1, (k2 r).2, by show (fun v => μ.m r (v, FC.rhob)) = fun v => ν.m r (v, FC.rhob); rw [hS.m],
      (hS.ranks r).st, (hS.ranks r).warn⟩
  have so : ∀ r, Sound (Z.B r) (entering (μ.R r) (sp2 r) (hostAcc (Z.B r).g Z.nf (st1 r)) (μ.m r)) := by
    intro r id hid
    obtain ⟨_, _, _, c2, _⟩ := a2 r
    exact pushes_sound Z.Rd hZ.rounding (Z.B r).g (hZ.joined.mesh r) (Z.B r).fuel (V.par (μ.fi r)) Z.P hZ.threads.1
      hZ.threads.2 (quiet_pushes c2) (ids_nodup _) (hpu r) id ((Boundary.mem_ids _ _).mpr hid)
  have k3 := rounds_same hZ.joined hZ.handlers a3 so k0 b3
  have so2 := rounds_sound hZ.joined hZ.handlers Z.N _ R2 a3 so
  exact fun r => finishRank_same (Z.B r) (k3 r) (so2 r) (a4 r) (b4 r)

lemma cycle_fit [Archimedean K] {Z : Setup K S n} {V : Drive K} (hZ : Sane Z V) {A : Settings} {step : ℤ}
    {μ μ' : Machine K S n} {l : List (Msg K)} (hμ : Fit Z μ) (h : Cycle Z V A step μ μ' l) : Fit Z μ' :=
  moved_fit hZ hμ h.moved μ'.m μ'.fi

lemma loadAll_unique {Z Z' : Setup K S n} (h : Twins Z Z') {m : Fin n → FMem K} {fi f1 f2 : Fin n → ℤ → Boris.Interp K}
    (h1 : LoadAll Z m fi f1) (h2 : LoadAll Z' m fi f2) : f1 = f2 := by
  funext r
  have := h2 r
  rw [h.world] at this
  exact load_interpolator_unique h.rounding h.rounding' h.threads.1 h.threads.2 h.threads'.1 h.threads'.2 (h.mesh r) (h1 r) this

lemma cycle_same [Archimedean K] {Z Z' : Setup K S n} {V : Drive K} (hZ : Sane Z V) (hZ' : Sane Z' V) (hT : OnlyThreads Z Z')
    {A : Settings} {step : ℤ} {μ ν μ' ν' : Machine K S n} {l k : List (Msg K)} (hμ : Fit Z μ) (hν : Fit Z' ν)
    (hS : Same μ ν) (h1 : Cycle Z V A step μ μ' l) (h2 : Cycle Z' V A step ν ν' k) : Same μ' ν' ∧ l = k := by
  have tw := twins hZ hZ' hT
  have kR := moved_same hZ hZ' hT hμ hν hS h1.moved h2.moved
  obtain ⟨m1, m2, m3, m4, m5, m6, l1, l2, l3, a1, a2, a3, a4, a5, a6, a7, a8, rfl⟩ := h1.run
  obtain ⟨n1, n2, n3, n4, n5, n6, k1, k2, k3, b1, b2, b3, b4, b5, b6, b7, b8, rfl⟩ := h2.run
  have eF := tw.world
  have es : Z'.sc = Z.sc := by rw [hT]
  rw [eF] at b1 b2 b3 b4
  rw [es] at b1
  have e0 : (fun r => (ν'.R r).a) = fun r => (μ'.R r).a := funext fun r => (kR r).a.symm
  have e1 : (fun r => withRhob (ν.m r) (ν'.R r).rhob) = fun r => withRhob (μ.m r) (μ'.R r).rhob := funext fun r => by
    rw [(kR r).rhob, hS.m]
  rw [e0, e1] at b1
  obtain rfl := currents_unique tw a1 b1
  obtain rfl := ranksB_unique hZ.mesh a2 b2
  obtain rfl := ranksE_unique hZ.mesh a3 b3
  obtain rfl := ranksB_unique hZ.mesh a4 b4
  obtain ⟨rfl, rfl⟩ := partE_unique tw (fun r => (kR r).sp) a5 b5
  obtain ⟨rfl, rfl⟩ := partB_unique tw a6 b6
  obtain ⟨e, rfl⟩ := partSync_unique tw a7 b7
  rw [← e, ← hS.fi] at b8
  exact ⟨⟨kR, e, loadAll_unique tw a8 b8⟩, rfl⟩

lemma cycles_le {Z : Setup K S n} {V : Drive K} {A : Settings} {i j : ℤ} {μ μ' : Machine K S n} {l : List (Msg K)}
    (h : Cycles Z V A i μ j μ' l) : i ≤ j := by
  induction h with
  | refl => exact le_rfl
  | step _ _ ih => omega

lemma cycles_same [Archimedean K] {Z Z' : Setup K S n} {V : Drive K} (hZ : Sane Z V) (hZ' : Sane Z' V) (hT : OnlyThreads Z Z')
    {A : Settings} {i j : ℤ} {μ μ' : Machine K S n} {l : List (Msg K)} (h1 : Cycles Z V A i μ j μ' l) (hμ : Fit Z μ) :
    Fit Z μ' ∧ ∀ {ν ν' : Machine K S n} {k : List (Msg K)}, Fit Z' ν → Same μ ν → Cycles Z' V A i ν j ν' k →
      Fit Z' ν' ∧ Same μ' ν' ∧ l = k := by
  induction h1 with
  | refl =>
    refine ⟨hμ, fun {ν ν' k} hν hS h2 => ?_⟩
    generalize hj : i = j at h2
    cases h2 with
    | refl => exact ⟨hν, hS, rfl⟩
    | step h2 _ => have := cycles_le h2; omega
  | step c1 c2 ih =>
    obtain ⟨f1, f2⟩ := ih
    refine ⟨cycle_fit hZ f1 c2, fun {ν ν' k} hν hS h2 => ?_⟩
    rename_i j0 μ1 μ2 l0 l1
    generalize hj : j0 + 1 = j at h2
    cases h2 with
    | refl => have := cycles_le c1; omega
    | step h2 h3 =>
      rename_i j2 _ _ _
      obtain rfl : j0 = j2 := by omega
      obtain ⟨g1, g2, rfl⟩ := f2 hν hS h2
      obtain ⟨g3, rfl⟩ := cycle_same hZ hZ' hT f1 g1 g2 c2 h3
      exact ⟨cycle_fit hZ' g1 h3, g3, rfl⟩

lemma begin_fit {Z : Setup K S n} {V : Drive K} (hZ : Sane Z V) {μ μ' : Machine K S n} {l : List (Msg K)} (hμ : Fit Z μ)
    (h : Begin Z V μ μ' l) : Fit Z μ' := by
  have key : ∀ r, ∀ id < (Z.B r).nsp, Settled (Z.B r).g ((μ'.R r).sp id) ∧ Sized ((μ'.R r).sp id) := by
    intro r id hid
    obtain ⟨sp', e, f⟩ := h.ranks r
    obtain ⟨p', u, e2⟩ := (f id).1 hid
    have hs := hμ.particles r id hid
    rw [e]
    show Settled _ (sp' id) ∧ Sized (sp' id)
    rw [e2]
    refine ⟨⟨hs.np, hs.np31, hs.nm31, fun i h0 h1 => ?_⟩, hμ.sized r id hid⟩
    have := Boris.updates_each_once Z.Rd hZ.rounding _ Z.P hs.np31 hZ.threads.1 hZ.threads.2 _ _ _ u i
    rw [if_pos ⟨h0, h1⟩] at this
    have w := hs.within i h0 h1
    show Within _ (p' i)
    rw [this]
    exact w
  refine ⟨fun r id hid => (key r id hid).1, fun r id hid => (key r id hid).2, fun r => ?_⟩
  rw [h.st]
  exact hμ.tidy r

lemma begin_same {Z Z' : Setup K S n} {V : Drive K} (hZ : Sane Z V) (hZ' : Sane Z' V) (hT : OnlyThreads Z Z')
    {μ ν μ' ν' : Machine K S n} {l k : List (Msg K)} (hμ : Fit Z μ) (hS : Same μ ν) (h1 : Begin Z V μ μ' l)
    (h2 : Begin Z' V ν ν' k) : Same μ' ν' ∧ l = k := by
  have tw := twins hZ hZ' hT
  obtain ⟨m1, m2, m3, m4, m5, m6, m7, m8, e1, e2, e3, e4, a1, a2, a3, a4, a5, a6, a7, a8, a9, a10, a11, a12, rfl⟩ := h1.run
  obtain ⟨n1, n2, n3, n4, n5, n6, n7, n8, d1, d2, d3, d4, b1, b2, b3, b4, b5, b6, b7, b8, b9, b10, b11, b12, rfl⟩ := h2.run
  have eF := tw.world
  have es : Z'.sc = Z.sc := by rw [hT]
  have en : Z'.nsp = Z.nsp := by rw [hT]
  have eB : Z'.B = Z.B := by rw [hT]
  rw [eF] at b1 b6 b8 b11
  rw [es, en] at b6
  rw [← hS.m] at b1
  rw [← hS.fi] at b12
  obtain ⟨rfl, rfl⟩ := sync_tang_unique a1 b1
  obtain rfl := ranksDivB_unique tw a2 b2
  obtain rfl := rmsB_unique tw a3 b3
  obtain rfl := ranksCleanB_unique tw a4 b4
  obtain rfl := ranksCurl_unique tw a5 b5
  obtain rfl := measure_rho_unique (fun r => (hS.ranks r).sp) a6 b6
  obtain rfl := ranksRhob_unique tw a7 b7
  obtain rfl := ranksDivE_unique hZ.mesh a8 b8
  obtain rfl := rmsE_unique tw a9 b9
  obtain rfl := ranksCleanE_unique tw a10 b10
  obtain ⟨e, rfl⟩ := sync_tang_unique a11 b11
  rw [← e] at b12
  have ef := loadAll_unique tw a12 b12
  refine ⟨⟨fun r => ?_, e, ef⟩, rfl⟩
  obtain ⟨sp, c1, c2⟩ := h1.ranks r
  obtain ⟨tp, f1, f2⟩ := h2.ranks r
  have hr := hS.ranks r
  rw [c1, f1]
  refine ⟨fun id => ?_, hr.a, hr.rhob, hr.st, hr.warn⟩
  show SameSp (sp id) (tp id)
  have hst := hr.sp id
  by_cases hid : id < (Z.B r).nsp
  · obtain ⟨p, u, x1⟩ := (c2 id).1 hid
    obtain ⟨q, v, x2⟩ := (f2 id).1 (by rw [eB]; exact hid)
    have hs := hμ.particles r id hid
    rw [x1, x2]
    refine ⟨hst.q, fun i h0 h1 => ?_, hst.np, hst.max_np, hst.nm, hst.max_nm, hst.pm⟩
    show p i = q i
    rw [← ef, ← hst.np] at v
    rw [Boris.updates_each_once Z.Rd hZ.rounding _ Z.P hs.np31 hZ.threads.1 hZ.threads.2 _ _ _ u i,
      Boris.updates_each_once Z'.Rd hZ'.rounding _ Z'.P hs.np31 hZ'.threads.1 hZ'.threads.2 _ _ _ v i,
      if_pos ⟨h0, h1⟩, if_pos ⟨h0, h1⟩, hst.p i h0 h1]
  · rw [(c2 id).2 hid, (f2 id).2 (by rw [eB]; exact hid)]
    exact hst

/-- **C87.** Two runs of the program from the same input deck, of the same number of steps, with any two numbers of threads,
any two accurate roundings of the work distribution and under any two schedules, neither of them warning about ignored
movers: at the end all particles are the same and in the same order, all fields and interpolators are the same, and the same
errors have been printed.  The boundaries may be of any kind. -/
theorem run_any_threads [Archimedean K] {Z Z' : Setup K S n} {V : Drive K} (hZ : Sane Z V) (hZ' : Sane Z' V)
    (hT : OnlyThreads Z Z') {A : Settings} {j : ℤ} {μ μ0 μ1 ν ν0 ν1 : Machine K S n} {l0 l k0 k : List (Msg K)}
    (hμ : Fit Z μ) (hν : Fit Z' ν) (hS : Same μ ν) (b1 : Begin Z V μ μ0 l0) (b2 : Begin Z' V ν ν0 k0)
    (c1 : Cycles Z V A 0 μ0 j μ1 l) (c2 : Cycles Z' V A 0 ν0 j ν1 k) : Same μ1 ν1 ∧ l0 ++ l = k0 ++ k := by
  obtain ⟨s0, rfl⟩ := begin_same hZ hZ' hT hμ hS b1 b2
  obtain ⟨-, f⟩ := cycles_same hZ hZ' hT c1 (begin_fit hZ hμ b1)
  obtain ⟨-, s1, rfl⟩ := f (begin_fit hZ' hν b2) s0 c2
  exact ⟨s1, rfl⟩

/-- The same from any point of the run on, such as a restart. -/
theorem steps_any_threads [Archimedean K] {Z Z' : Setup K S n} {V : Drive K} (hZ : Sane Z V) (hZ' : Sane Z' V)
    (hT : OnlyThreads Z Z') {A : Settings} {i j : ℤ} {μ μ1 ν ν1 : Machine K S n} {l k : List (Msg K)}
    (hμ : Fit Z μ) (hν : Fit Z' ν) (hS : Same μ ν) (c1 : Cycles Z V A i μ j μ1 l) (c2 : Cycles Z' V A i ν j ν1 k) :
    Same μ1 ν1 ∧ l = k := by
  obtain ⟨-, f⟩ := cycles_same hZ hZ' hT c1 hμ
  exact (f hν hS c2).2

end

end Verif.Threads
