import Verif.Dispatch.Live

/-!
# Properties of the dispatcher: C36, C37
-/
namespace Verif.Dispatch

/-- An execution: at every moment nobody or one thread makes a step.  A thread that could always make a
step makes one (weak fairness, for threads only: nothing is assumed of the mutexes), and there are
finitely many wakeups without a signal. -/
structure FairRun (n D : ℕ) (σ : ℕ → St) (α : ℕ → Option Act) : Prop where
  start : Reachable n D (σ 0)
  stutter : ∀ t, α t = none → σ (t + 1) = σ t
  step : ∀ t a, α t = some a → act n D (σ t) a = some (σ (t + 1))
  fair : ∀ a, (a = .host ∨ ∃ i, a = .worker i) → ∀ t, (∀ u ≥ t, (act n D (σ u) a).isSome) →
    ∃ u ≥ t, α u = some a
  spurious : ∃ T, ∀ u ≥ T, ∀ i, α u ≠ some (.spurious i)

lemma FairRun.reachable {n D : ℕ} {σ α} (F : FairRun n D σ α) (t : ℕ) : Reachable n D (σ t) := by
  induction t with
  | zero => exact F.start
  | succ t ih =>
    cases h : α t with
    | none => rw [F.stutter t h]; exact ih
    | some a => exact .step a ih (F.step t a h)

lemma antitone_const (f : ℕ → ℕ) (T : ℕ) (h : ∀ u ≥ T, f (u + 1) ≤ f u) :
    ∃ T1 ≥ T, ∀ u ≥ T1, f u = f T1 := by
  have hmono : ∀ u ≥ T, ∀ v ≥ u, f v ≤ f u := by
    intro u hu v hv
    induction v, hv using Nat.le_induction with
    | base => exact le_rfl
    | succ v hv ih => exact (h v (by omega)).trans ih
  by_contra hc
  push Not at hc
  have : ∀ m, ∃ u ≥ T, f u + m ≤ f T := by
    intro m
    induction m with
    | zero => exact ⟨T, le_rfl, by omega⟩
    | succ m ih =>
      obtain ⟨u, hu, hm⟩ := ih
      obtain ⟨v, hv, hne⟩ := hc u hu
      have := hmono u hu v hv
      exact ⟨v, by omega, by omega⟩
  obtain ⟨u, _, hm⟩ := this (f T + 1)
  omega

lemma worker_enabled {s : St} {i : ℕ} (h1 : (s.ws i).pc ≠ .waiting) (h2 : (s.ws i).pc ≠ .exited)
    (h3 : (s.ws i).pc = .waking → (s.ws i).owner = .free) : (workerStep s i).isSome := by
  unfold workerStep
  split
  · contradiction
  · rw [if_pos (h3 ‹_›)]; rfl
  · split <;> rfl
  · rfl
  · rfl
  · rfl
  · rfl
  · contradiction

lemma seeking_step {n D : ℕ} {s s' : St} {id : ℕ} (h : Seeking id s.host) (hs : hostStep n D s = some s')
    (h' : Seeking id s'.host) (i : ℕ) : (s'.ws i).pc = (s.ws i).pc ∧ (s'.ws i).state = (s.ws i).state := by
  obtain ⟨ws, done, Id, busy, host, epoch, runs⟩ := s
  rcases h with h | ⟨k, h⟩ | ⟨k, h⟩ <;> dsimp only at h <;> subst h
  · cases hs; exact ⟨rfl, rfl⟩
  · simp only [hostStep] at hs
    split_ifs at hs <;> cases hs <;> simp only [upd] <;> grind
  · simp only [hostStep] at hs
    split at hs <;> cases hs
    · simp [Seeking] at h'
    · simp [Seeking] at h'
    · simp only [upd]; grind

lemma seeking_enabled {n D : ℕ} {s : St} {id : ℕ} (h : Seeking id s.host) :
    ∃ s', hostStep n D s = some s' := by
  obtain ⟨ws, done, Id, busy, host, epoch, runs⟩ := s
  rcases h with h | ⟨k, h⟩ | ⟨k, h⟩ <;> dsimp only at h <;> subst h <;> simp only [hostStep]
  · exact ⟨_, rfl⟩
  · split_ifs <;> exact ⟨_, rfl⟩
  · split <;> exact ⟨_, rfl⟩

/-- While the host looks for a worker for job `id < n - D`, some worker has no job. -/
lemma exists_inactive {n D : ℕ} {s : St} (h2 : Inv2 n D s) {id : ℕ} (hid : id < n - D)
    (hd : dispd (n - D) s.host = id) : ∃ k < n - D, ¬ Active (s.ws k) := by
  by_contra hc
  push Not at hc
  have := Finset.card_le_card_of_injOn (s := Finset.range (n - D)) (t := Finset.range id)
    (fun i => (s.ws i).job) (by
      intro i hi
      have hi' : i < n - D := by simpa using hi
      have := (h2.act i (hc i hi')).2.1
      rw [hd] at this
      simpa using this) (by
      intro i hi k hk h
      have hi' : i < n - D := by simpa using hi
      have hk' : k < n - D := by simpa using hk
      exact h2.inj i k (hc i hi') (hc k hk') h)
  simp at this
  omega

/-- The search for a worker ends: a set of states closed under the steps of the host in which it always
looks for a worker although worker `k` can take the job is empty. -/
lemma search_ends {n D id k : ℕ} (hk : k < n - D) (R : St → Prop)
    (hR : ∀ s, R s → Inv1 n D s ∧ Seeking id s.host ∧ ((s.ws k).pc = .waiting ∨ (s.ws k).pc = .waking) ∧
      (s.ws k).state = .sleep ∧ ∃ s', hostStep n D s = some s' ∧ R s') (s : St) : ¬ R s := by
  -- distance between the next worker to be tried and `k`
  have key : ∀ m s, R s → s.host = .pe id → (if s.Id ≤ k then k - s.Id else k + (n - D) - s.Id) = m → False := by
    intro m
    induction m using Nat.strong_induction_on with
    | _ m ih =>
      intro s hs hh hm
      obtain ⟨i1, -, -, -, s1, hs1, hr1⟩ := hR s hs
      have hId : s.Id < n - D := by rcases i1.IdLt with h | h <;> omega
      have e1 : s1 = { s with host := .tryl id s.Id, Id := if s.Id + 1 ≥ n - D then 0 else s.Id + 1 } := by
        simp only [hostStep, hh] at hs1; exact (Option.some.inj hs1).symm
      obtain ⟨i2, -, p1, p2, s2, hs2, hr2⟩ := hR s1 hr1
      have hh1 : s1.host = .tryl id s.Id := by rw [e1]
      have hI1 : s1.Id = if s.Id + 1 ≥ n - D then 0 else s.Id + 1 := by rw [e1]
      simp only [hostStep, hh1] at hs2
      have hdist : s.Id ≠ k → (if s1.Id ≤ k then k - s1.Id else k + (n - D) - s1.Id) < m := by
        intro hne
        rw [hI1, ← hm]
        split_ifs <;> omega
      split_ifs at hs2 with hfree
      · have e2 := (Option.some.inj hs2).symm
        obtain ⟨i3, sk3, q1, q2, s3, hs3, hr3⟩ := hR s2 hr2
        have hh2 : s2.host = .locked id s.Id := by rw [e2]
        simp only [hostStep, hh2] at hs3
        have hsk := (hR s3 hr3).2.1
        split at hs3
        · rw [← Option.some.inj hs3] at hsk
          simp [Seeking] at hsk
        · rw [← Option.some.inj hs3] at hsk
          simp [Seeking] at hsk
        · rename_i hst1 _
          have hne : s.Id ≠ k := by
            intro h
            rw [h] at hst1
            exact hst1 q2
          have h3 : s3.Id = s1.Id := by rw [← Option.some.inj hs3, e2]
          refine ih _ (hdist hne) s3 hr3 (by rw [← Option.some.inj hs3]) (by rw [h3])
      · have hne : s.Id ≠ k := by
          intro h
          rw [h] at hfree
          have hw := i2.ownW k
          have hh := i2.ownH k
          rw [hh1] at hh
          cases ho : (s1.ws k).owner with
          | free => exact hfree ho
          | worker => rcases p1 with p | p <;> rw [p, ho] at hw <;> simp at hw
          | host => simp [ho, holds] at hh
        have e2 := (Option.some.inj hs2).symm
        refine ih _ (hdist hne) s2 hr2 (by rw [e2]) (by rw [e2])
  intro hs
  have hlock : ∀ s i, R s → s.host = .locked id i → False := by
    intro s i hs hh
    obtain ⟨-, -, -, -, s1, hs1, hr1⟩ := hR s hs
    simp only [hostStep, hh] at hs1
    have hsk := (hR s1 hr1).2.1
    split at hs1
    · rw [← Option.some.inj hs1] at hsk
      simp [Seeking] at hsk
    · rw [← Option.some.inj hs1] at hsk
      simp [Seeking] at hsk
    · exact key _ s1 hr1 (by rw [← Option.some.inj hs1]) rfl
  obtain ⟨-, hsk, -, -, s1, hs1, hr1⟩ := hR s hs
  rcases hsk with h | ⟨i, h⟩ | ⟨i, h⟩
  · exact key _ s hs h rfl
  · simp only [hostStep, h] at hs1
    split_ifs at hs1
    · exact hlock s1 i hr1 (by rw [← Option.some.inj hs1])
    · exact key _ s1 hr1 (by rw [← Option.some.inj hs1]) rfl
  · exact hlock s i hs h

/-- The host is outside of a call. -/
def Outside (h : HPc) : Prop := h = .idle ∨ h = .error ∨ h = .halted

/-- C37: with 0 or 1 jobs given to the host, in every execution every call returns: `dispatch`, `wait`
and `halt` never hang. -/
theorem calls_return (n D : ℕ) (hD : D ≤ 1) (hn : D ≤ n) (σ : ℕ → St) (α : ℕ → Option Act)
    (F : FairRun n D σ α) (t : ℕ) : ∃ u ≥ t, Outside (σ u).host := by
  by_contra hc
  push Not at hc
  obtain ⟨T0, hT0⟩ := F.spurious
  have inv : ∀ u, Inv1 n D (σ u) ∧ Inv2 n D (σ u) := fun u => inv_reachable hD hn (F.reachable u)
  -- what can happen
  have hact : ∀ u ≥ max t T0, ∀ a, α u = some a →
      (∃ i < n - D, a = .worker i ∧ workerStep (σ u) i = some (σ (u + 1))) ∨
      (a = .host ∧ hostStep n D (σ u) = some (σ (u + 1))) := by
    intro u hu a ha
    have hs := F.step u a ha
    have hu' := hc u (by omega)
    cases a with
    | worker i =>
      left
      simp only [act] at hs
      split_ifs at hs with hi
      exact ⟨i, hi, rfl, hs⟩
    | host => right; exact ⟨rfl, hs⟩
    | call c =>
      exfalso
      have : (σ u).host ≠ .idle := fun h => hu' (Or.inl h)
      cases c <;> simp [act, callStep, this] at hs
    | spurious i => exact absurd ha (hT0 u (by omega) i)
  have hmono : ∀ u ≥ max t T0, rank n D (σ (u + 1)) ≤ rank n D (σ u) := by
    intro u hu
    cases ha : α u with
    | none => rw [F.stutter u ha]
    | some a =>
      rcases hact u hu a ha with ⟨i, hi, -, hs⟩ | ⟨-, hs⟩
      · exact (rank_worker i hi hs).le
      · rcases rank_host (inv u).1 hs with h | ⟨_, _, _, h⟩ | ⟨_, _, _, _, h⟩
        · exact h.le
        · exact h.le
        · rw [h]
  obtain ⟨T1, hT1, hconst⟩ := antitone_const (fun u => rank n D (σ u)) _ hmono
  have hquiet : ∀ u ≥ T1, (σ (u + 1) = σ u ∧ (∀ i, α u ≠ some (.worker i)) ∧ (α u = some .host →
        ∃ id, id < n ∧ (σ u).host = .waitAt id ∧ (σ u).done id = false)) ∨
      (α u = some .host ∧ hostStep n D (σ u) = some (σ (u + 1)) ∧
        ∃ id, Seeking id (σ u).host ∧ Seeking id (σ (u + 1)).host) := by
    intro u hu
    have he : rank n D (σ (u + 1)) = rank n D (σ u) :=
      (hconst (u + 1) (by omega)).trans (hconst u hu).symm
    cases ha : α u with
    | none => left; exact ⟨F.stutter u ha, by simp, by simp⟩
    | some a =>
      rcases hact u (by omega) a ha with ⟨i, hi, -, hs⟩ | ⟨rfl, hs⟩
      · exact absurd he (rank_worker i hi hs).ne
      · rcases rank_host (inv u).1 hs with h | ⟨id, h1, h2, _⟩ | ⟨id, h1, h2, h3, h⟩
        · exact absurd he h.ne
        · right; exact ⟨rfl, hs, id, h1, h2⟩
        · left; exact ⟨h, by simp, fun _ => ⟨id, h1, h2, h3⟩⟩
  have hnow : ∀ u ≥ T1, ∀ i, α u ≠ some (.worker i) := by
    intro u hu i hi
    rcases hquiet u hu with ⟨_, h, _⟩ | ⟨h, _⟩
    · exact h i hi
    · rw [h] at hi; cases hi
  by_cases hseek : ∃ id, Seeking id (σ T1).host
  · obtain ⟨id, hid⟩ := hseek
    have huniq : ∀ {h : HPc} {a b : ℕ}, Seeking a h → Seeking b h → a = b := by
      intro h a b h1 h2
      rcases h1 with h1 | ⟨_, h1⟩ | ⟨_, h1⟩ <;> rcases h2 with h2 | ⟨_, h2⟩ | ⟨_, h2⟩ <;> subst h1 <;>
        injection h2
    have hall : ∀ u ≥ T1, Seeking id (σ u).host ∧ ∀ i, ((σ u).ws i).pc = ((σ T1).ws i).pc ∧
        ((σ u).ws i).state = ((σ T1).ws i).state := by
      intro u hu
      induction u, hu using Nat.le_induction with
      | base => exact ⟨hid, fun i => ⟨rfl, rfl⟩⟩
      | succ u hu ih =>
        rcases hquiet u hu with ⟨h, _⟩ | ⟨_, h, id', h1, h2⟩
        · rw [h]; exact ih
        · obtain rfl := huniq ih.1 h1
          refine ⟨h2, fun i => ?_⟩
          have := seeking_step h1 h h2 i
          exact ⟨this.1.trans (ih.2 i).1, this.2.trans (ih.2 i).2⟩
    have hidW : id < n - D := by
      rcases hid with h | ⟨i, h⟩ | ⟨i, h⟩
      · exact (inv T1).1.hpe id h
      · exact ((inv T1).1.hid id i (Or.inl h)).1
      · exact ((inv T1).1.hid id i (Or.inr (Or.inl h))).1
    have hdisp : dispd (n - D) (σ T1).host = id := by
      rcases hid with h | ⟨i, h⟩ | ⟨i, h⟩ <;> rw [h] <;> rfl
    obtain ⟨k, hk, hna⟩ := exists_inactive (inv T1).2 hidW hdisp
    have hnoterm : ∀ i, ((σ T1).ws i).state ≠ .terminate := by
      intro i h
      have := (inv T1).1.term i h
      rcases hid with h | ⟨i, h⟩ | ⟨i, h⟩ <;> rw [h] at this <;> exact this
    have hpk : ((σ T1).ws k).pc = .waiting ∨ ((σ T1).ws k).pc = .waking := by
      by_contra hp
      push Not at hp
      obtain ⟨u, hu, ha⟩ := F.fair (.worker k) (Or.inr ⟨k, rfl⟩) T1 (by
        intro u hu
        simp only [act, if_pos hk]
        have e := ((hall u hu).2 k).1
        refine worker_enabled (by rw [e]; exact hp.1) ?_ (by rw [e]; exact fun h => absurd h hp.2)
        rw [e]
        intro h
        exact hnoterm k ((inv T1).1.exit k h))
      exact hnow u hu k ha
    have hsk : ((σ T1).ws k).state = .sleep := by
      rcases (inv T1).1.noAck k with h | h | h
      · exact h
      · exact absurd ⟨h, by rcases hpk with p | p <;> rw [p] <;> decide,
          by rcases hpk with p | p <;> rw [p] <;> decide, by rcases hpk with p | p <;> rw [p] <;> decide⟩ hna
      · exact absurd h (hnoterm k)
    refine search_ends (id := id) hk (fun s => ∃ u ≥ T1, s = σ u) ?_ (σ T1) ⟨T1, le_rfl, rfl⟩
    rintro s ⟨u, hu, rfl⟩
    have hu' := hall u hu
    refine ⟨(inv u).1, hu'.1, by rw [(hu'.2 k).1]; exact hpk, by rw [(hu'.2 k).2]; exact hsk, ?_⟩
    -- the next step of the host
    obtain ⟨v, hv, hav⟩ := F.fair .host (Or.inl rfl) u (by
      intro v hv
      obtain ⟨s', hs'⟩ := seeking_enabled (n := n) (D := D) (hall v (by omega)).1
      simp [act, hs'])
    classical
    have hex : ∃ v, u ≤ v ∧ α v = some .host := ⟨v, hv, hav⟩
    have hfirst := Nat.find_spec hex
    have hmin : ∀ w, u ≤ w → w ≤ Nat.find hex → σ w = σ u := by
      intro w hw
      induction w, hw using Nat.le_induction with
      | base => intro _; rfl
      | succ w hw ih =>
        intro hle
        have hlt : ¬ (u ≤ w ∧ α w = some .host) := Nat.find_min hex (by omega)
        rcases hquiet w (by omega) with ⟨h, _⟩ | ⟨h, _⟩
        · rw [h]; exact ih (by omega)
        · exact absurd ⟨hw, h⟩ hlt
    refine ⟨σ (Nat.find hex + 1), ?_, Nat.find hex + 1, by omega, rfl⟩
    rw [← hmin _ hfirst.1 le_rfl]
    exact F.step _ _ hfirst.2
  · have hst : ∀ u ≥ T1, σ u = σ T1 := by
      intro u hu
      induction u, hu using Nat.le_induction with
      | base => rfl
      | succ u hu ih =>
        rcases hquiet u hu with ⟨h, _⟩ | ⟨_, _, id, h, _⟩
        · rw [h]; exact ih
        · rw [ih] at h; exact absurd ⟨id, h⟩ hseek
    have hwd : ∀ i < n - D, workerStep (σ T1) i = none := by
      intro i hi
      by_contra he
      obtain ⟨u, hu, ha⟩ := F.fair (.worker i) (Or.inr ⟨i, rfl⟩) T1 (by
        intro u hu
        simp only [act, if_pos hi, hst u hu]
        exact Option.isSome_iff_ne_none.mpr he)
      exact hnow u hu i ha
    have hhd : (∃ id, id < n ∧ (σ T1).host = .waitAt id ∧ (σ T1).done id = false) ∨ hostStep n D (σ T1) = none := by
      by_contra he
      push Not at he
      obtain ⟨u, hu, ha⟩ := F.fair .host (Or.inl rfl) T1 (by
        intro u hu
        simp only [act, hst u hu]
        exact Option.isSome_iff_ne_none.mpr he.2)
      rcases hquiet u hu with ⟨_, _, h⟩ | ⟨_, _, id, h, _⟩
      · obtain ⟨id, h1, h2, h3⟩ := h ha
        rw [hst u hu] at h2 h3
        exact absurd h3 (by simp [he.1 id h1 h2])
      · rw [hst u hu] at h; exact hseek ⟨id, h⟩
    have hout := hc T1 (by omega)
    obtain ⟨i1, i2⟩ := inv T1
    have hen : ∀ i < n - D, ((σ T1).ws i).pc = .waiting ∨ ((σ T1).ws i).pc = .exited ∨
        (((σ T1).ws i).pc = .waking ∧ ((σ T1).ws i).owner ≠ .free) := by
      intro i hi
      by_contra he
      push Not at he
      have := worker_enabled he.1 he.2.1 he.2.2
      rw [hwd i hi] at this
      cases this
    have hfree : ∀ i, (∀ k, ¬ holds k (σ T1).host) → ((σ T1).ws i).pc = .waking → ((σ T1).ws i).owner = .free := by
      intro i hh hp
      cases ho : ((σ T1).ws i).owner with
      | free => rfl
      | worker => have := (i1.ownW i).mp ho; rw [hp] at this; simp at this
      | host => exact absurd ((i1.ownH i).mp ho) (hh i)
    rcases hhd with ⟨id, hidn, hw, hdn⟩ | hnone
    · have hep : 0 < (σ T1).epoch := by
        by_contra h0
        have := (i2.ep0 (by omega)).1
        rw [hw] at this
        exact this (by simp [working, halting])
      by_cases hiW : id < n - D
      · obtain ⟨i, hi, ha, -⟩ := i2.pend id hep (by rw [hw]; exact hiW) hiW hdn
        have hh : ∀ k, ¬ holds k (σ T1).host := by rw [hw]; intro k; exact fun h => h
        rcases hen i hi with h | h | ⟨h1, h2⟩
        · rcases i1.wait i h with h' | ⟨_, _, h'⟩ | ⟨_, h'⟩
          · rw [ha.1] at h'; cases h'
          · rw [hw] at h'; cases h'
          · rw [hw] at h'; cases h'
        · exact ha.2.2.2 h
        · exact h2 (hfree i hh h1)
      · have hD1 : D = 1 := by omega
        have : id = n - D := by omega
        have h := i2.ownf hep hD1 (by rw [hw]; rfl)
        rw [← this, hdn] at h
        cases h
    · cases hh : (σ T1).host with
      | idle => exact hout (Or.inl hh)
      | error => exact hout (Or.inr (Or.inl hh))
      | halted => exact hout (Or.inr (Or.inr hh))
      | disp id => simp only [hostStep, hh] at hnone; split_ifs at hnone
      | hostRun id => simp [hostStep, hh] at hnone
      | hostFlag id => simp [hostStep, hh] at hnone
      | pe id => exact hseek ⟨id, Or.inl hh⟩
      | tryl id i => exact hseek ⟨id, Or.inr (Or.inl ⟨i, hh⟩)⟩
      | locked id i => exact hseek ⟨id, Or.inr (Or.inr ⟨i, hh⟩)⟩
      | assigned id i => simp [hostStep, hh] at hnone
      | signalled id i => simp [hostStep, hh] at hnone
      | waitAt id => simp only [hostStep, hh] at hnone; split_ifs at hnone
      | haltLocked id => simp [hostStep, hh] at hnone
      | haltSet id => simp [hostStep, hh] at hnone
      | haltSignalled id => simp [hostStep, hh] at hnone
      | haltAt id =>
        simp only [hostStep, hh] at hnone
        split_ifs at hnone with h1 h2
        have hnh : ∀ k, ¬ holds k (σ T1).host := by rw [hh]; intro k; exact fun h => h
        have how := i1.ownW id
        have hoh := i1.ownH id
        rcases hen id h1 with h | h | ⟨h, h'⟩
        all_goals
          cases ho : ((σ T1).ws id).owner with
          | free => exact h2 ho
          | worker => rw [ho, h] at how; simp at how
          | host => exact hnh id (hoh.mp ho)
      | haltJoin id =>
        simp only [hostStep, hh] at hnone
        split_ifs at hnone with h1
        have hi := i1.hhalt id (by simp [hh])
        have hs := i1.halt id (by simp [hh])
        have hnh : ∀ k, ¬ holds k (σ T1).host := by rw [hh]; intro k; exact fun h => h
        rcases hen id hi with h | h | ⟨h, h'⟩
        · rcases i1.wait id h with h' | ⟨h', _⟩ | ⟨_, h'⟩
          · rw [hs] at h'; cases h'
          · rw [hs] at h'; cases h'
          · rw [hh] at h'; cases h'
        · exact h1 h
        · exact h' (hfree id hnh h)

/-- Hypotheses of `calls_return` can be met: from every reachable state there is such an execution, in
which moreover the program makes no further calls (each thread gets its turn in a cycle). -/
theorem fair_run_exists (n D : ℕ) (s : St) (h : Reachable n D s) :
    ∃ σ α, FairRun n D σ α ∧ σ 0 = s ∧ ∀ t c, α t ≠ some (.call c) := by
  let who : ℕ → Act := fun t => if t % (n + 1) = n then .host else .worker (t % (n + 1))
  let σ : ℕ → St := fun t => Nat.rec s (fun t st => (act n D st (who t)).getD st) t
  have hσ : ∀ t, σ (t + 1) = (act n D (σ t) (who t)).getD (σ t) := fun t => rfl
  refine ⟨σ, fun t => if (act n D (σ t) (who t)).isSome then some (who t) else none, ?_, rfl, ?_⟩
  · refine ⟨h, ?_, ?_, ?_, 0, ?_⟩
    · intro t ht
      rw [hσ]
      cases he : act n D (σ t) (who t) with
      | none => rfl
      | some x => simp [he] at ht
    · intro t a ht
      rw [hσ]
      cases he : act n D (σ t) (who t) with
      | none => simp [he] at ht
      | some x =>
        simp only [he, Option.isSome_some, if_true, Option.some.injEq] at ht
        rw [← ht, he]; rfl
    · intro a ha t hen
      have hturn : ∃ r, r ≤ n ∧ a = if r = n then .host else .worker r := by
        rcases ha with rfl | ⟨i, rfl⟩
        · exact ⟨n, le_rfl, by simp⟩
        · have := hen t le_rfl
          simp only [act] at this
          split_ifs at this with hi
          · exact ⟨i, by omega, by rw [if_neg (by omega)]⟩
          · cases this
      obtain ⟨r, hr, rfl⟩ := hturn
      have hge : t ≤ t * (n + 1) + r := (Nat.le_mul_of_pos_right t (by omega)).trans (Nat.le_add_right _ _)
      refine ⟨t * (n + 1) + r, hge, ?_⟩
      have hw : who (t * (n + 1) + r) = if r = n then .host else .worker r := by
        simp only [who]
        rw [Nat.mul_comm, Nat.mul_add_mod, Nat.mod_eq_of_lt (by omega)]
      have := hen (t * (n + 1) + r) hge
      rw [hw, if_pos this]
    · intro u _ i
      have : who u ≠ .spurious i := by simp only [who]; split_ifs <;> simp
      split_ifs <;> simp [this]
  · intro t c
    have : who t ≠ .call c := by simp only [who]; split_ifs <;> simp
    show (if (act n D (σ t) (who t)).isSome then some (who t) else none) ≠ _
    split_ifs <;> simp [this]

/-- C37: from every reachable state the call in progress can be completed, without another call. -/
theorem completion_reachable (n D : ℕ) (hD : D ≤ 1) (hn : D ≤ n) (s : St) (h : Reachable n D s) :
    ∃ (l : List Act) (s' : St), l.foldlM (act n D) s = some s' ∧ Outside s'.host ∧ ∀ c, .call c ∉ l := by
  obtain ⟨σ, α, F, h0, hc⟩ := fair_run_exists n D s h
  obtain ⟨u, -, hu⟩ := calls_return n D hD hn σ α F 0
  have key : ∀ u, ∃ l : List Act, l.foldlM (act n D) s = some (σ u) ∧ ∀ c, .call c ∉ l := by
    intro u
    induction u with
    | zero => exact ⟨[], by rw [h0]; rfl, by simp⟩
    | succ u ih =>
      obtain ⟨l, hl, hl'⟩ := ih
      cases ha : α u with
      | none => rw [F.stutter u ha]; exact ⟨l, hl, hl'⟩
      | some a =>
        refine ⟨l ++ [a], ?_, fun c hm => ?_⟩
        · rw [List.foldlM_append, hl]
          simp [F.step u a ha]
        · rcases List.mem_append.mp hm with hm | hm
          · exact hl' c hm
          · exact hc u c (by rw [ha, List.mem_singleton.mp hm])
  obtain ⟨l, hl, hl'⟩ := key u
  exact ⟨l, σ u, hl, hu, hl'⟩

/-- C36: when the host has waited (it is outside of a call and not busy), every job of every dispatch has
been executed exactly once, nothing else has been executed, and no worker is executing anything. -/
theorem jobs_run_exactly_once (n D : ℕ) (hD : D ≤ 1) (hn : D ≤ n) (s : St) (h : Reachable n D s)
    (hidle : s.host = .idle) (hbusy : s.busy = false) :
    (∀ e j, s.runs e j = if 1 ≤ e ∧ e ≤ s.epoch ∧ j < n then 1 else 0) ∧
    ∀ i < n - D, (s.ws i).pc ≠ .running ∧ (s.ws i).pc ≠ .flagging ∧ (s.ws i).state = .sleep ∨
      (s.ws i).pc = .toSleep := by
  obtain ⟨h1, h2⟩ := inv_reachable hD hn h
  have hna : ∀ i, ¬ Active (s.ws i) := by
    intro i ha
    have := h2.act i ha
    have h' := h2.fin hbusy this.1 (s.ws i).job (by omega)
    rw [this.2.2.2.2.2.1] at h'
    cases h'
  constructor
  · intro e j
    split_ifs with hc
    · rcases Nat.lt_or_eq_of_le hc.2.1 with he | rfl
      · exact h2.past e j (by omega) he hc.2.2
      · by_cases hj : j < n - D
        · exact h2.once j (by omega) (by rw [hidle]; exact hj) hj (h2.fin hbusy (by omega) j hc.2.2)
        · have : j = n - D := by omega
          rw [this]
          exact h2.own1 (by omega) (by omega) (by rw [hidle]; rfl)
    · exact h2.none e j (by omega)
  · intro i hi
    have := hna i
    have h3 := h1.noAck i
    have h4 := h1.run i
    have h5 := h1.term i
    rw [hidle] at h5
    simp only [halting] at h5
    have h6 := h1.exit i
    have h7 := h1.toW i
    simp only [Active] at this
    grind

/-- C36: no job is ever executed twice, nor a job that has not been given. -/
theorem jobs_run_at_most_once (n D : ℕ) (hD : D ≤ 1) (hn : D ≤ n) (s : St) (h : Reachable n D s) (e j : ℕ) :
    s.runs e j ≤ 1 ∧ (s.runs e j = 1 → 1 ≤ e ∧ e ≤ s.epoch ∧ j < n) := by
  obtain ⟨h1, h2⟩ := inv_reachable hD hn h
  by_cases hc : n ≤ j ∨ s.epoch < e ∨ e = 0
  · rw [h2.none e j hc]; simp
  · refine ⟨?_, fun _ => by omega⟩
    rcases Nat.lt_or_eq_of_le (show e ≤ s.epoch by omega) with he | rfl
    · exact (h2.past e j (by omega) he (by omega)).le
    · by_cases hj : j < n - D
      · by_cases hd : j < dispd (n - D) s.host
        · cases hdn : s.done j with
          | true => exact (h2.once j (by omega) hd hj hdn).le
          | false =>
            obtain ⟨i, -, ha, rfl⟩ := h2.pend j (by omega) hd hj hdn
            have := (h2.act i ha).2.2.2.2.2.2
            by_cases hp : (s.ws i).pc = .flagging
            · exact (this.1 hp).le
            · rw [this.2 hp]; exact Nat.zero_le _
        · rw [h2.todo j (by omega) (by omega) hj]; exact Nat.zero_le _
      · have hjn : j = n - D := by omega
        rw [hjn]
        cases hr : hostRan s.host with
        | true => exact (h2.own1 (by omega) (by omega) hr).le
        | false => rw [h2.own0 (by omega) (by omega) hr]; exact Nat.zero_le _

/-- C36: calls out of order are reported as errors, calls in order are accepted, and there is no other
error. -/
theorem misuse_is_the_only_error (n D : ℕ) (hD : D ≤ 1) (hn : D ≤ n) (s : St) (h : Reachable n D s) :
    (s.host = .idle → s.busy = true → (∃ s', callStep s .dispatch = some s' ∧ s'.host = .error) ∧
      (∃ s', callStep s .halt = some s' ∧ s'.host = .error) ∧
      ∃ s', callStep s .wait = some s' ∧ s'.host = .waitAt 0) ∧
    (s.host = .idle → s.busy = false → (∃ s', callStep s .wait = some s' ∧ s'.host = .error) ∧
      (∃ s', callStep s .halt = some s' ∧ s'.host = .haltAt 0) ∧
      ∃ s', callStep s .dispatch = some s' ∧ s'.host = .disp 0 ∧ s'.epoch = s.epoch + 1 ∧ s'.busy = true) ∧
    (∀ a s', act n D s a = some s' → s.host ≠ .error → s'.host = .error →
      s.host = .idle ∧ ((s.busy = true ∧ (a = .call .dispatch ∨ a = .call .halt)) ∨
        (s.busy = false ∧ a = .call .wait))) := by
  obtain ⟨h1, h2⟩ := inv_reachable hD hn h
  refine ⟨fun hi hb => ?_, fun hi hb => ?_, fun a s' hs hne he => ?_⟩
  · simp [callStep, hi, hb]
  · simp [callStep, hi, hb]
  · cases a with
    | worker i =>
      exfalso
      simp only [act] at hs
      split at hs
      on_goal 2 => cases hs
      unfold workerStep at hs
      split at hs
      all_goals try (split at hs)
      all_goals cases hs
      all_goals exact hne he
    | host =>
      exfalso
      have hterm := h1.term
      obtain ⟨ws, done, Id, busy, host, epoch, runs⟩ := s
      cases host
      all_goals simp only [act, hostStep] at hs
      all_goals try (split at hs)
      all_goals try (split at hs)
      all_goals cases hs
      all_goals first
        | (cases he; done)
        | exact hne he
        | (rename_i ht; exact absurd (hterm _ ht) (by simp [halting]))
    | call c =>
      cases c <;> simp only [act, callStep] at hs <;> split_ifs at hs with h3 h4 <;> cases hs <;>
        simp_all
    | spurious i =>
      exfalso
      simp only [act] at hs
      split_ifs at hs
      cases hs
      exact hne he

/-- After `halt` every worker thread has ended. -/
theorem halt_ends_workers (n D : ℕ) (s : St) (h : Reachable n D s) (hh : s.host = .halted) :
    ∀ i < n - D, (s.ws i).pc = .exited := by
  have key : (∀ id, s.host = .haltAt id ∨ s.host = .haltLocked id ∨ s.host = .haltSet id ∨
      s.host = .haltSignalled id ∨ s.host = .haltJoin id → ∀ i < id, (s.ws i).pc = .exited) ∧
      (s.host = .halted → ∀ i < n - D, (s.ws i).pc = .exited) := by
    clear hh
    induction h with
    | boot h => rw [h.host]; simp
    | @step s s' a _ hs ih =>
      obtain ⟨ws, done, Id, busy, host, epoch, runs⟩ := s
      cases a with
      | worker i =>
        simp only [act] at hs
        split at hs
        on_goal 2 => cases hs
        unfold workerStep at hs
        split at hs
        all_goals try (split at hs)
        all_goals cases hs
        all_goals simp only [upd] at ih ⊢
        all_goals grind
      | host =>
        cases host
        all_goals simp only [act, hostStep] at hs
        all_goals try (split at hs)
        all_goals try (split at hs)
        all_goals cases hs
        all_goals simp [upd, signal] at ih ⊢
        all_goals grind
      | call c =>
        cases c <;> simp only [act, callStep] at hs <;> split_ifs at hs with h3 h4 <;> cases hs <;>
          simp_all
      | spurious i =>
        simp only [act] at hs
        split_ifs at hs
        cases hs
        simp only [upd] at ih ⊢
        grind
  exact key.2 hh

/-- C37 does not hold for every accepted value of `--dispatch_to_host`: when more than one job is left to
the host only the first of them is executed, the flags of the others are never set (the flags are
static, so 0 when the program starts), and `wait` never returns. -/
theorem dispatch_to_host_hangs (n D : ℕ) (hD : n - D + 1 < n) (σ : ℕ → St) (α : ℕ → Option Act)
    (hboot : Booted (σ 0)) (hdone : ∀ j, (σ 0).done j = false)
    (hstut : ∀ t, α t = none → σ (t + 1) = σ t)
    (hstep : ∀ t a, α t = some a → act n D (σ t) a = some (σ (t + 1)))
    (t id : ℕ) (hw : (σ t).host = .waitAt id) (u : ℕ) (hu : t ≤ u) : ∃ id', (σ u).host = .waitAt id' := by
  have hreach : ∀ t, Reachable n D (σ t) := by
    intro t
    induction t with
    | zero => exact .boot hboot
    | succ t ih =>
      cases h : α t with
      | none => rw [hstut t h]; exact ih
      | some a => exact .step a ih (hstep t a h)
  have inv1 : ∀ s, Reachable n D s → Inv1 n D s := by
    intro s h
    induction h with
    | @boot s h =>
      obtain ⟨h1, h2, h3, h4, h5, h6⟩ := h
      constructor <;> grind [holds, halting, working]
    | @step s s' a _ hs ih =>
      cases a with
      | worker i =>
        simp only [act] at hs
        split at hs
        · exact inv1_worker ih i ‹_› hs
        · cases hs
      | host => exact inv1_host ih hs
      | call c => exact inv1_call ih c hs
      | spurious i =>
        simp only [act] at hs
        split at hs
        · cases hs
          rename_i hc
          exact inv1_spurious ih i hc.1 hc.2
        · cases hs
  have key : ∀ t, (∀ i, ((σ t).ws i).state = .execute → ((σ t).ws i).flag < n - D) ∧
      (∀ j, n - D < j → (σ t).done j = false) ∧ (∀ id, (σ t).host = .waitAt id → id ≤ n - D + 1) := by
    intro t
    induction t with
    | zero => exact ⟨fun i h => by simp [(hboot.ws i).2.1] at h, fun j _ => hdone j,
        fun id h => by simp [hboot.host] at h⟩
    | succ t ih =>
      cases h : α t with
      | none => rw [hstut t h]; exact ih
      | some a =>
        have hs := hstep t a h
        have k5 := (inv1 _ (hreach t)).run
        have k13 := (inv1 _ (hreach t)).hid
        have k16 := (inv1 _ (hreach t)).hhost
        generalize σ t = s at *
        generalize σ (t + 1) = s' at *
        obtain ⟨ws, done, Id, busy, host, epoch, runs⟩ := s
        obtain ⟨i1, i2, i3⟩ := ih
        cases a with
        | worker i =>
          simp only [act] at hs
          split at hs
          on_goal 2 => cases hs
          unfold workerStep at hs
          split at hs
          all_goals try (split at hs)
          all_goals cases hs
          all_goals simp only [upd] at i1 i2 i3 ⊢
          all_goals grind
        | host =>
          cases host
          all_goals simp only [act, hostStep] at hs
          all_goals try (split at hs)
          all_goals try (split at hs)
          all_goals cases hs
          all_goals simp [upd, signal] at i1 i2 i3 k13 k16 ⊢
          all_goals grind
        | call c =>
          cases c <;> simp only [act, callStep] at hs <;> split_ifs at hs with h3 h4 <;> cases hs <;>
            exact ⟨i1, i2, by simp⟩
        | spurious i =>
          simp only [act] at hs
          split_ifs at hs
          cases hs
          simp only [upd] at i1 i2 i3 ⊢
          grind
  induction u, hu using Nat.le_induction with
  | base => exact ⟨id, hw⟩
  | succ u hu ih =>
    obtain ⟨id', hid'⟩ := ih
    cases h : α u with
    | none => rw [hstut u h]; exact ⟨id', hid'⟩
    | some a =>
      have hs := hstep u a h
      obtain ⟨-, -, k3⟩ := key u
      have := k3 id' hid'
      generalize σ u = s at *
      generalize σ (u + 1) = s' at *
      cases a with
      | worker i =>
        simp only [act] at hs
        split at hs
        on_goal 2 => cases hs
        unfold workerStep at hs
        split at hs
        all_goals try (split at hs)
        all_goals cases hs
        all_goals exact ⟨id', hid'⟩
      | host =>
        simp only [act, hostStep, hid', if_pos (show id' < n by omega)] at hs
        split_ifs at hs <;> cases hs
        · exact ⟨_, rfl⟩
        · exact ⟨_, hid'⟩
      | call c =>
        cases c <;> simp [act, callStep, hid'] at hs
      | spurious i =>
        simp only [act] at hs
        split_ifs at hs
        cases hs
        exact ⟨id', hid'⟩

/-! ## Concrete executions -/

/-- The state after `boot`. -/
def boot0 : St := ⟨fun _ => ⟨.toWait, .sleep, .worker, 0, 0, 0⟩, fun _ => false, 0, false, .idle, 0, fun _ _ => 0⟩

lemma booted0 : Booted boot0 := ⟨fun _ => ⟨rfl, rfl, rfl⟩, rfl, rfl, rfl, rfl, fun _ _ => rfl⟩

lemma reachable_of_acts {n D : ℕ} (l : List Act) : ∀ {s s' : St}, Reachable n D s →
    l.foldlM (act n D) s = some s' → Reachable n D s' := by
  induction l with
  | nil => intro s s' h hs; cases hs; exact h
  | cons a l ih =>
    intro s s' h hs
    rw [List.foldlM_cons] at hs
    cases ha : act n D s a with
    | none => rw [ha] at hs; cases hs
    | some x => rw [ha] at hs; exact ih (.step a h ha) hs

/-- Two jobs, one for the host, after a dispatch and a wait, with a wakeup without signal before. -/
def run2 : List Act :=
  [.worker 0, .spurious 0, .call .dispatch, .host, .host, .worker 0, .host, .host, .host, .worker 0,
   .worker 0, .worker 0, .host, .host, .host, .host, .host, .host, .worker 0, .host, .host,
   .worker 0, .worker 0, .worker 0, .worker 0, .call .wait, .worker 0, .host, .host, .host]

example : (run2.foldlM (act 2 1) boot0).map (fun s => (s.host, s.busy, s.runs 1 0, s.runs 1 1, s.epoch)) =
    some (.idle, false, 1, 1, 1) := by decide

/-- The hypotheses of `jobs_run_exactly_once` hold in that execution. -/
example : ∃ s, Reachable 2 1 s ∧ s.host = .idle ∧ s.busy = false ∧ s.epoch = 1 := by
  cases h : run2.foldlM (act 2 1) boot0 with
  | none => exact absurd h (by decide)
  | some s =>
    have h2 : (run2.foldlM (act 2 1) boot0).map (fun s => (s.host, s.busy, s.epoch)) =
      some (.idle, false, 1) := by decide
    rw [h] at h2
    simp only [Option.map_some, Option.some.injEq, Prod.mk.injEq] at h2
    exact ⟨s, reachable_of_acts run2 (.boot booted0) h, h2.1, h2.2.1, h2.2.2⟩

/-- Three jobs, two of them left to the host: `wait` is reached. -/
example : ∃ s, Reachable 3 2 s ∧ s.host = .waitAt 0 := by
  let l : List Act := [.worker 0, .call .dispatch, .host, .host, .host, .host, .host, .host, .host, .host,
    .host, .call .wait]
  cases h : l.foldlM (act 3 2) boot0 with
  | none => exact absurd h (by decide)
  | some s =>
    have h2 : (l.foldlM (act 3 2) boot0).map (fun s => s.host) = some (.waitAt 0) := by decide
    rw [h] at h2
    simp only [Option.map_some, Option.some.injEq] at h2
    exact ⟨s, reachable_of_acts l (.boot booted0) h, h2⟩

end Verif.Dispatch
