import Verif.Collide.Lemmas3

/-!
# C118: what the application of collision operators does to the particles

Specification: `Species.cell key s v` is the list of particles of a species in voxel `v`; `cellMom` and `cellEn` are their
momentum and (twice) their kinetic energy; `tagw` keeps position, voxel and weight of a particle.
`Table` says that the partition table of a species locates the particles of each voxel.
-/
namespace Verif.Collide
open Verif.Collision Verif.SortP

variable {T K : Type} [Field K] [LinearOrder K] [IsStrictOrderedRing K]

/-- An operator whose voxel loop does what it should on partition tables satisfying `ok`. -/
def Op.Sound (m : ℕ → K) (eps : K) (ok : (ℕ → ℕ → ℕ) → ℕ → Prop) (op : Op T K) : Prop :=
  ∃ I : op.Gen → Prop, (∀ r, I (op.gens r)) ∧ ∀ part v, ok part v →
    ∀ x g y g', I g → op.vox part x v g = some (y, g') → Step m eps (foot part op.a op.b v) x y ∧ I g'

/-- The Takizuka-Abe operator between two species. -/
def taOp (E : TA K) (interval : ℤ) (gens : ℕ → TAGen K) : Op T K where
  a := E.a
  b := E.b
  interval := interval
  Gen := TAGen K
  vox part := taVoxel { E with part := part }
  gens := gens

/-- The binary operator between two species. -/
def binOp (E : Bin T K) (interval : ℤ) (gens : ℕ → BinGen K) : Op T K where
  a := E.a
  b := E.b
  interval := interval
  Gen := BinGen K
  vox part := binVoxel { E with part := part }
  gens := gens

lemma taOp_sound (E : TA K) (h : E.Ok) (interval : ℤ) (gens : ℕ → TAGen K) :
    (taOp (T := T) E interval gens).Sound E.m E.eps fun _ _ => True := by
  refine ⟨fun _ => True, fun _ => trivial, ?_⟩
  intro part v _ x g y g' _ hr
  exact ⟨taVoxel_step { E with part := part } ⟨h.rt, h.trig, h.eps, h.ma, h.mb⟩ x y v g g' hr, trivial⟩

lemma binOp_sound (E : Bin T K) (eps : K) (h : E.Ok eps) (interval : ℤ) (gens : ℕ → BinGen K)
    (hg : ∀ r, ∀ a ∈ (gens r).1, a < 2 ^ 32) :
    (binOp E interval gens).Sound E.m eps fun part v => ∀ c, c = E.a ∨ c = E.b → part c (v + 1) - part c v ≤ 65535 := by
  refine ⟨fun g => ∀ a ∈ g.1, a < 2 ^ 32, hg, ?_⟩
  intro part v hp x g y g' hI hr
  exact binVoxel_step { E with part := part } eps ⟨h.ma, h.mb, h.kernel, h.still⟩ x y v g g' hI hp hr

/-- The kernel of the hard sphere model is as required. -/
lemma hardSphere_ok (E : Bin T K) (rt : K → K) (hrt : IsSqrt rt) (eps : K) (he : 0 ≤ eps) (ha : 0 < E.m E.a) (hb : 0 < E.m E.b)
    (hx : E.xfer = hsTransfer rt eps) : E.Ok eps := by
  have r0 : rt 0 = 0 := by
    have := (hrt 0 le_rfl).2
    exact mul_self_eq_zero.1 this
  refine ⟨ha, hb, ?_, ?_⟩
  · intro b c ui uj h
    rw [hx]
    exact hard_sphere_conserves rt hrt eps he _ _ ha hb b c h ui uj
  · intro b c
    rw [hx]
    funext i
    fin_cases i <;> simp [hsTransfer, normSq, r0, cross]

/-- The kernel of the large angle Coulomb model is as required. -/
lemma largeAngle_ok (E : Bin T K) (rt : K → K) (hrt : IsSqrt rt) (eps cc : K) (he : 0 ≤ eps) (ha : 0 < E.m E.a) (hb : 0 < E.m E.b)
    (hx : E.xfer = lacTransfer rt eps cc) : E.Ok eps := by
  have r0 : rt 0 = 0 := by
    have := (hrt 0 le_rfl).2
    exact mul_self_eq_zero.1 this
  refine ⟨ha, hb, ?_, ?_⟩
  · intro b c ui uj h
    rw [hx]
    exact large_angle_conserves rt hrt eps he _ _ ha hb cc b c ui uj
  · intro b c
    rw [hx]
    funext i
    fin_cases i <;> simp [lacTransfer, normSq, r0, cross]

/-- Off its interval an operator does nothing at all. -/
theorem op_off_interval (srt : ℕ → (ℤ → Part T K) → (ℤ → ℤ) → Option ((ℤ → Part T K) × (ℤ → ℤ))) (nx ny nz P : ℕ) (step : ℤ)
    (op : Op T K) (st : ℕ → Species T K) (h : op.interval < 1 ∨ ¬ op.interval ∣ step) :
    applyOp srt nx ny nz P step op st = some st := by
  unfold applyOp
  rw [if_pos]
  rcases h with h | h
  · exact Or.inl h
  · exact Or.inr fun h0 => h (Int.dvd_of_tmod_eq_zero h0)

/-- One operator, for any sort that does its work. -/
lemma op_effect (key : T → ℤ) (m : ℕ → K) (eps : K) (nx ny nz P : ℕ) (hx : 1 ≤ nx) (hy : 1 ≤ ny) (hz : 1 ≤ nz) (hP : 0 < P)
    (srt : ℕ → (ℤ → Part T K) → (ℤ → ℤ) → Option ((ℤ → Part T K) × (ℤ → ℤ))) (step : ℤ) (op : Op T K)
    (ok : (ℕ → ℕ → ℕ) → ℕ → Prop) (hop : op.Sound m eps ok) (st st' : ℕ → Species T K)
    (hsrt : ∀ c, SortOk key nx ny nz srt (st c).np)
    (hok : ∀ s : ℕ → Species T K, (∀ c, (s c).np = (st c).np) → (∀ c v, (((s c).cell key v).map tagw).Perm (((st c).cell key v).map tagw)) →
      Table key ((nx + 2) * (ny + 2) * (nz + 2)) (s op.a) → Table key ((nx + 2) * (ny + 2) * (nz + 2)) (s op.b) →
      ∀ v : ℕ, (v : ℤ) + 1 < (nx + 2) * (ny + 2) * (nz + 2) → ok (partOf s) v)
    (hs : ∀ d, Sane key nx ny nz step (st d)) (hr : applyOp srt nx ny nz P step op st = some st') :
    Effect key m eps op.a op.b st st' ∧ (∀ d, Sane key nx ny nz step (st' d)) ∧
      (1 ≤ op.interval → op.interval ∣ step → (st' op.a).last = step ∧ (st' op.b).last = step) := by
  unfold applyOp at hr
  by_cases h0 : op.interval < 1 ∨ step.tmod op.interval ≠ 0
  · rw [if_pos h0] at hr
    simp only [Option.some.injEq] at hr
    subst hr
    refine ⟨Effect.refl .., hs, ?_⟩
    intro h1 h2
    rcases h0 with h | h
    · omega
    · exact absurd (Int.tmod_eq_zero_of_dvd h2) h
  rw [if_neg h0] at hr
  cases ha : sortIfStale srt step st op.a with
  | none => rw [ha] at hr; simp at hr
  | some s1 =>
    rw [ha] at hr
    simp only at hr
    obtain ⟨e1, g1, l1, k1⟩ := sort_effect op.a op.b (Or.inl rfl) m eps (hsrt op.a) hs ha
    cases hb : sortIfStale srt step s1 op.b with
    | none => rw [hb] at hr; simp at hr
    | some s2 =>
      rw [hb] at hr
      simp only at hr
      obtain ⟨e2, g2, l2, k2⟩ := sort_effect op.a op.b (Or.inr rfl) m eps (by rw [e1.count]; exact hsrt op.b) g1 hb
      rw [Option.map_eq_some_iff] at hr
      obtain ⟨y, hy', rfl⟩ := hr
      have la := k2 op.a l1
      have e12 := e1.trans e2
      obtain ⟨I, hI, hvox⟩ := hop
      have hpos : 0 < (nx + 2) * (ny + 2) * (nz + 2) := by positivity
      have hN : (((nx + 2) * (ny + 2) * (nz + 2) - 1 : ℕ) : ℤ) + 1 = ((nx : ℤ) + 2) * (ny + 2) * (nz + 2) := by
        rw [Nat.cast_sub hpos]
        push_cast
        ring
      have ta := (g2 op.a).table la
      have tb := (g2 op.b).table l2
      have hsweep := runPipes_sweep (m := m) (eps := eps) hP (I := I)
        (foot_disjoint s2 op.a op.b key _ _ hN ta tb)
        (fun x v g z g' hvN hg hv => hvox (partOf s2) v (hok s2 e12.count e12.inventory ta tb v (by omega)) x g z g' hg hv)
        op.gens hI (List.range P) (memOf s2) y (fun r hr => List.mem_range.1 hr) hy'
      obtain ⟨e3, g3, l3⟩ := sweep_effect _ hN ⟨by omega, by omega, by omega⟩ g2 la l2 hsweep
      exact ⟨e12.trans e3, g3, fun _ _ => ⟨by rw [l3, la], by rw [l3, l2]⟩⟩

/-- The sort of the library, with `R`, `S`, `g` as in C06. -/
def libSort (R : Distribute.Rounding) (key : T → ℤ) (S : Schedules (Part T K)) (g : Scratch (Part T K)) (P nx ny nz : ℕ) :
    ℕ → (ℤ → Part T K) → (ℤ → ℤ) → Option ((ℤ → Part T K) × (ℤ → ℤ)) :=
  fun n p part => sortP R (fun q : Part T K => key q.tag) S g P nx ny nz n p part

/-- **C118, Takizuka-Abe.**  Let the particles of all species be in the interior and let the partition table be right for
those that were sorted in this step.  Then for every choice of the random numbers the application of the operator leaves the
other species alone, keeps in every voxel the particles of each species with their positions and weights, and
conserves momentum and energy of every voxel whose particles have one weight (energy exactly without
regularisation, otherwise it does not grow).  The same assumptions hold afterwards, and both species have been sorted in this
step if the operator was due. -/
theorem takizuka_abe_operator (key : T → ℤ) (E : TA K) (hE : E.Ok) (interval : ℤ) (gens : ℕ → TAGen K)
    (nx ny nz P : ℕ) (hx : 1 ≤ nx) (hy : 1 ≤ ny) (hz : 1 ≤ nz) (hP : 0 < P) (hP2 : P ≤ 256)
    (R : Distribute.Rounding) (hR : R.Accurate) (S : Schedules (Part T K)) (g : Scratch (Part T K)) (step : ℤ)
    (st st' : ℕ → Species T K) (hnp : ∀ c, (st c).np < 2 ^ 31) (hs : ∀ d, Sane key nx ny nz step (st d))
    (hr : applyOp (libSort R key S g P nx ny nz) nx ny nz P step (taOp E interval gens) st = some st') :
    (∀ c, c ≠ E.a → c ≠ E.b → st' c = st c) ∧
    (∀ c v, (((st' c).cell key v).map tagw).Perm (((st c).cell key v).map tagw)) ∧
    (∀ v w0, 0 ≤ w0 → (∀ c ∈ ({E.a, E.b} : Finset ℕ), ∀ p ∈ (st c).cell key v, p.w = w0) →
      (∀ i, ∑ c ∈ ({E.a, E.b} : Finset ℕ), cellMom key E.m st' c v i = ∑ c ∈ ({E.a, E.b} : Finset ℕ), cellMom key E.m st c v i) ∧
      ∑ c ∈ ({E.a, E.b} : Finset ℕ), cellEn key E.m st' c v ≤ ∑ c ∈ ({E.a, E.b} : Finset ℕ), cellEn key E.m st c v ∧
      (E.eps = 0 → ∑ c ∈ ({E.a, E.b} : Finset ℕ), cellEn key E.m st' c v =
        ∑ c ∈ ({E.a, E.b} : Finset ℕ), cellEn key E.m st c v)) ∧
    (∀ d, Sane key nx ny nz step (st' d)) ∧
    (1 ≤ interval → interval ∣ step → (st' E.a).last = step ∧ (st' E.b).last = step) := by
  obtain ⟨e, g', l⟩ := op_effect key E.m E.eps nx ny nz P hx hy hz hP _ step (taOp E interval gens) _
    (taOp_sound E hE interval gens) st st'
    (fun c => sortP_ok R hR key S g P hP hP2 nx ny nz (by omega) (by omega) (by omega) _ (hnp c))
    (fun _ _ _ _ _ _ _ => trivial) hs hr
  exact ⟨e.others, e.inventory, e.cons, g', l⟩

/-- At most 65535 particles of a species in a voxel, in terms of the table. -/
lemma part_small {key : T → ℤ} {nv : ℤ} {st s : ℕ → Species T K} {c : ℕ}
    (hinv : ∀ v, (((s c).cell key v).map tagw).Perm (((st c).cell key v).map tagw)) (ht : Table key nv (s c))
    (hcap : ∀ v, ((st c).cell key v).length ≤ 65535) {v : ℕ} (hv : (v : ℤ) + 1 < nv) :
    partOf s c (v + 1) - partOf s c v ≤ 65535 := by
  have h1 := (hinv v).length_eq
  rw [List.length_map, List.length_map] at h1
  have h2 : ((s c).cell key v).length = partOf s c (v + 1) - partOf s c v := by
    unfold Species.cell Species.parts
    rw [List.filter_map, List.length_map, ← List.toFinset_card_of_nodup (List.nodup_range.filter _)]
    have : ((List.range (s c).np).filter ((fun p => decide (key p.tag = v)) ∘ fun i : ℕ => (s c).p i)).toFinset =
        Finset.Ico (partOf s c v) (partOf s c v + (partOf s c (v + 1) - partOf s c v)) := by
      ext i
      rw [Finset.mem_Ico, mem_part ht hv]
      simp
    rw [this, Nat.card_Ico]
    omega
  have := hcap v
  omega

/-- **C118, binary model.**  The same for the hard sphere and large angle Coulomb operators, if no voxel holds more than
65535 particles of a species (with more, C53 fails and particles of other voxels are collided). -/
theorem binary_operator_partial (key : T → ℤ) (E : Bin T K) (eps : K) (rt : K → K) (hrt : IsSqrt rt) (heps : 0 ≤ eps)
    (ha : 0 < E.m E.a) (hb : 0 < E.m E.b) (cc : K) (hker : E.xfer = hsTransfer rt eps ∨ E.xfer = lacTransfer rt eps cc)
    (interval : ℤ) (gens : ℕ → BinGen K) (hgen : ∀ r, ∀ a ∈ (gens r).1, a < 2 ^ 32)
    (nx ny nz P : ℕ) (hx : 1 ≤ nx) (hy : 1 ≤ ny) (hz : 1 ≤ nz) (hP : 0 < P) (hP2 : P ≤ 256)
    (R : Distribute.Rounding) (hR : R.Accurate) (S : Schedules (Part T K)) (g : Scratch (Part T K)) (step : ℤ)
    (st st' : ℕ → Species T K) (hnp : ∀ c, (st c).np < 2 ^ 31) (hs : ∀ d, Sane key nx ny nz step (st d))
    (hcap : ∀ c v, ((st c).cell key v).length ≤ 65535)
    (hr : applyOp (libSort R key S g P nx ny nz) nx ny nz P step (binOp E interval gens) st = some st') :
    (∀ c, c ≠ E.a → c ≠ E.b → st' c = st c) ∧
    (∀ c v, (((st' c).cell key v).map tagw).Perm (((st c).cell key v).map tagw)) ∧
    (∀ v w0, 0 ≤ w0 → (∀ c ∈ ({E.a, E.b} : Finset ℕ), ∀ p ∈ (st c).cell key v, p.w = w0) →
      (∀ i, ∑ c ∈ ({E.a, E.b} : Finset ℕ), cellMom key E.m st' c v i = ∑ c ∈ ({E.a, E.b} : Finset ℕ), cellMom key E.m st c v i) ∧
      ∑ c ∈ ({E.a, E.b} : Finset ℕ), cellEn key E.m st' c v ≤ ∑ c ∈ ({E.a, E.b} : Finset ℕ), cellEn key E.m st c v ∧
      (eps = 0 → ∑ c ∈ ({E.a, E.b} : Finset ℕ), cellEn key E.m st' c v =
        ∑ c ∈ ({E.a, E.b} : Finset ℕ), cellEn key E.m st c v)) ∧
    (∀ d, Sane key nx ny nz step (st' d)) ∧
    (1 ≤ interval → interval ∣ step → (st' E.a).last = step ∧ (st' E.b).last = step) := by
  have hE : E.Ok eps := by
    rcases hker with h | h
    · exact hardSphere_ok E rt hrt eps heps ha hb h
    · exact largeAngle_ok E rt hrt eps cc heps ha hb h
  obtain ⟨e, g', l⟩ := op_effect key E.m eps nx ny nz P hx hy hz hP _ step (binOp E interval gens) _
    (binOp_sound E eps hE interval gens hgen) st st'
    (fun c => sortP_ok R hR key S g P hP hP2 nx ny nz (by omega) (by omega) (by omega) _ (hnp c))
    (by
      intro s h1 h2 ta tb v hv c hc
      rcases hc with rfl | rfl
      · exact part_small (h2 _) ta (hcap _) hv
      · exact part_small (h2 _) tb (hcap _) hv) hs hr
  exact ⟨e.others, e.inventory, e.cons, g', l⟩

/-- **C118, list of operators.**  Any number of Takizuka-Abe operators, between any of the species in `L` and with any
intervals, applied one after the other in a step: every species keeps its particles voxel by voxel, and in every voxel whose
particles have one weight the momentum and energy of all species together are conserved. -/
theorem operator_list (key : T → ℤ) (m : ℕ → K) (eps : K) (L : Finset ℕ) (ops : List (TA K × ℤ × (ℕ → TAGen K)))
    (hops : ∀ o ∈ ops, o.1.Ok ∧ o.1.m = m ∧ o.1.eps = eps ∧ o.1.a ∈ L ∧ o.1.b ∈ L)
    (nx ny nz P : ℕ) (hx : 1 ≤ nx) (hy : 1 ≤ ny) (hz : 1 ≤ nz) (hP : 0 < P) (hP2 : P ≤ 256)
    (R : Distribute.Rounding) (hR : R.Accurate) (S : Schedules (Part T K)) (g : Scratch (Part T K)) (step : ℤ) :
    ∀ (st st' : ℕ → Species T K), (∀ c, (st c).np < 2 ^ 31) → (∀ d, Sane key nx ny nz step (st d)) →
    applyList (libSort R key S g P nx ny nz) nx ny nz P step (ops.map fun o => taOp o.1 o.2.1 o.2.2) st = some st' →
    (∀ c v, (((st' c).cell key v).map tagw).Perm (((st c).cell key v).map tagw)) ∧
    (∀ c, c ∉ L → st' c = st c) ∧
    (∀ v w0, 0 ≤ w0 → (∀ c ∈ L, ∀ p ∈ (st c).cell key v, p.w = w0) →
      (∀ i, ∑ c ∈ L, cellMom key m st' c v i = ∑ c ∈ L, cellMom key m st c v i) ∧
      ∑ c ∈ L, cellEn key m st' c v ≤ ∑ c ∈ L, cellEn key m st c v ∧
      (eps = 0 → ∑ c ∈ L, cellEn key m st' c v = ∑ c ∈ L, cellEn key m st c v)) ∧
    (∀ d, Sane key nx ny nz step (st' d)) := by
  induction ops with
  | nil =>
    intro st st' _ hs hr
    simp only [List.map_nil, applyList, Option.some.injEq] at hr
    subst hr
    exact ⟨fun _ _ => List.Perm.refl _, fun _ _ => rfl, fun _ _ _ _ => ⟨fun _ => rfl, le_rfl, fun _ => rfl⟩, hs⟩
  | cons o ops ih =>
    intro st st' hnp hs hr
    obtain ⟨hE, hm, he, haL, hbL⟩ := hops o List.mem_cons_self
    rw [List.map_cons, applyList] at hr
    cases h1 : applyOp (libSort R key S g P nx ny nz) nx ny nz P step (taOp o.1 o.2.1 o.2.2) st with
    | none => rw [h1] at hr; simp at hr
    | some s1 =>
      rw [h1] at hr
      simp only at hr
      obtain ⟨e, gs, -⟩ := op_effect key o.1.m o.1.eps nx ny nz P hx hy hz hP _ step (taOp o.1 o.2.1 o.2.2) _
        (taOp_sound o.1 hE o.2.1 o.2.2) st s1
        (fun c => sortP_ok R hR key S g P hP hP2 nx ny nz (by omega) (by omega) (by omega) _ (hnp c))
        (fun _ _ _ _ _ _ _ => trivial) hs h1
      obtain ⟨i1, i2, i3, i4⟩ := ih (fun o ho => hops o (List.mem_cons_of_mem _ ho)) s1 st'
        (fun c => by rw [e.count]; exact hnp c) gs hr
      rw [hm, he] at e
      replace e : Effect key m eps o.1.a o.1.b st s1 := e
      have hsub : ({o.1.a, o.1.b} : Finset ℕ) ⊆ L := by
        intro c hc
        rw [Finset.mem_insert, Finset.mem_singleton] at hc
        rcases hc with rfl | rfl
        · exact haL
        · exact hbL
      have out : ∀ f : ℕ → Species T K → K, ∑ c ∈ L \ {o.1.a, o.1.b}, f c (s1 c) = ∑ c ∈ L \ {o.1.a, o.1.b}, f c (st c) := by
        intro f
        refine Finset.sum_congr rfl fun c hc => ?_
        rw [Finset.mem_sdiff, Finset.mem_insert, Finset.mem_singleton, not_or] at hc
        rw [e.others c hc.2.1 hc.2.2]
      refine ⟨fun c v => (i1 c v).trans (e.inventory c v), ?_, ?_, i4⟩
      · intro c hc
        rw [i2 c hc]
        exact e.others c (fun h => hc (h ▸ haL)) (fun h => hc (h ▸ hbL))
      · intro v w0 h0 hw
        obtain ⟨c1, c2, c3⟩ := e.cons v w0 h0 (fun c hc => hw c (hsub hc))
        obtain ⟨d1, d2, d3⟩ := i3 v w0 h0 (fun c hc => e.weights (hw c hc))
        have en : ∀ s : ℕ → Species T K, ∑ c ∈ L, cellEn key m s c v = ∑ c ∈ L \ {o.1.a, o.1.b}, cellEn key m s c v +
            ∑ c ∈ ({o.1.a, o.1.b} : Finset ℕ), cellEn key m s c v := fun s => (Finset.sum_sdiff hsub).symm
        have mo : ∀ (s : ℕ → Species T K) i, ∑ c ∈ L, cellMom key m s c v i = ∑ c ∈ L \ {o.1.a, o.1.b}, cellMom key m s c v i +
            ∑ c ∈ ({o.1.a, o.1.b} : Finset ℕ), cellMom key m s c v i := fun s i => (Finset.sum_sdiff hsub).symm
        have oe := out fun c s => ((s.cell key v).map fun p => m c * p.w * (p.u 0 ^ 2 + p.u 1 ^ 2 + p.u 2 ^ 2)).sum
        have om := fun i => out fun c s => ((s.cell key v).map fun p => m c * p.w * p.u i).sum
        refine ⟨?_, ?_, ?_⟩
        · intro i
          rw [d1 i, mo s1 i, mo st i, show ∑ c ∈ L \ {o.1.a, o.1.b}, cellMom key m s1 c v i = _ from om i, c1 i]
          rfl
        · refine d2.trans ?_
          rw [en s1, en st, show ∑ c ∈ L \ {o.1.a, o.1.b}, cellEn key m s1 c v = _ from oe]
          exact add_le_add_right c2 _
        · intro h
          rw [d3 h, en s1, en st, show ∑ c ∈ L \ {o.1.a, o.1.b}, cellEn key m s1 c v = _ from oe, c3 h]
          rfl

/-! ## The legacy sort does not always do its work -/

/-- The legacy sort returns without touching the partition table when a species has no particles (sort_p.cc:45-46), but
records that it sorted: whatever the table said before is what the collision operators read. -/
theorem legacy_empty_stale (key : T → ℤ) (nc : ℤ) (fresh p : ℤ → Part T K) (part : ℤ → ℤ) (fuel : ℕ) :
    legacyOut (fun q : Part T K => key q.tag) nc fresh 0 p part = some (p, part) ∧
    legacyIn (fun q : Part T K => key q.tag) nc 0 p part fuel = some (p, part) := by
  simp [legacyOut, legacyIn]

/-- So it is not the case that the table is right after the legacy sort: for an empty species on the smallest mesh there
are tables (for instance the one of an earlier sort, when there were particles) it does not correct. -/
theorem legacy_sort_not_ok (key : T → ℤ) (fresh p : ℤ → Part T K) :
    ¬ SortOk key 1 1 1 (fun n p part => legacyOut (fun q : Part T K => key q.tag) 27 fresh n p part) 0 := by
  intro h
  have h1 := h p (fun v => if v ≤ 13 then 0 else 2) (p, fun v => if v ≤ 13 then 0 else 2)
    (by intro x hx; simp [contents, seg] at hx) (legacy_empty_stale key 27 fresh p _ 0).1
  have := (h1.2 0).range 13 (by norm_num) (by norm_num)
  simp at this

end Verif.Collide
