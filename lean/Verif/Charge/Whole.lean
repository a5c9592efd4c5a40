import Verif.Charge.Props
import Verif.Charge.Reach

/-!
# A whole step below the Courant limit

No particle is left over after three exchanges, the step completes, and the continuity equation holds.
-/
namespace Verif.Charge

open Grid Deposit SfInterface MoveP
open Boundary (Env Rank Species live ids Joined Conforming Hit Round waiting customRun totalMovers grow fitsMsg)
open AdvanceP (accBase moverList Args Mem Advance)
open Distribute (Rounding upTo)
open Field (FMem FC World SynchronizeJf SynchronizeRho Pos coordOf ranksOf dims vox EdgeOn NodeOn InArray SameAt copies
  fieldExt SameCells)

section
variable {K : Type} {S : Type*} [Field K] [LinearOrder K] [IsStrictOrderedRing K]

/-! ### Specification -/

/-- Spec: a true square root, and a time step of at most one cell at the speed of light along each axis. -/
structure Courant (X : PushPar K) : Prop where
  root : ∀ x, 0 ≤ x → 0 ≤ X.rt x ∧ X.rt x * X.rt x = x
  cfl : ∀ k, |X.cdt_d k| ≤ 1

/-- Spec: a species between two steps: its particles are inside interior cells, and the sizes of its storage fit. -/
structure Settled (g : LGrid) (s : Species K) : Prop where
  np : s.np ≤ s.max_np
  np31 : s.np < 2 ^ 31
  nm31 : s.max_nm < 2 ^ 31
  within : ∀ i : ℤ, 0 ≤ i → i < s.np → Within g (s.p i)

/-! ### Lemmas -/

lemma settled_pushable {g : LGrid} (h : LocalMesh g) {fuel : ℕ} (hf : 3 < fuel) {X : PushPar K} (hX : Courant X) (id : ℕ)
    {s : Species K} (hs : Settled g s) : Pushable g fuel X id s := by
  refine ⟨hs.np, hs.np31, hs.nm31, hs.within, ?_⟩
  exact AdvanceP.courant_push_ok (pushArgs g fuel X id s) h hX.root hX.cfl hf
    (Mem.mk s.p (fun _ _ => 0) s.pm fun _ => ⟨0, 0, true⟩) (fun i h0 h1 => hs.within i h0 h1)

omit [LinearOrder K] [IsStrictOrderedRing K] in
lemma accOf_surj (nf : ℕ) (hnf : 12 ≤ nf) (acc : ℤ → Fin 12 → K) : ∃ st, accOf nf st = acc := by
  refine ⟨fun x => if h : (x % nf).toNat < 12 then acc (x / nf) ⟨(x % nf).toNat, h⟩ else 0, ?_⟩
  funext j k
  unfold accOf
  have hk : (k : ℕ) < nf := by omega
  have e1 : (j * nf + (k : ℕ)) % (nf : ℤ) = (k : ℕ) := by
    rw [add_comm, Int.add_mul_emod_self_right]
    exact Int.emod_eq_of_lt (by omega) (by omega)
  have e2 : (j * nf + (k : ℕ)) / (nf : ℤ) = j := by
    rw [add_comm, Int.add_mul_ediv_right _ _ (by omega), Int.ediv_eq_zero_of_lt (by omega) (by omega), zero_add]
  simp only [e1, e2, Int.toNat_natCast, k.2, dif_pos]

lemma pushes_other {Rd : Rounding} {g : LGrid} {fuel : ℕ} {X : PushPar K} {P : ℕ} {l : List ℕ} {sp sp' : ℕ → Species K}
    {acc acc' : ℤ → Fin 12 → K} (hp : Pushes Rd g fuel X P l sp acc sp' acc') :
    ∀ id, id ∉ l → sp' id = sp id := by
  induction hp with
  | nil sp acc => exact fun _ _ => rfl
  | cons id l sp m m' pm nm sp' acc' hm1 hm2 hadv _ ih =>
    intro j hj
    rw [List.mem_cons, not_or] at hj
    rw [ih j hj.2, Function.update_of_ne hj.1]

/-- What the push leaves to the exchange. -/
lemma pushes_faces (Rd : Rounding) (hRd : Rd.Accurate) (g : LGrid) (h : LocalMesh g) (fuel : ℕ)
    (X : PushPar K) (hX : Courant X) (P : ℕ) (hP : 0 < P) (hP2 : P ≤ 2 ^ 16) {l : List ℕ} {sp sp' : ℕ → Species K}
    {acc acc' : ℤ → Fin 12 → K} (hp : Pushes Rd g fuel X P l sp acc sp' acc') (hl : l.Nodup)
    (hs : ∀ id ∈ l, Pushable g fuel X id (sp id)) :
    ∀ id ∈ l, ((sp' id).np = (sp id).np) ∧
      ∀ m ∈ moverList (sp' id).pm (sp' id).nm, FacesLeft 3 ((sp' id).p m.i).d m.disp ∧ Outward ((sp' id).p m.i) m.disp := by
  have hv : 0 ≤ nvox g := by
    have := h.nx; have := h.ny; have := h.nz
    unfold nvox; positivity
  induction hp with
  | nil sp acc => simp
  | cons id l sp m m' pm nm sp' acc' hm1 hm2 hadv hrest ih =>
    rw [List.nodup_cons] at hl
    have up : ∀ j, j ≠ id → Function.update sp id { sp id with p := m'.part, pm := pm, nm := nm } j = sp j :=
      fun j hj => Function.update_of_ne hj _ _
    have i1 := ih hl.2 (fun j hj => by
      rw [up j (fun e => hl.1 (e ▸ hj))]
      exact hs j (by simp [hj]))
    have e := pushes_other hrest id hl.1
    rw [Function.update_self] at e
    intro j hj
    rcases List.mem_cons.mp hj with rfl | hj
    · rw [e]
      refine ⟨rfl, ?_⟩
      dsimp only
      have hj := hs j (by simp)
      have hok : ∀ i : ℤ, 0 ≤ i → i < (sp j).np → AdvanceP.PushOk (pushArgs g fuel X j (sp j)) (m.part i) := by
        rw [hm1]; exact hj.ok
      obtain ⟨pm1, nm1, e1, -, -, e4, -⟩ := AdvanceP.advance_p_movers Rd hRd (pushArgs g fuel X j (sp j)) P hP hP2 hj.np31
        hj.nm31 hv m m' hok _ hadv
      simp only [Option.some.injEq, Prod.mk.injEq] at e1
      obtain ⟨rfl, rfl⟩ := e1
      intro mv hmv
      obtain ⟨k0, k1, p', k2, rfl⟩ := e4 mv hmv
      refine push_faces (pushArgs g fuel X j (sp j)) h (m.part mv.i) _ mv.disp ?_ (fun _ => 1) (fun k => ?_) k2
      · rw [hm1]; exact hj.within _ k0 k1
      · refine (AdvanceP.normDisp_le (pushArgs g fuel X j (sp j)) hX.root _ k).trans ?_
        have := hX.cfl k
        rw [Nat.cast_one]
        exact this
    · have := i1 j hj
      rwa [up j (fun e => hl.1 (e ▸ hj))] at this

lemma pushes_exist (Rd : Rounding) (hRd : Rd.Accurate) (g : LGrid) (h : LocalMesh g) (fuel : ℕ)
    (X : PushPar K) (P : ℕ) (hP : 0 < P) (hP2 : P ≤ 2 ^ 16) (l : List ℕ) (hl : l.Nodup) : ∀ (sp : ℕ → Species K)
    (acc : ℤ → Fin 12 → K), (∀ id ∈ l, Pushable g fuel X id (sp id)) →
    ∃ sp' acc', Pushes Rd g fuel X P l sp acc sp' acc' := by
  have hv : 0 ≤ nvox g := by
    have := h.nx; have := h.ny; have := h.nz
    unfold nvox; positivity
  induction l with
  | nil => exact fun sp acc _ => ⟨_, _, .nil sp acc⟩
  | cons id l ih =>
    intro sp acc hs
    rw [List.nodup_cons] at hl
    have hj := hs id (by simp)
    let m : Mem K := Mem.mk (sp id).p acc (sp id).pm fun _ => ⟨0, 0, true⟩
    obtain ⟨m', res, hadv⟩ := AdvanceP.advance_exists Rd hRd (pushArgs g fuel X id (sp id)) P hP hP2 hj.nm31 m
    obtain ⟨pm, nm, rfl, -⟩ := AdvanceP.advance_p_movers Rd hRd (pushArgs g fuel X id (sp id)) P hP hP2 hj.np31
      hj.nm31 hv m m' hj.ok _ hadv
    obtain ⟨sp', acc', hp⟩ := ih hl.2 (Function.update sp id { sp id with p := m'.part, pm := pm, nm := nm }) m'.acc
      (fun j hjl => by
        have hne : j ≠ id := fun e => hl.1 (e ▸ hjl)
        rw [Function.update_of_ne hne]
        exact hs j (by simp [hjl]))
    exact ⟨sp', acc', .cons id l sp m m' pm nm sp' acc' rfl rfl hadv hp⟩

lemma movers_le {np : ℕ} {s : Species K} (h : Boundary.Ordered np (moverList s.pm s.nm)) : s.nm ≤ np := by
  have hn : ((moverList s.pm s.nm).map Mover.i).Nodup := h.1.imp fun h => ne_of_lt h
  have hs : (moverList s.pm s.nm).map Mover.i ⊆ upTo np := by
    intro x hx
    obtain ⟨m, hm, rfl⟩ := List.mem_map.mp hx
    exact upTo_mem.mpr (h.2 m hm)
  have := (List.subperm_of_subset hn hs).length_le
  simpa [moverList, upTo] using this

lemma round_counts_closed [Archimedean K] {n : ℕ} {W : Fin n → Env K S} (hJ : Joined W) (hcl : Closed W)
    (R R1 : Fin n → Rank K S) (hS : ∀ r, Sound (W r) (R r)) (h1 : Round W R R1) (id : ℕ) (hid : ∀ r, id < (W r).nsp) :
    ∑ r, ((R1 r).sp id).np = ∑ r, ((R r).sp id).np := by
  have := Boundary.round_counts hJ (closed_conforming hcl) R R1 (fun r => (hS r).ready) h1 id hid
  have hI : ∀ r, customRun (W r) (waiting (W r) (R r)) (R r).st = ((R r).st, [], []) := fun r =>
    customRun_send (W r) _ (fun x hx => closed_send hJ hcl hS r hx) _
  have l0 : ∀ r, (waiting (W r) (R r)).filter (fun h => h.id = id ∧ ¬ h.fate (W r) = .send) = [] := by
    intro r
    rw [List.filter_eq_nil_iff]
    intro x hx
    simp [closed_send hJ hcl hS r hx]
  simpa only [l0, hI, List.filter_nil, List.length_nil, Finset.sum_const_zero, add_zero] using this

lemma rounds_counts [Archimedean K] {n : ℕ} {W : Fin n → Env K S} (hJ : Joined W) (hcl : Closed W) (N : ℕ)
    (R R' : Fin n → Rank K S) (h : Rounds W N R R') (hR : ∀ r, Sound (W r) (R r)) (id : ℕ) (hid : ∀ r, id < (W r).nsp) :
    ∑ r, ((R' r).sp id).np = ∑ r, ((R r).sp id).np := by
  induction h with
  | zero R => rfl
  | succ k R R1 R' h1 _ ih =>
    exact (ih fun r => (round_sound hJ (closed_conforming hcl) R R1 hR h1 r).1).trans
      (round_counts_closed hJ hcl R R1 hR h1 id hid)

/-- The exchanges complete. -/
lemma rounds_exist [Archimedean K] {n : ℕ} {W : Fin n → Env K S} (hJ : Joined W) (hcl : Closed W) (hnb : ∀ r, (W r).nb ≤ 32)
    {nsp : ℕ} (hnsp : ∀ r, (W r).nsp = nsp) (hsp : nsp ≤ 32) (T : ℕ) (hmsg : fitsMsg T) (hgrow : grow (2 * T) < 2 ^ 31)
    (N : ℕ) : ∀ (M : ℕ) (R : Fin n → Rank K S), (∀ r, Sound (W r) (R r)) → (∀ r, WaitingFaces (W r) M (R r)) →
    (∀ r, M < (W r).fuel) → ∑ r, ∑ id ∈ Finset.range nsp, ((R r).sp id).np ≤ T → ∃ R', Rounds W N R R' := by
  have hC := closed_conforming hcl
  induction N with
  | zero => exact fun M R _ _ _ _ => ⟨R, .zero R⟩
  | succ N ih =>
    intro M R hS hM hf hT
    have hI : ∀ r, customRun (W r) (waiting (W r) (R r)) (R r).st = ((R r).st, [], []) := fun r =>
      customRun_send (W r) _ (fun x hx => closed_send hJ hcl hS r hx) _
    have hI' : ∀ r, (customRun (W r) (waiting (W r) (R r)) (R r).st).2.2 = [] := fun r => by rw [hI r]
    have tot : ∀ r, totalMovers (W r).nsp (R r).sp ≤ ∑ id ∈ Finset.range nsp, ((R r).sp id).np := by
      intro r
      unfold totalMovers
      rw [hnsp r, sum_ids]
      exact Finset.sum_le_sum fun id hid => movers_le (hS r id (by rw [hnsp r]; exact Finset.mem_range.mp hid)).ordered
    have one : ∀ r, ∑ id ∈ Finset.range nsp, ((R r).sp id).np ≤ T := fun r =>
      (Finset.single_le_sum (f := fun r => ∑ id ∈ Finset.range nsp, ((R r).sp id).np) (fun _ _ => Nat.zero_le _)
        (Finset.mem_univ r)).trans hT
    obtain ⟨R1, h1⟩ := Boundary.round_completes hJ hC R (fun r => (hS r).ready) hnb (fun r => by rw [hnsp r]; exact hsp)
      (fun r => Boundary.fitsMsg_mono ((tot r).trans (one r)) hmsg) (fun r id hid => by
        have a1 : ((R r).sp id).np ≤ T := (Finset.single_le_sum (f := fun id => ((R r).sp id).np) (fun _ _ => Nat.zero_le _)
          (Finset.mem_range.mpr (by rw [← hnsp r]; exact hid))).trans (one r)
        have a2 : ∑ s, totalMovers (W s).nsp (R s).sp ≤ T := (Finset.sum_le_sum fun s _ => tot s).trans hT
        unfold grow at *
        omega) (fun r pi hpi q => by
        obtain ⟨-, c, i⟩ := Boundary.arrivals_enter hJ hC R (fun r => (hS r).ready) r pi hpi
        refine moveP_completes (hJ.mesh r) q _ (M - 1) ⟨pi.part, pi.disp, fun _ _ => 0⟩ ⟨c, i⟩
          (arrivals_faces R hI' hM r pi hpi) ?_
        have := hf r
        omega)
    have cnt : ∑ r, ∑ id ∈ Finset.range nsp, ((R1 r).sp id).np = ∑ r, ∑ id ∈ Finset.range nsp, ((R r).sp id).np := by
      rw [Finset.sum_comm, Finset.sum_comm (f := fun r id => ((R r).sp id).np)]
      refine Finset.sum_congr rfl fun id hid => ?_
      have := Boundary.round_counts hJ hC R R1 (fun r => (hS r).ready) h1 id
        (fun r => by rw [hnsp r]; exact Finset.mem_range.mp hid)
      have l0 : ∀ r, (waiting (W r) (R r)).filter (fun h => h.id = id ∧ ¬ h.fate (W r) = .send) = [] := by
        intro r
        rw [List.filter_eq_nil_iff]
        intro x hx
        simp [closed_send hJ hcl hS r hx]
      simp only [l0, hI, List.filter_nil, List.length_nil, Finset.sum_const_zero, add_zero] at this
      exact this
    obtain ⟨R', h2⟩ := ih (M - 1) R1 (fun r => (round_sound hJ hC R R1 hS h1 r).1)
      (round_faces hJ hC R R1 (fun r => (hS r).ready) hI' h1 hM) (fun r => by have := hf r; omega) (cnt ▸ hT)
    exact ⟨R', .succ N R R1 R' h1 h2⟩

/-- The push phase completes. -/
lemma push_phase_exists (Rd : Rounding) (hRd : Rd.Accurate) {g : LGrid} (h : LocalMesh g) {fuel : ℕ}
    {X : PushPar K} {P nf : ℕ} (hnf : 12 ≤ nf) (hP : 0 < P) (hP2 : P ≤ 2 ^ 16)
    (hint' : (accArgs g.nx g.ny g.nz nf P).n < 2 ^ 31)
    (hint : (P : ℤ) * (pow2Ceil2 (nvOf g.nx g.ny g.nz) * nf) < 2 ^ 31) (nsp : ℕ) (sp : ℕ → Species K) (st : ℤ → K)
    (hs : ∀ id < nsp, Pushable g fuel X id (sp id)) :
    ∃ sp' st', PushPhase Rd g fuel X P nf (ids nsp) sp st sp' st' := by
  obtain ⟨st1, h1⟩ := (clear_zeroes Rd hRd _ (accArgs_ok h.nx h.ny h.nz nf P) P (by simp [accArgs]) hint' hP hP2 st).1
  obtain ⟨sp', acc', h2⟩ := pushes_exist Rd hRd g h fuel X P hP hP2 (ids nsp) (ids_nodup nsp) sp (accOf nf st1)
    (fun id hid => hs id ((Boundary.mem_ids _ _).mp hid))
  obtain ⟨st2, rfl⟩ := accOf_surj nf hnf acc'
  obtain ⟨st', h3⟩ := (reduce_sums Rd hRd _ (accArgs_ok h.nx h.ny h.nz nf P) (accArgs_fits h.nx h.ny h.nz nf P hint) P hint'
    hP hP2 st2).1
  exact ⟨sp', st', st1, st2, h1, h2, h3⟩

/-- What the push of all species leaves behind. -/
lemma pushes_sound [Archimedean K] (Rd : Rounding) (hRd : Rd.Accurate) (g : LGrid) (h : LocalMesh g) (fuel : ℕ)
    (X : PushPar K) (P : ℕ) (hP : 0 < P) (hP2 : P ≤ 2 ^ 16) {l : List ℕ} {sp sp' : ℕ → Species K}
    {acc acc' : ℤ → Fin 12 → K} (hp : Pushes Rd g fuel X P l sp acc sp' acc') (hl : l.Nodup)
    (hs : ∀ id ∈ l, Pushable g fuel X id (sp id)) : ∀ id ∈ l, SoundSp g (sp' id) := by
  induction hp with
  | nil sp acc => simp
  | cons id l sp m m' pm nm sp' acc' hm1 hm2 hadv hrest ih =>
    rw [List.nodup_cons] at hl
    have i1 := ih hl.2 (fun j hj => by
      have hne : j ≠ id := fun e => hl.1 (e ▸ hj)
      rw [Function.update_of_ne hne]
      exact hs j (by simp [hj]))
    intro j hj
    rcases List.mem_cons.mp hj with rfl | hj
    · have e := pushes_other hrest j hl.1
      rw [Function.update_self] at e
      rw [e]
      exact push_sound Rd hRd g h fuel X P hP hP2 j (sp j) (hs j (by simp)) m m' hm1 pm nm hadv
    · exact i1 j hj

/-- What the push phase leaves to the exchange. -/
lemma push_phase_result [Archimedean K] {Rd : Rounding} (hRd : Rd.Accurate) {E : Env K S} (h : LocalMesh E.g)
    {X : PushPar K} (hX : Courant X) {P nf : ℕ} (hP : 0 < P) (hP2 : P ≤ 2 ^ 16) {R : Rank K S}
    {sp' : ℕ → Species K} {st st' : ℤ → K} (a : Accum K) (hf : 3 < E.fuel)
    (hs : ∀ id < E.nsp, Settled E.g (R.sp id)) (hp : PushPhase Rd E.g E.fuel X P nf (ids E.nsp) R.sp st sp' st') :
    Sound E { R with sp := sp', a := a } ∧ WaitingFaces E 3 { R with sp := sp', a := a } ∧
      ∀ id < E.nsp, (sp' id).np = (R.sp id).np := by
  obtain ⟨st1, st2, -, hp, -⟩ := hp
  have hpu : ∀ id ∈ ids E.nsp, Pushable E.g E.fuel X id (R.sp id) := fun id hid =>
    settled_pushable h hf hX id (hs id ((Boundary.mem_ids _ _).mp hid))
  have k1 := pushes_sound Rd hRd E.g h E.fuel X P hP hP2 hp (ids_nodup _) hpu
  have k2 := pushes_faces Rd hRd E.g h E.fuel X hX P hP hP2 hp (ids_nodup _) hpu
  refine ⟨fun id hid => k1 id ((Boundary.mem_ids _ _).mpr hid), ?_, fun id hid => (k2 id ((Boundary.mem_ids _ _).mpr hid)).1⟩
  intro x hx
  obtain ⟨id, hid, m, hm, rfl⟩ := mem_waiting.mp hx
  exact (k2 id ((Boundary.mem_ids _ _).mpr hid)).2 m hm

/-- The two edges along each axis that meet in a node. -/
lemma edges_exist {n : ℕ} {D : Decomp} (hD : D.ok n = true) (t0 : ℕ → ℤ → ℤ) {F : World K n}
    (hg : ∀ r : Fin n, gridOf D n t0 r = some (F r).g) (hS : SameCells F D) (x : Fin n × Pos) (hx : NodeOn (F x.1).g x.2)
    (a : Fin 3) : (∃ y : Fin n × Pos, EdgeOn (F y.1).g a y.2 ∧ SamePlace D F y x) ∧
      ∃ y : Fin n × Pos, EdgeOn (F y.1).g a y.2 ∧ SamePlace D F (y.1, Field.up a y.2) x := by
  have hF := Field.periodic_world_cart hD t0 hg hS
  have hd := fun r => dims_cells hD t0 hg r
  have wrapped : ∀ N P k : ℤ, (k % P * N) % (P * N) = (k * N) % (P * N) := by
    intro N P k
    rw [Int.emod_def k P, show (k - P * (k / P)) * N = k * N - P * N * (k / P) by ring, Int.sub_mul_emod_self_left]
  obtain ⟨r, c⟩ := x
  have hxa := hx a
  rw [hd] at hxa
  dsimp only at hx hxa
  constructor
  · by_cases hc : c a ≤ dims (F r).g a
    · refine ⟨(r, c), fun b => ?_, fun b => (sameAt_site hD t0 hg _ _ b).mpr rfl⟩
      have := hx b
      split
      · rename_i hb
        rw [hb, add_zero]
        exact ⟨hxa.1, hc⟩
      · exact this
    · obtain ⟨r', -, hr⟩ := hF.nbr r (a, false) (Or.inl rfl)
      rw [hd] at hc
      refine ⟨(r', Function.update c a 1), fun b => ?_, fun b => (sameAt_site hD t0 hg _ _ b).mpr ?_⟩
      · have h1 := hx b
        rw [hd] at h1 ⊢
        by_cases hb : b = a
        · subst b
          have := (hF.mesh r).pos a
          rw [hd] at this
          simp; exact this
        · simp [hb]; exact h1
      · unfold siteAt
        dsimp only
        rw [hr]
        by_cases hb : b = a
        · subst b
          have : c a = cellsOf D a + 1 := by omega
          simp only [Function.update_self, this, sub_self, add_zero, Field.dirOf, add_sub_cancel_right]
          rw [wrapped]
          congr 1
          simp
          ring
        · simp [hb]
  · by_cases hc : 1 < c a
    · refine ⟨(r, Field.dn a c), fun b => ?_, fun b => (sameAt_site hD t0 hg _ _ b).mpr ?_⟩
      · have := hx b
        unfold Field.dn
        dsimp only
        split
        · subst b; omega
        · exact this
      · congr 1
        unfold Field.up Field.dn
        funext b
        dsimp only
        split <;> ring
    · obtain ⟨r', -, hr⟩ := hF.nbr r (a, true) (Or.inl rfl)
      refine ⟨(r', Function.update c a (cellsOf D a)), fun b => ?_, fun b => (sameAt_site hD t0 hg _ _ b).mpr ?_⟩
      · have h1 := hx b
        rw [hd] at h1 ⊢
        by_cases hb : b = a
        · subst b
          have := (hF.mesh r).pos a
          rw [hd] at this
          simp; omega
        · simp [hb]; exact h1
      · unfold siteAt Field.up
        dsimp only
        rw [hr]
        by_cases hb : b = a
        · subst b
          have : c a = 1 := by omega
          simp only [Function.update_self, this, sub_self, add_zero, Field.dirOf, add_sub_cancel_right, if_true]
          rw [← Int.emod_add_emod, wrapped, Int.emod_add_emod]
          congr 1
          ring
        · simp [hb]

lemma settled_live {g : LGrid} {s : Species K} (hs : Settled g s) : ∀ p ∈ live s.p s.np, Within g p := by
  intro p hp
  obtain ⟨i, hi, rfl⟩ := List.mem_map.mp hp
  obtain ⟨h0, h1⟩ := upTo_mem.mp hi
  exact hs.within i h0 h1

lemma customRun_nothing {E : Env K S} (hE : ∀ k st id q p disp f, (E.interact k st id q p disp f).2.2 = [])
    (l : List (Hit K)) : ∀ st, (customRun E l st).2.2 = [] := by
  induction l with
  | nil => exact fun _ => rfl
  | cons h l ih =>
    intro st
    rw [customRun]
    split
    · simp only [hE, ih, List.append_nil]
    · exact ih st

lemma rounds_sound [Archimedean K] {n : ℕ} {W : Fin n → Env K S} (hJ : Joined W) (hC : ∀ r, Conforming (W r)) (N : ℕ)
    (R R' : Fin n → Rank K S) (h : Rounds W N R R') (hR : ∀ r, Sound (W r) (R r)) : ∀ r, Sound (W r) (R' r) := by
  induction h with
  | zero R => exact hR
  | succ k R R1 R' h1 _ ih => exact ih fun r => (round_sound hJ hC R R1 hR h1 r).1

lemma phase_settles [Archimedean K] {n : ℕ} {W : Fin n → Env K S} (hJ : Joined W) (hC : ∀ r, Conforming (W r))
    (hI : ∀ R : Fin n → Rank K S, (∀ r, Sound (W r) (R r)) → ∀ r, (customRun (W r) (waiting (W r) (R r)) (R r).st).2.2 = [])
    {Rd : Rounding} (hRd : Rd.Accurate)
    {X : Fin n → PushPar K} (hX : ∀ r, Courant (X r)) {P nf N : ℕ} (hN : 3 ≤ N) (hP : 0 < P) (hP2 : P ≤ 2 ^ 16)
    (hf : ∀ r, 3 < (W r).fuel) {R R' : Fin n → Rank K S} {st st' : Fin n → ℤ → K}
    (hs : ∀ r, ∀ id < (W r).nsp, Settled (W r).g ((R r).sp id)) (h : ParticlePhase W Rd X P nf N R st R' st') :
    ∀ r, ∀ id < (W r).nsp, ((R' r).sp id).nm = 0 ∧ ((R' r).sp id).np ≤ ((R' r).sp id).max_np ∧
      ∀ i : ℤ, 0 ≤ i → i < ((R' r).sp id).np → Within (W r).g (((R' r).sp id).p i) := by
  obtain ⟨sp1, st1, hpush, hround, -⟩ := h
  have k := fun r => push_phase_result hRd (hJ.mesh r) (hX r) hP hP2 (hostAcc (W r).g nf (st1 r)) (hf r) (hs r) (hpush r)
  have w := rounds_faces hJ hC hI N _ R' hround 3 (fun r => (k r).1) (fun r => (k r).2.1)
  have sound := rounds_sound hJ hC N _ R' hround (fun r => (k r).1)
  intro r id hid
  have e := w r
  rw [Nat.sub_eq_zero_of_le hN] at e
  have hnm := none_waiting e id hid
  refine ⟨hnm, (sound r id hid).np, fun i h0 h1 => (sound r id hid).within _ ?_⟩
  rw [placed_live hnm]
  exact List.mem_map.mpr ⟨i, upTo_mem.mpr ⟨h0, h1⟩, rfl⟩

lemma closed_nothing {n : ℕ} {W : Fin n → Env K S} (hJ : Joined W) (hcl : Closed W) (R : Fin n → Rank K S)
    (hR : ∀ r, Sound (W r) (R r)) (r : Fin n) : (customRun (W r) (waiting (W r) (R r)) (R r).st).2.2 = [] := by
  rw [customRun_send (W r) _ fun x hx => closed_send hJ hcl hR r hx]

section
variable {n : ℕ} {D : Decomp} {t0 : ℕ → ℤ → ℤ} {F : World K n} {B : Fin n → Env K S} (hB : PeriodicBox D t0 F B)
include hB

lemma box_joined : Joined B :=
  Boundary.periodic_joined D n hB.ok t0 B (fun r => by rw [hB.same]; exact hB.grid r) hB.ws hB.rank hB.nsp

lemma box_closed : Closed B := by
  refine periodic_closed hB.ok t0 hB.grid hB.same fun r => ?_
  obtain ⟨g1, e, -, -, -, k4, -⟩ := partitionPeriodic_T ((D.ok_iff n).mp hB.ok) (fun _ => localNv D) (fun _ => rfl)
    (t0 r) r r.2
  have : g1 = (B r).g := by
    have := hB.grid r
    rw [gridOf, e] at this
    rw [hB.same]
    exact Option.some.inj this
  subst this
  rw [k4]
  simp only [Int.toNat_natCast]
  exact rangeOf_const _ _ (fun _ => rfl) n

lemma box_sync_rho (m : Fin n → FMem K) : ∃ m', SynchronizeRho F m m' := by
  have hF := Field.periodic_world_cart hB.ok t0 hB.grid hB.cells
  have hk : ∀ {r} {x : Option (List (Field.Step K))}, (x = none ↔ ∃ s, Field.IsWall (F r) s ∧
      ¬ Field.KnownCode (Field.sideBC (F r).g s)) → ∃ y, x = some y := by
    intro r x h
    cases x with
    | some y => exact ⟨y, rfl⟩
    | none =>
      obtain ⟨s, hs, -⟩ := h.mp rfl
      exact absurd hs (no_wall hF r s)
  choose af hf using fun r => hk (Field.unknown_code_is_an_error (F r)).2.2.2.2.2.2.2.1
  choose ab hb using fun r => hk (Field.unknown_code_is_an_error (F r)).2.2.2.2.2.2.2.2
  obtain ⟨st', h⟩ := Field.passes_exist hF.toLinked (S := Field.opRho) Field.shape_rho
    (fun r => (runSeq (ab r) (runSeq (af r) (m r)), (0 : K)))
  exact ⟨fun r => (st' r).1, af, ab, fun r => ⟨hf r, hb r⟩, st', h, fun _ => rfl⟩

lemma box_sync_jf (m : Fin n → FMem K) : ∃ m', SynchronizeJf F m m' := by
  have hF := Field.periodic_world_cart hB.ok t0 hB.grid hB.cells
  have hk : ∀ {r} {x : Option (List (Field.Step K))}, (x = none ↔ ∃ s, Field.IsWall (F r) s ∧
      ¬ Field.KnownCode (Field.sideBC (F r).g s)) → ∃ y, x = some y := by
    intro r x h
    cases x with
    | some y => exact ⟨y, rfl⟩
    | none =>
      obtain ⟨s, hs, -⟩ := h.mp rfl
      exact absurd hs (no_wall hF r s)
  choose adj h1 using fun r => hk (Field.unknown_code_is_an_error (F r)).2.2.2.2.2.2.1
  obtain ⟨st', h⟩ := Field.passes_exist hF.toLinked (S := Field.opJf) Field.shape_jf
    (fun r => (runSeq (adj r) (m r), (0 : K)))
  exact ⟨fun r => (st' r).1, adj, h1, st', h, fun _ => rfl⟩

lemma box_measure (r8V : K) (nsp : ℕ) (sp : Fin n → ℕ → Species K)
    (hw : ∀ r, ∀ id < nsp, ∀ p ∈ live (sp r id).p (sp r id).np, Within (F r).g p) (m : Fin n → FMem K) :
    ∃ m', MeasureRho F r8V nsp sp m m' := by
  have h1 : ∀ r, ∃ ρ, rhoAll (F r).g r8V (sp r) (ids nsp) (fun v => clearRhof (F r).g (m r) (v, .rhof)) = some ρ := by
    intro r
    have z : ∀ v, 0 ≤ v → v < nvox (F r).g → clearRhof (F r).g (m r) (v, FC.rhof) = 0 := by
      intro v h0 h1
      simp [clearRhof, h0, h1]
    obtain ⟨ρ', e1, -⟩ := rhoAll_weigh (grid_mesh hB.ok t0 (G := fun r => (F r).g) hB.grid r)
      (fun _ => 0) r8V (sp r) (ids nsp) (fun id hid => hw r id ((Boundary.mem_ids _ _).mp hid))
      (fun v => clearRhof (F r).g (m r) (v, .rhof)) (fun v h0 h1 hne => absurd (z v h0 h1) hne)
    exact ⟨ρ', e1⟩
  choose ρ hρ using h1
  obtain ⟨m', hm⟩ := box_sync_rho hB (fun r q => match q.2 with | .rhof => ρ r q.1 | _ => m r q)
  exact ⟨m', ρ, hρ, hm⟩

end

/-! ### Results -/

/-- **C70.**  If the time step is at most one cell at the speed of light along each axis, and no handler sends particles
back in, then no particle is on its way after three exchanges: every particle that is still in the domain is inside an
interior cell of its rank.  `num_comm_round = 3`, /repo/src/vpic/vpic.cc:79. -/
theorem exchanges_suffice [Archimedean K] {n : ℕ} {W : Fin n → Env K S} (hJ : Joined W) (hC : ∀ r, Conforming (W r))
    (hI : ∀ r k st id q p disp f, ((W r).interact k st id q p disp f).2.2 = []) {Rd : Rounding} (hRd : Rd.Accurate)
    {X : Fin n → PushPar K} (hX : ∀ r, Courant (X r)) {P nf N : ℕ} (hN : 3 ≤ N) (hP : 0 < P) (hP2 : P ≤ 2 ^ 16)
    (hf : ∀ r, 3 < (W r).fuel) {R R' : Fin n → Rank K S} {st st' : Fin n → ℤ → K}
    (hs : ∀ r, ∀ id < (W r).nsp, Settled (W r).g ((R r).sp id)) (h : ParticlePhase W Rd X P nf N R st R' st') :
    ∀ r, ∀ id < (W r).nsp, ((R' r).sp id).nm = 0 ∧ ((R' r).sp id).np ≤ ((R' r).sp id).max_np ∧
      ∀ i : ℤ, 0 ≤ i → i < ((R' r).sp id).np → Within (W r).g (((R' r).sp id).p i)  :=
  phase_settles hJ hC (fun R _ r => customRun_nothing (hI r) _ _) hRd hX hN hP hP2 hf hs h

/-- **C70, periodic box.**  On a periodic box there is no work for the handlers, and the exchanges lose no particle and make
none: the number of particles of each species is what it was. -/
theorem exchanges_suffice_periodic [Archimedean K] {n : ℕ} {D : Decomp} {t0 : ℕ → ℤ → ℤ} {F : World K n}
    {B : Fin n → Env K S} (hB : PeriodicBox D t0 F B) {Rd : Rounding} (hRd : Rd.Accurate)
    {X : Fin n → PushPar K} (hX : ∀ r, Courant (X r)) {P nf N : ℕ} (hN : 3 ≤ N) (hP : 0 < P) (hP2 : P ≤ 2 ^ 16)
    (hf : ∀ r, 3 < (B r).fuel) {R R' : Fin n → Rank K S} {st st' : Fin n → ℤ → K}
    (hs : ∀ r, ∀ id < (B r).nsp, Settled (F r).g ((R r).sp id)) (h : ParticlePhase B Rd X P nf N R st R' st') :
    (∀ r, ∀ id < (B r).nsp, ((R' r).sp id).nm = 0 ∧ ((R' r).sp id).np ≤ ((R' r).sp id).max_np ∧
      ∀ i : ℤ, 0 ≤ i → i < ((R' r).sp id).np → Within (F r).g (((R' r).sp id).p i)) ∧
    ∀ id, (∀ r, id < (B r).nsp) → ∑ r, ((R' r).sp id).np = ∑ r, ((R r).sp id).np := by
  have hJ := box_joined hB
  have hcl := box_closed hB
  have hC := closed_conforming hcl
  have hs' : ∀ r, ∀ id < (B r).nsp, Settled (B r).g ((R r).sp id) := fun r id hid => by
    rw [hB.same]; exact hs r id hid
  constructor
  · have := phase_settles hJ hC (closed_nothing hJ hcl) hRd hX hN hP hP2 hf hs' h
    simpa only [hB.same] using this
  · intro id hid
    obtain ⟨sp1, st1, hpush, hround, -⟩ := h
    have k := fun r => push_phase_result hRd (hJ.mesh r) (hX r) hP hP2 (hostAcc (B r).g nf (st1 r)) (hf r) (hs' r) (hpush r)
    have cnt := rounds_counts hJ hcl N _ R' hround (fun r => (k r).1) id hid
    rw [cnt]
    exact Finset.sum_congr rfl fun r _ => (k r).2.2 id (hid r)

/-- **C69, progress.**  On a periodic box every phase of the step completes, whatever the interleavings of the threads. -/
theorem step_runs [Archimedean K] {n : ℕ} {D : Decomp} {t0 : ℕ → ℤ → ℤ} {F : World K n} {B : Fin n → Env K S}
    (hB : PeriodicBox D t0 F B) (Rd : Rounding) (hRd : Rd.Accurate) (X : Fin n → PushPar K) (hX : ∀ r, Courant (X r))
    (P nf N nsp : ℕ) (hN : 3 ≤ N) (hsp : ∀ r, (B r).nsp = nsp) (hsp32 : nsp ≤ 32) (hnb : ∀ r, (B r).nb ≤ 32)
    (hnf : 12 ≤ nf) (hP : 0 < P) (hP2 : P ≤ 2 ^ 16) (hf : ∀ r, 3 < (B r).fuel)
    (hint' : ∀ r, (accArgs (F r).g.nx (F r).g.ny (F r).g.nz nf P).n < 2 ^ 31)
    (hint : ∀ r, (P : ℤ) * (pow2Ceil2 (nvOf (F r).g.nx (F r).g.ny (F r).g.nz) * nf) < 2 ^ 31) (sc : Scales K)
    (R : Fin n → Rank K S) (st : Fin n → ℤ → K) (hs : ∀ r, ∀ id < nsp, Settled (F r).g ((R r).sp id))
    (hmsg : fitsMsg (∑ r, ∑ id ∈ Finset.range nsp, ((R r).sp id).np))
    (hgrow : grow (2 * ∑ r, ∑ id ∈ Finset.range nsp, ((R r).sp id).np) < 2 ^ 31) (m0 m m1 : Fin n → FMem K) :
    (∃ m0', MeasureRho F sc.r8V nsp (fun r => (R r).sp) m0 m0') ∧
    (∃ R' st', ParticlePhase B Rd X P nf N R st R' st') ∧
    ∀ R' st', ParticlePhase B Rd X P nf N R st R' st' →
      (∃ m', CurrentPhase F Rd P sc (fun r => (R' r).a) m m') ∧
      ∃ m1', MeasureRho F sc.r8V nsp (fun r => (R' r).sp) m1 m1' := by
  have hJ := box_joined hB
  have hcl := box_closed hB
  have hF := Field.periodic_world_cart hB.ok t0 hB.grid hB.cells
  have hs' : ∀ r, ∀ id < (B r).nsp, Settled (B r).g ((R r).sp id) := fun r id hid => by
    rw [hB.same]; exact hs r id (hsp r ▸ hid)
  refine ⟨box_measure hB _ _ _ (fun r id hid => settled_live (hs r id hid)) m0, ?_, ?_⟩
  · choose sp1 st1 hp using fun r => push_phase_exists Rd hRd (hJ.mesh r) (fuel := (B r).fuel) (X := X r) hnf hP hP2
      (by rw [hB.same]; exact hint' r) (by rw [hB.same]; exact hint r) (B r).nsp (R r).sp (st r)
      (fun id hid => settled_pushable (hJ.mesh r) (hf r) (hX r) id (hs' r id hid))
    have k := fun r => push_phase_result hRd (hJ.mesh r) (hX r) hP hP2 (hostAcc (B r).g nf (st1 r)) (hf r) (hs' r) (hp r)
    obtain ⟨R', hr⟩ := rounds_exist hJ hcl hnb hsp hsp32 _ hmsg hgrow N 3
      (fun r => { R r with sp := sp1 r, a := hostAcc (B r).g nf (st1 r) }) (fun r => (k r).1) (fun r => (k r).2.1) hf
      (le_of_eq (Finset.sum_congr rfl fun r _ => Finset.sum_congr rfl fun id hid =>
        (k r).2.2 id (by rw [hsp r]; exact Finset.mem_range.mp hid)))
    choose st' hst using fun r => accOf_surj nf hnf (fun j k =>
      if 0 ≤ j ∧ j < nvox (B r).g then (R' r).a j k else accOf nf (st1 r) j k)
    exact ⟨R', st', sp1, st1, hp, hr, fun r j k => by rw [hst r]⟩
  · intro R' st' h
    constructor
    · choose m1 hm1 using fun r => unload_accumulator_runs hRd (hF.mesh r) hP hP2 sc (R' r).a (clearJf (F r).g (m r))
      obtain ⟨m', hm'⟩ := box_sync_jf hB m1
      exact ⟨m', m1, hm1, hm'⟩
    · refine box_measure hB _ _ _ (fun r id hid p hp => ?_) m1
      have := (exchanges_suffice_periodic hB hRd hX hN hP hP2 hf (fun r id hid => hs r id (hsp r ▸ hid)) h).1 r id
        (by rw [hsp r]; exact hid)
      obtain ⟨i, hi, rfl⟩ := List.mem_map.mp hp
      obtain ⟨h0, h1⟩ := upTo_mem.mp hi
      exact this.2.2 i h0 h1

/-- **C69.**  A step below the Courant limit on a periodic box: at every node of every rank the change of the free charge
density over the step divided by the time step plus the divergence of the current density is zero.  Both edges along each
axis exist on some rank, and the equation holds for any choice of their copies. -/
theorem step_continuity_courant [Archimedean K] {n : ℕ} {D : Decomp} {t0 : ℕ → ℤ → ℤ} {F : World K n} {B : Fin n → Env K S}
    (hB : PeriodicBox D t0 F B) (Rd : Rounding) (hRd : Rd.Accurate) (X : Fin n → PushPar K) (hX : ∀ r, Courant (X r))
    (P nf N nsp : ℕ) (hN : 3 ≤ N) (hsp : ∀ r, (B r).nsp = nsp) (hnf : 12 ≤ nf) (hP : 0 < P) (hP2 : P ≤ 2 ^ 16)
    (hf : ∀ r, 3 < (B r).fuel)
    (hint' : ∀ r, (accArgs (F r).g.nx (F r).g.ny (F r).g.nz nf P).n < 2 ^ 31)
    (hint : ∀ r, (P : ℤ) * (pow2Ceil2 (nvOf (F r).g.nx (F r).g.ny (F r).g.nz) * nf) < 2 ^ 31)
    (sc : Scales K) (hdt : sc.dt ≠ 0) (hV : sc.r8V = sc.rd 0 * sc.rd 1 * sc.rd 2 * (1 / 8))
    (R R' : Fin n → Rank K S) (st st' : Fin n → ℤ → K) (ht : ∀ r, TidyAll (F r).g P (accOf nf (st r)))
    (hs : ∀ r, ∀ id < nsp, Settled (F r).g ((R r).sp id))
    (hq : ∀ r s, ∀ id < nsp, ((R r).sp id).q = ((R s).sp id).q)
    (m0 m0' m m' m1 m1' : Fin n → FMem K)
    (hρ0 : MeasureRho F sc.r8V nsp (fun r => (R r).sp) m0 m0')
    (hp : ParticlePhase B Rd X P nf N R st R' st')
    (hj : CurrentPhase F Rd P sc (fun r => (R' r).a) m m')
    (hρ1 : MeasureRho F sc.r8V nsp (fun r => (R' r).sp) m1 m1') (x : Fin n × Pos) (hx : NodeOn (F x.1).g x.2) :
    (∀ a, (∃ y : Fin n × Pos, EdgeOn (F y.1).g a y.2 ∧ SamePlace D F y x) ∧
      ∃ y : Fin n × Pos, EdgeOn (F y.1).g a y.2 ∧ SamePlace D F (y.1, Field.up a y.2) x) ∧
    ∀ out inn : Fin 3 → Fin n × Pos,
      (∀ a, EdgeOn (F (out a).1).g a (out a).2 ∧ SamePlace D F (out a) x) →
      (∀ a, EdgeOn (F (inn a).1).g a (inn a).2 ∧ SamePlace D F ((inn a).1, Field.up a (inn a).2) x) →
      (m1' x.1 (vox (F x.1).g x.2, .rhof) - m0' x.1 (vox (F x.1).g x.2, .rhof)) / sc.dt +
        ∑ a, sc.rd a * (m' (out a).1 (vox (F (out a).1).g (out a).2, .jf a) -
          m' (inn a).1 (vox (F (inn a).1).g (inn a).2, .jf a)) = 0 := by
  refine ⟨edges_exist hB.ok t0 hB.grid hB.cells x hx, fun out inn ho hi => ?_⟩
  have hm : ∀ r, LocalMesh (F r).g := fun r => by rw [← hB.same]; exact (box_joined hB).mesh r
  exact (step_continuity hB Rd hRd X P nf N nsp hsp hnf hP hP2 hint' hint sc hdt hV R R' st st' ht
    (fun r id hid => settled_pushable (hm r) (hf r) (hX r) id (hs r id hid)) hq m0 m0' m m' m1 m1' hρ0 hp
    (fun r id hid => ((exchanges_suffice_periodic hB hRd hX hN hP hP2 hf (fun r id hid => hs r id (hsp r ▸ hid)) hp).1 r id
      (by rw [hsp r]; exact hid)).1) hj hρ1).1 x out inn hx ho hi

end

end Verif.Charge
