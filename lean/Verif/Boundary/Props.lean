import Verif.Boundary.Exchange

/-!
# C12 and C13: the exchange of particles between ranks
-/
namespace Verif.Boundary

open Grid (LGrid Cell VOXEL portOf)
open MoveP (Part Mover Accum MState moveP nvox LocalMesh voxel_range)
open AdvanceP (moverList)

section
variable {K : Type} {S : Type*} [Field K] [LinearOrder K] [IsStrictOrderedRing K]

/-! ### The second half on one rank -/

omit [Field K] [LinearOrder K] [IsStrictOrderedRing K] in
lemma length_inj (ci : List (Injector K)) (fs : List ℤ) (recv : ℤ → List (Injector K)) :
    (ci.reverse ++ fs.flatMap fun f => (recv f).reverse).length = ci.length + (fs.map fun f => (recv f).length).sum := by
  rw [List.length_append, List.length_reverse, List.length_flatMap]
  simp

lemma injectRank_some (E : Env K S) (R R' : Rank K S) (ci : List (Injector K)) (recv : ℤ → List (Injector K))
    (h : injectRank E R ci recv = some R') :
    ∃ out : Injector K → Bool × MState K,
      (∀ pi ∈ ci.reverse ++ E.sharedFaces.flatMap (fun f => (recv f).reverse), pi.sp_id < E.nsp ∧
        moveP E.g (R.sp pi.sp_id).q E.fuel ⟨pi.part, pi.disp, fun _ _ => 0⟩ = some (out pi)) ∧
      R'.rhob = R.rhob ∧ R'.st = R.st ∧ R'.warn = R.warn ∧ R'.maxCi = R.maxCi ∧
      (∀ v k, R'.a v k = R.a v k +
        ((ci.reverse ++ E.sharedFaces.flatMap fun f => (recv f).reverse).map fun pi => (out pi).2.a v k).sum) ∧
      ∀ id < E.nsp, ∃ s, Roomy (ci.length + (E.sharedFaces.map fun f => (recv f).length).sum) (R.sp id) s ∧
        Injected out ((ci.reverse ++ E.sharedFaces.flatMap fun f => (recv f).reverse).filter fun pi => pi.sp_id = id) s
          (R'.sp id) := by
  unfold injectRank at h
  dsimp only at h
  split at h
  · simp at h
  set inj := ci.reverse ++ E.sharedFaces.flatMap fun f => (recv f).reverse with hinj
  have hlen := length_inj ci E.sharedFaces recv
  cases h1 : resizeAll E (ci.length + (E.sharedFaces.map fun f => (recv f).length).sum) (ids E.nsp) R.sp with
  | none => rw [h1] at h; simp at h
  | some sp1 =>
    obtain ⟨k1, -⟩ := resizeAll_keeps E _ _ (ids_nodup _) R.sp sp1 h1
    rw [h1] at h
    simp only [Option.bind_some] at h
    cases h2 : injectAll E inj sp1 R.a with
    | none => rw [h2] at h; simp at h
    | some r =>
      rw [h2] at h
      obtain ⟨sp2, a2⟩ := r
      simp only [Option.map_some, Option.some.injEq] at h
      have hq : ∀ id < E.nsp, (sp1 id).q = (R.sp id).q := fun id hid => (k1 id ((mem_ids _ _).mpr hid)).q
      have hmv := injectAll_moves E (fun id => (R.sp id).q) inj sp1 R.a hq (sp2, a2) h2
      set out : Injector K → Bool × MState K := fun pi =>
        (moveP E.g (R.sp pi.sp_id).q E.fuel ⟨pi.part, pi.disp, fun _ _ => 0⟩).getD (false, ⟨pi.part, pi.disp, R.a⟩)
        with hout
      have ho : ∀ pi ∈ inj, pi.sp_id < E.nsp ∧
          moveP E.g (R.sp pi.sp_id).q E.fuel ⟨pi.part, pi.disp, fun _ _ => 0⟩ = some (out pi) := by
        intro pi hp
        obtain ⟨m1, m2⟩ := hmv pi hp
        refine ⟨m1, ?_⟩
        rw [hout]
        dsimp only
        obtain ⟨x, hx⟩ := Option.ne_none_iff_exists'.mp m2
        rw [hx]
        rfl
      obtain ⟨sp', a', e, hI, ha⟩ := injectAll_eq E (fun id => (R.sp id).q) out inj ho sp1 R.a hq (fun id hid => by
        have := k1 id ((mem_ids _ _).mpr hid)
        have r1 := this.room
        have r2 := this.roomM
        rw [hlen]
        exact ⟨r1, r2⟩)
      rw [h2] at e
      simp only [Option.some.injEq, Prod.mk.injEq] at e
      obtain ⟨rfl, rfl⟩ := e
      subst h
      exact ⟨out, ho, rfl, rfl, rfl, rfl, ha, fun id hid => ⟨sp1 id, k1 id ((mem_ids _ _).mpr hid), hI id⟩⟩

/-- After injection the movers are again strictly increasing and name particles stopped at faces. -/
lemma ready_injected [Archimedean K] (E : Env K S) (hm : LocalMesh E.g) (q : K) (out : Injector K → Bool × MState K)
    (ls : List (Injector K)) (s s' : Species K) (m : ℕ) (hls : ∀ pi ∈ ls, Enters E pi ∧
      moveP E.g q E.fuel ⟨pi.part, pi.disp, fun _ _ => 0⟩ = some (out pi)) (hl : ls.length ≤ m)
    (hr : s.np + m ≤ s.max_np) (hrm : s.nm + m ≤ s.max_nm) (h0 : s.nm = 0) (hI : Injected out ls s s') :
    ReadySp E.g s' := by
  have hmov : moverList s'.pm s'.nm = newMovers out s.np ls := by
    rw [hI.movers, h0]; rfl
  have hnm : s'.nm ≤ ls.length := by
    rw [← moverList_length s'.pm s'.nm, hmov]
    exact newMovers_length out ls _
  refine ⟨by rw [hI.np, hI.max_np]; omega, by rw [hI.max_nm]; omega, ?_, ?_⟩
  · rw [hmov]
    refine ⟨newMovers_sorted out ls _, ?_⟩
    intro x hx
    obtain ⟨j, hj, e, -⟩ := mem_newMovers out ls _ x hx
    rw [hI.np, e]
    push_cast
    omega
  · rw [hmov]
    intro x hx
    obtain ⟨j, hj, e, hb, -⟩ := mem_newMovers out ls _ x hx
    have hp : s'.p x.i = (out ls[j]).2.p := by
      have hlive := hI.live
      have h1 : (live s'.p s'.np)[s.np + j]? = some (s'.p x.i) := by
        unfold live Distribute.upTo
        rw [List.getElem?_map, List.getElem?_map, List.getElem?_range (by rw [hI.np]; omega), e]
        simp
      rw [hlive] at h1
      have h2 : (live s.p s.np).length = s.np := by simp [live, Distribute.upTo]
      rw [List.getElem?_append_right (by omega), h2, Nat.add_sub_cancel_left, List.getElem?_map,
        List.getElem?_eq_getElem hj] at h1
      simpa using h1.symm
    rw [hp]
    obtain ⟨he, hmove⟩ := hls ls[j] (List.getElem_mem hj)
    obtain ⟨c, hc, hi⟩ := he.cell
    obtain ⟨C', walls, t, hM⟩ := moved_of_some E.g hm q E.fuel ⟨ls[j].part, ls[j].disp, fun _ _ => 0⟩ c hc hi he.inside
      (out ls[j]).1 (out ls[j]).2 hmove
    rw [hb] at hM
    exact atFace_of_moved E.g hm hM

omit [Field K] [LinearOrder K] [IsStrictOrderedRing K] in
lemma newMovers_mem (out : Injector K → Bool × MState K) (ls : List (Injector K)) : ∀ (n j : ℕ) (hj : j < ls.length),
    (out ls[j]).1 = true → ((n + j : ℕ) : ℤ) ∈ (newMovers out n ls).map Mover.i := by
  induction ls with
  | nil => intro n j hj; simp at hj
  | cons pi l ih =>
    intro n j hj hb
    rw [newMovers, List.map_append, List.mem_append]
    cases j with
    | zero =>
      left
      simp only [List.getElem_cons_zero] at hb
      simp [hb]
    | succ j =>
      right
      have := ih (n + 1) j (by simpa using hj) (by simpa using hb)
      rwa [show n + (j + 1) = n + 1 + j by omega]

omit [Field K] [LinearOrder K] [IsStrictOrderedRing K] in
/-- The particles after injection, where they are. -/
lemma placed_injected (out : Injector K → Bool × MState K) (ls : List (Injector K)) (s s' : Species K)
    (h0 : s.nm = 0) (hI : Injected out ls s s') :
    s'.placed = live s.p s.np ++ ls.map fun pi => settled (out pi) := by
  have hmov : moverList s'.pm s'.nm = newMovers out s.np ls := by
    rw [hI.movers, h0]; rfl
  have hlen : (live s.p s.np).length = s.np := by simp [live, Distribute.upTo]
  have hlive := hI.live
  have hget : ∀ i : ℕ, i < s'.np → (live s'.p s'.np)[i]? = some (s'.p i) := by
    intro i hi
    unfold live Distribute.upTo
    rw [List.getElem?_map, List.getElem?_map, List.getElem?_range hi]
    rfl
  rw [hlive] at hget
  refine List.ext_getElem? fun i => ?_
  by_cases hi : i < s'.np
  swap
  · rw [List.getElem?_eq_none (by simp [Species.placed, Distribute.upTo]; omega),
      List.getElem?_eq_none (by simp [hlen]; have := hI.np; omega)]
  have e1 : s'.placed[i]? = some (if (i : ℤ) ∈ (newMovers out s.np ls).map Mover.i then
      { s'.p i with i := (s'.p i).i / 8 } else s'.p i) := by
    unfold Species.placed Distribute.upTo
    rw [hmov, List.getElem?_map, List.getElem?_map, List.getElem?_range hi]
    rfl
  rw [e1]
  have hg := hget i hi
  by_cases hs : i < s.np
  · rw [List.getElem?_append_left (by omega)] at hg ⊢
    rw [hg, if_neg]
    intro hm
    obtain ⟨m, hm, e⟩ := List.mem_map.mp hm
    obtain ⟨j, -, e', -⟩ := mem_newMovers out ls _ m hm
    omega
  · obtain ⟨j, rfl⟩ : ∃ j, i = s.np + j := ⟨i - s.np, by omega⟩
    have hj : j < ls.length := by have := hI.np; omega
    rw [List.getElem?_append_right (by omega), hlen, Nat.add_sub_cancel_left, List.getElem?_map,
      List.getElem?_eq_getElem hj] at hg ⊢
    simp only [Option.map_some, Option.some.injEq] at hg ⊢
    rw [← hg]
    unfold settled
    by_cases hb : (out ls[j]).1 = true
    · rw [if_pos (newMovers_mem out ls _ j hj hb), if_pos hb]
    · rw [if_neg, if_neg hb]
      intro hm
      obtain ⟨m, hm, e⟩ := List.mem_map.mp hm
      obtain ⟨j', hj', e', hb', -⟩ := mem_newMovers out ls _ m hm
      have : j = j' := by omega
      subst this
      exact hb hb'

omit [Field K] [LinearOrder K] [IsStrictOrderedRing K] in
/-- The particles that wait after injection. -/
lemma named_injected (out : Injector K → Bool × MState K) (ls : List (Injector K)) (s s' : Species K)
    (h0 : s.nm = 0) (hI : Injected out ls s s') :
    (named s'.p (moverList s'.pm s'.nm)).Perm
      ((ls.filter fun pi => (out pi).1).map fun pi => ((out pi).2.p, (out pi).2.disp)) := by
  have hmov : moverList s'.pm s'.nm = newMovers out s.np ls := by
    rw [hI.movers, h0]; rfl
  have hget : ∀ j : ℕ, ∀ hj : j < ls.length, s'.p ((s.np + j : ℕ) : ℤ) = (out ls[j]).2.p := by
    intro j hj
    have h1 : (live s'.p s'.np)[s.np + j]? = some (s'.p ((s.np + j : ℕ) : ℤ)) := by
      unfold live Distribute.upTo
      rw [List.getElem?_map, List.getElem?_map, List.getElem?_range (by rw [hI.np]; omega)]
      rfl
    rw [hI.live] at h1
    have h2 : (live s.p s.np).length = s.np := by simp [live, Distribute.upTo]
    rw [List.getElem?_append_right (by omega), h2, Nat.add_sub_cancel_left, List.getElem?_map,
      List.getElem?_eq_getElem hj] at h1
    simpa using h1.symm
  unfold named
  rw [hmov]
  refine ((List.reverse_perm _).map _).trans (List.Perm.of_eq ?_)
  clear hmov hI
  generalize s.np = n at hget
  induction ls generalizing n with
  | nil => rfl
  | cons pi l ih =>
    have ih := ih (n + 1) fun j hj => by
      have := hget (j + 1) (by simpa using hj)
      rw [show n + (j + 1) = n + 1 + j by omega] at this
      simpa using this
    have hp := hget 0 (by simp)
    simp only [Nat.add_zero, List.getElem_cons_zero] at hp
    rw [newMovers, List.map_append, ih, List.filter_cons]
    by_cases hb : (out pi).1 = true
    · rw [if_pos hb, if_pos hb]
      simp [hp]
    · rw [if_neg hb, if_neg hb]
      simp

/-! ### Properties -/

/-- **C12.**  For every call of `boundary_p` on the ranks of a domain, every rank `r`:

* every particle to be put in on rank `r` (what its handlers inject, and for each particle waiting on some rank at a face
  behind which is a voxel of rank `r`, one injector with the same species, momentum, weight and remaining displacement, at
  the mirrored place in that voxel) has a valid cell and is moved by `move_p`;
* the particles of each species afterwards are, up to order, those that were not waiting, unchanged, and the results of
  these moves: nothing else arrives, leaves or changes;
* seen where they are (a move that is not finished ends at a face), they are those not waiting and where these moves ended;
* waiting afterwards are the particles whose move is not finished, with what remains of their displacement;
* the accumulators grow by what these moves deposit, each on its own, in empty accumulators;
* the bound charge grows by what the absorbed particles carry and by what the handlers deposit;
* the handlers are called once for each particle at their faces; one warning is printed for each particle dropped;
* the mover lists are ready for the next call. -/
theorem round_particles [Archimedean K] {n : ℕ} {W : Fin n → Env K S} (hJ : Joined W) (hC : ∀ r, Conforming (W r))
    (R R' : Fin n → Rank K S) (hR : ∀ r, Ready (W r) (R r)) (h : Round W R R') (r : Fin n) :
    ∃ out : Injector K → Bool × MState K,
      (∀ pi ∈ arrivals W R r, Enters (W r) pi ∧
        moveP (W r).g ((R r).sp pi.sp_id).q (W r).fuel ⟨pi.part, pi.disp, fun _ _ => 0⟩ = some (out pi)) ∧
      (∀ id < (W r).nsp, (live ((R' r).sp id).p ((R' r).sp id).np).Perm
        (unnamed ((R r).sp id).p ((R r).sp id).np (moverList ((R r).sp id).pm ((R r).sp id).nm) ++
          ((arrivals W R r).filter fun pi => pi.sp_id = id).map fun pi => (out pi).2.p)) ∧
      (∀ id < (W r).nsp, (((R' r).sp id).placed).Perm
        (unnamed ((R r).sp id).p ((R r).sp id).np (moverList ((R r).sp id).pm ((R r).sp id).nm) ++
          ((arrivals W R r).filter fun pi => pi.sp_id = id).map fun pi => settled (out pi))) ∧
      (∀ id < (W r).nsp, (named ((R' r).sp id).p (moverList ((R' r).sp id).pm ((R' r).sp id).nm)).Perm
        (((arrivals W R r).filter fun pi => pi.sp_id = id ∧ (out pi).1).map fun pi =>
          ((out pi).2.p, (out pi).2.disp))) ∧
      (∀ v k, (R' r).a v k = (R r).a v k + ((arrivals W R r).map fun pi => (out pi).2.a v k).sum) ∧
      (∀ id < (W r).nsp, ((R' r).sp id).q = ((R r).sp id).q) ∧
      (∀ v, (R' r).rhob v = (R r).rhob v +
        (((waiting (W r) (R r)).filter fun h => h.fate (W r) = .absorb).map fun h =>
          boundCharge (W r).g (W r).r8V h.q h.p v).sum +
        depositSum (W r).g (W r).r8V (customRun (W r) (waiting (W r) (R r)) (R r).st).2.1 v) ∧
      (R' r).st = (customRun (W r) (waiting (W r) (R r)) (R r).st).1 ∧
      (R' r).warn = (R r).warn + ((waiting (W r) (R r)).filter fun h => h.fate (W r) = .drop).length ∧
      Ready (W r) (R' r) := by
  obtain ⟨M, L, h1, h2⟩ := h
  have hload : ∀ s, ((∀ id < (W s).nsp, Unloaded ((R s).sp id) ((M s).sp id)) ∧
      (M s).a = (R s).a ∧ (M s).rhob = (L s).rhob ∧ (M s).st = (L s).st ∧ (M s).warn = (L s).warn) ∧
      L s = loaded (W s) ⟨(R s).rhob, (R s).st, fun _ => [], [], (R s).warn⟩ (waiting (W s) (R s)) := by
    intro s
    obtain ⟨sp', a1, a2, a3⟩ := loadRank_eq (W s) (hJ.mesh s) (hJ.rangeOk s) (hC s) (R s) (hR s) (fun x hx hf =>
      (hJ.dest s (waiting_mem (hR s) hx).2.2 hf).2.2.1)
    rw [h1 s] at a3
    split_ifs at a3
    simp only [Option.some.injEq, Prod.mk.injEq] at a3
    obtain ⟨e1, e2⟩ := a3
    refine ⟨?_, e2⟩
    rw [e1, e2]
    exact ⟨a1, rfl, rfl, rfl, rfl⟩
  have hsend : ∀ s f, (L s).send f = ((waiting (W s) (R s)).filter fun h => h.fate (W s) = .send ∧ h.face = f).map
      fun h => h.arrival (W s) ((W s).g.range ((W s).g.bc (portOf f))) := by
    intro s f
    rw [(hload s).2]
    rfl
  have hci : (L r).ci = (customRun (W r) (waiting (W r) (R r)) (R r).st).2.2 := by
    rw [(hload r).2]
    rfl
  have hi : injectRank (W r) (M r) (L r).ci (received W L r) = some (R' r) := h2 r
  obtain ⟨out, o1, o2, o3, o4, -, o6, o5⟩ := injectRank_some _ _ _ _ _ hi
  set inj := (L r).ci.reverse ++ (W r).sharedFaces.flatMap fun f => (received W L r f).reverse with hinj
  have hperm : inj.Perm (arrivals W R r) := by
    rw [hinj, hci]
    unfold arrivals
    refine (List.reverse_perm _).append ?_
    refine List.Perm.trans ?_ (received_perm hJ R hR L hsend r)
    exact List.Perm.flatMap_left _ fun f _ => List.reverse_perm _
  have hlen : inj.length = (L r).ci.length + ((W r).sharedFaces.map fun f => (received W L r f).length).sum :=
    length_inj _ _ _
  have henter := arrivals_enter hJ hC R hR r
  have hq : ∀ id < (W r).nsp, ((M r).sp id).q = ((R r).sp id).q := fun id hid => ((hload r).1.1 id hid).q
  refine ⟨out, ?_, ?_, ?_, ?_, ?_, ?_, ?_, ?_, ?_, ?_⟩
  · intro pi hp
    obtain ⟨m1, m2⟩ := o1 pi (hperm.mem_iff.mpr hp)
    rw [hq _ m1] at m2
    exact ⟨henter pi hp, m2⟩
  · intro id hid
    obtain ⟨s, hs1, hs2⟩ := o5 id hid
    have hu := (hload r).1.1 id hid
    have e1 : live s.p s.np = live ((M r).sp id).p ((M r).sp id).np := by rw [hs1.np]; exact live_congr hs1.p
    rw [hs2.live, e1]
    exact hu.live.append ((hperm.filter _).map _)
  · intro id hid
    obtain ⟨s, hs1, hs2⟩ := o5 id hid
    have hu := (hload r).1.1 id hid
    have e1 : live s.p s.np = live ((M r).sp id).p ((M r).sp id).np := by rw [hs1.np]; exact live_congr hs1.p
    rw [placed_injected out _ s _ (by rw [hs1.nm, hu.nm]) hs2, e1]
    exact hu.live.append ((hperm.filter _).map _)
  · intro id hid
    obtain ⟨s, hs1, hs2⟩ := o5 id hid
    have hu := (hload r).1.1 id hid
    refine (named_injected out _ s _ (by rw [hs1.nm, hu.nm]) hs2).trans (List.Perm.map _ ?_)
    rw [List.filter_filter]
    refine ((hperm.filter _).trans (List.Perm.of_eq (List.filter_congr ?_)))
    intro pi _
    rw [Bool.and_comm]
    simp
  · intro v k
    rw [o6, (hload r).1.2.1]
    exact congrArg _ ((hperm.map _).sum_eq)
  · intro id hid
    obtain ⟨s, hs1, hs2⟩ := o5 id hid
    rw [hs2.q, hs1.q, hq id hid]
  · intro v
    rw [o2, (hload r).1.2.2.1, (hload r).2]
    rfl
  · rw [o3, (hload r).1.2.2.2.1, (hload r).2]
    rfl
  · rw [o4, (hload r).1.2.2.2.2, (hload r).2]
    rfl
  · intro id hid
    obtain ⟨s, hs1, hs2⟩ := o5 id hid
    have hu := (hload r).1.1 id hid
    refine ready_injected (W r) (hJ.mesh r) ((R r).sp id).q out _ s _ inj.length ?_ (List.length_filter_le _ _)
      (by rw [hlen]; exact hs1.room) (by rw [hlen]; exact hs1.roomM) (by rw [hs1.nm, hu.nm]) hs2
    intro pi hp
    rw [List.mem_filter] at hp
    obtain ⟨hp1, hp2⟩ := hp
    simp only [decide_eq_true_eq] at hp2
    obtain ⟨m1, m2⟩ := o1 pi hp1
    rw [hq _ m1, hp2] at m2
    exact ⟨henter pi (hperm.mem_iff.mp hp1), m2⟩

end

end Verif.Boundary
