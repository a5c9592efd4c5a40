import Verif.Global.Sums

/-!
# The exchange of particles between ranks, seen in the box
-/
namespace Verif.Global

open Grid MoveP Charge
open Boundary (Env Rank Hit Injector Joined Ready Conforming Round waiting arrivals fromOthers goesTo named unnamed hits settled axisOf
  AtFace)
open AdvanceP (moverList)
open Field (Pos)

section
variable {K : Type} {S : Type*} [Field K] [LinearOrder K] [IsStrictOrderedRing K]

open Classical in
/-- Where a walk ends and what it deposits. -/
noncomputable def ends (N : Pos) (q : K) (p : GPart K) (disp : Fin 3 → K) : GPart K × GAccum K :=
  if h : ∃ x F, walk N q F p disp = some x then h.choose else (p, 0)

omit [IsStrictOrderedRing K] in
lemma ends_eq {N : Pos} {q : K} {F : ℕ} {p : GPart K} {disp : Fin 3 → K} {x : GPart K × GAccum K}
    (h : walk N q F p disp = some x) : ends N q p disp = x := by
  have hx : ∃ x F, walk N q F p disp = some x := ⟨x, F, h⟩
  unfold ends
  rw [dif_pos hx]
  obtain ⟨F', hF⟩ := hx.choose_spec
  exact walk_det hF h

/-- A particle stopped at a face of rank `r`, on the other side of the face. -/
def onward (D : Decomp) {n : ℕ} (r : Fin n) (g : LGrid) (p : MoveP.Part K) : GPart K :=
  through (Torus.sizeOf D) (axisOf (p.i % 8)) (decide (3 ≤ p.i % 8)) (lift D r g { p with i := p.i / 8 })

/-- The measure of a particle: one particle of its species, and currents. -/
noncomputable def mark (id : ℕ) (x : GPart K × GAccum K) : (ℕ → Multiset (GPart K)) × GAccum K := (Pi.single id {x.1}, x.2)

/-- What becomes of a particle that waits at a face. -/
noncomputable def fut (D : Decomp) {n : ℕ} (r : Fin n) (g : LGrid) (h : Hit K) : (ℕ → Multiset (GPart K)) × GAccum K :=
  mark h.id (ends (Torus.sizeOf D) (h.q * h.p.w) (onward D r g h.p) h.disp)

/-- What becomes of a particle put in on rank `r`. -/
noncomputable def futIn (D : Decomp) {n : ℕ} (r : Fin n) (g : LGrid) (q : K) (pi : Injector K) :
    (ℕ → Multiset (GPart K)) × GAccum K :=
  mark pi.sp_id (ends (Torus.sizeOf D) (q * pi.w) (lift D r g pi.part) pi.disp)

/-- A rank in the box: the particles that are done, what becomes of those that wait, the accumulators. -/
noncomputable def content (D : Decomp) {n : ℕ} (E : Env K S) (r : Fin n) (R : Rank K S) : (ℕ → Multiset (GPart K)) × GAccum K :=
  ∑ id ∈ Finset.range E.nsp, ((unnamed (R.sp id).p (R.sp id).np (moverList (R.sp id).pm (R.sp id).nm)).map fun p =>
      mark id (lift D r E.g p, 0)).sum +
    ((waiting E R).map (fut D r E.g)).sum + (0, spread D r E.g R.a)

lemma face_code {a : Fin 3} {up : Bool} {i v : ℤ} (h : i = 8 * v + faceOf a up) : i / 8 = v ∧ i % 8 = faceOf a up ∧
    axisOf (i % 8) = a ∧ decide (3 ≤ i % 8) = up := by
  have := faceOf_range a up
  have h2 : i % 8 = faceOf a up := by omega
  refine ⟨by omega, h2, by rw [h2, Boundary.axisOf_faceOf], ?_⟩
  rw [h2]
  unfold faceOf
  cases up <;> simp <;> omega

section
variable {D : Decomp} {n : ℕ} (hD : D.ok n = true) (t0 : ℕ → ℤ → ℤ) {W : Fin n → Env K S}
  (hg : ∀ r : Fin n, gridOf D n t0 r = some (W r).g)
include hD hg

lemma onward_eq (r : Fin n) (p : MoveP.Part K) {c : Cell} (hc : IsInterior D c) {a : Fin 3} {up : Bool}
    (h : p.i = 8 * VOXEL (W r).g.nx (W r).g.ny c.x c.y c.z + faceOf a up) :
    onward D r (W r).g p = through (Torus.sizeOf D) a up ⟨siteAt D r ![c.x, c.y, c.z], p.d, p.u, p.w⟩ := by
  obtain ⟨h1, -, h3, h4⟩ := face_code h
  unfold onward
  rw [h3, h4, lift_voxel hD t0 hg r { p with i := p.i / 8 } hc h1]

/-- A particle that goes to another rank arrives there behind its face. -/
lemma arrival_lift {s r : Fin n} {h : Hit K} {c : Cell} {f : ℤ} (ha : AtFace (W s).g h.p c f)
    (hJ : Joined W) (hgo : goesTo W s r h) :
    lift D r (W r).g (h.arrival (W s) (W r).g.rangel).part = onward D s (W s).g h.p := by
  obtain ⟨a, up, rfl, h5, -⟩ := exists_faceOf (K := K) ha.face
  have hc := (interior_iff hD t0 hg s c).mp ha.interior
  obtain ⟨e1, e2, e3, e4⟩ := face_code ha.code
  obtain ⟨k, hk⟩ := Boundary.face_fin ha.face.1 ha.face.2
  obtain ⟨-, -, -, r', c', -, hc', hnn, hr⟩ := hJ.dest s ⟨c, _, ha⟩ hgo.1
  obtain rfl := (hr r).mp hgo
  have hci := (interior_iff hD t0 hg r c').mp hc'
  rw [onward_eq hD t0 hg s h.p hc ha.code]
  have hnn' : (W s).g.neighbor (6 * VOXEL (W s).g.nx (W s).g.ny c.x c.y c.z + faceOf a up) =
      (W r).g.rangel + VOXEL (W r).g.nx (W r).g.ny c'.x c'.y c'.z := by
    rw [← hnn]
    unfold Hit.nn Hit.voxel Hit.face
    rw [e1, e2]
  have hs := site_beyond hD t0 hg s r c c' hc hci a up hnn'
  have hi : (h.arrival (W s) (W r).g.rangel).part.i = VOXEL (W r).g.nx (W r).g.ny c'.x c'.y c'.z := by
    show h.nn (W s) - (W r).g.rangel = _
    rw [hnn]; omega
  rw [lift_voxel hD t0 hg r _ hci hi, hs]
  have hd : h.p.d a = sgn up := by
    have := ha.on
    rw [Boundary.axisOf_faceOf] at this
    rw [this]
    unfold faceOf sgn
    cases up <;> simp <;> omega
  have hf : h.face = faceOf a up := e2
  unfold through
  congr 1
  show Function.update h.p.d (axisOf h.face) (-(h.p.d (axisOf h.face))) = _
  rw [hf, Boundary.axisOf_faceOf, hd]

/-- What becomes of an arrival: its move on the rank, and what becomes of it if it has to wait again. -/
lemma arrive [Archimedean K] (hm : ∀ r, LocalMesh (W r).g) (r : Fin n) (q : K) (fuel M : ℕ) (pi : Injector K) (hw : Within (W r).g pi.part)
    (hf : FacesLeft M pi.d pi.disp) {b : Bool} {s' : MState K}
    (h : moveP (W r).g q fuel ⟨pi.part, pi.disp, fun _ _ => 0⟩ = some (b, s')) :
    futIn D r (W r).g q pi = (if b then fut D r (W r).g ⟨pi.sp_id, q, s'.p, s'.disp⟩ else mark pi.sp_id (lift D r (W r).g s'.p, 0)) +
      (0, spread D r (W r).g s'.a) := by
  obtain ⟨⟨c, hc, hi⟩, hd⟩ := hw
  have hci := (interior_iff hD t0 hg r c).mp hc
  obtain ⟨dep, k1, kw, k2, k3⟩ := loop_walk hD t0 hg r (q * pi.w) fuel ⟨pi.part, pi.disp, fun _ _ => 0⟩ c hci hi hd b s' h
  dsimp only at k1 kw
  rw [spread_zero, zero_add] at k1
  cases b with
  | false =>
    obtain ⟨F, hF⟩ := k2 rfl
    unfold futIn
    rw [ends_eq hF, k1]
    simp [mark]
  | true =>
    obtain ⟨c', a, up, m1, m2, m3, m4⟩ := k3 rfl
    obtain ⟨f1, f2⟩ := moveP_faces (hm r) q fuel M ⟨pi.part, pi.disp, fun _ _ => 0⟩ ⟨⟨c, hc, hi⟩, hd⟩ hf h
    obtain ⟨a', up', i, g1, g2, g3⟩ := f2
    have e1 := face_code m2
    have e2 := face_code g1
    obtain rfl : a = a' := e1.2.2.1.symm.trans e2.2.2.1
    obtain rfl : up = up' := e1.2.2.2.symm.trans e2.2.2.2
    have hb : ∀ k, -1 ≤ s'.p.d k ∧ s'.p.d k ≤ 1 :=
      (moveP_ends (hm r) q fuel ⟨pi.part, pi.disp, fun _ _ => 0⟩ ⟨⟨c, hc, hi⟩, hd⟩ h).1.2
    obtain ⟨x, hx⟩ := walk_ends (Torus.sizeOf D) (q * pi.w) (M - 1) (M - 1 + 1)
      (through (Torus.sizeOf D) a up ⟨siteAt D r ![c'.x, c'.y, c'.z], s'.p.d, s'.p.u, s'.p.w⟩) s'.disp (by
        intro k
        unfold through
        by_cases hk : k = a
        · subst hk; simp only [Function.update_self]; cases up <;> simp [sgn]
        · simp only [Function.update_of_ne hk]; exact hb k) (facesLeft_cross f1 g2 g3).2 (by omega)
    obtain ⟨F', hF⟩ := m4 _ x hx
    have hw : q * s'.p.w = q * pi.w := by rw [kw]; rfl
    unfold futIn fut
    dsimp only
    rw [ends_eq hF, hw, onward_eq hD t0 hg r s'.p m1 m2, ends_eq hx, k1]
    simp [mark, add_comm]

omit hD hg in
lemma spread_list (r : Fin n) (g : LGrid) {α : Type*} (l : List α) (b : α → Accum K) (a a' : Accum K)
    (h : ∀ v k, a' v k = a v k + (l.map fun x => b x v k).sum) :
    spread D r g a' = spread D r g a + (l.map fun x => spread D r g (b x)).sum := by
  induction l generalizing a with
  | nil =>
    have : a' = a := by funext v k; rw [h]; simp
    rw [this]; simp
  | cons x l ih =>
    rw [ih (fun v k => a v k + b x v k) (fun v k => by rw [h]; simp [add_assoc]), spread_add, List.map_cons, List.sum_cons,
      add_assoc]

omit hD hg in
lemma sum_pair {α : Type*} (l : List α) (f : α → GAccum K) :
    (l.map fun x => ((0 : ℕ → Multiset (GPart K)), f x)).sum = (0, (l.map f).sum) := by
  induction l with
  | nil => rfl
  | cons x l ih => rw [List.map_cons, List.sum_cons, ih, List.map_cons, List.sum_cons]; simp

/-- One rank after a call: what was done before, the accumulators, and what becomes of the arrivals. -/
lemma round_rank [Archimedean K] (hJ : Joined W) (hC : ∀ r, Conforming (W r)) (R R' : Fin n → Rank K S)
    (hR : ∀ r, Sound (W r) (R r)) (h : Round W R R')
    (hI : ∀ r, (Boundary.customRun (W r) (waiting (W r) (R r)) (R r).st).2.2 = []) {M : ℕ}
    (hM : ∀ r, WaitingFaces (W r) M (R r)) (r : Fin n) :
    content D (W r) r (R' r) =
      ∑ id ∈ Finset.range (W r).nsp, ((unnamed ((R r).sp id).p ((R r).sp id).np (moverList ((R r).sp id).pm ((R r).sp id).nm)).map
        fun p => mark id (lift D r (W r).g p, 0)).sum + (0, spread D r (W r).g (R r).a) +
      ((arrivals W R r).map fun pi => futIn D r (W r).g ((R r).sp pi.sp_id).q pi).sum := by
  obtain ⟨out, h1, -, h2, h3, h4, h5, -, -, -, h6⟩ := Boundary.round_particles hJ hC R R' (fun r => (hR r).ready) h r
  have hfut : ∀ pi ∈ arrivals W R r, futIn D r (W r).g ((R r).sp pi.sp_id).q pi =
      (if (out pi).1 then fut D r (W r).g ⟨pi.sp_id, ((R r).sp pi.sp_id).q, (out pi).2.p, (out pi).2.disp⟩ else
        mark pi.sp_id (lift D r (W r).g (out pi).2.p, 0)) + (0, spread D r (W r).g (out pi).2.a) := by
    intro pi hpi
    exact arrive hD t0 hg hJ.mesh r _ _ (M - 1) pi ⟨(h1 pi hpi).1.cell, (h1 pi hpi).1.inside⟩
      (arrivals_faces R hI hM r pi hpi) (h1 pi hpi).2
  rw [List.map_congr_left hfut, List.sum_map_add, sum_pair, split_by _ (fun pi => (out pi).1)]
  unfold content
  rw [spread_list r (W r).g (arrivals W R r) (fun pi => (out pi).2.a) (R r).a (R' r).a h4]
  have hun : ∀ id < (W r).nsp, (unnamed ((R' r).sp id).p ((R' r).sp id).np (moverList ((R' r).sp id).pm ((R' r).sp id).nm)).Perm
      (unnamed ((R r).sp id).p ((R r).sp id).np (moverList ((R r).sp id).pm ((R r).sp id).nm) ++
        (((arrivals W R r).filter fun pi => pi.sp_id = id).filter fun pi => !(out pi).1).map fun pi => settled (out pi)) := by
    intro id hid
    refine unnamed_after _ _ ((arrivals W R r).filter fun pi => pi.sp_id = id) (fun pi => (out pi).1) (fun pi => settled (out pi))
      (fun pi => { (out pi).2.p with i := (out pi).2.p.i / 8 })
      ((named ((R' r).sp id).p (moverList ((R' r).sp id).pm ((R' r).sp id).nm)).map fun x => { x.1 with i := x.1.i / 8 })
      ((placed_perm ((R' r).sp id) (h6 id hid).ordered).symm.trans (h2 id hid)) ?_ ?_
    · refine ((h3 id hid).map _).trans (List.Perm.of_eq ?_)
      rw [List.map_map, List.filter_filter]
      congr 1
      apply List.filter_congr
      intro x _
      simp [Bool.and_comm]
    · intro pi _ hb
      unfold settled
      rw [if_pos hb]
  have e1 : ∑ id ∈ Finset.range (W r).nsp, ((unnamed ((R' r).sp id).p ((R' r).sp id).np
        (moverList ((R' r).sp id).pm ((R' r).sp id).nm)).map fun p => mark id (lift D r (W r).g p, (0 : GAccum K))).sum =
      ∑ id ∈ Finset.range (W r).nsp, ((unnamed ((R r).sp id).p ((R r).sp id).np (moverList ((R r).sp id).pm ((R r).sp id).nm)).map
        fun p => mark id (lift D r (W r).g p, 0)).sum +
      (((arrivals W R r).filter fun pi => !(out pi).1).map fun pi =>
        if (out pi).1 then fut D r (W r).g ⟨pi.sp_id, ((R r).sp pi.sp_id).q, (out pi).2.p, (out pi).2.disp⟩ else
        mark pi.sp_id (lift D r (W r).g (out pi).2.p, 0)).sum := by
    rw [← by_species _ (fun pi : Injector K => pi.sp_id) (W r).nsp _ (fun pi hpi => (h1 pi (List.mem_filter.mp hpi).1).1.species),
      ← Finset.sum_add_distrib]
    refine Finset.sum_congr rfl fun id hid => ?_
    rw [((hun id (Finset.mem_range.mp hid)).map _).sum_eq, List.map_append, List.sum_append, List.map_map]
    congr 2
    rw [List.filter_filter, List.filter_filter]
    have : (fun pi : Injector K => !(out pi).1 && decide (pi.sp_id = id)) = fun pi => decide (pi.sp_id = id) && !(out pi).1 := by
      funext pi; rw [Bool.and_comm]
    rw [this]
    apply List.map_congr_left
    intro pi hpi
    have := (List.mem_filter.mp hpi).2
    simp only [Bool.and_eq_true, decide_eq_true_eq, Bool.not_eq_true'] at this
    rw [Function.comp_apply, if_neg (by simp [this.2])]
    unfold settled
    rw [if_neg (by simp [this.2]), this.1]
  have e2 : ((waiting (W r) (R' r)).map (fut D r (W r).g)).sum =
      (((arrivals W R r).filter fun pi => (out pi).1).map fun pi =>
        if (out pi).1 then fut D r (W r).g ⟨pi.sp_id, ((R r).sp pi.sp_id).q, (out pi).2.p, (out pi).2.disp⟩ else
        mark pi.sp_id (lift D r (W r).g (out pi).2.p, 0)).sum := by
    rw [← by_species _ (fun pi : Injector K => pi.sp_id) (W r).nsp _ (fun pi hpi => (h1 pi (List.mem_filter.mp hpi).1).1.species),
      by_hits]
    refine Finset.sum_congr rfl fun id hid => ?_
    have hid := Finset.mem_range.mp hid
    rw [((h3 id hid).map _).sum_eq, List.map_map, List.filter_filter]
    congr 1
    have : (fun pi : Injector K => decide (pi.sp_id = id ∧ (out pi).1 = true)) = fun pi => decide (pi.sp_id = id) && (out pi).1 := by
      funext pi; simp
    rw [this]
    apply List.map_congr_left
    intro pi hpi
    have := (List.mem_filter.mp hpi).2
    simp only [Bool.and_eq_true, decide_eq_true_eq] at this
    rw [Function.comp_apply, if_pos this.2, h5 id hid, this.1]
  rw [e1, e2]
  have e3 : ((0 : ℕ → Multiset (GPart K)), spread D r (W r).g (R r).a + ((arrivals W R r).map fun x =>
      spread D r (W r).g (out x).2.a).sum) = (0, spread D r (W r).g (R r).a) + (0, ((arrivals W R r).map fun x =>
      spread D r (W r).g (out x).2.a).sum) := by simp
  rw [e3]
  abel

/-- **The exchange.**  A call of `boundary_p` on all ranks does not change what is in the box. -/
lemma round_content [Archimedean K] (hJ : Joined W) (hC : ∀ r, Conforming (W r)) (hcl : Closed W) (R R' : Fin n → Rank K S)
    (hR : ∀ r, Sound (W r) (R r)) (hq : ∀ r s, ∀ id < (W r).nsp, ((R r).sp id).q = ((R s).sp id).q) (h : Round W R R') {M : ℕ}
    (hM : ∀ r, WaitingFaces (W r) M (R r)) : ∑ r, content D (W r) r (R' r) = ∑ r, content D (W r) r (R r) := by
  have hs := fun r {x : Hit K} (hx : x ∈ waiting (W r) (R r)) => closed_send hJ hcl hR r hx
  have c0 : ∀ r, Boundary.customRun (W r) (waiting (W r) (R r)) (R r).st = ((R r).st, [], []) := fun r =>
    customRun_send (W r) _ (fun x hx => hs r hx) _
  have hI : ∀ r, (Boundary.customRun (W r) (waiting (W r) (R r)) (R r).st).2.2 = [] := fun r => by rw [c0]
  rw [Finset.sum_congr rfl fun r _ => round_rank hD t0 hg hJ hC R R' hR h hI hM r]
  have ha : ∀ r, arrivals W R r = fromOthers W R r := fun r => by rw [arrivals, hI r, List.nil_append]
  have key := sent hJ R (fun r => (hR r).ready) (fun r pi => futIn D r (W r).g ((R r).sp pi.sp_id).q pi)
    (fun s h => fut D s (W s).g h) (by
      intro s r x hx hgo
      obtain ⟨q1, q2, c, f, hf⟩ := Boundary.waiting_mem (hR s).ready hx
      unfold futIn fut
      rw [arrival_lift hD t0 hg hf hJ hgo]
      show mark x.id (ends _ (((R r).sp x.id).q * x.p.w) _ x.disp) = _
      rw [q2, hq r s x.id (hJ.nsp s r ▸ q1)])
  have hf : ∀ s, (waiting (W s) (R s)).filter (fun h => h.fate (W s) = .send) = waiting (W s) (R s) := by
    intro s
    rw [List.filter_eq_self]
    intro x hx
    simpa using hs s hx
  simp only [hf] at key
  simp only [ha]
  rw [Finset.sum_add_distrib, key, ← Finset.sum_add_distrib]
  refine Finset.sum_congr rfl fun r _ => ?_
  unfold content
  abel

/-- All calls of `boundary_p`. -/
lemma rounds_content [Archimedean K] (hJ : Joined W) (hC : ∀ r, Conforming (W r)) (hcl : Closed W) (N : ℕ)
    (R R' : Fin n → Rank K S) (h : Rounds W N R R') : ∀ M, (∀ r, Sound (W r) (R r)) →
    (∀ r s, ∀ id < (W r).nsp, ((R r).sp id).q = ((R s).sp id).q) → (∀ r, WaitingFaces (W r) M (R r)) →
    ∑ r, content D (W r) r (R' r) = ∑ r, content D (W r) r (R r) := by
  induction h with
  | zero R => exact fun M _ _ _ => rfl
  | succ k R R1 R' h1 _ ih =>
    intro M hS hq hM
    have hs := fun r => round_sound hJ hC R R1 hS h1 r
    rw [ih (M - 1) (fun r => (hs r).1) (by
      intro r s id hid
      rw [(hs r).2.2 id hid, (hs s).2.2 id (hJ.nsp r s ▸ hid), hq r s id hid])
      (round_faces hJ hC R R1 (fun r => (hS r).ready) (fun r => by
        rw [customRun_send (W r) _ (fun x hx => closed_send hJ hcl hS r hx)]) h1 hM)]
    exact round_content hD t0 hg hJ hC hcl R R1 hS hq h1 hM

end

end

end Verif.Global
