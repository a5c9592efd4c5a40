import Verif.Charge.Weak
import Verif.Boundary.Conserve

/-!
# Charge balance of the particle exchange

For weights on the nodes that agree on the copies of a node, the weighted charge of all particles on all ranks and the
weighted divergence of the accumulated currents balance through every call of `boundary_p`.
-/
namespace Verif.Charge

open Grid Deposit SfInterface MoveP
open Boundary (Env Rank Hit Injector Joined Ready Conforming Round waiting arrivals fromOthers customRun goesTo settled
  AtFace unnamed named live hits ids axisOf)
open AdvanceP (moverList)
open Distribute (upTo)

section
variable {K : Type} {S : Type*} [Field K] [LinearOrder K] [IsStrictOrderedRing K]

/-! ### Specification -/

/-- Spec: weights on the nodes of all ranks that agree on the copies of a node: on the two ends of an axis joined to itself
on one rank, and on the corners shared by two cells joined through a face on different ranks. -/
structure Compatible {n : ℕ} (W : Fin n → Env K S) (J : Fin n → Fin 3 → Bool) (φ : Fin n → ℤ → K) : Prop where
  within : ∀ r, OnClasses (W r).g (J r) (φ r)
  across : ∀ r s (c c' : Cell), c.Interior (W r).g.nx (W r).g.ny (W r).g.nz →
    c'.Interior (W s).g.nx (W s).g.ny (W s).g.nz → ∀ axis up,
    (W r).g.neighbor (6 * VOXEL (W r).g.nx (W r).g.ny c.x c.y c.z + faceOf axis up) =
      (W s).g.rangel + VOXEL (W s).g.nx (W s).g.ny c'.x c'.y c'.z →
    ∀ x y z x' y' z' : Bool, ![x, y, z] axis = up → ![x', y', z'] axis = !up →
    (∀ k, k ≠ axis → ![x, y, z] k = ![x', y', z'] k) →
    φ r (VOXEL (W r).g.nx (W r).g.ny (c.x + if x then 1 else 0) (c.y + if y then 1 else 0) (c.z + if z then 1 else 0)) =
    φ s (VOXEL (W s).g.nx (W s).g.ny (c'.x + if x' then 1 else 0) (c'.y + if y' then 1 else 0)
      (c'.z + if z' then 1 else 0))

/-- Spec: the weighted charge density of all particles of a rank. -/
def charge (E : Env K S) (φ : ℤ → K) (r8V : K) (R : Rank K S) : K :=
  ∑ id ∈ Finset.range E.nsp, ((R.sp id).placed.map (weigh E.g φ ((R.sp id).q * r8V))).sum

/-- Spec: the weighted charge of the particles that leave at a face without a rank behind it. -/
def chargeLost (E : Env K S) (φ : ℤ → K) (r8V : K) (R : Rank K S) : K :=
  (((waiting E R).filter fun h => ¬ h.fate E = .send).map fun h => weigh E.g φ (h.q * r8V) h.part).sum

/-- Spec: the weighted charge of the particles the handlers put in. -/
def chargeInjected (E : Env K S) (φ : ℤ → K) (r8V : K) (R : Rank K S) : K :=
  ((customRun E (waiting E R) R.st).2.2.map fun pi => weigh E.g φ ((R.sp pi.sp_id).q * r8V) pi.part).sum

/-! ### Lemmas -/

omit [LinearOrder K] [IsStrictOrderedRing K] in
lemma weigh_eight {g : LGrid} (φ : ℤ → K) (q8V : K) (p : Part K) {c : Cell} (hi : p.i = VOXEL g.nx g.ny c.x c.y c.z)
    (F : Bool → Bool → Bool → K) (hF : ∀ x y z, φ (VOXEL g.nx g.ny
      (c.x + if x then 1 else 0) (c.y + if y then 1 else 0) (c.z + if z then 1 else 0)) = F x y z) :
    weigh g φ q8V p =
      F false false false * triWeights p.d (p.w * q8V) 0 + F true false false * triWeights p.d (p.w * q8V) 1 +
      F false true false * triWeights p.d (p.w * q8V) 2 + F true true false * triWeights p.d (p.w * q8V) 3 +
      F false false true * triWeights p.d (p.w * q8V) 4 + F true false true * triWeights p.d (p.w * q8V) 5 +
      F false true true * triWeights p.d (p.w * q8V) 6 + F true true true * triWeights p.d (p.w * q8V) 7 := by
  unfold weigh
  rw [Fin.sum_univ_eight, hi]
  simp only [nodeOff_eq, hF]
  rfl

/-- A face as axis and direction. -/
lemma exists_faceOf {f : ℤ} (h : 0 ≤ f ∧ f < 6) : ∃ axis up, f = faceOf axis up ∧ axisOf f = axis ∧
    ((if f < 3 then (-1 : K) else 1) = sgn up) := by
  obtain ⟨h0, h6⟩ := h
  have : f = 0 ∨ f = 1 ∨ f = 2 ∨ f = 3 ∨ f = 4 ∨ f = 5 := by omega
  rcases this with rfl | rfl | rfl | rfl | rfl | rfl
  · exact ⟨0, false, rfl, rfl, by simp [sgn]⟩
  · exact ⟨1, false, rfl, rfl, by simp [sgn]⟩
  · exact ⟨2, false, rfl, rfl, by simp [sgn]⟩
  · exact ⟨0, true, rfl, rfl, by simp [sgn]⟩
  · exact ⟨1, true, rfl, rfl, by simp [sgn]⟩
  · exact ⟨2, true, rfl, rfl, by simp [sgn]⟩

/-- A particle on a shared face has the same weighted charge on both sides. -/
lemma weigh_across {n : ℕ} {W : Fin n → Env K S} {J : Fin n → Fin 3 → Bool} {φ : Fin n → ℤ → K}
    (hφ : Compatible W J φ) (s r : Fin n) (h : Hit K) (c : Cell) (f : ℤ) (ha : AtFace (W s).g h.p c f) (c' : Cell)
    (hc' : c'.Interior (W r).g.nx (W r).g.ny (W r).g.nz)
    (hn : h.nn (W s) = (W r).g.rangel + VOXEL (W r).g.nx (W r).g.ny c'.x c'.y c'.z) (q8V : K) :
    weigh (W r).g (φ r) q8V (h.arrival (W s) (W r).g.rangel).part = weigh (W s).g (φ s) q8V h.part := by
  obtain ⟨axis, up, hf, hax, hsg⟩ := exists_faceOf (K := K) ha.face
  have hvox : h.voxel = VOXEL (W s).g.nx (W s).g.ny c.x c.y c.z := ha.decode.1
  have hface : h.face = f := ha.decode.2
  have hon : h.p.d axis = sgn up := by rw [← hax, ha.on, hsg]
  have G := hφ.across s r c c' ha.interior hc' axis up (by
    rw [← hf, ← hn, Hit.nn, hvox, hface])
  obtain ⟨F, hF⟩ : ∃ F : Bool → Bool → Bool → K, ∀ x y z, φ s (VOXEL (W s).g.nx (W s).g.ny
    (c.x + if x then 1 else 0) (c.y + if y then 1 else 0) (c.z + if z then 1 else 0)) = F x y z :=
    ⟨_, fun _ _ _ => rfl⟩
  obtain ⟨F', hF'⟩ : ∃ F : Bool → Bool → Bool → K, ∀ x y z, φ r (VOXEL (W r).g.nx (W r).g.ny
    (c'.x + if x then 1 else 0) (c'.y + if y then 1 else 0) (c'.z + if z then 1 else 0)) = F x y z :=
    ⟨_, fun _ _ _ => rfl⟩
  rw [weigh_eight (c := c') (φ r) q8V _ (by show h.nn (W s) - _ = _; rw [hn]; ring) F' hF',
    weigh_eight (c := c) (φ s) q8V _ (by exact hvox) F hF]
  have e1 : (h.arrival (W s) (W r).g.rangel).part.d = Function.update h.p.d axis (-sgn up) := by
    show Function.update h.p.d (axisOf h.face) (-(h.p.d (axisOf h.face))) = _
    rw [hface, hax, hon]
  have e2 : (h.arrival (W s) (W r).g.rangel).part.w = h.p.w := rfl
  have e3 : h.part.d = h.p.d := rfl
  have e4 : h.part.w = h.p.w := rfl
  rw [e1, e2, e3, e4]
  generalize h.p.d = d at hon
  simp only [hF, hF'] at G
  clear hF hF' e1 e2 e3 e4
  fin_cases axis
  · have hd' : d 0 = sgn up := hon
    have e := fun y z => G up y z (!up) y z rfl rfl (by intro k hk; fin_cases k <;> simp at hk ⊢)
    cases up <;> simp only [Bool.not_true, Bool.not_false] at e <;>
      simp only [e] <;> simp [triWeights, FMA, FNMS, hd', sgn] <;> ring
  · have hd' : d 1 = sgn up := hon
    have e := fun y z => G y up z y (!up) z rfl rfl (by intro k hk; fin_cases k <;> simp at hk ⊢)
    cases up <;> simp only [Bool.not_true, Bool.not_false] at e <;>
      simp only [e] <;> simp [triWeights, FMA, FNMS, hd', sgn] <;> ring
  · have hd' : d 2 = sgn up := hon
    have e := fun y z => G y z up y z (!up) rfl rfl (by intro k hk; fin_cases k <;> simp at hk ⊢)
    cases up <;> simp only [Bool.not_true, Bool.not_false] at e <;>
      simp only [e] <;> simp [triWeights, FMA, FNMS, hd', sgn] <;> ring

omit [Field K] [LinearOrder K] [IsStrictOrderedRing K] in
/-- The particles where they are: those named, decoded, and the others. -/
lemma placed_perm (s : Boundary.Species K) (h : Boundary.Ordered s.np (moverList s.pm s.nm)) :
    s.placed.Perm ((named s.p (moverList s.pm s.nm)).map (fun x => { x.1 with i := x.1.i / 8 }) ++
      unnamed s.p s.np (moverList s.pm s.nm)) := by
  set ms := moverList s.pm s.nm with hms
  set dec : Part K → Part K := fun p => { p with i := p.i / 8 } with hdec
  have key := Boundary.perm_named_unnamed (fun i => if i ∈ ms.map Mover.i then dec (s.p i) else s.p i) s.np ms h
  refine List.Perm.trans (List.Perm.of_eq ?_) (key.trans (List.Perm.of_eq ?_))
  · unfold Boundary.Species.placed live
    rw [← hms]
  · congr 1
    · unfold named
      rw [List.map_map, List.map_map]
      apply List.map_congr_left
      intro m hm
      have : m.i ∈ ms.map Mover.i := List.mem_map_of_mem (List.mem_reverse.mp hm)
      simp only [Function.comp_apply, if_pos this]
      rfl
    · unfold unnamed
      apply List.map_congr_left
      intro i hi
      have := (List.mem_filter.mp hi).2
      simp only [decide_not, Bool.not_eq_eq_eq_not, Bool.not_true, decide_eq_false_iff_not] at this
      simp only [if_neg this]

omit [LinearOrder K] [IsStrictOrderedRing K] in
lemma sum_by_species {α : Type*} (f : α → K) (key : α → ℕ) (N : ℕ) (l : List α) (h : ∀ x ∈ l, key x < N) :
    ∑ id ∈ Finset.range N, ((l.filter fun x => key x = id).map f).sum = (l.map f).sum := by
  induction l with
  | nil => simp
  | cons x l ih =>
    have e : ∀ id, (((x :: l).filter fun x => key x = id).map f).sum =
        (if key x = id then f x else 0) + ((l.filter fun x => key x = id).map f).sum := by
      intro id
      rw [List.filter_cons]
      by_cases hp : key x = id <;> simp [hp]
    simp only [e]
    rw [Finset.sum_add_distrib, ih fun y hy => h y (by simp [hy]), Finset.sum_ite_eq,
      if_pos (Finset.mem_range.mpr (h x (by simp)))]
    simp

omit [LinearOrder K] [IsStrictOrderedRing K] in
lemma sum_hits {E : Env K S} (R : Rank K S) (f : Hit K → K) :
    ∑ id ∈ Finset.range E.nsp, ((hits R.sp [id]).map f).sum = ((waiting E R).map f).sum := by
  unfold waiting hits Boundary.ids
  generalize E.nsp = N
  induction N with
  | zero => simp
  | succ N ih =>
    rw [Finset.sum_range_succ, ih, List.range_succ, List.reverse_append]
    simp
    ring

/-- Each particle given away arrives on exactly one rank. -/
lemma sum_sent {n : ℕ} {W : Fin n → Env K S} (hJ : Joined W) (R : Fin n → Rank K S) (hR : ∀ r, Ready (W r) (R r))
    (f : Fin n → Injector K → K) (g : Fin n → Hit K → K)
    (hfg : ∀ s r, ∀ h ∈ waiting (W s) (R s), goesTo W s r h → f r (h.arrival (W s) (W r).g.rangel) = g s h) :
    ∑ r, ((fromOthers W R r).map (f r)).sum =
      ∑ s, (((waiting (W s) (R s)).filter fun h => h.fate (W s) = .send).map (g s)).sum := by
  have e : ∀ r, ((fromOthers W R r).map (f r)).sum =
      ∑ s, (((waiting (W s) (R s)).filter fun h => goesTo W s r h).map (g s)).sum := by
    intro r
    unfold fromOthers
    rw [List.map_flatMap, ← List.sum_ofFn, List.ofFn_eq_map]
    have fl : ∀ (l : List (Fin n)) (F : Fin n → List K), (l.flatMap F).sum = (l.map fun s => (F s).sum).sum := by
      intro l F
      induction l with
      | nil => rfl
      | cons a l ih => simp only [List.flatMap_cons, List.sum_append, ih, List.map_cons, List.sum_cons]
    rw [fl]
    congr 1
    apply List.map_congr_left
    intro s _
    rw [List.map_map]
    congr 1
    apply List.map_congr_left
    intro h hh
    have := List.mem_filter.mp hh
    exact hfg s r h this.1 (by simpa using this.2)
  simp only [e]
  rw [Finset.sum_comm]
  apply Finset.sum_congr rfl
  intro s _
  have hw := fun x (hx : x ∈ waiting (W s) (R s)) => (Boundary.waiting_mem (hR s) hx).2.2
  generalize waiting (W s) (R s) = l at hw
  induction l with
  | nil => simp
  | cons x l ih =>
    have ih := ih fun y hy => hw y (by simp [hy])
    have step : ∀ r, (((x :: l).filter fun x => goesTo W s r x).map (g s)).sum =
        (if goesTo W s r x then g s x else 0) + ((l.filter fun x => goesTo W s r x).map (g s)).sum := by
      intro r
      rw [List.filter_cons]
      by_cases hp : goesTo W s r x <;> simp [hp]
    simp only [step]
    rw [Finset.sum_add_distrib, ih, List.filter_cons]
    by_cases hq : x.fate (W s) = .send
    · obtain ⟨-, -, -, r, c', -, -, -, hr⟩ := hJ.dest s (hw x (by simp)) hq
      simp [hr, hq]
    · have : ∀ r, ¬ goesTo W s r x := fun r hr => hq hr.1
      simp [this, hq]

/-- What a rank has before: the particles that stay and those that wait. -/
lemma charge_before {E : Env K S} (φ : ℤ → K) (r8V : K) (R : Rank K S) (hR : Ready E R) :
    charge E φ r8V R = ∑ id ∈ Finset.range E.nsp,
        ((unnamed (R.sp id).p (R.sp id).np (moverList (R.sp id).pm (R.sp id).nm)).map
          (weigh E.g φ ((R.sp id).q * r8V))).sum +
      ((waiting E R).map fun h => weigh E.g φ (h.q * r8V) h.part).sum := by
  rw [← sum_hits R, ← Finset.sum_add_distrib]
  refine Finset.sum_congr rfl fun id hid => ?_
  rw [((placed_perm (R.sp id) (hR id (Finset.mem_range.mp hid)).ordered).map _).sum_eq, List.map_append,
    List.sum_append, add_comm]
  congr 2
  simp only [hits, List.flatMap_cons, List.flatMap_nil, List.append_nil, List.map_map]
  rfl

omit [IsStrictOrderedRing K] [LinearOrder K] in
lemma nodeSum_list {α : Type*} (g : LGrid) (φ : ℤ → K) (m : Scales K) (a a' : Accum K) (l : List α) (b : α → Accum K)
    (h : ∀ v k, a' v k = a v k + (l.map fun x => b x v k).sum) :
    nodeSum g φ (divJ g m a') = nodeSum g φ (divJ g m a) + (l.map fun x => nodeSum g φ (divJ g m (b x))).sum := by
  induction l generalizing a with
  | nil =>
    have : a' = a := by funext v k; rw [h]; simp
    rw [this]; simp
  | cons x l ih =>
    rw [ih (fun v k => a v k + b x v k) (fun v k => by rw [h]; simp [add_assoc])]
    have : divJ g m (fun v k => a v k + b x v k) = fun n => divJ g m a n + divJ g m (b x) n := by
      funext n
      exact AdvanceP.divJ_add g m a (b x) n
    rw [this]
    simp only [nodeSum, mul_add, Finset.sum_add_distrib, List.map_cons, List.sum_cons]
    ring

/-! ### Result -/

/-- **C69, particle exchange.**  For any domain and weights on the nodes that agree on the copies of a node: the weighted
charge of all particles on all ranks divided by the time step, plus the weighted divergence of the currents in the
accumulators of all ranks, changes in a call of `boundary_p` only by what leaves at faces without a rank behind and by
what the handlers put in. -/
theorem round_balance [Archimedean K] {n : ℕ} {W : Fin n → Env K S} (hJ : Joined W) (hC : ∀ r, Conforming (W r))
    {J : Fin n → Fin 3 → Bool} (hjo : ∀ r, JoinedOn (W r).g (J r)) {φ : Fin n → ℤ → K} (hφ : Compatible W J φ)
    (m : Scales K) (hdt : m.dt ≠ 0) (hV : m.r8V = m.rd 0 * m.rd 1 * m.rd 2 * (1 / 8))
    (R R' : Fin n → Rank K S) (hR : ∀ r, Ready (W r) (R r))
    (hq : ∀ r s, ∀ id < (W r).nsp, ((R r).sp id).q = ((R s).sp id).q) (h : Round W R R') :
    ∑ r, (charge (W r) (φ r) m.r8V (R' r) / m.dt + nodeSum (W r).g (φ r) (divJ (W r).g m (R' r).a)) +
        (∑ r, chargeLost (W r) (φ r) m.r8V (R r)) / m.dt =
      ∑ r, (charge (W r) (φ r) m.r8V (R r) / m.dt + nodeSum (W r).g (φ r) (divJ (W r).g m (R r).a)) +
        (∑ r, chargeInjected (W r) (φ r) m.r8V (R r)) / m.dt := by
  -- what a rank has afterwards
  have after : ∀ r, charge (W r) (φ r) m.r8V (R' r) / m.dt + nodeSum (W r).g (φ r) (divJ (W r).g m (R' r).a) =
      (∑ id ∈ Finset.range (W r).nsp,
        ((unnamed ((R r).sp id).p ((R r).sp id).np (moverList ((R r).sp id).pm ((R r).sp id).nm)).map
          (weigh (W r).g (φ r) (((R r).sp id).q * m.r8V))).sum) / m.dt +
      nodeSum (W r).g (φ r) (divJ (W r).g m (R r).a) +
      (chargeInjected (W r) (φ r) m.r8V (R r) / m.dt + ((fromOthers W R r).map fun pi =>
        weigh (W r).g (φ r) (((R r).sp pi.sp_id).q * m.r8V) pi.part).sum / m.dt) := by
    intro r
    obtain ⟨out, h1, -, h2, -, h3, h4, -⟩ := Boundary.round_particles hJ hC R R' hR h r
    rw [nodeSum_list (W r).g (φ r) m _ _ _ (fun pi => (out pi).2.a) h3]
    have e1 : charge (W r) (φ r) m.r8V (R' r) = ∑ id ∈ Finset.range (W r).nsp,
        ((unnamed ((R r).sp id).p ((R r).sp id).np (moverList ((R r).sp id).pm ((R r).sp id).nm)).map
          (weigh (W r).g (φ r) (((R r).sp id).q * m.r8V))).sum +
        ((arrivals W R r).map fun pi => weigh (W r).g (φ r) (((R r).sp pi.sp_id).q * m.r8V) (settled (out pi))).sum := by
      rw [← sum_by_species (fun pi => weigh (W r).g (φ r) (((R r).sp pi.sp_id).q * m.r8V) (settled (out pi)))
        (fun pi => pi.sp_id) (W r).nsp (arrivals W R r) (fun pi hpi => (h1 pi hpi).1.species), ← Finset.sum_add_distrib]
      refine Finset.sum_congr rfl fun id hid => ?_
      have hid := Finset.mem_range.mp hid
      rw [h4 id hid, ((h2 id hid).map _).sum_eq, List.map_append, List.sum_append, List.map_map]
      congr 2
      apply List.map_congr_left
      intro pi hpi
      have : pi.sp_id = id := by simpa using (List.mem_filter.mp hpi).2
      rw [this]
      rfl
    rw [e1]
    have e2 : chargeInjected (W r) (φ r) m.r8V (R r) / m.dt + ((fromOthers W R r).map fun pi =>
        weigh (W r).g (φ r) (((R r).sp pi.sp_id).q * m.r8V) pi.part).sum / m.dt =
      ((arrivals W R r).map fun pi => weigh (W r).g (φ r) (((R r).sp pi.sp_id).q * m.r8V) pi.part / m.dt).sum := by
      have dv : ∀ (l : List (Injector K)) (f : Injector K → K), (l.map fun x => f x / m.dt).sum = (l.map f).sum / m.dt := by
        intro l f
        induction l with
        | nil => simp
        | cons a l ih => simp only [List.map_cons, List.sum_cons, ih]; ring
      rw [dv]
      unfold arrivals chargeInjected
      rw [List.map_append, List.sum_append]
      ring
    rw [e2]
    have e3 : ∀ l : List (Injector K), (∀ pi ∈ l, pi ∈ arrivals W R r) →
        (l.map fun pi => weigh (W r).g (φ r) (((R r).sp pi.sp_id).q * m.r8V) pi.part / m.dt).sum =
        (l.map fun pi => weigh (W r).g (φ r) (((R r).sp pi.sp_id).q * m.r8V) (settled (out pi))).sum / m.dt +
          (l.map fun pi => nodeSum (W r).g (φ r) (divJ (W r).g m (out pi).2.a)).sum := by
      intro l hl
      induction l with
      | nil => simp
      | cons pi l ih =>
        obtain ⟨hE, hmv⟩ := h1 pi (hl pi (by simp))
        have := moveP_weak (hJ.mesh r) m hdt hV (hjo r) (hφ.within r) _ _ pi.part pi.disp ⟨hE.cell, hE.inside⟩ _ hmv
        simp only [List.map_cons, List.sum_cons, ih fun x hx => hl x (by simp [hx]), ← this]
        ring
    rw [e3 _ fun _ h => h]
    ring
  have sent := sum_sent hJ R hR (fun r pi => weigh (W r).g (φ r) (((R r).sp pi.sp_id).q * m.r8V) pi.part)
    (fun s h => weigh (W s).g (φ s) (h.q * m.r8V) h.part) (by
      intro s r x hx hg
      obtain ⟨k0, k1, c, f, ha⟩ := Boundary.waiting_mem (hR s) hx
      obtain ⟨-, -, -, r', c', -, hc', hn, hr⟩ := hJ.dest s ⟨c, f, ha⟩ hg.1
      obtain rfl := (hr r).mp hg
      rw [k1, hq s r x.id k0]
      exact weigh_across hφ s r x c f ha c' hc' hn _)
  have before : ∀ r, charge (W r) (φ r) m.r8V (R r) = ∑ id ∈ Finset.range (W r).nsp,
        ((unnamed ((R r).sp id).p ((R r).sp id).np (moverList ((R r).sp id).pm ((R r).sp id).nm)).map
          (weigh (W r).g (φ r) (((R r).sp id).q * m.r8V))).sum +
      ((((waiting (W r) (R r)).filter fun h => h.fate (W r) = .send).map
        fun h => weigh (W r).g (φ r) (h.q * m.r8V) h.part).sum + chargeLost (W r) (φ r) m.r8V (R r)) := by
    intro r
    rw [charge_before _ _ _ (hR r)]
    congr 1
    unfold chargeLost
    rw [← List.sum_append, ← List.map_append]
    refine (List.Perm.sum_eq (List.Perm.map _ ?_)).symm
    have := List.filter_append_perm (fun h : Hit K => decide (h.fate (W r) = .send)) (waiting (W r) (R r))
    simpa using this
  have dv : ∀ f : Fin n → K, ∑ r, f r / m.dt = (∑ r, f r) / m.dt := fun f => (Finset.sum_div _ _ _).symm
  simp only [after, before, Finset.sum_add_distrib, dv]
  rw [sent]
  ring

end

end Verif.Charge
