import Verif.Global.Exchange
import Verif.Threads.Lemmas

/-!
# The push of all particles of a rank, seen in the box
-/
namespace Verif.Global

open Grid MoveP Charge
open Boundary (Env Rank Hit Injector Species waiting named unnamed live ids)
open AdvanceP (moverList pushOne normDisp unf sumAcc Args)
open SfInterface (upTo_mem)
open Field (Pos)
open Distribute (upTo Rounding)
open Threads (QuietPushes QuietPhase)

section
variable {K : Type} {S : Type*} [Field K] [LinearOrder K] [IsStrictOrderedRing K]

/-- The result of `push`; the particle itself where there is none. -/
noncomputable def adv (N : Pos) (fi : Pos → Boris.Interp K) (L : Law K) (p : GPart K) : GPart K × GAccum K :=
  (push N fi L 4 p).getD (p, 0)

/-- The constants of species `id`. -/
def lawOf (X : PushPar K) (id : ℕ) (q : K) : Law K := ⟨X.rt, X.qdt_2mc id, X.cdt_d, q⟩

variable {D : Decomp} {n : ℕ} (hD : D.ok n = true) (t0 : ℕ → ℤ → ℤ) {W : Fin n → Env K S}
  (hg : ∀ r : Fin n, gridOf D n t0 r = some (W r).g)
include hD hg

/-- One particle: what `pushOne` does, and what becomes of it if it has to wait. -/
lemma push_one [Archimedean K] (hm : ∀ r, LocalMesh (W r).g) (r : Fin n) (fuel : ℕ) {X : PushPar K} (hX : Courant X)
    {fi : Pos → Boris.Interp K} (hfi : ∀ c, IsInterior D c → X.f0 (VOXEL (W r).g.nx (W r).g.ny c.x c.y c.z) = fi (siteAt D r ![c.x, c.y, c.z]))
    (id : ℕ) (s : Species K) (p p' : MoveP.Part K) (hw : Within (W r).g p) (da : Accum K) (left : Option (Fin 3 → K))
    (h : pushOne (pushArgs (W r).g fuel X id s) p (fun _ _ => 0) = some (p', da, left)) :
    push (Torus.sizeOf D) fi (lawOf X id s.q) 4 (lift D r (W r).g p) =
      some (adv (Torus.sizeOf D) fi (lawOf X id s.q) (lift D r (W r).g p)) ∧
    mark id (adv (Torus.sizeOf D) fi (lawOf X id s.q) (lift D r (W r).g p)) =
      (match left with
        | none => mark id (lift D r (W r).g p', 0)
        | some d => fut D r (W r).g ⟨id, s.q, p', d⟩) + (0, spread D r (W r).g da) := by
  obtain ⟨⟨c, hc, hi⟩, hd⟩ := hw
  have hci := (interior_iff hD t0 hg r c).mp hc
  have hr := voxel_range (grid_mesh hD t0 hg r) hc.inMesh
  have hl := lift_voxel hD t0 hg r p hci hi
  set A := pushArgs (W r).g fuel X id s with hA
  have ef : A.f0 p.i = fi (lift D r (W r).g p).cell := by rw [hl, hi]; exact hfi c hci
  have en : ∀ u, normDisp A u = fun k => u k * (lawOf X id s.q).cdt_d k * (1 / (lawOf X id s.q).rt (1 + (u 0 * u 0 + (u 1 * u 1 + u 2 * u 2)))) :=
    fun u => rfl
  have eu : Boris.pushU A.rt A.qdt_2mc (A.f0 p.i) p.d p.u = Boris.pushU (lawOf X id s.q).rt (lawOf X id s.q).qdt_2mc
      (fi (lift D r (W r).g p).cell) (lift D r (W r).g p).d (lift D r (W r).g p).u := by rw [ef]; rfl
  have hdisp : ∀ u k, |normDisp A u k| ≤ 1 := fun u k =>
    (AdvanceP.normDisp_le A hX.root _ k).trans (hX.cfl k)
  unfold pushOne at h
  rw [if_neg (by rw [hi, hA]; show ¬ (_ < 0 ∨ nvox (W r).g ≤ _); omega)] at h
  dsimp only at h
  set u := Boris.pushU A.rt A.qdt_2mc (A.f0 p.i) p.d p.u with hu
  have ep : push (Torus.sizeOf D) fi (lawOf X id s.q) 4 (lift D r (W r).g p) =
      if AdvanceP.inBounds (fun k => p.d k + normDisp A u k + normDisp A u k) then
        some ({ lift D r (W r).g p with d := fun k => p.d k + normDisp A u k + normDisp A u k, u := u },
          put (lift D r (W r).g p).cell (AdvanceP.inCellJ (p.w * s.q) (fun k => p.d k + normDisp A u k) (normDisp A u)))
      else walk (Torus.sizeOf D) (s.q * p.w) 4 { lift D r (W r).g p with u := u } (normDisp A u) := by
    rw [eu]
    rfl
  unfold adv
  rw [ep]
  split_ifs at h with hb
  · simp only [Option.some.injEq, Prod.mk.injEq] at h
    obtain ⟨rfl, rfl, rfl⟩ := h
    rw [if_pos hb]
    refine ⟨rfl, ?_⟩
    rw [Option.getD_some]
    dsimp only
    rw [hi, spread_accAdd hD t0 hg r _ hci, spread_zero, zero_add, hl,
      lift_voxel hD t0 hg r (MoveP.Part.mk _ (VOXEL (W r).g.nx (W r).g.ny c.x c.y c.z) _ _) hci rfl]
    simp only [mark, Prod.mk_add_mk, add_zero, zero_add]
    rfl
  · rw [if_neg hb]
    have hF : FacesLeft 3 p.d (normDisp A u) := by
      refine ⟨fun _ => 1, by norm_num, fun k => ?_⟩
      have h1 : sdir (normDisp A u k) * p.d k ≤ 1 := by
        obtain ⟨a, b⟩ := hd k
        unfold sdir; split_ifs <;> linarith
      have := hdisp u k
      push_cast
      linarith
    obtain ⟨x, hx⟩ := walk_ends (Torus.sizeOf D) (s.q * p.w) 3 4
      { lift D r (W r).g p with u := u } (normDisp A u) hd hF (by norm_num)
    rw [hx]
    refine ⟨rfl, ?_⟩
    rw [Option.getD_some]
    cases em : moveP A.g A.qsp A.fuel ⟨{ p with u := u }, normDisp A u, fun _ _ => 0⟩ with
    | none => rw [em] at h; simp at h
    | some y =>
      obtain ⟨b, s'⟩ := y
      have key := arrive hD t0 hg hm r s.q fuel 3 ⟨p.d, p.i, u, p.w, normDisp A u, id⟩ ⟨⟨c, hc, hi⟩, hd⟩ hF em
      have ex : ends (Torus.sizeOf D) (s.q * p.w) (lift D r (W r).g ⟨p.d, p.i, u, p.w⟩) (normDisp A u) = x := ends_eq hx
      unfold futIn at key
      change mark id (ends (Torus.sizeOf D) (s.q * p.w) (lift D r (W r).g ⟨p.d, p.i, u, p.w⟩) (normDisp A u)) = _ at key
      rw [ex] at key
      rw [em] at h
      dsimp only at key
      rw [key]
      cases b with
      | false =>
        simp only [Option.some.injEq, Prod.mk.injEq] at h
        obtain ⟨rfl, rfl, rfl⟩ := h
        simp
      | true =>
        simp only [Option.some.injEq, Prod.mk.injEq] at h
        obtain ⟨rfl, rfl, rfl⟩ := h
        simp

/-- A species of a rank in the box. -/
noncomputable def part (D : Decomp) {n : ℕ} (r : Fin n) (g : LGrid) (id : ℕ) (s : Species K) : (ℕ → Multiset (GPart K)) × GAccum K :=
  ((unnamed s.p s.np (moverList s.pm s.nm)).map fun p => mark id (lift D r g p, 0)).sum +
    ((named s.p (moverList s.pm s.nm)).map fun x => fut D r g ⟨id, s.q, x.1, x.2⟩).sum

omit hD hg in
lemma content_parts (E : Env K S) (r : Fin n) (R : Rank K S) :
    content D E r R = ∑ id ∈ Finset.range E.nsp, part D r E.g id (R.sp id) + (0, spread D r E.g R.a) := by
  unfold content part
  rw [by_hits, Finset.sum_add_distrib]

omit [Field K] [LinearOrder K] [IsStrictOrderedRing K] hD hg in
/-- Finished and unfinished particles of a push. -/
lemma split_movers {M : Type*} [AddCommMonoid M] (np : ℕ) (p' : ℤ → MoveP.Part K) (left : ℤ → Option (Fin 3 → K)) (pm : ℤ → Mover K)
    (nm : ℕ) (hmv : (moverList pm nm).map (fun mv => (mv.i, some mv.disp)) = (unf left (upTo np)).map fun i => (i, left i))
    (q : ℤ → MoveP.Part K) (hq : ∀ i ∈ upTo np, q i = p' i) (f : MoveP.Part K → M) (g : MoveP.Part K × (Fin 3 → K) → M) :
    ((unnamed q np (moverList pm nm)).map f).sum + ((named q (moverList pm nm)).map g).sum =
      ((upTo np).map fun i => match left i with
        | none => f (p' i)
        | some d => g (p' i, d)).sum := by
  have e1 : (moverList pm nm).map Mover.i = unf left (upTo np) := by
    have := congrArg (List.map Prod.fst) hmv
    simpa [List.map_map, Function.comp_def] using this
  rw [split_by _ (fun i => (left i).isSome)]
  congr 1
  swap
  · unfold named
    rw [List.map_map, List.map_reverse, List.sum_reverse]
    let F : ℤ × Option (Fin 3 → K) → M := fun x => match x.2 with
      | none => 0
      | some d => g (q x.1, d)
    have e2 : (moverList pm nm).map (g ∘ fun m => (q m.i, m.disp)) = ((moverList pm nm).map fun mv => (mv.i, some mv.disp)).map F := by
      rw [List.map_map]
      rfl
    rw [e2, hmv, List.map_map]
    unfold unf
    congr 1
    apply List.map_congr_left
    intro i hi
    obtain ⟨h1, h2⟩ := List.mem_filter.mp hi
    rw [Function.comp_apply]
    obtain ⟨d, hd⟩ := Option.isSome_iff_exists.mp h2
    simp only [F, hd]
    rw [hq i h1]
  · unfold unnamed
    rw [e1, List.map_map]
    have e3 : ((upTo np).filter fun i => decide (i ∉ unf left (upTo np))) = (upTo np).filter fun i => !(left i).isSome := by
      apply List.filter_congr
      intro i hi
      unfold unf
      cases h : left i <;> simp [hi, h]
    rw [e3]
    congr 1
    apply List.map_congr_left
    intro i hi
    obtain ⟨h1, h2⟩ := List.mem_filter.mp hi
    have h2 : left i = none := by simpa using h2
    rw [Function.comp_apply, hq i h1, h2]

/-- One species. -/
lemma species_content [Archimedean K] (hm : ∀ r, LocalMesh (W r).g) (r : Fin n) (fuel : ℕ) {X : PushPar K} (hX : Courant X)
    {fi : Pos → Boris.Interp K} (hfi : ∀ c, IsInterior D c → X.f0 (VOXEL (W r).g.nx (W r).g.ny c.x c.y c.z) = fi (siteAt D r ![c.x, c.y, c.z]))
    {Rd : Rounding} (hR : Rd.Accurate) {P : ℕ} (hP : 0 < P) (hP2 : P ≤ 2 ^ 16) (id : ℕ) (s : Species K)
    (hs : Pushable (W r).g fuel X id s) (m m' : AdvanceP.Mem K) (hm1 : m.part = s.p) (pm : ℤ → Mover K) (nm : ℕ)
    (h : AdvanceP.Advance Rd (pushArgs (W r).g fuel X id s) P m m' (some (pm, nm))) (hq : Threads.Quiet P m') :
    (∀ p ∈ live s.p s.np, push (Torus.sizeOf D) fi (lawOf X id s.q) 4 (lift D r (W r).g p) =
      some (adv (Torus.sizeOf D) fi (lawOf X id s.q) (lift D r (W r).g p))) ∧
    part D r (W r).g id { s with p := m'.part, pm := pm, nm := nm } + (0, spread D r (W r).g (totalOf (W r).g P m'.acc)) =
      ((live s.p s.np).map fun p => mark id (adv (Torus.sizeOf D) fi (lawOf X id s.q) (lift D r (W r).g p))).sum +
      (0, spread D r (W r).g (totalOf (W r).g P m.acc)) := by
  have hv : 0 ≤ nvox (W r).g := by
    have := (hm r).nx; have := (hm r).ny; have := (hm r).nz
    unfold nvox; positivity
  have hex : ∀ i : ℤ, ∃ y : MoveP.Part K × Accum K × Option (Fin 3 → K), 0 ≤ i → i < s.np →
      pushOne (pushArgs (W r).g fuel X id s) (m.part i) (fun _ _ => 0) = some y := by
    intro i
    by_cases hi : 0 ≤ i ∧ i < s.np
    · have := hs.ok i hi.1 hi.2
      rw [← hm1] at this
      obtain ⟨p', left, a', h⟩ := this
      exact ⟨_, fun _ _ => h⟩
    · exact ⟨(m.part i, fun _ _ => 0, none), fun h0 h1 => absurd ⟨h0, h1⟩ hi⟩
  choose y hy using hex
  obtain ⟨-, k2, k3⟩ := Threads.advance_result Rd hR (pushArgs (W r).g fuel X id s) P hP hP2 hs.np31 hs.nm31 hv m m'
    (fun i => (y i).1) (fun i => (y i).2.1) (fun i => (y i).2.2) hy _ h
  obtain ⟨k4, pm', nm', e, -, k5⟩ := k3 hq
  simp only [Option.some.injEq, Prod.mk.injEq] at e
  obtain ⟨rfl, rfl⟩ := e
  have one := fun i (hi : i ∈ upTo s.np) => push_one hD t0 hg hm r fuel hX hfi id s (m.part i) (y i).1
    (by rw [hm1]; exact hs.within i (upTo_mem.mp hi).1 (upTo_mem.mp hi).2) (y i).2.1 (y i).2.2 (hy i (upTo_mem.mp hi).1 (upTo_mem.mp hi).2)
  constructor
  · intro p hp
    obtain ⟨i, hi, rfl⟩ := List.mem_map.mp hp
    have := (one i hi).1
    rwa [hm1] at this
  · unfold part
    rw [split_movers s.np (fun i => (y i).1) (fun i => (y i).2.2) pm nm k5 m'.part
      (fun i hi => k4 i (upTo_mem.mp hi).1 (upTo_mem.mp hi).2)]
    have et : spread D r (W r).g (totalOf (W r).g P m'.acc) = spread D r (W r).g (totalOf (W r).g P m.acc) +
        ((upTo s.np).map fun i => spread D r (W r).g (y i).2.1).sum := by
      rw [← spread_list r (W r).g (upTo s.np) (fun i => (y i).2.1) (totalOf (W r).g P m.acc)
        (fun v k => totalOf (W r).g P m.acc v k + ((upTo s.np).map fun i => (y i).2.1 v k).sum) fun v k => rfl]
      funext t k
      unfold spread
      refine Finset.sum_congr rfl fun v hv => ?_
      have hv := Finset.mem_Ico.mp hv
      have := k2 v k
      rw [if_pos (show 0 ≤ v ∧ v < nvox (pushArgs (W r).g fuel X id s).g from hv)] at this
      have : totalOf (W r).g P m'.acc v k = totalOf (W r).g P m.acc v k + ((upTo s.np).map fun i => (y i).2.1 v k).sum := this
      rw [this]
    have hl : ((live s.p s.np).map fun p => mark id (adv (Torus.sizeOf D) fi (lawOf X id s.q) (lift D r (W r).g p))).sum =
        ((upTo s.np).map fun i => (match (y i).2.2 with
          | none => mark id (lift D r (W r).g (y i).1, 0)
          | some d => fut D r (W r).g ⟨id, s.q, (y i).1, d⟩) + (0, spread D r (W r).g (y i).2.1)).sum := by
      unfold live
      rw [List.map_map]
      congr 1
      apply List.map_congr_left
      intro i hi
      rw [Function.comp_apply, ← hm1]
      exact (one i hi).2
    rw [hl, List.sum_map_add, sum_pair, et]
    have e3 : ((0 : ℕ → Multiset (GPart K)), spread D r (W r).g (totalOf (W r).g P m.acc) +
        ((upTo s.np).map fun i => spread D r (W r).g (y i).2.1).sum) = (0, spread D r (W r).g (totalOf (W r).g P m.acc)) +
        (0, ((upTo s.np).map fun i => spread D r (W r).g (y i).2.1).sum) := by simp
    rw [e3, add_assoc, add_comm (0, ((upTo s.np).map fun i => spread D r (W r).g (y i).2.1).sum)]

/-- All species. -/
lemma pushes_content [Archimedean K] (hm : ∀ r, LocalMesh (W r).g) (r : Fin n) (fuel : ℕ) {X : PushPar K} (hX : Courant X)
    {fi : Pos → Boris.Interp K} (hfi : ∀ c, IsInterior D c → X.f0 (VOXEL (W r).g.nx (W r).g.ny c.x c.y c.z) = fi (siteAt D r ![c.x, c.y, c.z]))
    {Rd : Rounding} (hR : Rd.Accurate) {P : ℕ} (hP : 0 < P) (hP2 : P ≤ 2 ^ 16) {l : List ℕ} {sp sp' : ℕ → Species K}
    {acc acc' : ℤ → Fin 12 → K} (hp : QuietPushes Rd (W r).g fuel X P l sp acc sp' acc') (hl : l.Nodup)
    (hs : ∀ id ∈ l, Pushable (W r).g fuel X id (sp id)) :
    (∀ id ∈ l, ∀ p ∈ live (sp id).p (sp id).np, push (Torus.sizeOf D) fi (lawOf X id (sp id).q) 4 (lift D r (W r).g p) =
      some (adv (Torus.sizeOf D) fi (lawOf X id (sp id).q) (lift D r (W r).g p))) ∧
    (∀ id, (sp' id).q = (sp id).q) ∧ (∀ id, id ∉ l → sp' id = sp id) ∧
    (l.map fun id => part D r (W r).g id (sp' id)).sum + (0, spread D r (W r).g (totalOf (W r).g P acc')) =
      (l.map fun id => ((live (sp id).p (sp id).np).map fun p =>
        mark id (adv (Torus.sizeOf D) fi (lawOf X id (sp id).q) (lift D r (W r).g p))).sum).sum +
      (0, spread D r (W r).g (totalOf (W r).g P acc)) := by
  induction hp with
  | nil sp acc => exact ⟨by simp, fun _ => rfl, fun _ _ => rfl, by simp⟩
  | cons id l sp m m' pm nm sp' acc' hm1 hm2 hadv hq hrest ih =>
    rw [List.nodup_cons] at hl
    have up : ∀ j, j ≠ id → Function.update sp id { sp id with p := m'.part, pm := pm, nm := nm } j = sp j :=
      fun j hj => Function.update_of_ne hj _ _
    have hne : ∀ j ∈ l, j ≠ id := fun j hj e => hl.1 (e ▸ hj)
    obtain ⟨k1, k2⟩ := species_content hD t0 hg hm r fuel hX hfi hR hP hP2 id (sp id) (hs id (by simp)) m m' hm1 pm nm hadv hq
    obtain ⟨i1, i2, i3, i4⟩ := ih hl.2 fun j hj => by rw [up j (hne j hj)]; exact hs j (by simp [hj])
    refine ⟨?_, fun j => ?_, fun j hj => ?_, ?_⟩
    · intro j hj
      rcases List.mem_cons.mp hj with rfl | hj
      · exact k1
      · have := i1 j hj
        rwa [up j (hne j hj)] at this
    · rw [i2]
      by_cases h : j = id
      · subst h; rw [Function.update_self]
      · rw [up j h]
    · rw [List.mem_cons, not_or] at hj
      rw [i3 j hj.2, up j hj.1]
    · have e1 : (l.map fun j => ((live ((Function.update sp id { sp id with p := m'.part, pm := pm, nm := nm } j)).p
            ((Function.update sp id { sp id with p := m'.part, pm := pm, nm := nm } j)).np).map fun p =>
            mark j (adv (Torus.sizeOf D) fi (lawOf X j (Function.update sp id { sp id with p := m'.part, pm := pm, nm := nm } j).q)
              (lift D r (W r).g p))).sum) =
          l.map fun j => ((live (sp j).p (sp j).np).map fun p =>
            mark j (adv (Torus.sizeOf D) fi (lawOf X j (sp j).q) (lift D r (W r).g p))).sum := by
        apply List.map_congr_left
        intro j hj
        rw [up j (hne j hj)]
      rw [e1] at i4
      rw [List.map_cons, List.sum_cons, List.map_cons, List.sum_cons, add_assoc, i4, i3 id hl.1, Function.update_self,
        add_left_comm, k2]
      abel

/-- The push of all species of a rank. -/
lemma phase_content [Archimedean K] (hm : ∀ r, LocalMesh (W r).g) (r : Fin n) {X : PushPar K} (hX : Courant X)
    {fi : Pos → Boris.Interp K} (hfi : ∀ c, IsInterior D c → X.f0 (VOXEL (W r).g.nx (W r).g.ny c.x c.y c.z) = fi (siteAt D r ![c.x, c.y, c.z]))
    {Rd : Rounding} (hR : Rd.Accurate) {P nf : ℕ} (hP : 0 < P) (hP2 : P ≤ 2 ^ 16) (hnf : 12 ≤ nf)
    (hint' : (SfInterface.accArgs (W r).g.nx (W r).g.ny (W r).g.nz nf P).n < 2 ^ 31)
    (hint : (P : ℤ) * (SfInterface.pow2Ceil2 (SfInterface.nvOf (W r).g.nx (W r).g.ny (W r).g.nz) * nf) < 2 ^ 31)
    {sp sp' : ℕ → Species K} {st st' : ℤ → K} (ht : TidyAll (W r).g P (accOf nf st))
    (hs : ∀ id < (W r).nsp, Pushable (W r).g (W r).fuel X id (sp id))
    (hp : QuietPhase Rd (W r).g (W r).fuel X P nf (ids (W r).nsp) sp st sp' st') (R : Rank K S) (ρ : ℤ → K) :
    (∀ id < (W r).nsp, ∀ p ∈ live (sp id).p (sp id).np, push (Torus.sizeOf D) fi (lawOf X id (sp id).q) 4 (lift D r (W r).g p) =
      some (adv (Torus.sizeOf D) fi (lawOf X id (sp id).q) (lift D r (W r).g p))) ∧
    (∀ id, (sp' id).q = (sp id).q) ∧
    content D (W r) r { R with sp := sp', a := hostAcc (W r).g nf st', rhob := ρ } =
      ∑ id ∈ Finset.range (W r).nsp, ((live (sp id).p (sp id).np).map fun p =>
        mark id (adv (Torus.sizeOf D) fi (lawOf X id (sp id).q) (lift D r (W r).g p))).sum := by
  obtain ⟨a1, a2, c1, c2, c3⟩ := hp
  have hs' : ∀ id ∈ ids (W r).nsp, Pushable (W r).g (W r).fuel X id (sp id) := fun id hid => hs id ((Boundary.mem_ids _ _).mp hid)
  obtain ⟨-, -, f1, f2⟩ := Threads.phase_facts hR hP hP2 hnf (hm r) hint' hint (ids_nodup _) hs' ht c1 c2 c3
  obtain ⟨k1, k2, -, k4⟩ := pushes_content hD t0 hg hm r (W r).fuel hX hfi hR hP hP2 c2 (ids_nodup _) hs'
  refine ⟨fun id hid => k1 id ((Boundary.mem_ids _ _).mpr hid), k2, ?_⟩
  have sums : ∀ f : ℕ → (ℕ → Multiset (GPart K)) × GAccum K, ((ids (W r).nsp).map f).sum = ∑ id ∈ Finset.range (W r).nsp, f id := by
    intro f
    unfold Boundary.ids
    rw [List.map_reverse, List.sum_reverse]
    induction (W r).nsp with
    | zero => rfl
    | succ N ih => rw [List.range_succ, List.map_append, List.sum_append, ih, Finset.sum_range_succ]; simp
  rw [sums, sums, f2, spread_zero, ← f1] at k4
  rw [content_parts]
  rw [k4]
  show _ + 0 = _
  rw [add_zero]

end

end Verif.Global
