import Verif.Boundary.DropProps

/-!
# The first half of boundary processing: every particle of the mover lists is handled once
-/
namespace Verif.Boundary

open Grid (LGrid Cell VOXEL portOf)
open MoveP (Part Mover Accum MState moveP nvox LocalMesh nodeCoord nodeCoord_voxel voxel_range)
open Deposit (accumulateRhob InCell share cornerNode inside cornerNode_injective)
open Distribute (upTo)
open AdvanceP (moverList)

section
variable {K : Type} {S : Type*} [Field K] [LinearOrder K] [IsStrictOrderedRing K]

/-! ### Specification -/

/-- Spec: a particle of a mover list: the species, its charge, the particle as stored, and what remains of its
displacement. -/
structure Hit (K : Type) where
  id : ℕ
  q : K
  p : Part K
  disp : Fin 3 → K

/-- Spec: the voxel and the face encoded in the voxel field of the particle. -/
def Hit.voxel (h : Hit K) : ℤ := h.p.i / 8
@[inherit_doc Hit.voxel] def Hit.face (h : Hit K) : ℤ := h.p.i % 8

/-- Spec: the particle in its voxel. -/
def Hit.part (h : Hit K) : Part K := { h.p with i := h.voxel }

/-- Spec: what is behind the face. -/
def Hit.nn (E : Env K S) (h : Hit K) : ℤ := E.g.neighbor (6 * h.voxel + h.face)

/-- Spec: what has to happen with the particle: absorbed at an absorbing face; given to another rank if the neighbour is
a voxel of another rank; given to handler `k` if the neighbour is `-3-k`; dropped otherwise. -/
def Hit.fate (E : Env K S) (h : Hit K) : Fate :=
  if h.nn E = -2 then .absorb
  else if 0 ≤ h.nn E ∧ h.nn E ≤ E.g.range E.ws ∧ (h.nn E < E.g.rangel ∨ E.g.rangeh < h.nn E) then .send
  else if h.nn E ≤ -3 ∧ -3 - E.nb < h.nn E then .custom (-3 - h.nn E).toNat
  else .drop

/-- Spec: the particles of all mover lists of the species `l`, in processing order. -/
def hits (sp : ℕ → Species K) (l : List ℕ) : List (Hit K) :=
  l.flatMap fun id => (named (sp id).p (moverList (sp id).pm (sp id).nm)).map fun x => ⟨id, (sp id).q, x.1, x.2⟩

/-- Spec: the handlers are called for the particles at their faces, once for each, in order, with the state the
preceding call left. -/
def customRun (E : Env K S) : List (Hit K) → S → S × List (K × Part K) × List (Injector K)
  | [], st => (st, [], [])
  | h :: l, st =>
    match h.fate E with
    | .custom k =>
      let r := E.interact k st h.id h.q h.part h.disp h.face
      let r' := customRun E l r.1
      (r'.1, r.2.1 ++ r'.2.1, r.2.2 ++ r'.2.2)
    | _ => customRun E l st

/-- Spec: the injector describing the particle in the voxel behind the face: on the opposite side of that voxel, with
the same species, momentum, weight and remaining displacement. -/
def Hit.arrival (E : Env K S) (base : ℤ) (h : Hit K) : Injector K where
  d := Function.update h.p.d (axisOf h.face) (-(h.p.d (axisOf h.face)))
  i := h.nn E - base
  u := h.p.u
  w := h.p.w
  disp := h.disp
  sp_id := h.id

/-- Spec: what the deposits of the handlers add to the bound charge density at node `n`. -/
def depositSum (g : LGrid) (r8V : K) (l : List (K × Part K)) (n : ℤ) : K :=
  (l.map fun x => boundShare g (cellAt g x.2.i) x.2.d (x.1 * r8V * x.2.w) n).sum

/-- Spec: a particle that can be put into the domain. -/
structure Enters (E : Env K S) (pi : Injector K) : Prop where
  species : pi.sp_id < E.nsp
  cell : ∃ c : Cell, c.Interior E.g.nx E.g.ny E.g.nz ∧ pi.i = VOXEL E.g.nx E.g.ny c.x c.y c.z
  inside : ∀ k, -1 ≤ pi.d k ∧ pi.d k ≤ 1

/-- Spec: the contract of a handler: for any particle stopped at its face it injects at most one particle, into a cell of
the domain, and deposits only particles of the domain. -/
def Conforming (E : Env K S) : Prop :=
  ∀ (h : Hit K) (k : ℕ), h.fate E = .custom k → h.id < E.nsp → (∃ c f, AtFace E.g h.p c f) → ∀ st,
    (E.interact k st h.id h.q h.part h.disp h.face).2.2.length ≤ 1 ∧
    (∀ x ∈ (E.interact k st h.id h.q h.part h.disp h.face).2.1, ∃ c, InCell E.g x.2 c) ∧
    ∀ pi ∈ (E.interact k st h.id h.q h.part h.disp h.face).2.2, Enters E pi

/-- Spec: the state after handling the particles `hs`. -/
def loaded (E : Env K S) (L : Load K S) (hs : List (Hit K)) : Load K S where
  rhob := fun n => L.rhob n + ((hs.filter fun h => h.fate E = .absorb).map fun h => boundCharge E.g E.r8V h.q h.p n).sum +
    depositSum E.g E.r8V (customRun E hs L.st).2.1 n
  st := (customRun E hs L.st).1
  send := fun f => L.send f ++ (hs.filter fun h => h.fate E = .send ∧ h.face = f).map fun h =>
    h.arrival E (E.g.range (E.g.bc (portOf f)))
  ci := L.ci ++ (customRun E hs L.st).2.2
  warn := L.warn + (hs.filter fun h => h.fate E = .drop).length

/-- Spec: a species after the particles of its mover list have been taken out. -/
structure Unloaded (s s' : Species K) : Prop where
  q : s'.q = s.q
  nm : s'.nm = 0
  np : s'.np + s.nm = s.np
  max_np : s'.max_np = s.max_np
  max_nm : s'.max_nm = s.max_nm
  live : (live s'.p s'.np).Perm (unnamed s.p s.np (moverList s.pm s.nm))

/-! ### Lemmas -/

/-- Spec: the range of voxel ids of the rank lies inside of that of all ranks. -/
def Env.RangeOk (E : Env K S) : Prop :=
  0 ≤ E.g.rangel ∧ E.g.rangel ≤ E.g.rangeh + 1 ∧ E.g.rangeh ≤ E.g.range E.ws

omit [Field K] [LinearOrder K] [IsStrictOrderedRing K] in
lemma fate_eq (E : Env K S) (hE : E.RangeOk) (h : Hit K) : Boundary.fate E (h.nn E) = h.fate E := by
  unfold Boundary.fate Hit.fate absorbParticles
  obtain ⟨h1, h2, h3⟩ := hE
  generalize h.nn E = x
  have e : -x - 3 = -3 - x := by ring
  rw [e]
  have a : ((0 ≤ x ∧ x < E.g.rangel) ∨ (E.g.rangeh < x ∧ x ≤ E.g.range E.ws)) ↔
    (0 ≤ x ∧ x ≤ E.g.range E.ws ∧ (x < E.g.rangel ∨ E.g.rangeh < x)) := by omega
  have b : (0 ≤ -3 - x ∧ -3 - x < E.nb) ↔ (x ≤ -3 ∧ -3 - E.nb < x) := by omega
  simp only [a, b]

lemma deposits_eq (E : Env K S) (hm : LocalMesh E.g) (l : List (K × Part K)) (hl : ∀ x ∈ l, ∃ c, InCell E.g x.2 c)
    (rhob : ℤ → K) : deposits E l rhob = some fun n => rhob n + depositSum E.g E.r8V l n := by
  induction l generalizing rhob with
  | nil => simp [deposits, depositSum]
  | cons x l ih =>
    obtain ⟨q, p⟩ := x
    obtain ⟨c, hc⟩ := hl (q, p) (by simp)
    rw [deposits, accumulateRhob_eq hm E.r8V q p c hc]
    simp only [Option.bind_some]
    rw [ih (fun y hy => hl y (by simp [hy]))]
    congr 1
    funext n
    simp only [depositSum, List.map_cons, List.sum_cons]
    rw [hc.2, cellAt_voxel hm hc.1]
    ring

lemma depositSum_append (g : LGrid) (r8V : K) (l m : List (K × Part K)) (n : ℤ) :
    depositSum g r8V (l ++ m) n = depositSum g r8V l n + depositSum g r8V m n := by
  simp [depositSum]

lemma AtFace.arrival {E : Env K S} {h : Hit K} {c : Cell} {f : ℤ} (hf : AtFace E.g h.p c f) :
    sendInjector E h.id h.part h.disp h.face (h.nn E) = h.arrival E (E.g.range (E.g.bc (portOf h.face))) := by
  unfold sendInjector Hit.arrival
  have e : h.face = f := hf.decode.2
  congr 1
  show Function.update h.p.d _ _ = _
  rw [e, hf.on]
  unfold dirOf
  split_ifs <;> simp

/-- One particle. -/
lemma process_eq (E : Env K S) (hm : LocalMesh E.g) (hr : E.RangeOk) (hC : Conforming E) (cap capCi : ℕ) (h : Hit K)
    (hid : h.id < E.nsp) (hf : ∃ c f, AtFace E.g h.p c f) (hs : h.fate E = .send → E.shared h.face) (L : Load K S)
    (h1 : (L.send h.face).length < cap) (h2 : L.ci.length < capCi) :
    process E cap capCi h.id h.q h.p h.disp L = some (loaded E L [h]) := by
  obtain ⟨c, f, hf⟩ := hf
  have hv : h.voxel = VOXEL E.g.nx E.g.ny c.x c.y c.z := hf.decode.1
  have hff : h.face = f := hf.decode.2
  have hb := voxel_range hm hf.interior.inMesh
  have h6 := hf.face
  have hg : ¬ (h.voxel < 0 ∨ nvox E.g ≤ h.voxel ∨ 5 < h.face) := by rw [hv, hff]; omega
  have hin : InCell E.g h.part c := ⟨hf.interior, hv⟩
  have hbc : boundCharge E.g E.r8V h.q h.p = boundShare E.g c h.part.d (h.q * E.r8V * h.part.w) := by
    funext n
    show boundShare E.g (cellAt E.g h.voxel) _ _ n = _
    rw [hv, cellAt_voxel hm hf.interior]
    rfl
  show (if h.voxel < 0 ∨ nvox E.g ≤ h.voxel ∨ 5 < h.face then none else
    match Boundary.fate E (h.nn E) with
    | .absorb => (accumulateRhob E.g E.r8V h.q h.part L.rhob).map fun rhob => { L with rhob := rhob }
    | .send =>
      if ¬ E.shared h.face ∨ cap ≤ (L.send h.face).length then none else
        some { L with send := Function.update L.send h.face (L.send h.face ++ [sendInjector E h.id h.part h.disp h.face
          (h.nn E)]) }
    | .custom k =>
      let r := E.interact k L.st h.id h.q h.part h.disp h.face
      if capCi < L.ci.length + r.2.2.length then none else
        (deposits E r.2.1 L.rhob).map fun rhob => { L with rhob := rhob, st := r.1, ci := L.ci ++ r.2.2 }
    | .drop => some { L with warn := L.warn + 1 }) = _
  rw [if_neg hg, fate_eq E hr]
  cases hF : h.fate E with
  | absorb =>
    dsimp only
    rw [accumulateRhob_eq hm E.r8V h.q _ c hin]
    simp only [Option.map_some, loaded, customRun, hF, depositSum]
    simp [List.filter_cons, hF, hbc]
  | send =>
    dsimp only
    rw [if_neg (by push Not; exact ⟨hs hF, h1⟩), hf.arrival]
    simp only [loaded, customRun, hF, depositSum]
    simp only [Option.some.injEq]
    obtain ⟨rhob, st, send, ci, warn⟩ := L
    simp only [Load.mk.injEq]
    refine ⟨by simp [List.filter_cons, hF], trivial, ?_, by simp, by simp [List.filter_cons, hF]⟩
    funext x
    by_cases e : x = h.face
    · subst e; simp [List.filter_cons, hF]
    · rw [Function.update_of_ne e]
      simp [List.filter_cons, Ne.symm e]
  | custom k =>
    dsimp only
    obtain ⟨c1, c2, c3⟩ := hC h k hF hid ⟨c, f, hf⟩ L.st
    rw [if_neg (by omega), deposits_eq E hm _ c2]
    simp only [Option.map_some, loaded, customRun, hF]
    simp [List.filter_cons, hF]
  | drop =>
    simp only [loaded, customRun, hF, depositSum]
    simp [List.filter_cons, hF]

omit [LinearOrder K] [IsStrictOrderedRing K] in
lemma customRun_append (E : Env K S) (l m : List (Hit K)) (st : S) :
    customRun E (l ++ m) st = ((customRun E m (customRun E l st).1).1,
      (customRun E l st).2.1 ++ (customRun E m (customRun E l st).1).2.1,
      (customRun E l st).2.2 ++ (customRun E m (customRun E l st).1).2.2) := by
  induction l generalizing st with
  | nil => simp [customRun]
  | cons h l ih =>
    rw [List.cons_append, customRun, customRun]
    split
    · simp only [ih, List.append_assoc]
    · exact ih _

lemma loaded_append (E : Env K S) (L : Load K S) (l m : List (Hit K)) :
    loaded E (loaded E L l) m = loaded E L (l ++ m) := by
  simp only [loaded, customRun_append, depositSum_append, List.filter_append, List.map_append, List.sum_append,
    List.append_assoc, List.length_append, Load.mk.injEq, true_and, and_true]
  refine ⟨?_, by ring⟩
  funext n
  ring

lemma loaded_nil (E : Env K S) (L : Load K S) : loaded E L [] = L := by
  simp [loaded, customRun, depositSum]

/-- All particles. -/
lemma foldlM_process (E : Env K S) (hm : LocalMesh E.g) (hr : E.RangeOk) (hC : Conforming E) (cap capCi : ℕ)
    (hs : List (Hit K)) (hid : ∀ h ∈ hs, h.id < E.nsp) (hf : ∀ h ∈ hs, ∃ c f, AtFace E.g h.p c f)
    (hsh : ∀ h ∈ hs, h.fate E = .send → E.shared h.face) (L : Load K S)
    (h1 : ∀ f, (L.send f).length + hs.length ≤ cap) (h2 : L.ci.length + hs.length ≤ capCi) :
    hs.foldlM (fun L h => process E cap capCi h.id h.q h.p h.disp L) L = some (loaded E L hs) := by
  induction hs generalizing L with
  | nil => rw [loaded_nil]; rfl
  | cons h hs ih =>
    rw [List.foldlM_cons, process_eq E hm hr hC cap capCi h (hid h (by simp)) (hf h (by simp)) (hsh h (by simp)) L
      (by have := h1 h.face; simp at this; omega) (by simp at h2; omega)]
    show hs.foldlM _ (loaded E L [h]) = _
    rw [ih (fun x hx => hid x (by simp [hx])) (fun x hx => hf x (by simp [hx])) (fun x hx => hsh x (by simp [hx])),
      loaded_append]
    · rfl
    · intro f
      have := h1 f
      simp only [loaded, List.length_append, List.length_map, List.length_cons] at this ⊢
      have : (List.filter (fun h => decide (h.fate E = .send ∧ h.face = f)) [h]).length ≤ 1 := List.length_filter_le _ _
      omega
    · simp only [loaded, List.length_append, List.length_cons] at h2 ⊢
      have : (customRun E [h] L.st).2.2.length ≤ 1 := by
        rw [customRun]
        split
        · next k hk =>
          have := (hC h k hk (hid h (by simp)) (hf h (by simp)) L.st).1
          simpa [customRun] using this
        · simp [customRun]
      omega

omit [IsStrictOrderedRing K] in
/-- The loop over the species. -/
lemma loadAll_eq (E : Env K S) (cap capCi : ℕ) (l : List ℕ) (hl : l.Nodup) (sp : ℕ → Species K)
    (hnp : ∀ id ∈ l, (sp id).np ≤ (sp id).max_np) (hO : ∀ id ∈ l, Ordered (sp id).np (moverList (sp id).pm (sp id).nm)) :
    ∃ sp' : ℕ → Species K, (∀ id ∈ l, Unloaded (sp id) (sp' id)) ∧ (∀ id, id ∉ l → sp' id = sp id) ∧ ∀ L : Load K S,
      loadAll E cap capCi l sp L =
        ((hits sp l).foldlM (fun L h => process E cap capCi h.id h.q h.p h.disp L) L).map fun L => (sp', L) := by
  induction l generalizing sp with
  | nil => exact ⟨sp, by simp, by simp, fun L => by simp [loadAll, hits]⟩
  | cons id l ih =>
    rw [List.nodup_cons] at hl
    have hne : ∀ x ∈ l, x ≠ id := fun x hx e => hl.1 (e ▸ hx)
    obtain ⟨k1, p', k2, k3⟩ := dropMovers_spec (process E cap capCi id (sp id).q) (sp id).max_np (sp id).pm (sp id).nm
      (sp id).p (sp id).np (hnp id (by simp)) (hO id (by simp))
    set s' : Species K := { sp id with p := p', np := (sp id).np - (sp id).nm, nm := 0 } with hs'
    obtain ⟨sp', a1, a2, a3⟩ := ih hl.2 (Function.update sp id s')
      (fun x hx => by rw [Function.update_of_ne (hne x hx)]; exact hnp x (by simp [hx]))
      (fun x hx => by rw [Function.update_of_ne (hne x hx)]; exact hO x (by simp [hx]))
    have hh : hits (Function.update sp id s') l = hits sp l := by
      unfold hits
      rw [List.flatMap_congr]
      intro x hx
      rw [Function.update_of_ne (hne x hx)]
    rw [hh] at a3
    refine ⟨sp', ?_, ?_, ?_⟩
    · intro x hx
      rcases List.mem_cons.mp hx with rfl | hx
      · rw [a2 _ hl.1, Function.update_self]
        exact ⟨rfl, rfl, by show (sp x).np - (sp x).nm + _ = _; omega, rfl, rfl, k2⟩
      · have := a1 x hx
        rwa [Function.update_of_ne (hne x hx)] at this
    · intro x hx
      simp only [List.mem_cons, not_or] at hx
      rw [a2 x hx.2, Function.update_of_ne hx.1]
    · intro L
      rw [loadAll, loadSpecies, k3]
      show _ = Option.map _ (List.foldlM _ L (_ ++ hits sp l))
      rw [List.foldlM_append, List.foldlM_map]
      show _ = Option.map _ (Option.bind (List.foldlM _ L _) _)
      cases hq : List.foldlM (fun s x => process E cap capCi id (sp id).q x.1 x.2 s) L
        (named (sp id).p (moverList (sp id).pm (sp id).nm)) with
      | none =>
        rfl
      | some L1 =>
        exact a3 L1

end

end Verif.Boundary
