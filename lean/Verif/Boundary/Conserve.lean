import Verif.Boundary.Storage
import Verif.Boundary.Partition
import Mathlib.Algebra.BigOperators.Fin
import Mathlib.Algebra.Order.Group.Multiset

/-!
# C12: nothing is lost, nothing is duplicated, and particles stay where they are
-/
namespace Verif.Boundary

open Grid (LGrid Cell VOXEL portOf Decomp gridOf localNv globalPos periodicShift faceDir cellId IsInterior nbr
  neighbor_is_adjacent partitionPeriodic_T)
open MoveP (Part Mover Accum MState moveP nvox LocalMesh voxel_range periodic_localMesh)
open AdvanceP (moverList)

section
variable {K : Type} {S : Type*} [Field K] [LinearOrder K] [IsStrictOrderedRing K]

/-! ### Specification -/

/-- Spec: the weights of the particles of species `id` on a rank, with multiplicity. -/
def weights (R : Rank K S) (id : ℕ) : Multiset K := (live (R.sp id).p (R.sp id).np).map MoveP.Part.w

/-- Spec: the weights of the particles of the species waiting at a face and not to be given to another rank (they are
absorbed, given to a handler or dropped). -/
def lostWeights (E : Env K S) (R : Rank K S) (id : ℕ) : Multiset K :=
  (((waiting E R).filter fun h => h.id = id).filter fun h => ¬ h.fate E = .send).map fun h => h.p.w

/-- Spec: the weights of the particles of the species the handlers of the rank put in. -/
def injectedWeights (E : Env K S) (R : Rank K S) (id : ℕ) : Multiset K :=
  ((customRun E (waiting E R) R.st).2.2.filter fun pi => pi.sp_id = id).map Injector.w

/-- Spec: the position, in half cells, of a particle in cell `c` of rank `r` of the box. -/
def boxPos (D : Decomp) (r : ℕ) (c : Cell) (d : Fin 3 → K) : Fin 3 → K :=
  ![2 * ((globalPos D r c).1 : K) + 1 + d 0, 2 * ((globalPos D r c).2.1 : K) + 1 + d 1,
    2 * ((globalPos D r c).2.2 : K) + 1 + d 2]

/-- Spec: the size of the box, in cells. -/
def boxSize (D : Decomp) : Fin 3 → ℤ := ![D.gnx, D.gny, D.gnz]

/-! ### Lemmas -/

omit [Field K] [LinearOrder K] [IsStrictOrderedRing K] in
lemma hits_filter (sp : ℕ → Species K) (id : ℕ) : ∀ l : List ℕ, l.Nodup →
    ((hits sp l).filter fun h => h.id = id) = if id ∈ l then hits sp [id] else [] := by
  intro l
  induction l with
  | nil => intro _; rfl
  | cons a l ih =>
    intro hl
    have e : hits sp (a :: l) = hits sp [a] ++ hits sp l := by simp [hits]
    rw [e, List.filter_append, ih (List.nodup_cons.mp hl).2]
    have hids : ∀ h ∈ hits sp [a], h.id = a := by
      intro h hh
      simp only [hits, List.flatMap_cons, List.flatMap_nil, List.append_nil, List.mem_map] at hh
      obtain ⟨x, -, rfl⟩ := hh
      rfl
    by_cases ha : a = id
    · subst ha
      rw [if_neg (List.nodup_cons.mp hl).1, if_pos (by simp), List.append_nil]
      exact List.filter_eq_self.mpr fun h hh => by simpa using hids h hh
    · have : (List.filter (fun h => decide (h.id = id)) (hits sp [a])) = [] :=
        List.filter_eq_nil_iff.mpr fun h hh => by simpa [hids h hh] using ha
      rw [this, List.nil_append]
      have : (id ∈ a :: l) ↔ id ∈ l := by simp [Ne.symm ha]
      simp only [this]

omit [LinearOrder K] [IsStrictOrderedRing K] [Field K] in
lemma sum_filter_unique {α : Type*} {n : ℕ} (φ : α → K) (P : Fin n → α → Prop) [∀ r, DecidablePred (P r)]
    (Q : α → Prop) [DecidablePred Q] (l : List α)
    (h : ∀ x ∈ l, if Q x then ∃ r, ∀ r', P r' x ↔ r' = r else ∀ r, ¬ P r x) :
    ∑ r, (((l.filter fun x => P r x).map φ : List K) : Multiset K) = ((l.filter fun x => Q x).map φ : List K) := by
  induction l with
  | nil => simp
  | cons x l ih =>
    have ih := ih fun y hy => h y (by simp [hy])
    have hx := h x (by simp)
    have step : ∀ r, ((((x :: l).filter fun x => P r x).map φ : List K) : Multiset K) =
        (if P r x then {φ x} else 0) + (((l.filter fun x => P r x).map φ : List K) : Multiset K) := by
      intro r
      rw [List.filter_cons]
      by_cases hp : P r x
      · simp [hp]
      · simp [hp]
    simp only [step]
    rw [Finset.sum_add_distrib, ih, List.filter_cons]
    by_cases hq : Q x
    · rw [if_pos hq] at hx
      obtain ⟨r, hr⟩ := hx
      simp [hr, hq]
    · rw [if_neg hq] at hx
      simp [hx, hq]

/-! ### Properties -/

/-- **C12, nothing is lost or duplicated.**  For any domain, states and species: the particles on all ranks after one
exchange, together with those that left at a face without a rank behind it, are the particles there were before,
together with those the handlers put in: the multisets of weights are equal. -/
theorem round_conserves [Archimedean K] {n : ℕ} {W : Fin n → Env K S} (hJ : Joined W) (hC : ∀ r, Conforming (W r))
    (R R' : Fin n → Rank K S) (hR : ∀ r, Ready (W r) (R r)) (h : Round W R R') (id : ℕ) (hid : ∀ r, id < (W r).nsp) :
    ∑ r, weights (R' r) id + ∑ r, lostWeights (W r) (R r) id =
      ∑ r, weights (R r) id + ∑ r, injectedWeights (W r) (R r) id := by
  -- what a rank has afterwards
  have after : ∀ r, weights (R' r) id =
      ((unnamed ((R r).sp id).p ((R r).sp id).np (moverList ((R r).sp id).pm ((R r).sp id).nm)).map
        MoveP.Part.w : List K) + (injectedWeights (W r) (R r) id +
      ((((fromOthers W R r).filter fun pi => pi.sp_id = id).map Injector.w : List K) : Multiset K)) := by
    intro r
    obtain ⟨out, h1, h2, -⟩ := round_particles hJ hC R R' hR h r
    have h3 := (h2 id (hid r)).map MoveP.Part.w
    unfold weights injectedWeights
    rw [Multiset.coe_eq_coe.mpr h3]
    rw [List.map_append, ← Multiset.coe_add]
    congr 1
    rw [Multiset.coe_add, ← List.map_append, ← List.filter_append]
    show _ = ((((arrivals W R r).filter fun pi => pi.sp_id = id).map Injector.w : List K) : Multiset K)
    rw [List.map_map]
    congr 1
    apply List.map_congr_left
    intro pi hpi
    obtain ⟨hE, hmv⟩ := h1 pi (List.mem_filter.mp hpi).1
    obtain ⟨c, hc, hi⟩ := hE.cell
    obtain ⟨C', walls, t, hM⟩ := moved_of_some (W r).g (hJ.mesh r) _ _ _ c hc hi hE.inside (out pi).1 (out pi).2 hmv
    exact hM.weight
  -- what a rank has before
  have before : ∀ r, weights (R r) id =
      (((hits (R r).sp [id]).map fun h => h.p.w : List K) : Multiset K) +
      ((unnamed ((R r).sp id).p ((R r).sp id).np (moverList ((R r).sp id).pm ((R r).sp id).nm)).map
        MoveP.Part.w : List K) := by
    intro r
    have := (perm_named_unnamed ((R r).sp id).p ((R r).sp id).np _ (hR r id (hid r)).ordered).map MoveP.Part.w
    unfold weights
    rw [Multiset.coe_eq_coe.mpr this, List.map_append, ← Multiset.coe_add]
    simp [hits, Function.comp_def]
  -- what is given to other ranks
  have sent : ∑ r, ((((fromOthers W R r).filter fun pi => pi.sp_id = id).map Injector.w : List K) : Multiset K) =
      ∑ s, (((((waiting (W s) (R s)).filter fun h => h.id = id).filter fun h => h.fate (W s) = .send).map
        fun h => h.p.w : List K) : Multiset K) := by
    have e : ∀ r, ((((fromOthers W R r).filter fun pi => pi.sp_id = id).map Injector.w : List K) : Multiset K) =
        ∑ s, (((((waiting (W s) (R s)).filter fun h => h.id = id).filter fun h => goesTo W s r h).map
          fun h => h.p.w : List K) : Multiset K) := by
      intro r
      unfold fromOthers
      rw [List.filter_flatMap, List.map_flatMap]
      have : ∀ (F : Fin n → List K), (((List.finRange n).flatMap F : List K) : Multiset K) = ∑ s, (F s : Multiset K) := by
        intro F
        rw [← Multiset.coe_bind]
        rfl
      rw [this]
      apply Finset.sum_congr rfl
      intro s _
      rw [List.filter_map, List.map_map, List.filter_filter, List.filter_filter]
      congr 1
      rw [List.filter_congr fun x _ => Bool.and_comm _ _]
      rfl
    simp only [e]
    rw [Finset.sum_comm]
    apply Finset.sum_congr rfl
    intro s _
    apply sum_filter_unique (fun h : Hit K => h.p.w) (fun r h => goesTo W s r h) (fun h => h.fate (W s) = .send)
    intro x hx
    have hx := (List.mem_filter.mp hx).1
    obtain ⟨f1, f2⟩ := waiting_fate hJ R hR s x hx
    split_ifs with hs
    · obtain ⟨r, hr⟩ := f1.mp hs
      exact ⟨r, fun r' => ⟨(f2 r hr).2.2 r', fun e => e ▸ hr⟩⟩
    · intro r hr
      exact hs (f1.mpr ⟨r, hr⟩)
  -- what waits is given away or lost
  have split : ∀ s, (((((waiting (W s) (R s)).filter fun h => h.id = id).filter fun h => h.fate (W s) = .send).map
        fun h => h.p.w : List K) : Multiset K) + lostWeights (W s) (R s) id =
      (((hits (R s).sp [id]).map fun h => h.p.w : List K) : Multiset K) := by
    intro s
    have e : ((waiting (W s) (R s)).filter fun h => h.id = id) = hits (R s).sp [id] := by
      unfold waiting
      rw [hits_filter _ _ _ (ids_nodup _), if_pos ((mem_ids _ _).mpr (hid s))]
    unfold lostWeights
    rw [e, Multiset.coe_add, ← List.map_append]
    apply Multiset.coe_eq_coe.mpr
    apply List.Perm.map
    have := List.filter_append_perm (fun h : Hit K => decide (h.fate (W s) = .send)) (hits (R s).sp [id])
    simpa using this
  simp only [after, before, Finset.sum_add_distrib]
  rw [sent]
  have hs : ∑ s, (((hits (R s).sp [id]).map fun h => h.p.w : List K) : Multiset K) =
      ∑ s, (((((waiting (W s) (R s)).filter fun h => h.id = id).filter fun h => h.fate (W s) = .send).map
        fun h => h.p.w : List K) : Multiset K) + ∑ s, lostWeights (W s) (R s) id := by
    rw [← Finset.sum_add_distrib]
    exact Finset.sum_congr rfl fun s _ => (split s).symm
  rw [hs]
  abel

/-- **C12, nothing is lost or duplicated**, for the number of particles. -/
theorem round_counts [Archimedean K] {n : ℕ} {W : Fin n → Env K S} (hJ : Joined W) (hC : ∀ r, Conforming (W r))
    (R R' : Fin n → Rank K S) (hR : ∀ r, Ready (W r) (R r)) (h : Round W R R') (id : ℕ) (hid : ∀ r, id < (W r).nsp) :
    ∑ r, ((R' r).sp id).np + ∑ r, ((waiting (W r) (R r)).filter fun h => h.id = id ∧ ¬ h.fate (W r) = .send).length =
      ∑ r, ((R r).sp id).np +
        ∑ r, ((customRun (W r) (waiting (W r) (R r)) (R r).st).2.2.filter fun pi => pi.sp_id = id).length := by
  have := congrArg Multiset.card (round_conserves hJ hC R R' hR h id hid)
  simp only [Multiset.card_add, Multiset.card_sum, weights, lostWeights, injectedWeights, Multiset.coe_card,
    List.length_map, List.filter_filter] at this
  have hl : ∀ (p : ℤ → MoveP.Part K) (m : ℕ), (live p m).length = m := by
    intro p m
    simp [live, Distribute.upTo]
  simp only [hl] at this
  rw [← this]
  congr 2
  funext r
  congr 2
  funext h
  rw [Bool.and_comm]
  simp

/-- **C12, particles stay where they are.**  In any partition of a periodic box: a particle given to another rank arrives in
the cell of that rank that contains, on its boundary, the point where the particle was stopped: the two positions differ
by whole box lengths. -/
theorem arrival_position (D : Decomp) (ws : ℕ) (hD : D.ok ws = true) (t0 : ℕ → ℤ → ℤ) (W : Fin ws → Env K S)
    (hg : ∀ r : Fin ws, gridOf D ws t0 r = some (W r).g) (s r : Fin ws) (h : Hit K) (c : Cell) (f : ℤ)
    (ha : AtFace (W s).g h.p c f) (hgo : goesTo W s r h) :
    ∃ c' : Cell, IsInterior D c' ∧
      (h.arrival (W s) (W r).g.rangel).i = VOXEL (W r).g.nx (W r).g.ny c'.x c'.y c'.z ∧
      ∃ m : Fin 3 → ℤ, ∀ k, boxPos D r c' (h.arrival (W s) (W r).g.rangel).d k =
        boxPos D s c h.p.d k + 2 * (boxSize D k * m k : ℤ) := by
  have hok := (D.ok_iff ws).mp hD
  have size : ∀ r : Fin ws, (W r).g.nx = D.lx ∧ (W r).g.ny = D.ly ∧ (W r).g.nz = D.lz := by
    intro r
    obtain ⟨g1, e, k1, k2, k3, -⟩ := partitionPeriodic_T hok (fun _ => localNv D) (fun _ => rfl) (t0 r) r r.2
    have : g1 = (W r).g := by
      have := hg r
      rw [gridOf, e] at this
      exact Option.some.inj this
    subst this
    exact ⟨k1, k2, k3⟩
  have ends : ∀ r : Fin ws, (W r).g.rangel = (r : ℕ) * localNv D ∧ (W r).g.rangeh = ((r : ℕ) + 1) * localNv D - 1 ∧
      ∀ c, IsInterior D c → ∀ f : Fin 6, ∃ r' c', r' < ws ∧ IsInterior D c' ∧
        nbr (W r).g c f = cellId D r' c' ∧
        globalPos D r' c' = periodicShift D (globalPos D r c) (faceDir f) := by
    intro r
    obtain ⟨g1, e1, hl, hh, hadj⟩ := neighbor_is_adjacent D ws hD t0 r r.2
    have e := hg r
    rw [e1] at e
    obtain rfl := Option.some.inj e
    exact ⟨hl, hh, hadj⟩
  obtain ⟨sx, sy, sz⟩ := size s
  obtain ⟨rx, ry, rz⟩ := size r
  have hi := ha.interior
  rw [sx, sy, sz] at hi
  have hf := ha.face
  obtain ⟨k, rfl⟩ := face_fin hf.1 hf.2
  obtain ⟨r', c', hr', hc', hn, hp⟩ := (ends s).2.2 c hi k
  have hlx := hok.lx_pos
  have hly := hok.ly_pos
  have hlz := hok.lz_pos
  have hnv : localNv D = (D.lx + 2) * (D.ly + 2) * (D.lz + 2) := rfl
  have hvox : cellId D r' c' = r' * localNv D + VOXEL D.lx D.ly c'.x c'.y c'.z := by
    unfold cellId VOXEL
    rfl
  have hnn : h.nn (W s) = cellId D r' c' := by
    rw [← hn]
    unfold Hit.nn nbr Hit.voxel Hit.face
    rw [ha.decode.1, ha.decode.2]
    rfl
  have hb : 0 ≤ VOXEL D.lx D.ly c'.x c'.y c'.z ∧ VOXEL D.lx D.ly c'.x c'.y c'.z < localNv D := by
    have := voxel_range (periodic_localMesh D ws hD t0 r r.2 _ (hg r)) (c := c') (by
      rw [rx, ry, rz]; exact Cell.Interior.inMesh hc')
    rw [rx, ry] at this
    have e : nvox (W r).g = localNv D := by
      unfold nvox
      rw [rx, ry, rz, hnv]; ring
    rw [e] at this
    exact this
  have hrr : r' = (r : ℕ) := by
    obtain ⟨-, g1, g2⟩ := hgo
    rw [hnn, hvox, (ends r).1] at g1
    rw [hnn, hvox, (ends r).2.1] at g2
    have a1 : ((r : ℕ) : ℤ) < r' + 1 := by nlinarith
    have a2 : (r' : ℤ) < (r : ℕ) + 1 := by nlinarith
    omega
  subst hrr
  refine ⟨c', hc', ?_, ?_⟩
  · show h.nn (W s) - (W r).g.rangel = _
    rw [hnn, hvox, (ends r).1, rx, ry]
    ring
  · obtain ⟨p1, p2, p3⟩ : (globalPos D r c').1 = ((globalPos D s c).1 + (faceDir k).1) % D.gnx ∧
        (globalPos D r c').2.1 = ((globalPos D s c).2.1 + (faceDir k).2.1) % D.gny ∧
        (globalPos D r c').2.2 = ((globalPos D s c).2.2 + (faceDir k).2.2) % D.gnz := by
      rw [hp]; exact ⟨rfl, rfl, rfl⟩
    have md : ∀ a b : ℤ, a % b = a + b * (-(a / b)) := fun a b => by rw [Int.emod_def]; ring
    rw [md] at p1 p2 p3
    have hface : h.face = ((k : ℕ) : ℤ) := ha.decode.2
    have hd : (h.arrival (W s) (W r).g.rangel).d =
        Function.update h.p.d (axisOf h.face) (-(h.p.d (axisOf h.face))) := rfl
    have hon := ha.on
    refine ⟨![-(((globalPos D s c).1 + (faceDir k).1) / D.gnx), -(((globalPos D s c).2.1 + (faceDir k).2.1) / D.gny),
      -(((globalPos D s c).2.2 + (faceDir k).2.2) / D.gnz)], ?_⟩
    rw [hd, hface]
    intro j
    unfold boxPos boxSize
    rw [p1, p2, p3]
    fin_cases k <;> simp [axisOf, dirOf] at hon ⊢ <;> fin_cases j <;> simp [faceDir, hon] <;> ring

end

end Verif.Boundary
