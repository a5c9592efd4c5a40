import Verif.Global.Walk

/-!
# Sums over particles of all ranks
-/
namespace Verif.Global

open Grid MoveP Charge
open Boundary (Env Rank Hit Injector Joined Ready waiting arrivals fromOthers goesTo named unnamed hits)
open AdvanceP (moverList)

section
variable {K : Type} {S : Type*} [Field K] [LinearOrder K] [IsStrictOrderedRing K] {M : Type*} [AddCommMonoid M]

lemma by_species {α : Type*} (f : α → M) (key : α → ℕ) (N : ℕ) (l : List α) (h : ∀ x ∈ l, key x < N) :
    ∑ id ∈ Finset.range N, ((l.filter fun x => key x = id).map f).sum = (l.map f).sum := by
  induction l with
  | nil => simp
  | cons x l ih =>
    have e : ∀ id, (((x :: l).filter fun x => key x = id).map f).sum =
        (if key x = id then f x else 0) + ((l.filter fun x => key x = id).map f).sum := by
      intro id
      rw [List.filter_cons]
      by_cases hp : key x = id <;> simp [hp]
    simp only [e]
    rw [Finset.sum_add_distrib, ih fun y hy => h y (by simp [hy]), Finset.sum_ite_eq,
      if_pos (Finset.mem_range.mpr (h x (by simp)))]
    simp

omit [Field K] [LinearOrder K] [IsStrictOrderedRing K] in
lemma by_hits {E : Env K S} (R : Rank K S) (f : Hit K → M) :
    ((waiting E R).map f).sum = ∑ id ∈ Finset.range E.nsp,
      ((named (R.sp id).p (moverList (R.sp id).pm (R.sp id).nm)).map fun x => f ⟨id, (R.sp id).q, x.1, x.2⟩).sum := by
  unfold waiting hits Boundary.ids
  generalize E.nsp = N
  induction N with
  | zero => simp
  | succ N ih =>
    rw [Finset.sum_range_succ, ← ih, List.range_succ, List.reverse_append]
    simp only [List.reverse_cons, List.reverse_nil, List.nil_append, List.cons_append, List.flatMap_cons, List.map_append,
      List.sum_append, List.map_map]
    rw [add_comm]
    rfl

/-- Each particle given away arrives on exactly one rank. -/
lemma sent {n : ℕ} {W : Fin n → Env K S} (hJ : Joined W) (R : Fin n → Rank K S) (hR : ∀ r, Ready (W r) (R r))
    (f : Fin n → Injector K → M) (g : Fin n → Hit K → M)
    (hfg : ∀ s r, ∀ h ∈ waiting (W s) (R s), goesTo W s r h → f r (h.arrival (W s) (W r).g.rangel) = g s h) :
    ∑ r, ((fromOthers W R r).map (f r)).sum =
      ∑ s, (((waiting (W s) (R s)).filter fun h => h.fate (W s) = .send).map (g s)).sum := by
  have e : ∀ r, ((fromOthers W R r).map (f r)).sum =
      ∑ s, (((waiting (W s) (R s)).filter fun h => goesTo W s r h).map (g s)).sum := by
    intro r
    unfold fromOthers
    rw [List.map_flatMap, ← List.sum_ofFn, List.ofFn_eq_map]
    have fl : ∀ (l : List (Fin n)) (F : Fin n → List M), (l.flatMap F).sum = (l.map fun s => (F s).sum).sum := by
      intro l F
      induction l with
      | nil => rfl
      | cons a l ih => simp only [List.flatMap_cons, List.sum_append, ih, List.map_cons, List.sum_cons]
    rw [fl]
    congr 1
    apply List.map_congr_left
    intro s _
    rw [List.map_map]
    congr 1
    apply List.map_congr_left
    intro h hh
    have := List.mem_filter.mp hh
    exact hfg s r h this.1 (by simpa using this.2)
  simp only [e]
  rw [Finset.sum_comm]
  apply Finset.sum_congr rfl
  intro s _
  have hw := fun x (hx : x ∈ waiting (W s) (R s)) => (Boundary.waiting_mem (hR s) hx).2.2
  generalize waiting (W s) (R s) = l at hw
  induction l with
  | nil => simp
  | cons x l ih =>
    have ih := ih fun y hy => hw y (by simp [hy])
    have step : ∀ r, (((x :: l).filter fun x => goesTo W s r x).map (g s)).sum =
        (if goesTo W s r x then g s x else 0) + ((l.filter fun x => goesTo W s r x).map (g s)).sum := by
      intro r
      rw [List.filter_cons]
      by_cases hp : goesTo W s r x <;> simp [hp]
    simp only [step]
    rw [Finset.sum_add_distrib, ih, List.filter_cons]
    by_cases hq : x.fate (W s) = .send
    · obtain ⟨-, -, -, r, c', -, -, -, hr⟩ := hJ.dest s (hw x (by simp)) hq
      simp [hr, hq]
    · have : ∀ r, ¬ goesTo W s r x := fun r hr => hq hr.1
      simp [this, hq]

lemma split_by (l : List α) (b : α → Bool) (f : α → M) :
    (l.map f).sum = ((l.filter fun x => !b x).map f).sum + ((l.filter fun x => b x).map f).sum := by
  induction l with
  | nil => simp
  | cons x l ih =>
    rw [List.map_cons, List.sum_cons, ih]
    cases h : b x <;> simp [h, add_assoc, add_left_comm]

end

/-- The particles not named after a call: those not named before and the arrivals that finished their moves. -/
lemma unnamed_after {α β : Type*} (u u' : List β) (l : List α) (b : α → Bool) (f g : α → β) (d : List β)
    (h1 : (d ++ u').Perm (u ++ l.map fun x => f x)) (h2 : d.Perm ((l.filter fun x => b x).map g))
    (hfg : ∀ x ∈ l, b x = true → f x = g x) : u'.Perm (u ++ (l.filter fun x => !b x).map f) := by
  have e : (l.map fun x => f x).Perm ((l.filter fun x => b x).map g ++ (l.filter fun x => !b x).map f) := by
    have : ((l.filter fun x => b x).map g) = (l.filter fun x => b x).map f :=
      List.map_congr_left fun x hx => (hfg x (List.mem_filter.mp hx).1 (List.mem_filter.mp hx).2).symm
    rw [this, ← List.map_append]
    exact (List.filter_append_perm b l).symm.map f
  have : (d ++ u').Perm (d ++ (u ++ (l.filter fun x => !b x).map f)) := by
    refine h1.trans ((e.append_left u).trans ?_)
    refine List.Perm.trans ?_ ((h2.symm.append_right _))
    rw [← List.append_assoc, ← List.append_assoc]
    exact List.perm_append_comm.append_right _
  exact (List.perm_append_left_iff d).mp this

end Verif.Global
