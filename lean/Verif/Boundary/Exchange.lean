import Verif.Boundary.World

/-!
# One call of `boundary_p` on all ranks: lemmas
-/
namespace Verif.Boundary

open Grid (LGrid Cell VOXEL portOf)
open MoveP (Part Mover Accum MState moveP nvox LocalMesh voxel_range)
open AdvanceP (moverList)

section
variable {K : Type} {S : Type*} [Field K] [LinearOrder K] [IsStrictOrderedRing K]

omit [Field K] [LinearOrder K] [IsStrictOrderedRing K] in
lemma flatMap_filter_key {α : Type*} (P : α → Prop) [DecidablePred P] (key : α → ℤ) (fs : List ℤ) (hf : fs.Nodup)
    (l : List α) :
    (fs.flatMap fun f => l.filter fun h => P h ∧ key h = f).Perm (l.filter fun h => P h ∧ key h ∈ fs) := by
  induction fs with
  | nil => simp
  | cons f fs ih =>
    rw [List.nodup_cons] at hf
    rw [List.flatMap_cons]
    refine ((ih hf.2).append_left _).trans ?_
    have h := List.filter_append_perm (fun h => decide (key h = f)) (l.filter fun h => P h ∧ key h ∈ f :: fs)
    rw [List.filter_filter, List.filter_filter] at h
    refine List.Perm.trans (List.Perm.of_eq ?_) h
    congr 1
    · apply List.filter_congr
      intro x _
      by_cases hx : key x = f <;> simp [hx]
    · apply List.filter_congr
      intro x _
      by_cases hx : key x = f
      · simp [hx, hf.1]
      · simp [hx]

/-- The first half on one rank. -/
lemma loadRank_eq (E : Env K S) (hm : LocalMesh E.g) (hr : E.RangeOk) (hC : Conforming E) (R : Rank K S)
    (hR : Ready E R) (hsh : ∀ h ∈ waiting E R, h.fate E = .send → E.shared h.face) :
    ∃ sp', (∀ id < E.nsp, Unloaded (R.sp id) (sp' id)) ∧ (∀ id, E.nsp ≤ id → sp' id = R.sp id) ∧
      loadRank E R = if 32 < E.nb ∨ (E.sharedFaces ≠ [] ∧ ¬ fitsMsg (totalMovers E.nsp R.sp)) then none else
        some ({ R with sp := sp'
                       rhob := (loaded E ⟨R.rhob, R.st, fun _ => [], [], R.warn⟩ (waiting E R)).rhob
                       st := (loaded E ⟨R.rhob, R.st, fun _ => [], [], R.warn⟩ (waiting E R)).st
                       maxCi := max R.maxCi (totalMovers E.nsp R.sp)
                       warn := (loaded E ⟨R.rhob, R.st, fun _ => [], [], R.warn⟩ (waiting E R)).warn },
          loaded E ⟨R.rhob, R.st, fun _ => [], [], R.warn⟩ (waiting E R)) := by
  have hmx : (if R.maxCi < totalMovers E.nsp R.sp then totalMovers E.nsp R.sp else R.maxCi) =
      max R.maxCi (totalMovers E.nsp R.sp) := by
    rcases lt_or_ge R.maxCi (totalMovers E.nsp R.sp) with h | h
    · rw [if_pos h, max_eq_right h.le]
    · rw [if_neg (by omega), max_eq_left h]
  obtain ⟨sp', a1, a2, a3⟩ := loadAll_eq E (totalMovers E.nsp R.sp) (max R.maxCi (totalMovers E.nsp R.sp)) (ids E.nsp)
    (ids_nodup _) R.sp (fun id h => (hR id ((mem_ids _ _).mp h)).np) (fun id h => (hR id ((mem_ids _ _).mp h)).ordered)
  refine ⟨sp', fun id h => a1 id ((mem_ids _ _).mpr h), fun id h => a2 id (by rw [mem_ids]; omega), ?_⟩
  unfold loadRank
  dsimp only
  by_cases h1 : 32 < E.nb
  · rw [if_pos h1, if_pos (Or.inl h1)]
  rw [if_neg h1]
  by_cases h2 : E.sharedFaces ≠ [] ∧ ¬ fitsMsg (totalMovers E.nsp R.sp)
  · rw [if_pos h2, if_pos (Or.inr h2)]
  rw [if_neg h2, hmx, if_neg (by tauto), a3]
  have := foldlM_process E hm hr hC (totalMovers E.nsp R.sp) (max R.maxCi (totalMovers E.nsp R.sp)) (waiting E R)
    (fun h hh => (waiting_mem hR hh).1) (fun h hh => (waiting_mem hR hh).2.2) hsh ⟨R.rhob, R.st, fun _ => [], [], R.warn⟩
    (fun f => by simp [waiting_length]) (by simp [waiting_length])
  unfold waiting at this
  rw [this]
  rfl

/-- What rank `r` receives through `f` given what the ranks have loaded. -/
def received {n : ℕ} (W : Fin n → Env K S) (L : Fin n → Load K S) (r : Fin n) (f : ℤ) : List (Injector K) :=
  if _h : (W r).shared f then
    if h' : ((W r).g.bc (portOf f)).toNat < n then (L ⟨_, h'⟩).send (oppFace f) else []
  else []

omit [Field K] [LinearOrder K] [IsStrictOrderedRing K] in
lemma oppFace_face {f : ℤ} (h0 : 0 ≤ f) (h6 : f < 6) : 0 ≤ oppFace f ∧ oppFace f < 6 ∧ oppFace (oppFace f) = f := by
  unfold oppFace
  split_ifs <;> omega

omit [Field K] [LinearOrder K] [IsStrictOrderedRing K] in
lemma mem_faces (f : ℤ) : f ∈ ([0, 1, 2, 3, 4, 5] : List ℤ) ↔ 0 ≤ f ∧ f < 6 := by
  simp only [List.mem_cons, List.not_mem_nil, or_false]
  omega

omit [IsStrictOrderedRing K] in
lemma Joined.partner {n : ℕ} {W : Fin n → Env K S} (hJ : Joined W) {r : Fin n} {f : ℤ} (hs : (W r).shared f) :
    ∃ s : Fin n, (W r).g.bc (portOf f) = (s : ℕ) ∧ s ≠ r := by
  obtain ⟨h1, h2, h3⟩ := hs
  rw [hJ.ws] at h2
  rw [hJ.rank] at h3
  refine ⟨⟨((W r).g.bc (portOf f)).toNat, by omega⟩, by simp [h1], ?_⟩
  intro e
  have := congrArg Fin.val e
  simp only at this
  omega

/-- What a rank receives is what the others have to send it. -/
lemma received_perm {n : ℕ} {W : Fin n → Env K S} (hJ : Joined W) (R : Fin n → Rank K S) (hR : ∀ r, Ready (W r) (R r))
    (L : Fin n → Load K S) (hL : ∀ r f, (L r).send f = ((waiting (W r) (R r)).filter fun h => h.fate (W r) = .send ∧
      h.face = f).map fun h => h.arrival (W r) ((W r).g.range ((W r).g.bc (portOf f)))) (r : Fin n) :
    ((W r).sharedFaces.flatMap fun f => received W L r f).Perm (fromOthers W R r) := by
  classical
  set F : Fin n × ℤ → List (Injector K) := fun x => ((waiting (W x.1) (R x.1)).filter fun h => h.fate (W x.1) = .send ∧
    h.face = x.2).map fun h => h.arrival (W x.1) (W r).g.rangel with hF
  set nb : ℤ → Fin n := fun f => if h : ((W r).g.bc (portOf f)).toNat < n then ⟨_, h⟩ else r with hnb
  have nb_eq : ∀ (f : ℤ) (s : Fin n), (W r).g.bc (portOf f) = (s : ℕ) → nb f = s := by
    intro f s h
    rw [hnb]
    dsimp only
    have e : ((W r).g.bc (portOf f)).toNat = s := by omega
    rw [dif_pos (by omega)]
    exact Fin.ext e
  have memS : ∀ (s : Fin n) f, f ∈ (W s).sharedFaces ↔ (0 ≤ f ∧ f < 6) ∧ (W s).shared f := by
    intro s f
    unfold Env.sharedFaces
    rw [List.mem_filter, mem_faces]
    simp
  have h1 : ((W r).sharedFaces.flatMap fun f => received W L r f) =
      ((W r).sharedFaces.map fun f => (nb f, oppFace f)).flatMap F := by
    rw [List.flatMap_map]
    refine List.flatMap_congr fun f hf => ?_
    obtain ⟨⟨h0, h6⟩, hs⟩ := (memS r f).mp hf
    obtain ⟨s, hb, -⟩ := hJ.partner hs
    have hp := hJ.pairs r f h0 h6 hs s hb
    have e : ((W r).g.bc (portOf f)).toNat < n := by omega
    have e2 : (⟨((W r).g.bc (portOf f)).toNat, e⟩ : Fin n) = s := Fin.ext (by simp [hb])
    unfold received
    rw [dif_pos hs, dif_pos e, e2, hL, hp, hJ.range, hF, nb_eq f s hb]
  have h2 : (fromOthers W R r).Perm (((List.finRange n).flatMap fun s =>
      ((W s).sharedFaces.filter fun f => (W s).g.bc (portOf f) = (r : ℕ)).map fun f => (s, f)).flatMap F) := by
    unfold fromOthers
    rw [List.flatMap_assoc]
    refine List.Perm.flatMap_left _ fun s _ => ?_
    rw [List.flatMap_map]
    have key := flatMap_filter_key (fun h : Hit K => h.fate (W s) = .send) Hit.face
      ((W s).sharedFaces.filter fun f => (W s).g.bc (portOf f) = (r : ℕ))
      ((List.Nodup.filter _ (by decide)).filter _) (waiting (W s) (R s))
    have e : ((waiting (W s) (R s)).filter fun h => goesTo W s r h) = (waiting (W s) (R s)).filter fun h =>
        h.fate (W s) = .send ∧ h.face ∈ (W s).sharedFaces.filter fun f => (W s).g.bc (portOf f) = (r : ℕ) := by
      apply List.filter_congr
      intro h hh
      rw [decide_eq_decide]
      have hw := (waiting_mem (hR s) hh).2.2
      constructor
      · intro hg
        refine ⟨hg.1, ?_⟩
        obtain ⟨f0, f6, k1, r', c', k2, -, -, k3⟩ := hJ.dest s hw hg.1
        rw [List.mem_filter, memS]
        have := (k3 r).mp hg
        subst this
        exact ⟨⟨⟨f0, f6⟩, k1⟩, by simp [k2]⟩
      · rintro ⟨hg, hm⟩
        obtain ⟨f0, f6, k1, r', c', k2, -, -, k3⟩ := hJ.dest s hw hg
        rw [List.mem_filter] at hm
        have := hm.2
        simp only [decide_eq_true_eq] at this
        rw [k2] at this
        have : r = r' := Fin.ext (by omega)
        exact (k3 r).mpr this
    rw [e]
    refine (key.symm.map _).trans (List.Perm.of_eq ?_)
    rw [List.map_flatMap]
  rw [h1]
  refine List.Perm.trans (List.Perm.flatMap_right F ?_) h2.symm
  rw [List.perm_ext_iff_of_nodup]
  · rintro ⟨s, f⟩
    simp only [List.mem_map, List.mem_flatMap, List.mem_finRange, List.mem_filter, true_and, Prod.mk.injEq, memS,
      decide_eq_true_eq]
    constructor
    · rintro ⟨f', ⟨⟨h0, h6⟩, hs⟩, e1, rfl⟩
      obtain ⟨s', hb, hne⟩ := hJ.partner hs
      rw [nb_eq f' s' hb] at e1
      subst e1
      obtain ⟨o1, o2, o3⟩ := oppFace_face h0 h6
      have hp := hJ.pairs r f' h0 h6 hs s' hb
      refine ⟨s', oppFace f', ⟨⟨⟨o1, o2⟩, ?_⟩, hp⟩, rfl, rfl⟩
      unfold Env.shared
      rw [hp, hJ.ws, hJ.rank]
      refine ⟨by omega, by omega, ?_⟩
      intro e
      exact hne (Fin.ext (by omega))
    · rintro ⟨s', f', ⟨⟨⟨h0, h6⟩, hs⟩, hb⟩, rfl, rfl⟩
      obtain ⟨o1, o2, o3⟩ := oppFace_face h0 h6
      have hp := hJ.pairs s' f' h0 h6 hs r hb
      obtain ⟨r', hb', hne⟩ := hJ.partner hs
      refine ⟨oppFace f', ⟨⟨o1, o2⟩, ?_⟩, nb_eq _ _ hp, o3⟩
      unfold Env.shared
      rw [hp, hJ.ws, hJ.rank]
      refine ⟨by omega, by omega, ?_⟩
      intro e
      apply hne
      apply Fin.ext
      omega
  · refine List.Nodup.map_on ?_ (List.Nodup.filter _ (by decide))
    intro x hx y hy e
    simp only [Prod.mk.injEq] at e
    have hx' := ((memS r x).mp hx).1
    have hy' := ((memS r y).mp hy).1
    have ox := (oppFace_face hx'.1 hx'.2).2.2
    have oy := (oppFace_face hy'.1 hy'.2).2.2
    rw [← ox, ← oy, e.2]
  · rw [List.nodup_flatMap]
    refine ⟨fun s _ => List.Nodup.map (fun a b h => by simpa using h)
      ((List.Nodup.filter _ (by decide)).filter _), ?_⟩
    refine (List.nodup_finRange n).imp ?_
    intro a b hab
    rw [Function.onFun, List.disjoint_left]
    intro x hx hy
    simp only [List.mem_map] at hx hy
    obtain ⟨f, -, rfl⟩ := hx
    obtain ⟨f', -, e⟩ := hy
    simp only [Prod.mk.injEq] at e
    exact hab e.1.symm

lemma customRun_enters (E : Env K S) (hC : Conforming E) (l : List (Hit K))
    (hl : ∀ h ∈ l, h.id < E.nsp ∧ ∃ c f, AtFace E.g h.p c f) (st : S) : ∀ pi ∈ (customRun E l st).2.2, Enters E pi := by
  induction l generalizing st with
  | nil => simp [customRun]
  | cons h l ih =>
    intro pi hp
    rw [customRun] at hp
    split at hp
    · next k hk =>
      simp only [List.mem_append] at hp
      rcases hp with hp | hp
      · exact (hC h k hk (hl h (by simp)).1 (hl h (by simp)).2 st).2.2 pi hp
      · exact ih (fun x hx => hl x (by simp [hx])) _ pi hp
    · exact ih (fun x hx => hl x (by simp [hx])) _ pi hp

lemma customRun_length (E : Env K S) (hC : Conforming E) (l : List (Hit K))
    (hl : ∀ h ∈ l, h.id < E.nsp ∧ ∃ c f, AtFace E.g h.p c f) (st : S) : (customRun E l st).2.2.length ≤ l.length := by
  induction l generalizing st with
  | nil => simp [customRun]
  | cons h l ih =>
    rw [customRun, List.length_cons]
    have ih' := ih (fun x hx => hl x (by simp [hx]))
    split
    · next k hk =>
      have := (hC h k hk (hl h (by simp)).1 (hl h (by simp)).2 st).1
      simp only [List.length_append]
      have := ih' (E.interact k st h.id h.q h.part h.disp h.face).1
      omega
    · have := ih' st
      omega

lemma arrivals_enter {n : ℕ} {W : Fin n → Env K S} (hJ : Joined W) (hC : ∀ r, Conforming (W r)) (R : Fin n → Rank K S)
    (hR : ∀ r, Ready (W r) (R r)) (r : Fin n) : ∀ pi ∈ arrivals W R r, Enters (W r) pi := by
  intro pi hp
  unfold arrivals at hp
  rw [List.mem_append] at hp
  rcases hp with hp | hp
  · exact customRun_enters (W r) (hC r) _ (fun h hh => ⟨(waiting_mem (hR r) hh).1, (waiting_mem (hR r) hh).2.2⟩) _ pi hp
  · simp only [fromOthers, List.mem_flatMap, List.mem_map, List.mem_filter, decide_eq_true_eq] at hp
    obtain ⟨s, -, h, ⟨hh, hg⟩, rfl⟩ := hp
    obtain ⟨k0, -, c, f, ha⟩ := waiting_mem (hR s) hh
    obtain ⟨f0, f6, k1, r', c', k2, k3, k4, k5⟩ := hJ.dest s ⟨c, f, ha⟩ hg.1
    obtain rfl := (k5 r).mp hg
    refine ⟨by rw [hJ.nsp r s]; exact k0, ⟨c', k3, ?_⟩, ?_⟩
    · show h.nn (W s) - _ = _
      omega
    · intro k
      show -1 ≤ Function.update h.p.d _ _ k ∧ Function.update h.p.d _ _ k ≤ 1
      have hi := ha.inside
      by_cases e : k = axisOf h.face
      · subst e
        rw [Function.update_self]
        have := hi (axisOf h.face)
        exact ⟨by linarith, by linarith⟩
      · rw [Function.update_of_ne e]
        exact hi k

end

end Verif.Boundary
