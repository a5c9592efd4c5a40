import Verif.Boundary.Props

/-!
# C13: the storage always suffices; conservation of particles
-/
namespace Verif.Boundary

open Grid (LGrid Cell VOXEL portOf)
open MoveP (Part Mover Accum MState moveP nvox LocalMesh voxel_range)
open AdvanceP (moverList)

section
variable {K : Type} {S : Type*} [Field K] [LinearOrder K] [IsStrictOrderedRing K]

/-! ### Lemmas -/

lemma exists_bound {α : Type*} (P : α → ℕ → Prop) (l : List α) (h : ∀ x ∈ l, ∃ N, ∀ m, N ≤ m → P x m) :
    ∃ N, ∀ x ∈ l, ∀ m, N ≤ m → P x m := by
  induction l with
  | nil => exact ⟨0, by simp⟩
  | cons a l ih =>
    obtain ⟨N, hN⟩ := ih fun x hx => h x (by simp [hx])
    obtain ⟨M, hM⟩ := h a (by simp)
    refine ⟨max N M, ?_⟩
    intro x hx m hm
    rcases List.mem_cons.mp hx with rfl | hx
    · exact hM m (le_trans (le_max_right _ _) hm)
    · exact hN x hx m (le_trans (le_max_left _ _) hm)

lemma injectRank_exists (E : Env K S) (R : Rank K S) (ci : List (Injector K)) (recv : ℤ → List (Injector K))
    (h1 : E.nsp ≤ 32) (h2 : ∀ f ∈ E.sharedFaces, fitsMsg (recv f).length)
    (h3 : ∀ id < E.nsp, grow ((R.sp id).np + (ci.length + (E.sharedFaces.map fun f => (recv f).length).sum)) < 2 ^ 31 ∧
      grow ((R.sp id).nm + (ci.length + (E.sharedFaces.map fun f => (recv f).length).sum)) < 2 ^ 31)
    (h4 : ∀ pi ∈ ci.reverse ++ E.sharedFaces.flatMap (fun f => (recv f).reverse), pi.sp_id < E.nsp ∧
        moveP E.g (R.sp pi.sp_id).q E.fuel ⟨pi.part, pi.disp, fun _ _ => 0⟩ ≠ none) :
    ∃ R', injectRank E R ci recv = some R' := by
  unfold injectRank
  dsimp only
  rw [if_neg (by
    rintro (h | ⟨f, hf, hn⟩)
    · omega
    · exact hn (h2 f hf))]
  obtain ⟨sp1, e1⟩ := resizeAll_fits E (ci.length + (E.sharedFaces.map fun f => (recv f).length).sum) (ids E.nsp)
    (ids_nodup _) R.sp (fun id hid => h3 id ((mem_ids _ _).mp hid))
  obtain ⟨k1, -⟩ := resizeAll_keeps E _ _ (ids_nodup _) R.sp sp1 e1
  rw [e1]
  simp only [Option.bind_some]
  have hlen := length_inj ci E.sharedFaces recv
  haveI : Nonempty (Bool × MState K) := ⟨(false, ⟨⟨0, 0, 0, 0⟩, 0, R.a⟩)⟩
  choose! out ho using fun pi hp => Option.ne_none_iff_exists'.mp (h4 pi hp).2
  obtain ⟨sp', a', e, -⟩ := injectAll_eq E (fun id => (R.sp id).q) out _ (fun pi hp => ⟨(h4 pi hp).1, ho pi hp⟩) sp1 R.a
    (fun id hid => (k1 id ((mem_ids _ _).mpr hid)).q) (fun id hid => by
      have := k1 id ((mem_ids _ _).mpr hid)
      rw [hlen]
      exact ⟨this.room, this.roomM⟩)
  rw [e]
  exact ⟨_, rfl⟩

lemma customRun_fuel (E : Env K S) (fuel : ℕ) (l : List (Hit K)) (st : S) :
    customRun { E with fuel := fuel } l st = customRun E l st := by
  induction l generalizing st with
  | nil => rfl
  | cons h l ih =>
    have e : h.fate { E with fuel := fuel } = h.fate E := rfl
    rw [customRun, customRun, e]
    split
    · simp only [ih]
    · exact ih st

lemma fitsMsg_mono {a b : ℕ} (h : a ≤ b) (hb : fitsMsg b) : fitsMsg a := by
  unfold fitsMsg injectorSize at *
  omega

lemma not_goesTo_self {n : ℕ} (W : Fin n → Env K S) (r : Fin n) (h : Hit K) : ¬ goesTo W r r h := by
  rintro ⟨h1, h2, h3⟩
  have := fate_send h1
  omega

lemma length_flatMap_finRange {α : Type*} {n : ℕ} (F : Fin n → List α) :
    ((List.finRange n).flatMap F).length = ∑ s, (F s).length := by
  rw [List.length_flatMap, ← List.ofFn_eq_map, List.sum_ofFn]

lemma arrivals_length {n : ℕ} {W : Fin n → Env K S} (hC : ∀ r, Conforming (W r)) (R : Fin n → Rank K S)
    (hR : ∀ r, Ready (W r) (R r)) (r : Fin n) :
    (arrivals W R r).length ≤ ∑ s, totalMovers (W s).nsp (R s).sp := by
  unfold arrivals fromOthers
  rw [List.length_append, length_flatMap_finRange]
  have h1 := customRun_length (W r) (hC r) (waiting (W r) (R r))
    (fun h hh => ⟨(waiting_mem (hR r) hh).1, (waiting_mem (hR r) hh).2.2⟩) (R r).st
  rw [waiting_length] at h1
  have h2 : ∑ s, ((if s = r then totalMovers (W r).nsp (R r).sp else 0) +
      (((waiting (W s) (R s)).filter fun h => goesTo W s r h).map fun h => h.arrival (W s) (W r).g.rangel).length) ≤
      ∑ s, totalMovers (W s).nsp (R s).sp := by
    refine Finset.sum_le_sum fun s _ => ?_
    rw [List.length_map]
    by_cases e : s = r
    · subst e
      rw [if_pos rfl, List.filter_eq_nil_iff.mpr (fun h _ => by simpa using not_goesTo_self W s h)]
      simp
    · rw [if_neg e, zero_add, ← waiting_length]
      exact List.length_filter_le _ _
  rw [Finset.sum_add_distrib, Finset.sum_ite_eq' Finset.univ r] at h2
  simp only [Finset.mem_univ, if_true] at h2
  omega

/-! ### Properties -/

/-- A call of `boundary_p` completes if the passes allowed to `move_p` suffice for the particles to be put in. -/
lemma round_completes [Archimedean K] {n : ℕ} {W : Fin n → Env K S} (hJ : Joined W) (hC : ∀ r, Conforming (W r))
    (R : Fin n → Rank K S) (hR : ∀ r, Ready (W r) (R r)) (hnb : ∀ r, (W r).nb ≤ 32) (hsp : ∀ r, (W r).nsp ≤ 32)
    (hmsg : ∀ r, fitsMsg (totalMovers (W r).nsp (R r).sp))
    (hsize : ∀ r, ∀ id < (W r).nsp, grow (((R r).sp id).np + ∑ s, totalMovers (W s).nsp (R s).sp) < 2 ^ 31)
    (hN : ∀ r, ∀ pi ∈ arrivals W R r, ∀ q, moveP (W r).g q (W r).fuel ⟨pi.part, pi.disp, fun _ _ => 0⟩ ≠ none) :
    ∃ R', Round W R R' := by
  have hload : ∀ s, ∃ (M : Rank K S) (L : Load K S), loadRank (W s) (R s) = some (M, L) ∧
      (∀ id < (W s).nsp, Unloaded ((R s).sp id) (M.sp id)) ∧
      L = loaded (W s) ⟨(R s).rhob, (R s).st, fun _ => [], [], (R s).warn⟩ (waiting (W s) (R s)) := by
    intro s
    obtain ⟨sp', a1, a2, a3⟩ := loadRank_eq (W s) (hJ.mesh s) (hJ.rangeOk s) (hC s) (R s) (hR s) (fun x hx hf =>
      (hJ.dest s (waiting_mem (hR s) hx).2.2 hf).2.2.1)
    rw [if_neg (by
      rintro (h | ⟨-, h⟩)
      · have := hnb s
        omega
      · exact h (hmsg s))] at a3
    exact ⟨_, _, a3, a1, rfl⟩
  choose M L k1 k2 k3 using hload
  have hsend : ∀ s f, (L s).send f = ((waiting (W s) (R s)).filter fun h => h.fate (W s) = .send ∧ h.face = f).map
      fun h => h.arrival (W s) ((W s).g.range ((W s).g.bc (portOf f))) := by
    intro s f
    rw [k3 s]
    rfl
  have hinj : ∀ r, ∃ R', injectRank (W r) (M r) (L r).ci (received W L r) = some R' := by
    intro r
    have hperm : ((L r).ci.reverse ++ (W r).sharedFaces.flatMap fun f => (received W L r f).reverse).Perm
        (arrivals W R r) := by
      have hci : (L r).ci = (customRun (W r) (waiting (W r) (R r)) (R r).st).2.2 := by
        rw [k3 r]
        rfl
      rw [hci]
      unfold arrivals
      refine (List.reverse_perm _).append ?_
      refine List.Perm.trans ?_ (received_perm hJ R hR L hsend r)
      exact List.Perm.flatMap_left _ fun f _ => List.reverse_perm _
    have hlen := hperm.length_eq
    rw [length_inj] at hlen
    have hle := arrivals_length hC R hR r
    refine injectRank_exists (W r) (M r) (L r).ci (received W L r) (hsp r) ?_ ?_ ?_
    · intro f hf
      unfold Env.sharedFaces at hf
      rw [List.mem_filter, mem_faces] at hf
      obtain ⟨-, hs⟩ := hf
      simp only [decide_eq_true_eq] at hs
      obtain ⟨s, hb, -⟩ := hJ.partner hs
      have e : ((W r).g.bc (portOf f)).toNat < n := by omega
      unfold received
      rw [dif_pos hs, dif_pos e, hsend, List.length_map]
      refine fitsMsg_mono ?_ (hmsg ⟨((W r).g.bc (portOf f)).toNat, e⟩)
      refine le_trans (List.length_filter_le _ _) ?_
      rw [waiting_length]
    · intro id hid
      have hu := k2 r id hid
      have hs := hsize r id hid
      have := hu.np
      have := hu.nm
      rw [hlen]
      unfold grow at *
      omega
    · intro pi hp
      have hp' := hperm.mem_iff.mp hp
      have he := arrivals_enter hJ hC R hR r pi hp'
      exact ⟨he.species, hN r pi hp' _⟩
  choose R' hR'' using hinj
  exact ⟨R', M, L, k1, hR''⟩

/-- **C13.**  For every state of the ranks in which the sizes fit the `int`s that hold them (message sizes, grown arrays;
at most 32 species and 32 handlers): a call of `boundary_p` completes on all ranks, given enough passes of `move_p`.  In
particular no send buffer, local injection buffer, particle or mover array is too small. -/
theorem round_exists [Archimedean K] {n : ℕ} {W : Fin n → Env K S} (hJ : Joined W) (hC : ∀ r, Conforming (W r))
    (R : Fin n → Rank K S) (hR : ∀ r, Ready (W r) (R r)) (hnb : ∀ r, (W r).nb ≤ 32) (hsp : ∀ r, (W r).nsp ≤ 32)
    (hmsg : ∀ r, fitsMsg (totalMovers (W r).nsp (R r).sp))
    (hsize : ∀ r, ∀ id < (W r).nsp, grow (((R r).sp id).np + ∑ s, totalMovers (W s).nsp (R s).sp) < 2 ^ 31) :
    ∃ N, ∀ fuel, N ≤ fuel → ∃ R', Round (fun r => { W r with fuel := fuel }) R R' := by
  obtain ⟨N, hN⟩ := exists_bound (fun (r : Fin n) m => ∀ pi ∈ arrivals W R r, ∀ q,
      moveP (W r).g q m ⟨pi.part, pi.disp, fun _ _ => 0⟩ ≠ none) (List.finRange n) (fun r _ => by
    obtain ⟨N, hN⟩ := exists_bound (fun (pi : Injector K) m => ∀ q,
      moveP (W r).g q m ⟨pi.part, pi.disp, fun _ _ => 0⟩ ≠ none) (arrivals W R r) (fun pi hp => by
        have he := arrivals_enter hJ hC R hR r pi hp
        obtain ⟨c, hc, hi⟩ := he.cell
        obtain ⟨N, hN⟩ := moveP_exists (W r).g (hJ.mesh r) ⟨pi.part, pi.disp, fun _ _ => 0⟩ c hc hi he.inside
        exact ⟨N, fun m hm q => hN q m hm⟩)
    exact ⟨N, fun m hm pi hp q => hN pi hp m hm q⟩)
  refine ⟨N, fun fuel hfuel => ?_⟩
  set W' : Fin n → Env K S := fun r => { W r with fuel := fuel } with hW'
  have hJ' : Joined W' :=
    ⟨hJ.ws, hJ.rank, hJ.nsp, hJ.mesh, hJ.range, hJ.total, hJ.order, hJ.pairs, hJ.land⟩
  have hC' : ∀ r, Conforming (W' r) := by
    intro r h k h1 h2 h3 st
    obtain ⟨a1, a2, a3⟩ := hC r h k h1 h2 h3 st
    exact ⟨a1, a2, fun pi hp => ⟨(a3 pi hp).species, (a3 pi hp).cell, (a3 pi hp).inside⟩⟩
  have hR' : ∀ r, Ready (W' r) (R r) := hR
  exact round_completes hJ' hC' R hR' hnb hsp hmsg hsize fun r pi hp q => by
    have ea : arrivals W' R r = arrivals W R r := by
      unfold arrivals
      rw [hW', customRun_fuel]
      rfl
    rw [ea] at hp
    exact hN r (by simp) fuel hfuel pi hp q

/-- **C12, exactly one fate.**  Every particle waiting on a rank either is at an absorbing face, or at the face of exactly
one handler, or is dropped, or has exactly one destination, which is another rank: the one its face is joined to. -/
theorem waiting_fate {n : ℕ} {W : Fin n → Env K S} (hJ : Joined W) (R : Fin n → Rank K S) (hR : ∀ r, Ready (W r) (R r))
    (s : Fin n) (h : Hit K) (hh : h ∈ waiting (W s) (R s)) :
    (h.fate (W s) = .send ↔ ∃ r, goesTo W s r h) ∧
    ∀ r, goesTo W s r h → r ≠ s ∧ (W s).g.bc (portOf h.face) = (r : ℕ) ∧ ∀ r', goesTo W s r' h → r' = r := by
  have hw := (waiting_mem (hR s) hh).2.2
  refine ⟨⟨fun hf => ?_, fun ⟨r, hr⟩ => hr.1⟩, ?_⟩
  · obtain ⟨-, -, -, r, -, -, -, -, k⟩ := hJ.dest s hw hf
    exact ⟨r, (k r).mpr rfl⟩
  · intro r hr
    obtain ⟨-, -, -, r0, -, k2, -, -, k⟩ := hJ.dest s hw hr.1
    obtain rfl := (k r).mp hr
    exact ⟨fun e => not_goesTo_self W s h (e ▸ hr), k2, fun r' hr' => (k r').mp hr'⟩

end

end Verif.Boundary
