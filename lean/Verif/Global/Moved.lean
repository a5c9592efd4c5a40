import Verif.Global.Push
import Verif.Threads.Props

/-!
# The part of a step that moves the particles, seen in the box
-/
namespace Verif.Global

open Grid MoveP Charge Torus
open Boundary (Env Rank Hit Injector Species Joined Conforming Round waiting named unnamed live ids finishSpecies)
open AdvanceP (moverList)
open Field (Pos FMem)
open Distribute (upTo Rounding)
open Threads (Drive Machine Moved Sane Fit SortSpecies SortAll entering finishRank finishAll courant sorted_settled quiet_pushes)

section
variable {K : Type} {S : Type*} [Field K] [LinearOrder K] [IsStrictOrderedRing K]

lemma sort_live {Rd : Rounding} (hR : Rd.Accurate) {P : ℕ} (hP : 0 < P) {g : LGrid} (h : LocalMesh g) {s s' : Species K}
    (hs : Settled g s) (h1 : SortSpecies Rd P g s s') : (live s'.p s'.np).Perm (live s.p s.np) ∧ s'.q = s.q := by
  have l1 := Threads.sort_threads h1
  obtain ⟨Q, aux, part, part', p', e, rfl⟩ := h1
  obtain ⟨q, _, e', st, -⟩ := SortP.sort_stable Rd hR MoveP.Part.i Q aux P hP l1 g.nx g.ny g.nz h.nx h.ny h.nz s.np hs.np31 s.p
    part (Threads.settled_inDomain h hs)
  rw [e', Option.some.injEq, Prod.mk.injEq] at e
  obtain ⟨rfl, -⟩ := e
  refine ⟨?_, rfl⟩
  have e : ∀ p : ℤ → MoveP.Part K, live p s.np = SortP.contents p s.np := by
    intro p
    unfold Boundary.live SortP.contents seg upTo
    simp
  rw [e, e]
  exact st.perm

/-- Nothing is left over. -/
lemma finishAll_idle (g : LGrid) (r8V : K) (l : List ℕ) : ∀ (sp : ℕ → Species K) (ρ : ℤ → K), (∀ id ∈ l, (sp id).nm = 0) →
    finishAll g r8V l sp ρ = some (sp, ρ) := by
  induction l with
  | nil => intro sp ρ _; rfl
  | cons id l ih =>
    intro sp ρ h
    have e : finishSpecies g r8V (sp id) ρ = some (sp id, ρ) := by
      unfold Boundary.finishSpecies
      have := h id (by simp)
      rw [this, Boundary.dropMovers]
      simp only [Option.map_some, Option.some.injEq, Prod.mk.injEq, and_true]
      cases hs : sp id
      rw [hs] at this
      simp only at this
      rw [this]
    simp only [finishAll, e, Option.bind_some, Function.update_eq_self]
    exact ih sp ρ fun j hj => h j (by simp [hj])

lemma finishRank_idle (E : Env K S) (R R' : Rank K S) (h : ∀ id < E.nsp, (R.sp id).nm = 0) (hf : finishRank E R = some R') : R' = R := by
  unfold Threads.finishRank at hf
  rw [finishAll_idle _ _ _ _ _ fun id hid => h id ((Boundary.mem_ids _ _).mp hid)] at hf
  simpa using hf.symm

/-- The charge held by walls does not change in a closed box. -/
lemma rounds_rhob [Archimedean K] {n : ℕ} {W : Fin n → Env K S} (hJ : Joined W) (hC : ∀ r, Conforming (W r)) (hcl : Closed W) (N : ℕ)
    (R R' : Fin n → Rank K S) (h : Charge.Rounds W N R R') : (∀ r, Sound (W r) (R r)) → ∀ r, (R' r).rhob = (R r).rhob := by
  induction h with
  | zero => exact fun _ _ => rfl
  | succ k R R1 R' h1 _ ih =>
    intro hS r
    rw [ih (fun r => (round_sound hJ hC R R1 hS h1 r).1) r]
    obtain ⟨out, -, -, -, -, -, -, h8, -, -, -⟩ := Boundary.round_particles hJ hC R R1 (fun r => (hS r).ready) h1 r
    funext v
    rw [h8 v, customRun_send (W r) _ (fun x hx => closed_send hJ hcl hS r hx)]
    have : ((waiting (W r) (R r)).filter fun h => h.fate (W r) = .absorb) = [] := by
      rw [List.filter_eq_nil_iff]
      intro x hx
      rw [closed_send hJ hcl hS r hx]
      simp
    rw [this]
    simp [Boundary.depositSum]

/-- What is in a rank when no particle is on its way. -/
lemma content_idle {D : Decomp} {n : ℕ} (E : Env K S) (r : Fin n) (R : Rank K S) (h : ∀ id < E.nsp, (R.sp id).nm = 0) :
    content D E r R = ∑ id ∈ Finset.range E.nsp, ((live (R.sp id).p (R.sp id).np).map fun p => mark id (lift D r E.g p, 0)).sum +
      (0, spread D r E.g R.a) := by
  rw [content_parts]
  congr 1
  refine Finset.sum_congr rfl fun id hid => ?_
  unfold part
  rw [h id (Finset.mem_range.mp hid)]
  simp [moverList, unnamed, named, live]

/-- Many marks. -/
lemma marks_fst (l : List (GPart K × GAccum K)) (i id : ℕ) : ((l.map (mark i)).sum).1 id =
    if id = i then ((l.map Prod.fst : List (GPart K)) : Multiset (GPart K)) else 0 := by
  induction l with
  | nil => simp
  | cons x l ih =>
    rw [List.map_cons, List.sum_cons, Prod.fst_add, Pi.add_apply, ih]
    unfold mark
    by_cases h : id = i
    · subst h; simp
    · simp [h]

lemma marks_snd (l : List (GPart K × GAccum K)) (i : ℕ) : ((l.map (mark i)).sum).2 = (l.map Prod.snd).sum := by
  induction l with
  | nil => rfl
  | cons x l ih =>
    rw [List.map_cons, List.sum_cons, Prod.snd_add, ih, List.map_cons, List.sum_cons]
    rfl

variable {n : ℕ} {Z : Setup K S n} {V : Drive K}

/-- The part of `advance` that moves the particles: each particle of the box is pushed, and its currents are added up. -/
lemma moved_box [Archimedean K] (hB : PeriodicBox Z.D Z.t0 Z.F Z.B) (hZ : Sane Z V) (hN : 3 ≤ Z.N) (hnsp : ∀ r, (Z.B r).nsp = Z.nsp)
    {μ : Machine K S n} (hμ : Fit Z μ) {fi : Pos → Boris.Interp K}
    (hfi : ∀ r c, IsInterior Z.D c → μ.fi r (VOXEL (Z.B r).g.nx (Z.B r).g.ny c.x c.y c.z) = fi (siteAt Z.D r ![c.x, c.y, c.z]))
    {q : ℕ → K} (hq : ∀ r, ∀ id < Z.nsp, ((μ.R r).sp id).q = q id) {step : ℤ} {R' : Fin n → Rank K S} {st' : Fin n → ℤ → K}
    (h : Moved Z V step μ R' st') :
    (∀ id < Z.nsp, ∀ p ∈ gather Z.D Z.B μ.R id, push (Torus.sizeOf Z.D) fi ⟨V.rt, V.qdt_2mc id, V.cdt_d, q id⟩ 4 p =
      some (adv (Torus.sizeOf Z.D) fi ⟨V.rt, V.qdt_2mc id, V.cdt_d, q id⟩ p)) ∧
    (∀ id < Z.nsp, gather Z.D Z.B R' id = (gather Z.D Z.B μ.R id).map fun p =>
      (adv (Torus.sizeOf Z.D) fi ⟨V.rt, V.qdt_2mc id, V.cdt_d, q id⟩ p).1) ∧
    (∑ r, spread Z.D r (Z.B r).g (R' r).a = ∑ id ∈ Finset.range Z.nsp, ((gather Z.D Z.B μ.R id).map fun p =>
      (adv (Torus.sizeOf Z.D) fi ⟨V.rt, V.qdt_2mc id, V.cdt_d, q id⟩ p).2).sum) ∧
    (∀ r, ∀ id < Z.nsp, ((R' r).sp id).q = q id ∧ ((R' r).sp id).nm = 0) ∧
    ∀ r v, (R' r).rhob v = μ.m r (v, .rhob) := by
  obtain ⟨sp1, sp2, st1, R2, h1, h2, h3, h4, h5⟩ := h.run
  have hJ := hZ.joined
  have hC := hZ.handlers
  have hcl := box_closed hB
  have hg : ∀ r : Fin n, gridOf Z.D n Z.t0 r = some (Z.B r).g := fun r => by rw [hZ.grid]; exact hB.grid r
  have hs := fun r => sorted_settled hZ hμ (h1 r)
  have hpu : ∀ r, ∀ id < (Z.B r).nsp, Pushable (Z.B r).g (Z.B r).fuel (V.par (μ.fi r)) id (sp1 r id) := fun r id hid =>
    settled_pushable (hJ.mesh r) (hZ.fuel r) (courant hZ _) id (hs r id hid).1
  have hsort : ∀ r, ∀ id < (Z.B r).nsp, (live (sp1 r id).p (sp1 r id).np).Perm (live ((μ.R r).sp id).p ((μ.R r).sp id).np) ∧
      (sp1 r id).q = ((μ.R r).sp id).q := by
    intro r id hid
    by_cases hd : id < (Z.B r).nsp ∧ due (V.sort_interval id) step
    · exact sort_live hZ.rounding hZ.threads.1 (hJ.mesh r) (hμ.particles r id hid) ((h1 r id).1 hd)
    · rw [(h1 r id).2 hd]
      exact ⟨List.Perm.refl _, rfl⟩
  have hq1 : ∀ r, ∀ id < (Z.B r).nsp, (sp1 r id).q = q id := fun r id hid => by
    rw [(hsort r id hid).2, hq r id (hnsp r ▸ hid)]
  have phase := fun r => phase_content hB.ok Z.t0 hg hJ.mesh r (courant hZ (μ.fi r)) (hfi r) hZ.rounding hZ.threads.1 hZ.threads.2
    hZ.nf (hZ.acc r) (hZ.acc' r) (hμ.tidy r) (hpu r) (h2 r) (μ.R r) (fun v => μ.m r (v, .rhob))
  have k := fun r => push_phase_result (S := S) hZ.rounding (hJ.mesh r) (courant hZ (μ.fi r)) hZ.threads.1 hZ.threads.2
    (R := { μ.R r with sp := sp1 r }) (hostAcc (Z.B r).g Z.nf (st1 r)) (hZ.fuel r) (fun id hid => (hs r id hid).1) (by
      obtain ⟨a1, a2, c1, c2, c3⟩ := h2 r
      exact ⟨a1, a2, c1, quiet_pushes c2, c3⟩)
  have kS : ∀ r, Sound (Z.B r) (entering (μ.R r) (sp2 r) (hostAcc (Z.B r).g Z.nf (st1 r)) (μ.m r)) := fun r id hid => (k r).1 id hid
  have kF : ∀ r, WaitingFaces (Z.B r) 3 (entering (μ.R r) (sp2 r) (hostAcc (Z.B r).g Z.nf (st1 r)) (μ.m r)) := fun r => (k r).2.1
  have w := rounds_faces hJ hC (closed_nothing hJ hcl) Z.N _ R2 h3 3 kS kF
  have hnm : ∀ r, ∀ id < (Z.B r).nsp, ((R2 r).sp id).nm = 0 := fun r => by
    have e := w r
    rw [Nat.sub_eq_zero_of_le hN] at e
    exact none_waiting e
  have eR : ∀ r, R' r = R2 r := fun r => finishRank_idle (Z.B r) (R2 r) (R' r) (hnm r) (h4 r)
  have hqs : ∀ r, ∀ id < (Z.B r).nsp, ((R2 r).sp id).q = q id := by
    have : ∀ (k : ℕ) (Q Q' : Fin n → Rank K S), Charge.Rounds Z.B k Q Q' → (∀ r, Sound (Z.B r) (Q r)) →
        ∀ r, ∀ id < (Z.B r).nsp, ((Q' r).sp id).q = ((Q r).sp id).q := by
      intro k Q Q' hk
      induction hk with
      | zero => exact fun _ _ _ _ => rfl
      | succ k Q Q1 Q' hr _ ih =>
        intro hQ r id hid
        have := round_sound hJ hC Q Q1 hQ hr
        rw [ih (fun r => (this r).1) r id hid, (this r).2.2 id hid]
    intro r id hid
    rw [this _ _ _ h3 kS r id hid]
    show (sp2 r id).q = q id
    rw [(phase r).2.1, hq1 r id hid]
  have key := rounds_content hB.ok Z.t0 hg hJ hC hcl Z.N _ R2 h3 3 kS (by
    intro r s id hid
    show (sp2 r id).q = (sp2 s id).q
    rw [(phase r).2.1, (phase s).2.1, hq1 r id hid, hq1 s id (hJ.nsp r s ▸ hid)]) kF
  have c1 : ∀ r, content Z.D (Z.B r) r (R2 r) = ∑ id ∈ Finset.range Z.nsp, ((live ((R' r).sp id).p ((R' r).sp id).np).map fun p =>
      mark id (lift Z.D r (Z.B r).g p, 0)).sum + (0, spread Z.D r (Z.B r).g (R' r).a) := fun r => by
    rw [content_idle _ _ _ (hnm r), hnsp, eR]
  have c2 : ∀ r, content Z.D (Z.B r) r (entering (μ.R r) (sp2 r) (hostAcc (Z.B r).g Z.nf (st1 r)) (μ.m r)) =
      ∑ id ∈ Finset.range Z.nsp, ((live ((μ.R r).sp id).p ((μ.R r).sp id).np).map fun p =>
        mark id (adv (Torus.sizeOf Z.D) fi ⟨V.rt, V.qdt_2mc id, V.cdt_d, q id⟩ (lift Z.D r (Z.B r).g p))).sum := fun r => by
    refine ((phase r).2.2).trans ?_
    rw [hnsp]
    refine Finset.sum_congr rfl fun id hid => ?_
    have hid : id < (Z.B r).nsp := by rw [hnsp]; exact Finset.mem_range.mp hid
    rw [((hsort r id hid).1.map _).sum_eq, hq1 r id hid]
    rfl
  simp only [c1, c2] at key
  refine ⟨?_, ?_, ?_, ?_, ?_⟩
  · intro id hid p hp
    unfold gather at hp
    rw [Multiset.mem_sum] at hp
    obtain ⟨r, -, hp⟩ := hp
    obtain ⟨y, hy, rfl⟩ := Multiset.mem_map.mp hp
    have hid' : id < (Z.B r).nsp := hnsp r ▸ hid
    have := (phase r).1 id hid' y ((hsort r id hid').1.mem_iff.mpr (by simpa using hy))
    rw [hq1 r id hid'] at this
    exact this
  · intro id hid
    have e := congrFun (congrArg Prod.fst key) id
    rw [Prod.fst_sum, Prod.fst_sum, Finset.sum_apply, Finset.sum_apply] at e
    unfold gather
    rw [← Multiset.mapAddMonoidHom_apply, map_sum]
    have a1 : ∀ (f : Fin n → ℕ → MoveP.Part K → GPart K × GAccum K) (Q : Fin n → Rank K S) (r : Fin n),
        (∑ i ∈ Finset.range Z.nsp, ((live ((Q r).sp i).p ((Q r).sp i).np).map fun p => mark i (f r i p)).sum).1 id =
        (((live ((Q r).sp id).p ((Q r).sp id).np).map fun p => (f r id p).1 : List (GPart K)) : Multiset (GPart K)) := by
      intro f Q r
      rw [Prod.fst_sum, Finset.sum_apply]
      have : ∀ i, (((live ((Q r).sp i).p ((Q r).sp i).np).map fun p => mark i (f r i p)).sum).1 id =
          if id = i then (((live ((Q r).sp i).p ((Q r).sp i).np).map fun p => (f r i p).1 : List (GPart K)) : Multiset (GPart K)) else 0 := by
        intro i
        have := marks_fst ((live ((Q r).sp i).p ((Q r).sp i).np).map (f r i)) i id
        rw [List.map_map, List.map_map] at this
        exact this
      rw [Finset.sum_congr rfl fun i _ => this i, Finset.sum_ite_eq, if_pos (Finset.mem_range.mpr hid)]
    have e1 := fun r => a1 (fun r _ p => (lift Z.D r (Z.B r).g p, 0)) R' r
    have e2 := fun r => a1 (fun r i p => adv (Torus.sizeOf Z.D) fi ⟨V.rt, V.qdt_2mc i, V.cdt_d, q i⟩ (lift Z.D r (Z.B r).g p)) μ.R r
    simp only [Prod.fst_add, Pi.add_apply, Pi.zero_apply, add_zero, e1, e2] at e
    simpa [Function.comp_def] using e
  · have e := congrArg Prod.snd key
    rw [Prod.snd_sum, Prod.snd_sum] at e
    have a1 : ∀ (f : Fin n → ℕ → MoveP.Part K → GPart K × GAccum K) (Q : Fin n → Rank K S) (r : Fin n),
        (∑ i ∈ Finset.range Z.nsp, ((live ((Q r).sp i).p ((Q r).sp i).np).map fun p => mark i (f r i p)).sum).2 =
        ∑ i ∈ Finset.range Z.nsp, ((live ((Q r).sp i).p ((Q r).sp i).np).map fun p => (f r i p).2).sum := by
      intro f Q r
      rw [Prod.snd_sum]
      refine Finset.sum_congr rfl fun i _ => ?_
      have := marks_snd ((live ((Q r).sp i).p ((Q r).sp i).np).map (f r i)) i
      rw [List.map_map, List.map_map] at this
      exact this
    have e1 := fun r => a1 (fun r _ p => (lift Z.D r (Z.B r).g p, 0)) R' r
    have e2 := fun r => a1 (fun r i p => adv (Torus.sizeOf Z.D) fi ⟨V.rt, V.qdt_2mc i, V.cdt_d, q i⟩ (lift Z.D r (Z.B r).g p)) μ.R r
    simp only [Prod.snd_add, e1, e2] at e
    have z : ∀ l : List (MoveP.Part K), (l.map fun _ => (0 : GAccum K)).sum = 0 := fun l => by
      induction l with
      | nil => rfl
      | cons _ l ih => rw [List.map_cons, List.sum_cons, ih, add_zero]
    simp only [z, Finset.sum_const_zero, zero_add] at e
    rw [e, Finset.sum_comm]
    refine Finset.sum_congr rfl fun id _ => ?_
    unfold gather
    rw [← Multiset.mapAddMonoidHom_apply, map_sum, ← Multiset.coe_sumAddMonoidHom, map_sum]
    refine Finset.sum_congr rfl fun r _ => ?_
    simp [Function.comp_def]
  · intro r id hid
    rw [eR]
    exact ⟨hqs r id (hnsp r ▸ hid), hnm r id (hnsp r ▸ hid)⟩
  · intro r v
    rw [eR, rounds_rhob hJ hC hcl Z.N _ R2 h3 kS]
    rfl

end

end Verif.Global
