import Verif.Charge.Push

/-!
# All calls of `boundary_p` of a step
-/
namespace Verif.Charge

open Grid Deposit SfInterface MoveP
open Boundary (Env Rank Hit Injector Joined Ready Conforming Round waiting arrivals fromOthers customRun goesTo settled
  AtFace unnamed named live hits ids Species)
open AdvanceP (moverList)
open Distribute (upTo)

section
variable {K : Type} {S : Type*} [Field K] [LinearOrder K] [IsStrictOrderedRing K]

/-- `for( round=0; round<num_comm_round; round++ ) boundary_p( … )` on all ranks, /repo/src/vpic/advance.cc:73-76. -/
inductive Rounds {n : ℕ} (W : Fin n → Env K S) : ℕ → (Fin n → Rank K S) → (Fin n → Rank K S) → Prop
  | zero (R) : Rounds W 0 R R
  | succ (k) (R R1 R') : Round W R R1 → Rounds W k R1 R' → Rounds W (k + 1) R R'

/-- Spec: no way out: every face of every interior cell leads to a cell of some rank or reflects. -/
def Closed {n : ℕ} (W : Fin n → Env K S) : Prop :=
  ∀ r (c : Cell), c.Interior (W r).g.nx (W r).g.ny (W r).g.nz → ∀ f : ℤ, 0 ≤ f → f < 6 →
    (W r).g.neighbor (6 * VOXEL (W r).g.nx (W r).g.ny c.x c.y c.z + f) = Grid.reflectParticles ∨
    (0 ≤ (W r).g.neighbor (6 * VOXEL (W r).g.nx (W r).g.ny c.x c.y c.z + f) ∧
      (W r).g.neighbor (6 * VOXEL (W r).g.nx (W r).g.ny c.x c.y c.z + f) ≤ (W r).g.range n)

/-- Spec: a rank between the push and the end of the step. -/
def Sound (E : Env K S) (R : Rank K S) : Prop := ∀ id < E.nsp, SoundSp E.g (R.sp id)

lemma Sound.ready {E : Env K S} {R : Rank K S} (h : Sound E R) : Ready E R := fun id hid => (h id hid).toReadySp

lemma waiting_stuck {E : Env K S} {R : Rank K S} (hR : Sound E R) {h : Hit K} (hh : h ∈ waiting E R) : Stuck E.g h.p := by
  simp only [waiting, hits, named, List.mem_flatMap, List.mem_map, List.mem_reverse, Boundary.mem_ids] at hh
  obtain ⟨id, hid, x, ⟨m, hm, rfl⟩, rfl⟩ := hh
  exact (hR id hid).stuck m hm

/-- In a closed domain every waiting particle goes to another rank. -/
lemma closed_send {n : ℕ} {W : Fin n → Env K S} (hJ : Joined W) (hC : Closed W) {R : Fin n → Rank K S}
    (hR : ∀ r, Sound (W r) (R r)) (r : Fin n) {h : Hit K} (hh : h ∈ waiting (W r) (R r)) : h.fate (W r) = .send := by
  obtain ⟨s1, s2⟩ := waiting_stuck (hR r) hh
  obtain ⟨-, -, c, f, ha⟩ := Boundary.waiting_mem (hR r).ready hh
  have hv : h.p.i / 8 = VOXEL (W r).g.nx (W r).g.ny c.x c.y c.z := ha.decode.1
  have hf : h.p.i % 8 = f := ha.decode.2
  have e : h.nn (W r) = (W r).g.neighbor (6 * VOXEL (W r).g.nx (W r).g.ny c.x c.y c.z + f) := by
    unfold Hit.nn Hit.voxel Hit.face
    rw [hv, hf]
  have := hC r c ha.interior f ha.face.1 ha.face.2
  rw [hv, hf, ← e] at s1 s2
  rw [← e] at this
  have h0 : 0 ≤ h.nn (W r) ∧ h.nn (W r) ≤ (W r).g.range n := this.resolve_left s1
  unfold Hit.fate
  rw [if_neg (by omega), if_pos (by rw [hJ.ws]; exact ⟨h0.1, h0.2, s2⟩)]

lemma customRun_send (E : Env K S) (l : List (Hit K)) (h : ∀ x ∈ l, x.fate E = .send) (st : S) :
    customRun E l st = (st, [], []) := by
  induction l with
  | nil => rfl
  | cons x l ih =>
    rw [customRun, h x (by simp)]
    exact ih fun y hy => h y (by simp [hy])

/-- A call of `boundary_p` keeps what later steps rely on. -/
lemma round_sound [Archimedean K] {n : ℕ} {W : Fin n → Env K S} (hJ : Joined W) (hC : ∀ r, Conforming (W r))
    (R R' : Fin n → Rank K S) (hR : ∀ r, Sound (W r) (R r)) (h : Round W R R') (r : Fin n) :
    Sound (W r) (R' r) ∧ (Tidy (W r).g (R r).a → Tidy (W r).g (R' r).a) ∧
    ∀ id < (W r).nsp, ((R' r).sp id).q = ((R r).sp id).q := by
  obtain ⟨out, h1, -, h2, h3, h4, h5, -, -, -, h6⟩ :=
    Boundary.round_particles hJ hC R R' (fun r => (hR r).ready) h r
  have hw : ∀ pi ∈ arrivals W R r, Within (W r).g pi.part := fun pi hpi => ⟨(h1 pi hpi).1.cell, (h1 pi hpi).1.inside⟩
  have he : ∀ pi ∈ arrivals W R r, Within (W r).g (settled (out pi)) ∧
      ((out pi).1 = true → (∃ c f, AtFace (W r).g (out pi).2.p c f) ∧ Stuck (W r).g (out pi).2.p) := fun pi hpi =>
    moveP_ends (hJ.mesh r) _ _ ⟨pi.part, pi.disp, fun _ _ => 0⟩ (hw pi hpi) (h1 pi hpi).2
  refine ⟨fun id hid => ⟨h6 id hid, ?_, ?_⟩, ?_, h5⟩
  · intro m hm
    have : (((R' r).sp id).p m.i, m.disp) ∈ named ((R' r).sp id).p (moverList ((R' r).sp id).pm ((R' r).sp id).nm) :=
      List.mem_map.mpr ⟨m, List.mem_reverse.mpr hm, rfl⟩
    rw [(h3 id hid).mem_iff, List.mem_map] at this
    obtain ⟨pi, hpi, e⟩ := this
    simp only [Prod.mk.injEq] at e
    rw [← e.1]
    have hf := List.mem_filter.mp hpi
    have : pi.sp_id = id ∧ (out pi).1 = true := by simpa using hf.2
    exact ((he pi hf.1).2 this.2).2
  · intro p hp
    rw [(h2 id hid).mem_iff, List.mem_append] at hp
    rcases hp with hp | hp
    · refine (hR r id hid).within p ?_
      rw [(placed_perm ((R r).sp id) (hR r id hid).ordered).mem_iff, List.mem_append]
      exact Or.inr hp
    · obtain ⟨pi, hpi, rfl⟩ := List.mem_map.mp hp
      exact (he pi (List.mem_filter.mp hpi).1).1
  · intro ht v k hne
    rw [h4 v k] at hne
    by_cases h0 : (R r).a v k = 0
    · rw [h0, zero_add] at hne
      by_contra hcon
      apply hne
      apply List.sum_eq_zero
      intro y hy
      obtain ⟨pi, hpi, rfl⟩ := List.mem_map.mp hy
      by_contra hz
      exact hcon (moveP_tidy (hJ.mesh r) _ _ ⟨pi.part, pi.disp, fun _ _ => 0⟩ (hw pi hpi) (tidy_zero _) (h1 pi hpi).2 v k hz)
    · exact ht v k h0

/-- All calls together, in a closed domain. -/
lemma rounds_result [Archimedean K] {n : ℕ} {W : Fin n → Env K S} (hJ : Joined W) (hC : ∀ r, Conforming (W r))
    (hcl : Closed W) {J : Fin n → Fin 3 → Bool} (hjo : ∀ r, JoinedOn (W r).g (J r)) {φ : Fin n → ℤ → K}
    (hφ : Compatible W J φ) (m : Scales K) (hdt : m.dt ≠ 0) (hV : m.r8V = m.rd 0 * m.rd 1 * m.rd 2 * (1 / 8)) (N : ℕ)
    (R R' : Fin n → Rank K S) (hR : ∀ r, Sound (W r) (R r)) (ht : ∀ r, Tidy (W r).g (R r).a)
    (hq : ∀ r s, ∀ id < (W r).nsp, ((R r).sp id).q = ((R s).sp id).q) (h : Rounds W N R R') :
    (∀ r, Sound (W r) (R' r) ∧ Tidy (W r).g (R' r).a ∧ (∀ v, (R' r).rhob v = (R r).rhob v) ∧
      ∀ id < (W r).nsp, ((R' r).sp id).q = ((R r).sp id).q) ∧
    ∑ r, (charge (W r) (φ r) m.r8V (R' r) / m.dt + nodeSum (W r).g (φ r) (divJ (W r).g m (R' r).a)) =
      ∑ r, (charge (W r) (φ r) m.r8V (R r) / m.dt + nodeSum (W r).g (φ r) (divJ (W r).g m (R r).a)) := by
  induction h with
  | zero R => exact ⟨fun r => ⟨hR r, ht r, fun _ => rfl, fun _ _ => rfl⟩, rfl⟩
  | succ k R R1 R' h1 _ ih =>
    have hs := fun r => round_sound hJ hC R R1 hR h1 r
    obtain ⟨i1, i2⟩ := ih (fun r => (hs r).1) (fun r => (hs r).2.1 (ht r)) (by
      intro r s id hid
      rw [(hs r).2.2 id hid, (hs s).2.2 id (hJ.nsp r s ▸ hid), hq r s id hid])
    have hb := round_balance hJ hC hjo hφ m hdt hV R R1 (fun r => (hR r).ready) hq h1
    have l0 : ∀ r, chargeLost (W r) (φ r) m.r8V (R r) = 0 := by
      intro r
      unfold chargeLost
      have : (waiting (W r) (R r)).filter (fun h => ¬ h.fate (W r) = .send) = [] := by
        rw [List.filter_eq_nil_iff]
        intro x hx
        simp [closed_send hJ hcl hR r hx]
      rw [this]
      rfl
    have c0 : ∀ r, customRun (W r) (waiting (W r) (R r)) (R r).st = ((R r).st, [], []) := fun r =>
      customRun_send (W r) _ (fun x hx => closed_send hJ hcl hR r hx) _
    have j0 : ∀ r, chargeInjected (W r) (φ r) m.r8V (R r) = 0 := by
      intro r
      unfold chargeInjected
      rw [c0]
      rfl
    simp only [l0, j0, Finset.sum_const_zero, zero_div, add_zero] at hb
    refine ⟨fun r => ?_, i2.trans hb⟩
    obtain ⟨k1, k2, k3, k4⟩ := i1 r
    refine ⟨k1, k2, fun v => ?_, fun id hid => (k4 id hid).trans ((hs r).2.2 id hid)⟩
    obtain ⟨out, -, -, -, -, -, -, h7, -⟩ := Boundary.round_particles hJ hC R R1 (fun r => (hR r).ready) h1 r
    have a0 : (waiting (W r) (R r)).filter (fun h => h.fate (W r) = .absorb) = [] := by
      rw [List.filter_eq_nil_iff]
      intro x hx
      simp [closed_send hJ hcl hR r hx]
    rw [k3 v, h7 v, a0, c0]
    simp [Boundary.depositSum]

end

end Verif.Charge
