import Verif.Charge.Chain
import Verif.AdvanceP.Instances

/-!
# How many exchanges a particle needs

A particle crosses a face of a cell only if its target is beyond it, and every face crossed uses up one cell of its
displacement along that axis.  So the particles that are still to be moved after `k` exchanges are those with more than `k`
faces left.
-/
namespace Verif.Charge

open Grid Deposit SfInterface MoveP
open Boundary (Env Rank Hit Injector Joined Ready Conforming Round waiting arrivals fromOthers customRun named hits axisOf)
open AdvanceP (moverList)

section
variable {K : Type} {S : Type*} [Field K] [LinearOrder K] [IsStrictOrderedRing K]

/-- At most `N` faces are between the particle at `d` and its target `d + 2 disp`. -/
def FacesLeft (N : ℕ) (d disp : Fin 3 → K) : Prop :=
  ∃ n : Fin 3 → ℕ, n 0 + n 1 + n 2 ≤ N ∧ ∀ k, sdir (disp k) * d k + 2 * |disp k| ≤ 1 + 2 * n k

/-- The particle is on the face its voxel field names, and is to move on through it. -/
def Outward (p : MoveP.Part K) (disp : Fin 3 → K) : Prop :=
  ∃ (axis : Fin 3) (up : Bool) (i : ℤ), p.i = 8 * i + faceOf axis up ∧ p.d axis = sgn up ∧
    if up then 0 < disp axis else disp axis < 0

lemma sum_less {n : Fin 3 → ℕ} {N : ℕ} (h : n 0 + n 1 + n 2 ≤ N) {axis : Fin 3} (h1 : 1 ≤ n axis) :
    1 ≤ N ∧ Function.update n axis (n axis - 1) 0 + Function.update n axis (n axis - 1) 1 +
      Function.update n axis (n axis - 1) 2 ≤ N - 1 := by
  fin_cases axis <;> simp [Function.update_apply] at h1 ⊢ <;> omega

/-- Going through the face leaves one face less. -/
lemma facesLeft_cross {N : ℕ} {d disp : Fin 3 → K} (h : FacesLeft N d disp) {axis : Fin 3} {up : Bool}
    (hd : d axis = sgn up) (hs : if up then 0 < disp axis else disp axis < 0) :
    1 ≤ N ∧ FacesLeft (N - 1) (Function.update d axis (-sgn up)) disp := by
  obtain ⟨n, h1, h2⟩ := h
  have ha := h2 axis
  rw [hd, sdir_of_sign hs, sgn_sq] at ha
  have hne : 0 < |disp axis| := by
    rw [abs_pos]
    cases up
    · simp only [Bool.false_eq_true, if_false] at hs; exact hs.ne
    · simp only [if_true] at hs; exact hs.ne'
  have hn : 1 ≤ n axis := by
    by_contra hc
    have : n axis = 0 := by omega
    rw [this] at ha
    simp only [Nat.cast_zero, mul_zero, add_zero] at ha
    linarith
  obtain ⟨q1, q2⟩ := sum_less h1 hn
  refine ⟨q1, _, q2, fun k => ?_⟩
  by_cases hk : k = axis
  · subst hk
    simp only [Function.update_self]
    rw [sdir_of_sign hs]
    push_cast [hn]
    linear_combination ha + (-1) * sgn_sq (K := K) up
  · simp only [Function.update_of_ne hk]
    exact h2 k

lemma facesLeft_streak {N : ℕ} {d disp : Fin 3 → K} (h : FacesLeft N d disp) {v : K} (h1 : v < 1) :
    FacesLeft N (fun k => d k + 2 * (v * disp k)) (fun k => (1 - v) * disp k) := by
  obtain ⟨n, h2, h3⟩ := h
  exact ⟨n, h2, fun k => by rw [reach_streak _ _ v h1]; exact h3 k⟩

/-- A reflection leaves one face less. -/
lemma facesLeft_reflect {N : ℕ} {d disp : Fin 3 → K} (h : FacesLeft N d disp) {axis : Fin 3} {up : Bool}
    (hd : d axis = sgn up) (hs : if up then 0 < disp axis else disp axis < 0) :
    FacesLeft (N - 1) d (Function.update disp axis (-disp axis)) := by
  obtain ⟨-, n, h1, h2⟩ := facesLeft_cross h hd hs
  refine ⟨n, h1, fun k => ?_⟩
  have := h2 k
  by_cases hk : k = axis
  · subst hk
    simp only [Function.update_self] at this ⊢
    rw [sdir_neg_of_sign hs, abs_neg, hd]
    rw [sdir_of_sign hs] at this
    linear_combination this
  · simp only [Function.update_of_ne hk] at this ⊢
    exact this

lemma facesLeft_mono {N M : ℕ} (h : N ≤ M) {d disp : Fin 3 → K} (hf : FacesLeft N d disp) : FacesLeft M d disp := by
  obtain ⟨n, h1, h2⟩ := hf
  exact ⟨n, h1.trans h, h2⟩

lemma loop_faces (g : LGrid) (dom : (Fin 3 → ℤ) → Prop) (loc : (Fin 3 → ℤ) → ℤ) (hc : Covers g dom loc) (q : K) (fuel : ℕ) :
    ∀ (N : ℕ) (s : MState K) (C : Fin 3 → ℤ), FacesLeft N s.p.d s.disp → dom C → s.p.i = loc C →
      (∀ k, -1 ≤ s.p.d k ∧ s.p.d k ≤ 1) → ∀ s', loop g q fuel s = some (true, s') →
      FacesLeft N s'.p.d s'.disp ∧ Outward s'.p s'.disp := by
  induction fuel with
  | zero => intro N s C _ _ _ _ s' h; simp [loop] at h
  | succ fuel ih =>
    intro N s C hf hdom hi hd s' h
    obtain ⟨v3, nx, s1, hp, v0, v1, hb, hspec⟩ := pass_spec g q s (hi ▸ hc.range C hdom) hd
    simp only [loop, hp] at h
    cases hspec with
    | finished h1 => simp at h
    | boundary axis up h1 hs hface hn hrg =>
      simp only [Option.some.injEq, Prod.mk.injEq, true_and] at h
      subst h
      exact ⟨facesLeft_streak hf h1, axis, up, s.p.i, rfl, hface, sign_scale h1 hs⟩
    | reflect axis up h1 hs hface hn =>
      have step := fun x1 x2 x3 x4 => ih (N - 1) _ C x1 x2 x3 x4 s' h
      obtain ⟨r1, r2⟩ := step (facesLeft_reflect (facesLeft_streak hf h1) hface (sign_scale h1 hs)) hdom hi hb
      exact ⟨facesLeft_mono (Nat.sub_le _ _) r1, r2⟩
    | cross axis up h1 hs hface hn hrg =>
      have hstep := hc.step C axis up hdom (hi ▸ hn) (hi ▸ hrg.1) (hi ▸ hrg.2)
      obtain ⟨r1, r2⟩ := ih (N - 1) _ (nextCell C axis up)
        (facesLeft_cross (facesLeft_streak hf h1) hface (sign_scale h1 hs)).2 hstep.1 (by simp only [hi, hstep.2]) (by
          intro k
          by_cases hk : k = axis
          · subst hk; simp only [Function.update_self]; cases up <;> simp [sgn]
          · simp only [Function.update_of_ne hk]; exact hb k) s' h
      exact ⟨facesLeft_mono (Nat.sub_le _ _) r1, r2⟩

lemma moveP_faces {g : LGrid} (h : LocalMesh g) (q : K) (fuel N : ℕ) (s : MState K) (hp : Within g s.p)
    (hf : FacesLeft N s.p.d s.disp) {s' : MState K} (e : moveP g q fuel s = some (true, s')) :
    FacesLeft N s'.p.d s'.disp ∧ Outward s'.p s'.disp := by
  obtain ⟨⟨c, hc, hi⟩, hd⟩ := hp
  exact loop_faces g _ _ (localMesh_covers g h) _ fuel N s ![c.x - 1, c.y - 1, c.z - 1] hf trivial
    (by rw [hi]; exact (wrappedVoxel_self hc).symm) hd s' e

/-- The mover stops after at most one pass for each face left and one more. -/
lemma moveP_completes {g : LGrid} (h : LocalMesh g) (q : K) (fuel N : ℕ) (s : MState K) (hp : Within g s.p)
    (hf : FacesLeft N s.p.d s.disp) (hN : N < fuel) : moveP g q fuel s ≠ none := by
  obtain ⟨⟨c, hc, hi⟩, hd⟩ := hp
  obtain ⟨n, h1, h2⟩ := hf
  obtain ⟨r, s', C', walls, t, e, -⟩ := loop_moved g _ _ (localMesh_covers g h) (q * s.p.w) _ s ![c.x - 1, c.y - 1, c.z - 1] n
    rfl h2 trivial (by rw [hi]; exact (wrappedVoxel_self hc).symm) hd fuel (by omega)
  unfold moveP
  rw [e]
  simp

/-- All particles that wait for an exchange on the rank have at most `N` faces left. -/
def WaitingFaces (E : Env K S) (N : ℕ) (R : Rank K S) : Prop :=
  ∀ h ∈ waiting E R, FacesLeft N h.p.d h.disp ∧ Outward h.p h.disp

omit [IsStrictOrderedRing K] in
lemma mem_waiting {E : Env K S} {R : Rank K S} {h : Hit K} : h ∈ waiting E R ↔
    ∃ id < E.nsp, ∃ m ∈ moverList (R.sp id).pm (R.sp id).nm, h = ⟨id, (R.sp id).q, (R.sp id).p m.i, m.disp⟩ := by
  simp only [waiting, hits, named, List.mem_flatMap, List.mem_map, List.mem_reverse, Boundary.mem_ids]
  constructor
  · rintro ⟨id, hid, x, ⟨m, hm, rfl⟩, rfl⟩
    exact ⟨id, hid, m, hm, rfl⟩
  · rintro ⟨id, hid, m, hm, rfl⟩
    exact ⟨id, hid, _, ⟨m, hm, rfl⟩, rfl⟩

lemma none_waiting {E : Env K S} {R : Rank K S} (h : WaitingFaces E 0 R) : ∀ id < E.nsp, (R.sp id).nm = 0 := by
  intro id hid
  by_contra hn
  have hm : (R.sp id).pm ((0 : ℕ) : ℤ) ∈ moverList (R.sp id).pm (R.sp id).nm :=
    List.mem_map.mpr ⟨0, List.mem_range.mpr (by omega), rfl⟩
  obtain ⟨h1, axis, up, i, -, h2, h3⟩ := h _ (mem_waiting.mpr ⟨id, hid, _, hm, rfl⟩)
  have := (facesLeft_cross h1 h2 h3).1
  omega

/-- What arrives from other ranks has gone through a face. -/
lemma arrivals_faces {n : ℕ} {W : Fin n → Env K S} (R : Fin n → Rank K S)
    (hI : ∀ r, (customRun (W r) (waiting (W r) (R r)) (R r).st).2.2 = []) {N : ℕ}
    (hN : ∀ r, WaitingFaces (W r) N (R r)) (r : Fin n) : ∀ pi ∈ arrivals W R r, FacesLeft (N - 1) pi.d pi.disp := by
  intro pi ha
  rw [arrivals, hI r, List.nil_append, fromOthers] at ha
  simp only [List.mem_flatMap, List.mem_map, List.mem_filter] at ha
  obtain ⟨s, -, y, ⟨hy, -⟩, rfl⟩ := ha
  obtain ⟨f1, axis, up, i, f2, f3, f4⟩ := hN s y hy
  have fr := faceOf_range axis up
  have face : y.face = faceOf axis up := by
    unfold Boundary.Hit.face
    rw [f2]; omega
  have := (facesLeft_cross f1 f3 f4).2
  unfold Boundary.Hit.arrival
  dsimp only
  rw [face, Boundary.axisOf_faceOf, f3]
  exact this

/-- A call of `boundary_p` in which the handlers put in nothing. -/
lemma round_faces [Archimedean K] {n : ℕ} {W : Fin n → Env K S} (hJ : Joined W) (hC : ∀ r, Conforming (W r))
    (R R' : Fin n → Rank K S) (hR : ∀ r, Ready (W r) (R r))
    (hI : ∀ r, (customRun (W r) (waiting (W r) (R r)) (R r).st).2.2 = []) (h : Round W R R') {N : ℕ}
    (hN : ∀ r, WaitingFaces (W r) N (R r)) (r : Fin n) : WaitingFaces (W r) (N - 1) (R' r) := by
  obtain ⟨out, h1, -, -, h3, -⟩ := Boundary.round_particles hJ hC R R' hR h r
  intro x hx
  obtain ⟨id, hid, m, hm, rfl⟩ := mem_waiting.mp hx
  have : (((R' r).sp id).p m.i, m.disp) ∈ named ((R' r).sp id).p (moverList ((R' r).sp id).pm ((R' r).sp id).nm) :=
    List.mem_map.mpr ⟨m, List.mem_reverse.mpr hm, rfl⟩
  rw [(h3 id hid).mem_iff, List.mem_map] at this
  obtain ⟨pi, hpi, e⟩ := this
  simp only [Prod.mk.injEq] at e
  obtain ⟨ha, hb⟩ := List.mem_filter.mp hpi
  have hb : pi.sp_id = id ∧ (out pi).1 = true := by simpa using hb
  obtain ⟨en, emv⟩ := h1 pi ha
  have left := arrivals_faces R hI hN r pi ha
  obtain ⟨b, s', ho⟩ : ∃ b s', out pi = (b, s') := ⟨_, _, rfl⟩
  rw [ho] at emv e hb
  obtain ⟨-, rfl⟩ := hb
  have := moveP_faces (hJ.mesh r) _ _ (N - 1) ⟨pi.part, pi.disp, fun _ _ => 0⟩ ⟨en.cell, en.inside⟩ left emv
  dsimp only at e ⊢
  rw [← e.1, ← e.2]
  exact this

/-- `N` calls suffice for particles with at most `N` faces left. -/
lemma rounds_faces [Archimedean K] {n : ℕ} {W : Fin n → Env K S} (hJ : Joined W) (hC : ∀ r, Conforming (W r))
    (hI : ∀ R : Fin n → Rank K S, (∀ r, Sound (W r) (R r)) → ∀ r, (customRun (W r) (waiting (W r) (R r)) (R r).st).2.2 = [])
    (N : ℕ) (R R' : Fin n → Rank K S) (h : Rounds W N R R') : ∀ M, (∀ r, Sound (W r) (R r)) →
    (∀ r, WaitingFaces (W r) M (R r)) → ∀ r, WaitingFaces (W r) (M - N) (R' r) := by
  induction h with
  | zero R => exact fun M _ hM => hM
  | succ k R R1 R' h1 _ ih =>
    intro M hS hM r
    have := ih (M - 1) (fun r => (round_sound hJ hC R R1 hS h1 r).1)
      (round_faces hJ hC R R1 (fun r => (hS r).ready) (hI R hS) h1 hM) r
    rwa [Nat.sub_sub, Nat.add_comm 1 k] at this

/-- The particles left over by the push. -/
lemma push_faces (A : AdvanceP.Args K) (h : LocalMesh A.g) (p p' : MoveP.Part K) (left : Fin 3 → K) (hw : Within A.g p)
    (n : Fin 3 → ℕ) (hn : ∀ k, |AdvanceP.normDisp A (Boris.pushU A.rt A.qdt_2mc (A.f0 p.i) p.d p.u) k| ≤ n k)
    (he : AdvanceP.PushEnds A p p' (some left)) : FacesLeft (n 0 + n 1 + n 2) p'.d left ∧ Outward p' left := by
  obtain ⟨a', e⟩ := he
  unfold AdvanceP.pushOne at e
  split_ifs at e with c1
  dsimp only at e
  split_ifs at e with c2
  · simp at e
  · set s0 : MState K :=
        ⟨{ p with u := Boris.pushU A.rt A.qdt_2mc (A.f0 p.i) p.d p.u },
          AdvanceP.normDisp A (Boris.pushU A.rt A.qdt_2mc (A.f0 p.i) p.d p.u), fun _ _ => 0⟩ with hs0
    cases em : moveP A.g A.qsp A.fuel s0 with
    | none => rw [em] at e; simp at e
    | some r =>
      obtain ⟨b, s'⟩ := r
      rw [em] at e
      cases b with
      | false => simp at e
      | true =>
        simp only [Option.some.injEq, Prod.mk.injEq] at e
        obtain ⟨rfl, -, rfl⟩ := e
        refine moveP_faces h _ _ _ s0 hw ⟨n, le_rfl, fun k => ?_⟩ em
        have h1 : sdir (s0.disp k) * s0.p.d k ≤ 1 := by
          obtain ⟨a, b⟩ := hw.2 k
          have : s0.p.d k = p.d k := rfl
          rw [this]
          unfold sdir; split_ifs <;> linarith
        have := hn k
        have e : s0.disp k = AdvanceP.normDisp A (Boris.pushU A.rt A.qdt_2mc (A.f0 p.i) p.d p.u) k := rfl
        rw [← e] at this
        linarith

end

end Verif.Charge
