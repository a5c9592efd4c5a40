import Verif.Boundary.Load

/-!
# The second half of boundary processing: resizing and injection
-/
namespace Verif.Boundary

open Grid (LGrid Cell VOXEL portOf)
open MoveP (Part Mover Accum MState moveP nvox LocalMesh nodeCoord nodeCoord_voxel voxel_range loop)
open Distribute (upTo)
open AdvanceP (moverList addAcc addAcc_zero loop_acc)

section
variable {K : Type} {S : Type*} [Field K] [LinearOrder K] [IsStrictOrderedRing K]

/-! ### Specification -/

/-- Spec: the particle of an injector. -/
def Injector.part (pi : Injector K) : Part K := ⟨pi.d, pi.i, pi.u, pi.w⟩

/-- Spec: the new movers, for particles appended from index `n` on: one for each particle whose move is not finished. -/
def newMovers (out : Injector K → Bool × MState K) : ℕ → List (Injector K) → List (Mover K)
  | _, [] => []
  | n, pi :: l => (if (out pi).1 then [⟨(out pi).2.disp, n⟩] else []) ++ newMovers out (n + 1) l

/-- Spec: a species with `ls` injected. -/
structure Injected (out : Injector K → Bool × MState K) (ls : List (Injector K)) (s s' : Species K) : Prop where
  q : s'.q = s.q
  np : s'.np = s.np + ls.length
  max_np : s'.max_np = s.max_np
  max_nm : s'.max_nm = s.max_nm
  live : live s'.p s'.np = live s.p s.np ++ ls.map fun pi => (out pi).2.p
  movers : moverList s'.pm s'.nm = moverList s.pm s.nm ++ newMovers out s.np ls

/-! ### Resizing -/

omit [Field K] [LinearOrder K] [IsStrictOrderedRing K] in
lemma le_grow (n : ℕ) : n ≤ grow n := by unfold grow; omega

omit [Field K] [LinearOrder K] [IsStrictOrderedRing K] in
lemma le_shrink (n : ℕ) : n ≤ shrink n := by unfold shrink; split_ifs <;> omega

omit [Field K] [LinearOrder K] [IsStrictOrderedRing K] in
lemma copyTo_live {α : Type*} (fresh old : ℤ → α) (n : ℕ) : ∀ j : ℤ, 0 ≤ j → j < n → copyTo fresh old n j = old j :=
  fun j h0 h1 => if_pos ⟨h0, h1⟩

/-- Spec: the species `s'` holds what `s` holds, with room for `m` more. -/
structure Roomy (m : ℕ) (s s' : Species K) : Prop where
  q : s'.q = s.q
  np : s'.np = s.np
  nm : s'.nm = s.nm
  room : s'.np + m ≤ s'.max_np
  roomM : s'.nm + m ≤ s'.max_nm
  p : ∀ j : ℤ, 0 ≤ j → j < s.np → s'.p j = s.p j
  pm : ∀ j : ℤ, 0 ≤ j → j < s.nm → s'.pm j = s.pm j

/-- **C13, resizing.**  Whatever the sizes before: once resized there is room for the incoming particles and movers, and
the particles and movers in use are kept.  (Growing and shrinking.) -/
theorem resize_keeps (E : Env K S) (m : ℕ) (s s' : Species K) (h : resize E m s = some s') : Roomy m s s' := by
  have a1 := le_grow (s.np + m)
  have a2 := le_grow (s.nm + m)
  have a3 := le_shrink (s.np + m)
  unfold resize at h
  dsimp only at h
  split at h
  · simp at h
  rw [Option.some.injEq] at h
  subst h
  by_cases b1 : s.max_np < s.np + m
  · simp only [if_pos b1]
    by_cases b2 : s.max_nm < s.nm + m
    · simp only [if_pos b2]
      exact ⟨rfl, rfl, rfl, a1, a2, copyTo_live _ _ _, copyTo_live _ _ _⟩
    · simp only [if_neg b2]
      exact ⟨rfl, rfl, rfl, a1, not_lt.mp b2, copyTo_live _ _ _, fun _ _ _ => rfl⟩
  · simp only [if_neg b1]
    by_cases b3 : 128 < s.max_np ∧ s.np + m < s.max_np / 2
    · simp only [if_pos b3]
      by_cases b2 : s.max_nm < s.nm + m
      · simp only [if_pos b2]
        exact ⟨rfl, rfl, rfl, a3, a2, copyTo_live _ _ _, copyTo_live _ _ _⟩
      · simp only [if_neg b2]
        exact ⟨rfl, rfl, rfl, a3, not_lt.mp b2, copyTo_live _ _ _, fun _ _ _ => rfl⟩
    · simp only [if_neg b3]
      by_cases b2 : s.max_nm < s.nm + m
      · simp only [if_pos b2]
        exact ⟨rfl, rfl, rfl, not_lt.mp b1, a2, fun _ _ _ => rfl, copyTo_live _ _ _⟩
      · simp only [if_neg b2]
        exact ⟨rfl, rfl, rfl, not_lt.mp b1, not_lt.mp b2, fun _ _ _ => rfl, fun _ _ _ => rfl⟩

/-- Resizing fails only if the sizes do not fit an `int`. -/
theorem resize_fits (E : Env K S) (m : ℕ) (s : Species K) (h1 : grow (s.np + m) < 2 ^ 31)
    (h2 : grow (s.nm + m) < 2 ^ 31) : ∃ s', resize E m s = some s' := by
  have a1 := le_grow (s.np + m)
  have a2 := le_grow (s.nm + m)
  unfold resize
  dsimp only
  rw [if_neg (by omega)]
  exact ⟨_, rfl⟩

lemma resizeAll_keeps (E : Env K S) (m : ℕ) (l : List ℕ) (hl : l.Nodup) (sp sp' : ℕ → Species K)
    (h : resizeAll E m l sp = some sp') :
    (∀ id ∈ l, Roomy m (sp id) (sp' id)) ∧ ∀ id, id ∉ l → sp' id = sp id := by
  induction l generalizing sp with
  | nil =>
    simp only [resizeAll, Option.some.injEq] at h
    subst h
    exact ⟨by simp, fun _ _ => rfl⟩
  | cons id l ih =>
    rw [List.nodup_cons] at hl
    have hne : ∀ x ∈ l, x ≠ id := fun x hx e => hl.1 (e ▸ hx)
    rw [resizeAll] at h
    cases hs : resize E m (sp id) with
    | none => rw [hs] at h; simp at h
    | some s' =>
      rw [hs] at h
      obtain ⟨c1, c2⟩ := ih hl.2 (Function.update sp id s') h
      refine ⟨?_, ?_⟩
      · intro x hx
        rcases List.mem_cons.mp hx with rfl | hx
        · rw [c2 _ hl.1, Function.update_self]
          exact resize_keeps E m _ _ hs
        · have := c1 x hx
          rwa [Function.update_of_ne (hne x hx)] at this
      · intro x hx
        simp only [List.mem_cons, not_or] at hx
        rw [c2 x hx.2, Function.update_of_ne hx.1]

lemma resizeAll_fits (E : Env K S) (m : ℕ) (l : List ℕ) (hl : l.Nodup) (sp : ℕ → Species K)
    (h : ∀ id ∈ l, grow ((sp id).np + m) < 2 ^ 31 ∧ grow ((sp id).nm + m) < 2 ^ 31) :
    ∃ sp', resizeAll E m l sp = some sp' := by
  induction l generalizing sp with
  | nil => exact ⟨sp, rfl⟩
  | cons id l ih =>
    rw [List.nodup_cons] at hl
    have hne : ∀ x ∈ l, x ≠ id := fun x hx e => hl.1 (e ▸ hx)
    obtain ⟨s', e⟩ := resize_fits E m (sp id) (h id (by simp)).1 (h id (by simp)).2
    obtain ⟨sp', e'⟩ := ih hl.2 (Function.update sp id s') (fun x hx => by
      rw [Function.update_of_ne (hne x hx)]; exact h x (by simp [hx]))
    exact ⟨sp', by rw [resizeAll, e]; exact e'⟩

omit [Field K] [LinearOrder K] [IsStrictOrderedRing K] in
lemma live_congr {p p' : ℤ → Part K} {n : ℕ} (h : ∀ j : ℤ, 0 ≤ j → j < n → p' j = p j) : live p' n = live p n := by
  unfold live
  apply List.map_congr_left
  intro j hj
  obtain ⟨h0, h1⟩ := mem_upTo.mp hj
  exact h j h0 h1

omit [Field K] [LinearOrder K] [IsStrictOrderedRing K] in
lemma moverList_congr {p p' : ℤ → Mover K} {n : ℕ} (h : ∀ j : ℤ, 0 ≤ j → j < n → p' j = p j) :
    moverList p' n = moverList p n := by
  unfold moverList
  apply List.map_congr_left
  intro j hj
  exact h j (by omega) (by simpa using hj)

omit [Field K] [LinearOrder K] [IsStrictOrderedRing K] in
lemma live_put (p : ℤ → Part K) (n : ℕ) (x : Part K) : live (put p n x) (n + 1) = live p n ++ [x] := by
  have : live (put p n x) n = live p n := live_congr fun j h0 h1 => by
    have : j ≠ n := by omega
    simp [put, this]
  unfold live at *
  rw [upTo_succ, List.map_append, this]
  simp [put]

omit [Field K] [LinearOrder K] [IsStrictOrderedRing K] in
lemma moverList_put (p : ℤ → Mover K) (n : ℕ) (x : Mover K) (b : Bool) :
    moverList (put p n x) (n + if b then 1 else 0) = moverList p n ++ if b then [x] else [] := by
  have h : moverList (put p n x) n = moverList p n := moverList_congr fun j h0 h1 => by
    have : j ≠ n := by omega
    simp [put, this]
  cases b
  · simpa using h
  · simp only [if_true]
    unfold moverList at *
    rw [List.range_succ, List.map_append, h]
    simp [put]

/-! ### Injection -/

omit [IsStrictOrderedRing K] in
/-- The motion does not depend on what is in the accumulators. -/
lemma moveP_acc (g : LGrid) (q : K) (fuel : ℕ) (p : Part K) (disp : Fin 3 → K) (a : Accum K) :
    moveP g q fuel ⟨p, disp, a⟩ =
      (moveP g q fuel ⟨p, disp, fun _ _ => 0⟩).map fun r => (r.1, { r.2 with a := addAcc r.2.a a }) := by
  unfold moveP
  have := loop_acc g (q * p.w) a fuel p disp (fun _ _ => 0)
  rw [addAcc_zero] at this
  exact this

lemma injectAll_eq (E : Env K S) (q : ℕ → K) (out : Injector K → Bool × MState K) (l : List (Injector K))
    (hl : ∀ pi ∈ l, pi.sp_id < E.nsp ∧ moveP E.g (q pi.sp_id) E.fuel ⟨pi.part, pi.disp, fun _ _ => 0⟩ = some (out pi))
    (sp : ℕ → Species K) (a : Accum K) (hq : ∀ id < E.nsp, (sp id).q = q id)
    (hc : ∀ id < E.nsp, (sp id).np + l.length ≤ (sp id).max_np ∧ (sp id).nm + l.length ≤ (sp id).max_nm) :
    ∃ sp' a', injectAll E l sp a = some (sp', a') ∧
      (∀ id, Injected out (l.filter fun pi => pi.sp_id = id) (sp id) (sp' id)) ∧
      ∀ v k, a' v k = a v k + (l.map fun pi => (out pi).2.a v k).sum := by
  induction l generalizing sp a with
  | nil => exact ⟨sp, a, rfl, fun id => ⟨rfl, rfl, rfl, rfl, by simp, by simp [newMovers]⟩, by simp⟩
  | cons pi l ih =>
    obtain ⟨h1, h2⟩ := hl pi (by simp)
    obtain ⟨c1, c2⟩ := hc _ h1
    simp only [List.length_cons] at c1 c2
    set s := sp pi.sp_id with hs
    set s1 : Species K := { s with
          p := put s.p s.np (out pi).2.p
          np := s.np + 1
          pm := put s.pm s.nm ⟨(out pi).2.disp, s.np⟩
          nm := s.nm + if (out pi).1 then 1 else 0 } with hs1
    have e1 : injectOne E pi sp a = some (Function.update sp pi.sp_id s1, addAcc (out pi).2.a a) := by
      unfold injectOne
      rw [if_neg (by omega)]
      dsimp only
      rw [← hs, if_neg (by omega)]
      rw [show s.q = q pi.sp_id from hq _ h1]
      have := moveP_acc E.g (q pi.sp_id) E.fuel pi.part pi.disp a
      rw [h2] at this
      unfold Injector.part at this
      rw [this]
      simp only [Option.map_some, Option.some.injEq, Prod.mk.injEq, and_true]
      rw [hs1, ← hq _ h1]
    have hnm : s1.nm ≤ s.nm + 1 := by
      rw [hs1]; dsimp only; split_ifs <;> omega
    obtain ⟨sp', a', e2, h3, ha⟩ := ih (fun x hx => hl x (by simp [hx])) (Function.update sp pi.sp_id s1)
      (addAcc (out pi).2.a a) (fun id hid => by
        by_cases e : id = pi.sp_id
        · subst e; rw [Function.update_self]; exact hq _ h1
        · rw [Function.update_of_ne e]; exact hq id hid)
      (fun id hid => by
        by_cases e : id = pi.sp_id
        · subst e
          rw [Function.update_self]
          refine ⟨?_, ?_⟩
          · show s.np + 1 + l.length ≤ s.max_np; omega
          · show s1.nm + l.length ≤ s.max_nm; omega
        · rw [Function.update_of_ne e]
          have := hc id hid
          simp only [List.length_cons] at this
          omega)
    refine ⟨sp', a', by rw [injectAll, e1]; exact e2, ?_, fun v k => by
      rw [ha, List.map_cons, List.sum_cons]; unfold addAcc; ring⟩
    intro id
    have h4 := h3 id
    by_cases e : pi.sp_id = id
    · subst e
      rw [Function.update_self] at h4
      rw [List.filter_cons_of_pos (by simp)]
      obtain ⟨k1, k2, k3, k4, k5, k6⟩ := h4
      refine ⟨k1, ?_, k3, k4, ?_, ?_⟩
      · rw [k2, List.length_cons]; show s.np + 1 + (l.filter _).length = s.np + ((l.filter _).length + 1); omega
      · rw [k5]
        show live (put s.p s.np _) (s.np + 1) ++ _ = _
        rw [live_put, List.map_cons, List.append_assoc]; rfl
      · rw [k6]
        show moverList (put s.pm s.nm _) (s.nm + _) ++ newMovers out (s.np + 1) _ = _
        rw [moverList_put, newMovers, List.append_assoc]
    · rw [Function.update_of_ne (Ne.symm e)] at h4
      rw [List.filter_cons_of_neg (by simpa using e)]
      exact h4

omit [IsStrictOrderedRing K] in
/-- If the injection completes then all moves do. -/
lemma injectAll_moves (E : Env K S) (q : ℕ → K) (l : List (Injector K)) (sp : ℕ → Species K) (a : Accum K)
    (hq : ∀ id < E.nsp, (sp id).q = q id) (r : (ℕ → Species K) × Accum K) (h : injectAll E l sp a = some r) :
    ∀ pi ∈ l, pi.sp_id < E.nsp ∧ moveP E.g (q pi.sp_id) E.fuel ⟨pi.part, pi.disp, fun _ _ => 0⟩ ≠ none := by
  induction l generalizing sp a with
  | nil => simp
  | cons pi l ih =>
    rw [injectAll] at h
    cases h1 : injectOne E pi sp a with
    | none => rw [h1] at h; simp at h
    | some r1 =>
      rw [h1] at h
      obtain ⟨sp1, a1⟩ := r1
      have h : injectAll E l sp1 a1 = some r := h
      have h0 := h1
      unfold injectOne at h1
      by_cases b1 : E.nsp ≤ pi.sp_id
      · rw [if_pos b1] at h1; simp at h1
      rw [if_neg b1] at h1
      dsimp only at h1
      split_ifs at h1 with b2
      have hid : pi.sp_id < E.nsp := by omega
      rw [hq _ hid] at h1
      have hm := moveP_acc E.g (q pi.sp_id) E.fuel pi.part pi.disp a
      unfold Injector.part at hm
      rw [hm] at h1
      cases h2 : moveP E.g (q pi.sp_id) E.fuel ⟨⟨pi.d, pi.i, pi.u, pi.w⟩, pi.disp, fun _ _ => 0⟩ with
      | none => rw [h2] at h1; simp at h1
      | some m =>
        rw [h2] at h1
        simp only [Option.map_some, Option.some.injEq, Prod.mk.injEq] at h1
        have hq1 : ∀ id < E.nsp, (sp1 id).q = q id := by
          intro id hid
          rw [← h1.1]
          by_cases e : id = pi.sp_id
          · subst e; rw [Function.update_self]
          · rw [Function.update_of_ne e]; exact hq id hid
        intro x hx
        rcases List.mem_cons.mp hx with rfl | hx
        · refine ⟨by omega, ?_⟩
          unfold Injector.part
          rw [h2]; simp
        · exact ih sp1 a1 hq1 h x hx

end

end Verif.Boundary
