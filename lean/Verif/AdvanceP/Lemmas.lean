import Verif.AdvanceP.Push

/-!
# Lemmas about the pipelines of advance_p
-/
namespace Verif.AdvanceP

open MoveP Boris Grid Distribute

variable {K : Type} [Field K] [LinearOrder K] [IsStrictOrderedRing K]

/-! ## Footprints -/

/-- What pipeline `r` may touch: particles `l`, accumulators from `ab`, movers from `pb`. -/
def Foot (g : LGrid) (l : List ℤ) (ab pb cap : ℤ) (r : ℕ) : Addr → Prop
  | .p i => i ∈ l
  | .a j => ab ≤ j ∧ j < ab + nvox g
  | .pm k => pb ≤ k ∧ k < pb + cap
  | .seg r' => r' = r

omit [Field K] [LinearOrder K] [IsStrictOrderedRing K] in
@[simp] lemma part_mk (p : ℤ → MoveP.Part K) (a : ℤ → Fin 12 → K) (pm : ℤ → Mover K)
    (seg : ℕ → Seg) : (Mem.mk p a pm seg).part = p := rfl
omit [Field K] [LinearOrder K] [IsStrictOrderedRing K] in
@[simp] lemma acc_mk (p : ℤ → MoveP.Part K) (a : ℤ → Fin 12 → K) (pm : ℤ → Mover K)
    (seg : ℕ → Seg) : (Mem.mk p a pm seg).acc = a := rfl
omit [Field K] [LinearOrder K] [IsStrictOrderedRing K] in
@[simp] lemma mover_mk (p : ℤ → MoveP.Part K) (a : ℤ → Fin 12 → K) (pm : ℤ → Mover K)
    (seg : ℕ → Seg) : (Mem.mk p a pm seg).mover = pm := rfl
omit [Field K] [LinearOrder K] [IsStrictOrderedRing K] in
@[simp] lemma segm_mk (p : ℤ → MoveP.Part K) (a : ℤ → Fin 12 → K) (pm : ℤ → Mover K)
    (seg : ℕ → Seg) : (Mem.mk p a pm seg).segm = seg := rfl

omit [Field K] [LinearOrder K] [IsStrictOrderedRing K] in
/-- Locality in terms of the four parts of memory. -/
lemma local_iff (F : Addr → Prop) (f : Mem K → Mem K)
    (f1 : ∀ m : Mem K, ∀ i, ¬ F (.p i) → (f m).part i = m.part i)
    (f2 : ∀ m : Mem K, ∀ i, ¬ F (.a i) → (f m).acc i = m.acc i)
    (f3 : ∀ m : Mem K, ∀ i, ¬ F (.pm i) → (f m).mover i = m.mover i)
    (f4 : ∀ m : Mem K, ∀ i, ¬ F (.seg i) → (f m).segm i = m.segm i)
    (d : ∀ m m' : Mem K, (∀ i, F (.p i) → m.part i = m'.part i) →
      (∀ i, F (.a i) → m.acc i = m'.acc i) → (∀ i, F (.pm i) → m.mover i = m'.mover i) →
      (∀ i, F (.seg i) → m.segm i = m'.segm i) →
      (∀ i, F (.p i) → (f m).part i = (f m').part i) ∧
      (∀ i, F (.a i) → (f m).acc i = (f m').acc i) ∧
      (∀ i, F (.pm i) → (f m).mover i = (f m').mover i) ∧
      (∀ i, F (.seg i) → (f m).segm i = (f m').segm i)) :
    Local (V := Val K) F (fun _ => False) f := by
  constructor
  · intro m x hx
    cases x
    exacts [f1 m _ hx, f2 m _ hx, f3 m _ hx, f4 m _ hx]
  · intro m m' h x hx
    obtain ⟨d1, d2, d3, d4⟩ := d m m' (fun i hi => h (.p i) (Or.inl hi))
      (fun i hi => h (.a i) (Or.inl hi)) (fun i hi => h (.pm i) (Or.inl hi))
      (fun i hi => h (.seg i) (Or.inl hi))
    cases x
    exacts [d1 _ hx, d2 _ hx, d3 _ hx, d4 _ hx]

omit [Field K] [LinearOrder K] [IsStrictOrderedRing K] in
lemma initStep_local (g : LGrid) (l : List ℤ) (ab pb cap : ℤ) (r : ℕ) :
    Local (V := Val K) (Foot g l ab pb cap r) (fun _ => False) (initStep r) := by
  refine local_iff _ _ (fun _ _ _ => rfl) (fun _ _ _ => rfl) (fun _ _ _ => rfl) ?_ ?_
  · intro m i hi
    simp only [Foot] at hi
    simp [initStep, hi]
  · intro m m' h1 h2 h3 h4
    refine ⟨h1, h2, h3, ?_⟩
    intro i hi
    simp only [Foot] at hi
    simp [initStep, hi]

/-- The value of `pushOne` depends on the accumulators of the voxels of the mesh only, and changes no
others. -/
lemma pass_frame (g : LGrid) (q : K) (s : MState K) (n : Next) (s' : MState K)
    (h : pass g q s = some (n, s')) (v : ℤ) (hv : v < 0 ∨ nvox g ≤ v) : s'.a v = s.a v := by
  unfold pass at h
  by_cases hr : s.p.i < 0 ∨ nvox g ≤ s.p.i
  · rw [if_pos hr] at h; cases h
  · rw [if_neg hr] at h
    have hne : v ≠ s.p.i := by omega
    have e : ∀ j, accAdd s.a s.p.i j v = s.a v := by
      intro j; funext k; simp [accAdd, hne]
    simp only at h
    split at h
    · simp only [Option.some.injEq, Prod.mk.injEq] at h
      rw [← h.2]; exact e _
    · split_ifs at h <;>
      · simp only [Option.some.injEq, Prod.mk.injEq] at h
        rw [← h.2]; exact e _

lemma loop_frame (g : LGrid) (q : K) (fuel : ℕ) : ∀ (s : MState K) (b : Bool) (s' : MState K),
    loop g q fuel s = some (b, s') → ∀ v : ℤ, v < 0 ∨ nvox g ≤ v → s'.a v = s.a v := by
  induction fuel with
  | zero => intro s b s' h; cases h
  | succ fuel ih =>
    intro s b s' h v hv
    simp only [loop] at h
    cases hp : pass g q s with
    | none => rw [hp] at h; cases h
    | some r =>
      obtain ⟨n, s1⟩ := r
      have h1 := pass_frame g q s n s1 hp v hv
      rw [hp] at h
      cases n <;> simp only [Option.some.injEq, Prod.mk.injEq] at h
      · rw [← h.2]; exact h1
      · rw [ih s1 b s' h v hv, h1]
      · rw [← h.2]; exact h1

lemma pushOne_frame (A : Args K) (p : MoveP.Part K) (a : Accum K) (p' : MoveP.Part K) (a' : Accum K)
    (o : Option (Fin 3 → K)) (h : pushOne A p a = some (p', a', o)) (v : ℤ)
    (hv : v < 0 ∨ nvox A.g ≤ v) : a' v = a v := by
  unfold pushOne at h
  by_cases hr : p.i < 0 ∨ nvox A.g ≤ p.i
  · rw [if_pos hr] at h; cases h
  · rw [if_neg hr] at h
    simp only at h
    split_ifs at h
    · simp only [Option.some.injEq, Prod.mk.injEq] at h
      rw [← h.2.1]
      have hne : v ≠ p.i := by omega
      funext k; simp [accAdd, hne]
    · revert h
      cases hm : moveP A.g A.qsp A.fuel ⟨{ p with u := pushU A.rt A.qdt_2mc (A.f0 p.i) p.d p.u },
        normDisp A (pushU A.rt A.qdt_2mc (A.f0 p.i) p.d p.u), a⟩ with
      | none => intro h; cases h
      | some r =>
        obtain ⟨b, s'⟩ := r
        have := loop_frame A.g _ A.fuel _ b s' hm v hv
        cases b <;>
        · intro h
          simp only [Option.some.injEq, Prod.mk.injEq] at h
          rw [← h.2.1]; exact this

/-- Difference of accumulators. -/
lemma pushOne_delta (A : Args K) (p : MoveP.Part K) (a : Accum K) :
    pushOne A p a = (pushOne A p fun _ _ => 0).map fun r => (r.1, addAcc r.2.1 a, r.2.2) := by
  conv_lhs => rw [← addAcc_zero a]
  exact pushOne_acc A p _ a

lemma pushStep_local (A : Args K) (l : List ℤ) (ab pb cap : ℤ) (r : ℕ) (i : ℤ) (hi : i ∈ l) :
    Local (V := Val K) (Foot A.g l ab pb cap r) (fun _ => False) (pushStep A ab pb cap r i) := by
  have hput : ∀ (f : ℤ → MoveP.Part K) (q : MoveP.Part K) (j : ℤ), j ∉ l → put f i q j = f j :=
    fun f q j hj => put_ne _ _ (fun e => hj (e ▸ hi))
  refine local_iff _ _ ?_ ?_ ?_ ?_ ?_
  · intro m j hj
    simp only [Foot] at hj
    unfold pushStep
    simp only
    split
    · rfl
    · split
      · exact hput _ _ j hj
      · split
        · exact hput _ _ j hj
        · exact hput _ _ j hj
  · intro m j hj
    simp only [Foot] at hj
    unfold pushStep
    simp only
    split
    · rfl
    · split
      · simp [hj]
      · split <;> simp [hj]
  · intro m j hj
    simp only [Foot] at hj
    unfold pushStep
    simp only
    split
    · rfl
    · split
      · rfl
      · split
        · simp only [mover_mk]; exact put_ne _ _ (by omega)
        · rfl
  · intro m j hj
    simp only [Foot] at hj
    unfold pushStep
    simp only
    split
    · simp [hj]
    · split
      · rfl
      · split <;> simp [hj]
  · intro m m' h1 h2 h3 h4
    have e1 : m.part i = m'.part i := h1 i hi
    have e2 : m.segm r = m'.segm r := h4 r rfl
    have e3 : ∀ v, 0 ≤ v → v < nvox A.g → m.acc (ab + v) = m'.acc (ab + v) := fun v h0 h1 =>
      h2 (ab + v) ⟨by omega, by omega⟩
    have e3' : ∀ j, ab ≤ j ∧ j < ab + nvox A.g → m.acc (ab + (j - ab)) = m'.acc (ab + (j - ab)) :=
      fun j hj => e3 (j - ab) (by omega) (by omega)
    unfold pushStep
    simp only [← e1, ← e2]
    rw [pushOne_delta A _ fun v => m.acc (ab + v), pushOne_delta A _ fun v => m'.acc (ab + v)]
    have hput' : ∀ q : MoveP.Part K, ∀ j ∈ l, put m.part i q j = put m'.part i q j := by
      intro q j hj
      unfold put; rw [h1 j hj]
    cases hp : pushOne A (m.part i) fun _ _ => 0 with
    | none =>
      refine ⟨h1, h2, h3, fun j hj => ?_⟩
      simp only [Foot] at hj
      simp [hj]
    | some q =>
      obtain ⟨p', a', left⟩ := q
      simp only [Option.map_some]
      have hacc : ∀ j, Foot A.g l ab pb cap r (.a j) →
          (if ab ≤ j ∧ j < ab + nvox A.g then addAcc a' (fun v => m.acc (ab + v)) (j - ab)
            else m.acc j) =
          (if ab ≤ j ∧ j < ab + nvox A.g then addAcc a' (fun v => m'.acc (ab + v)) (j - ab)
            else m'.acc j) := by
        intro j hj
        simp only [Foot] at hj
        rw [if_pos hj, if_pos hj]
        funext k
        simp only [addAcc, e3' j hj]
      cases left with
      | none => exact ⟨hput' _, hacc, h3, h4⟩
      | some disp =>
        simp only
        split
        · refine ⟨hput' _, hacc, fun j hj => ?_, fun j hj => ?_⟩
          · simp only [mover_mk]; unfold put; rw [h3 j hj]
          · simp only [Foot] at hj
            simp [hj]
        · refine ⟨hput' _, hacc, h3, fun j hj => ?_⟩
          simp only [Foot] at hj
          simp [hj]

/-! ## One pipeline -/

/-- Results of pushing the particles of memory `m`. -/
structure Pushed (A : Args K) (m : Mem K) (l : List ℤ) (p' : ℤ → MoveP.Part K) (da : ℤ → Accum K)
    (left : ℤ → Option (Fin 3 → K)) : Prop where
  push : ∀ i ∈ l, pushOne A (m.part i) (fun _ _ => 0) = some (p' i, da i, left i)

/-- The unfinished ones among the particles `l`. -/
def unf (left : ℤ → Option (Fin 3 → K)) (l : List ℤ) : List ℤ := l.filter fun i => (left i).isSome

/-- Sum of the contributions of the particles `l`. -/
def sumAcc (da : ℤ → Accum K) (l : List ℤ) (v : ℤ) (k : Fin 12) : K := (l.map fun i => da i v k).sum

lemma run_push (A : Args K) (ab pb : ℤ) (cap : ℕ) (r : ℕ) (p' : ℤ → MoveP.Part K) (da : ℤ → Accum K)
    (left : ℤ → Option (Fin 3 → K)) (l : List ℤ) (hl : l.Nodup) : ∀ (m : Mem K) (nm ign : ℕ),
    nm ≤ cap → m.segm r = ⟨nm, ign, true⟩ → Pushed A m l p' da left →
    let m' := runSeq (l.map (pushStep A ab pb cap r)) m
    let u := unf left l
    m'.segm r = ⟨nm + min u.length (cap - nm), ign + (u.length - (cap - nm)), true⟩ ∧
    (∀ i, m'.part i = if i ∈ l then
      (if i ∈ u.drop (cap - nm) then { p' i with i := (p' i).i / 8 } else p' i) else m.part i) ∧
    (∀ v, 0 ≤ v → v < nvox A.g → ∀ k, m'.acc (ab + v) k = m.acc (ab + v) k + sumAcc da l v k) ∧
    (∀ x, m'.mover x = m.mover x ∨ pb + nm ≤ x) ∧
    (∀ (k : ℕ) (i : ℤ), (u.take (cap - nm))[k]? = some i →
      ∃ disp, left i = some disp ∧ m'.mover (pb + nm + k) = ⟨disp, i⟩) := by
  induction l with
  | nil =>
    intro m nm ign hnm hs hp
    simp [unf, sumAcc, hs]
  | cons i l ih =>
    intro m nm ign hnm hs hp
    rw [List.nodup_cons] at hl
    have hpi := hp.push i (by simp)
    set m1 := pushStep A ab pb cap r i m with hm1
    have hstep : pushOne A (m.part i) (fun v => m.acc (ab + v)) =
        some (p' i, addAcc (da i) (fun v => m.acc (ab + v)), left i) := by
      rw [pushOne_delta, hpi]; rfl
    have s1 : m1.segm r = if (left i).isSome then
        (if nm < cap then ⟨nm + 1, ign, true⟩ else ⟨nm, ign + 1, true⟩) else ⟨nm, ign, true⟩ := by
      simp only [hm1, pushStep, hstep]
      cases left i with
      | none => simp [hs]
      | some disp => simp only [hs, Nat.cast_lt]; split <;> simp
    have s2 : ∀ j, m1.part j = if j = i then
        (if (left i).isSome ∧ ¬ nm < cap then { p' i with i := (p' i).i / 8 } else p' i)
        else m.part j := by
      intro j
      simp only [hm1, pushStep, hstep]
      cases left i with
      | none => simp [put]
      | some disp =>
        simp only [hs, Nat.cast_lt]
        by_cases hc : nm < cap <;> simp [put, hc]
    have s3 : ∀ v, 0 ≤ v → v < nvox A.g → ∀ k, m1.acc (ab + v) k = da i v k + m.acc (ab + v) k := by
      intro v h0 h1 k
      have hin : ab ≤ ab + v ∧ ab + v < ab + nvox A.g := ⟨by omega, by omega⟩
      have hv : ab + v - ab = v := by omega
      simp only [hm1, pushStep, hstep]
      cases left i with
      | none => simp only [acc_mk, if_pos hin, hv]; rfl
      | some disp => simp only; split <;> (simp only [acc_mk, if_pos hin, hv]; rfl)
    have s4 : ∀ x, m1.mover x = if nm < cap ∧ x = pb + nm then
        (match left i with | some disp => ⟨disp, i⟩ | none => m.mover x) else m.mover x := by
      intro x
      simp only [hm1, pushStep, hstep]
      cases left i with
      | none => simp
      | some disp =>
        simp only [hs, Nat.cast_lt]
        by_cases hc : nm < cap <;> simp [put, hc]
    have hp1 : Pushed A m1 l p' da left := by
      constructor
      intro j hj
      have : j ≠ i := fun e => hl.1 (e ▸ hj)
      rw [s2 j, if_neg this]
      exact hp.push j (by simp [hj])
    simp only [List.map_cons, runSeq_cons, ← hm1]
    have hin : ∀ j ∈ l, j ≠ i := fun j hj e => hl.1 (e ▸ hj)
    have hiu : i ∉ unf left l := fun h => hl.1 (List.mem_of_mem_filter h)
    cases hleft : left i with
    | none =>
      have hu : unf left (i :: l) = unf left l := by simp [unf, hleft]
      simp only [hleft, Option.isSome_none, Bool.false_eq_true, if_false] at s1
      obtain ⟨i1, i2, i3, i4, i5⟩ := ih hl.2 m1 nm ign hnm s1 hp1
      rw [hu]
      refine ⟨i1, ?_, ?_, ?_, i5⟩
      · intro j
        rw [i2 j]
        by_cases hj : j = i
        · subst hj
          have : j ∉ (unf left l).drop (cap - nm) := fun h => hiu (List.mem_of_mem_drop h)
          simp [hl.1, s2, hleft, this]
        · simp [hj, s2]
      · intro v h0 h1 k
        rw [i3 v h0 h1 k, s3 v h0 h1 k]
        simp only [sumAcc, List.map_cons, List.sum_cons]; ring
      · intro x
        rcases i4 x with h | h
        · left; rw [h, s4 x, hleft]; simp
        · right; exact h
    | some disp =>
      have hu : unf left (i :: l) = i :: unf left l := by simp [unf, hleft]
      simp only [hleft, Option.isSome_some, if_true] at s1
      rw [hu]
      by_cases hc : nm < cap
      · simp only [if_pos hc] at s1
        obtain ⟨i1, i2, i3, i4, i5⟩ := ih hl.2 m1 (nm + 1) ign hc s1 hp1
        obtain ⟨c, hcn⟩ : ∃ c, cap - nm = c + 1 := ⟨cap - nm - 1, by omega⟩
        have hcn' : cap - (nm + 1) = c := by omega
        rw [hcn'] at i1 i2 i5
        refine ⟨?_, ?_, ?_, ?_, ?_⟩
        · rw [i1, hcn]; simp only [List.length_cons, Seg.mk.injEq, and_true]; omega
        · intro j
          rw [i2 j, hcn]
          simp only [List.drop_succ_cons]
          by_cases hj : j = i
          · subst hj
            have : j ∉ (unf left l).drop c := fun h => hiu (List.mem_of_mem_drop h)
            simp [hl.1, s2, this, hc]
          · simp [hj, s2]
        · intro v h0 h1 k
          rw [i3 v h0 h1 k, s3 v h0 h1 k]
          simp only [sumAcc, List.map_cons, List.sum_cons]; ring
        · intro x
          rcases i4 x with h | h
          · by_cases hx : x = pb + nm
            · right; omega
            · left; rw [h, s4 x, if_neg (fun h => hx h.2)]
          · right; push_cast at h; omega
        · intro k j hk
          rw [hcn, List.take_succ_cons] at hk
          cases k with
          | zero =>
            simp only [List.getElem?_cons_zero, Option.some.injEq] at hk
            subst hk
            refine ⟨disp, hleft, ?_⟩
            have h := (i4 (pb + nm + ((0 : ℕ) : ℤ))).resolve_right (by push_cast; omega)
            rw [h, s4]
            simp [hc, hleft]
          | succ k =>
            simp only [List.getElem?_cons_succ] at hk
            obtain ⟨dj, h1, h2⟩ := i5 k j hk
            refine ⟨dj, h1, ?_⟩
            rw [← h2]; congr 1; push_cast; ring
      · simp only [if_neg hc] at s1
        obtain ⟨i1, i2, i3, i4, i5⟩ := ih hl.2 m1 nm (ign + 1) hnm s1 hp1
        have hcn : cap - nm = 0 := by omega
        rw [hcn] at i1 i2 i5 ⊢
        refine ⟨?_, ?_, ?_, ?_, ?_⟩
        · rw [i1]; simp only [List.length_cons, Seg.mk.injEq, and_true]; omega
        · intro j
          rw [i2 j]
          simp only [List.drop_zero]
          by_cases hj : j = i
          · subst hj; simp [hl.1, s2, hc, hleft]
          · simp [hj, s2]
        · intro v h0 h1 k
          rw [i3 v h0 h1 k, s3 v h0 h1 k]
          simp only [sumAcc, List.map_cons, List.sum_cons]; ring
        · intro x
          rcases i4 x with h | h
          · left; rw [h, s4 x, if_neg (fun h => hc h.1)]
          · right; exact h
        · intro k j hk; simp at hk

/-! ## Shares -/

/-- First particle and first mover of pipeline `p`. -/
def firstPart (R : Rounding) (A : Args K) (P p : ℕ) : ℤ := (16 : ℕ) * cut R (A.np / 16) P p
/-- Particles of pipeline `p`. -/
def nPart (R : Rounding) (A : Args K) (P p : ℕ) : ℕ :=
  if p = P then A.np % 16 else (firstPart R A P (p + 1) - firstPart R A P p).toNat
/-- First mover of pipeline `p`. -/
def firstMover (R : Rounding) (A : Args K) (P p : ℕ) : ℤ :=
  (8 : ℕ) * cut R ((A.max_nm - A.np % 16) / 8) P p
/-- Movers of pipeline `p`. -/
def nMover (R : Rounding) (A : Args K) (P p : ℕ) : ℕ :=
  if p = P then (A.max_nm - firstMover R A P p).toNat
  else (firstMover R A P (p + 1) - firstMover R A P p).toNat

/-- Particles of pipeline `p`. -/
def itemsOf (R : Rounding) (A : Args K) (P p : ℕ) : List ℤ :=
  iota (firstPart R A P p) (nPart R A P p)

omit [Field K] [LinearOrder K] [IsStrictOrderedRing K] in
lemma items_eq (R : Rounding) (A : Args K) (P p : ℕ) (hP : 0 < P) :
    items (distribute R A.np 16 p P) = some (itemsOf R A P p) := by
  have h : ¬ ((16 : ℕ) = 0 ∨ P = 0) := by omega
  simp only [items, distribute, if_neg h, Option.map_some, itemsOf, iota, nPart, firstPart]
  split
  · rw [Int.toNat_natCast]
  · rfl

omit [Field K] [LinearOrder K] [IsStrictOrderedRing K] in
lemma items_flatten (R : Rounding) (hR : R.Accurate) (A : Args K) (P : ℕ) (hP : 0 < P)
    (hP2 : P ≤ 2 ^ 16) (hN : A.np < 2 ^ 31) :
    ((List.range (P + 1)).map (itemsOf R A P)).flatten = upTo A.np := by
  have h := distribute_exact R hR A.np 16 P hN (by norm_num) hP hP2
  unfold allItems at h
  rw [mapM_some _ _ (itemsOf R A P) (fun p _ => items_eq R A P p hP)] at h
  simpa using h

/-- The mover segments follow one another and end at `max_nm`. -/
structure MoverSegs (R : Rounding) (A : Args K) (P : ℕ) : Prop where
  zero : firstMover R A P 0 = 0
  next : ∀ p < P, firstMover R A P (p + 1) = firstMover R A P p + nMover R A P p
  last : firstMover R A P P + nMover R A P P = A.max_nm
  share : ∀ p ≤ P, moverShare R A P p = some (firstMover R A P p, (nMover R A P p : ℤ))
  host : A.np % 16 ≤ A.max_nm → A.np % 16 ≤ nMover R A P P

lemma moverSegs (R : Rounding) (hR : R.Accurate) (A : Args K) (P : ℕ) (hP : 0 < P)
    (hP2 : P ≤ 2 ^ 16) (hM : A.max_nm < 2 ^ 31) : MoverSegs R A P := by
  have hK : (A.max_nm - A.np % 16) / 8 < 2 ^ 31 := by omega
  have hmono : ∀ p < P, firstMover R A P p ≤ firstMover R A P (p + 1) := fun p hp =>
    mul_le_mul_of_nonneg_left (cut_mono R hR _ P p hP hp hK hP2) (by norm_num)
  have hlast : firstMover R A P P = (8 : ℕ) * (((A.max_nm - A.np % 16) / 8 : ℕ) : ℤ) := by
    unfold firstMover; rw [cut_last R hR _ P hP hK]
  have hle : firstMover R A P P ≤ ((A.max_nm - A.np % 16 : ℕ) : ℤ) := by
    rw [hlast]; exact_mod_cast Nat.mul_div_le _ _
  refine ⟨by unfold firstMover; rw [cut_zero R hR _ P hP hK]; simp, ?_, ?_, ?_, ?_⟩
  · intro p hp
    have := hmono p hp
    simp only [nMover, if_neg (by omega : p ≠ P)]
    omega
  · simp only [nMover, if_true]; omega
  · intro p hp
    have h : ¬ ((8 : ℕ) = 0 ∨ P = 0) := by omega
    simp only [moverShare, distribute, if_neg h, Option.map_some, Option.some.injEq, Prod.mk.injEq]
    refine ⟨rfl, ?_⟩
    simp only [nMover]
    by_cases hpP : p = P
    · subst hpP
      simp only [if_true]
      have : ((8 : ℕ) : ℤ) * cut R ((A.max_nm - A.np % 16) / 8) p p = firstMover R A p p := rfl
      rw [this]; omega
    · have := hmono p (by omega)
      simp only [if_neg hpP]
      have e1 : ((8 : ℕ) : ℤ) * cut R ((A.max_nm - A.np % 16) / 8) P p = firstMover R A P p := rfl
      have e2 : ((8 : ℕ) : ℤ) * cut R ((A.max_nm - A.np % 16) / 8) P (p + 1) =
        firstMover R A P (p + 1) := rfl
      rw [e1, e2]; omega
  · intro h
    simp only [nMover, if_true]; omega

lemma MoverSegs.mono {R : Rounding} {A : Args K} {P : ℕ} (h : MoverSegs R A P) {p q : ℕ}
    (hpq : p < q) (hq : q ≤ P) : firstMover R A P p + nMover R A P p ≤ firstMover R A P q := by
  induction q with
  | zero => omega
  | succ q ih =>
    have := h.next q (by omega)
    by_cases e : p = q
    · subst e; omega
    · have := ih (by omega) (by omega); omega

lemma MoverSegs.le_max {R : Rounding} {A : Args K} {P : ℕ} (h : MoverSegs R A P) {p : ℕ}
    (hp : p ≤ P) : 0 ≤ firstMover R A P p ∧ firstMover R A P p + nMover R A P p ≤ A.max_nm := by
  constructor
  · rcases Nat.eq_zero_or_pos p with rfl | h0
    · rw [h.zero]
    · have := h.mono h0 hp; have := h.zero; omega
  · rcases Nat.lt_or_ge p P with h1 | h1
    · have := h.mono h1 le_rfl; have := h.last; omega
    · have : p = P := by omega
      subst this; have := h.last; omega

/-! ## Compaction -/

omit [Field K] [LinearOrder K] [IsStrictOrderedRing K] in
lemma range_map_append {β : Type*} (f : ℤ → β) (a b : ℕ) :
    (List.range (a + b)).map (fun k : ℕ => f k) =
      (List.range a).map (fun k : ℕ => f k) ++ (List.range b).map (fun k : ℕ => f (a + k)) := by
  rw [List.range_add, List.map_append, List.map_map]
  congr 1

lemma compact_spec (R : Rounding) (A : Args K) (P : ℕ) (h : MoverSegs R A P) (seg : ℕ → Seg)
    (hseg : ∀ r ≤ P, (seg r).nm ≤ nMover R A P r) (pm0 : ℤ → Mover K) (n : ℕ) :
    ∀ (r0 : ℕ), r0 + n = P + 1 → ∀ (pm : ℤ → Mover K) (nm : ℕ),
      (0 < n → (nm : ℤ) ≤ firstMover R A P r0) → nm ≤ A.max_nm →
      (0 < n → ∀ x, firstMover R A P r0 ≤ x → pm x = pm0 x) →
      ∃ pm' nm', compact R A P seg (List.range' r0 n) pm nm = some (pm', nm') ∧ nm' ≤ A.max_nm ∧
        (List.range nm').map (fun k : ℕ => pm' k) = (List.range nm).map (fun k : ℕ => pm k) ++
          ((List.range' r0 n).map fun r =>
            (List.range (seg r).nm).map fun k : ℕ => pm0 (firstMover R A P r + k)).flatten := by
  induction n with
  | zero =>
    intro r0 _ pm nm _ hm _
    exact ⟨pm, nm, rfl, hm, by simp⟩
  | succ n ih =>
    intro r0 hr pm nm hnm hm hpm
    have hr0 : r0 ≤ P := by omega
    have hnm := hnm (by omega)
    have hpm := hpm (by omega)
    have hs := hseg r0 hr0
    have hle := h.le_max hr0
    have hnext : 0 < n → firstMover R A P (r0 + 1) = firstMover R A P r0 + nMover R A P r0 :=
      fun hn => h.next r0 (by omega)
    have hfin : ∀ pm1 : ℤ → Mover K, (∀ x, firstMover R A P r0 + nMover R A P r0 ≤ x →
          pm1 x = pm x) → (∀ k : ℕ, k < nm → pm1 k = pm k) →
          (∀ k : ℕ, k < (seg r0).nm → pm1 (nm + k) = pm (firstMover R A P r0 + k)) →
        ∃ pm' nm', compact R A P seg (List.range' (r0 + 1) n) pm1 (nm + (seg r0).nm) =
            some (pm', nm') ∧ nm' ≤ A.max_nm ∧
          (List.range nm').map (fun k : ℕ => pm' k) = (List.range nm).map (fun k : ℕ => pm k) ++
            ((List.range' r0 (n + 1)).map fun r =>
              (List.range (seg r).nm).map fun k : ℕ => pm0 (firstMover R A P r + k)).flatten := by
      intro pm1 h1 h2 h3
      obtain ⟨pm', nm', e1, e2, e3⟩ := ih (r0 + 1) (by omega) pm1 (nm + (seg r0).nm)
        (fun hn => by rw [hnext hn]; push_cast; omega) (by omega)
        (fun hn x hx => by
          rw [hnext hn] at hx
          rw [h1 x hx, hpm x (by omega)])
      refine ⟨pm', nm', e1, e2, ?_⟩
      rw [e3, List.range'_succ, List.map_cons, List.flatten_cons, ← List.append_assoc]
      congr 1
      rw [range_map_append]
      congr 1
      · apply List.map_congr_left
        intro k hk
        exact h2 k (List.mem_range.mp hk)
      · apply List.map_congr_left
        intro k hk
        rw [h3 k (List.mem_range.mp hk), hpm _ (by omega)]
    rw [List.range'_succ]
    simp only [compact, h.share r0 hr0]
    by_cases hne : (nm : ℤ) ≠ firstMover R A P r0
    · rw [if_pos hne]
      have hb : ¬ (0 < (seg r0).nm ∧ ((nm : ℤ) < 0 ∨ firstMover R A P r0 < 0 ∨
          (A.max_nm : ℤ) < nm + (seg r0).nm ∨
          (A.max_nm : ℤ) < firstMover R A P r0 + (seg r0).nm)) := by omega
      simp only [moveMem, if_neg hb]
      have := hfin (fun x => if (nm : ℤ) ≤ x ∧ x < nm + (seg r0).nm then
        pm (firstMover R A P r0 + (x - nm)) else pm x) ?_ ?_ ?_
      · rw [List.range'_succ] at this; exact this
      · intro x hx; rw [if_neg (by omega)]
      · intro k hk; rw [if_neg (by omega)]
      · intro k hk; rw [if_pos (by omega)]; congr 1; omega
    · rw [if_neg hne]
      push Not at hne
      have := hfin pm (fun _ _ => rfl) (fun _ _ => rfl) (fun k _ => by rw [hne])
      rw [List.range'_succ] at this; exact this

end Verif.AdvanceP
