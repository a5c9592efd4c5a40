import Verif.Simd.Block
import Verif.AdvanceP.Props

/-!
# A block of a vector pipeline against the scalar loop
-/
namespace Verif.Simd

open MoveP Boris Grid AdvanceP

section
variable {K : Type*} [Field K] [LinearOrder K]

omit [LinearOrder K] in
lemma doIncrs_acc (S : ℕ) (b : Accum K) (l : List (Incr K)) : ∀ a : Accum K,
    doIncrs S l (addAcc a b) = (doIncrs S l a).map fun x => addAcc x b := by
  induction l with
  | nil => intro a; rfl
  | cons x l ih =>
    intro a
    unfold doIncrs at ih ⊢
    simp only [List.foldlM_cons, doIncr]
    by_cases h : x.off + x.vals.length ≤ S
    · simp only [if_pos h, Option.bind_eq_bind, Option.bind_some]
      rw [← ih]
      congr 1
      funext v k
      simp only [addAcc]
      by_cases hv : v = x.v
      · simp only [if_pos hv]; ring
      · simp only [if_neg hv]
    · simp only [if_neg h, Option.bind_eq_bind, Option.bind_none, Option.map_none]

lemma passV_acc (E : V4Env K) (g : LGrid) (q : K) (p : MoveP.Part K) (disp : Fin 3 → K)
    (a b : Accum K) : passV E g q ⟨p, disp, addAcc a b⟩ =
      (passV E g q ⟨p, disp, a⟩).map fun r => (r.1, { r.2 with a := addAcc r.2.a b }) := by
  unfold passV
  split
  · rfl
  · simp only [doIncrs_acc]
    generalize doIncrs 12 _ a = o
    cases o with
    | none => rfl
    | some a' =>
      simp only [Option.map_some]
      split
      · rfl
      · split_ifs <;> rfl

lemma loopV_acc (E : V4Env K) (g : LGrid) (q : K) (b : Accum K) (fuel : ℕ) :
    ∀ (p : MoveP.Part K) (disp : Fin 3 → K) (a : Accum K),
      loopV E g q fuel ⟨p, disp, addAcc a b⟩ =
      (loopV E g q fuel ⟨p, disp, a⟩).map fun r => (r.1, { r.2 with a := addAcc r.2.a b }) := by
  induction fuel with
  | zero => intros; rfl
  | succ fuel ih =>
    intro p disp a
    simp only [loopV, passV_acc]
    cases h : passV E g q ⟨p, disp, a⟩ with
    | none => rfl
    | some r =>
      obtain ⟨n, s⟩ := r
      cases n
      · rfl
      · exact ih s.p s.disp s.a
      · rfl

end

variable {K : Type} [Field K] [LinearOrder K] [IsStrictOrderedRing K]

/-- What the vector pipeline needs of a particle to treat it as the scalar one does: its push stays
inside of the arrays, and if it leaves its cell, it is not on a face towards which it has no
displacement. -/
def Fits (E : V4Env K) (A : Args K) (p : MoveP.Part K) : Prop :=
  PushOk A p ∧ (stays A p = false → NotOnFace E p.d (newS A p))

omit [IsStrictOrderedRing K] in
lemma pushOk_range {A : Args K} {p : MoveP.Part K} (h : PushOk A p) : 0 ≤ p.i ∧ p.i < nvox A.g := by
  obtain ⟨p', left, a', h⟩ := h
  by_contra hc
  rw [pushOne, if_pos (by omega)] at h
  cases h

/-- A valid move does not fail, whatever the accumulators. -/
lemma pushOk_moves {A : Args K} {p : MoveP.Part K} (h : PushOk A p) (hs : stays A p = false)
    (a : Accum K) : moveP A.g A.qsp A.fuel ⟨{ p with u := newU A p }, newS A p, a⟩ ≠ none := by
  have hr := pushOk_range h
  obtain ⟨p', left, a', h⟩ := h
  intro hn
  have h2 := pushOne_acc A p (fun _ _ => 0) a
  have e : addAcc (fun _ _ => 0) a = a := by funext v k; simp [addAcc]
  rw [h, e] at h2
  unfold pushOne at h2
  rw [if_neg (by omega)] at h2
  have hb : inBounds (fun k => p.d k + normDisp A (pushU A.rt A.qdt_2mc (A.f0 p.i) p.d p.u) k +
      normDisp A (pushU A.rt A.qdt_2mc (A.f0 p.i) p.d p.u) k) = stays A p := rfl
  simp only [hb, hs, Bool.false_eq_true, if_false] at h2
  unfold newS newU at hn
  rw [hn] at h2
  cases h2

/-- The store and in-cell deposition of particle `j`, whose data were `p`. -/
def stS (A : Args K) (ab : ℤ) (x : ℤ × MoveP.Part K) (m : Mem K) : Mem K :=
  .mk (put m.part x.1 (stPart A x.2))
    (fun y c => m.acc y c + if y = ab + x.2.i then stJ A x.2 c else 0) m.mover m.segm

/-- The move of particle `j`, if it leaves its cell. -/
def mvS (E : V4Env K) (A : Args K) (ab pb cap : ℤ) (r : ℕ) (x : ℤ × MoveP.Part K) (m : Mem K) :
    Mem K :=
  if stays A x.2 then m else moveLane E A ab pb cap r x.1 (newS A x.2) m

omit [Field K] [LinearOrder K] [IsStrictOrderedRing K] in
lemma mem_ext {m m' : Mem K} (h1 : m.part = m'.part) (h2 : m.acc = m'.acc) (h3 : m.mover = m'.mover)
    (h4 : m.segm = m'.segm) : m = m' := by
  funext x
  cases x
  exacts [congrFun h1 _, congrFun h2 _, congrFun h3 _, congrFun h4 _]

omit [IsStrictOrderedRing K] in
lemma setAcc_add (g : LGrid) (ab : ℤ) (v : ℤ) (hv : 0 ≤ v ∧ v < nvox g) (a : Accum K)
    (acc : ℤ → Fin 12 → K) (J : Fin 12 → K) :
    setAcc g ab (addAcc a fun y c => if y = v then J c else 0)
      (fun y c => acc y c + if y = ab + v then J c else 0) =
    fun y c => setAcc g ab a acc y c + if y = ab + v then J c else 0 := by
  funext y c
  unfold setAcc addAcc
  by_cases h : ab ≤ y ∧ y < ab + nvox g
  · simp only [if_pos h]
    congr 1
    exact if_congr (by omega) rfl rfl
  · simp only [if_neg h]

omit [IsStrictOrderedRing K] in
lemma put_comm {β : Type*} (m : ℤ → β) {i j : ℤ} (h : i ≠ j) (a b : β) :
    put (put m i a) j b = put (put m j b) i a := by
  funext x
  unfold put
  by_cases h1 : x = j
  · subst h1; rw [if_pos rfl, if_neg (Ne.symm h), if_pos rfl]
  · by_cases h2 : x = i
    · subst h2; rw [if_neg h1, if_pos rfl, if_pos rfl]
    · simp only [if_neg h1, if_neg h2]

omit [IsStrictOrderedRing K] in
/-- The move of a particle commutes with the store and deposition of another. -/
lemma mv_st (E : V4Env K) (A : Args K) (ab pb cap : ℤ) (r : ℕ) (x y : ℤ × MoveP.Part K)
    (hne : x.1 ≠ y.1) (hy : 0 ≤ y.2.i ∧ y.2.i < nvox A.g) (m : Mem K) :
    mvS E A ab pb cap r x (stS A ab y m) = stS A ab y (mvS E A ab pb cap r x m) := by
  unfold mvS
  by_cases hs : stays A x.2
  · rw [if_pos hs, if_pos hs]
  rw [if_neg hs, if_neg hs]
  unfold moveLane
  have e1 : (stS A ab y m).part x.1 = m.part x.1 := by simp [stS, put, hne]
  have e2 : (fun v => (stS A ab y m).acc (ab + v)) =
      addAcc (fun v => m.acc (ab + v)) (fun z c => if z = y.2.i then stJ A y.2 c else 0) := by
    funext v c
    simp only [stS, acc_mk, addAcc]
    congr 1
    exact if_congr (by omega) rfl rfl
  have e3 : (stS A ab y m).segm = m.segm := rfl
  have e4 : (stS A ab y m).mover = m.mover := rfl
  have e5 : (stS A ab y m).acc = fun z c => m.acc z c + if z = ab + y.2.i then stJ A y.2 c else 0 :=
    rfl
  have e6 : (stS A ab y m).part = put m.part y.1 (stPart A y.2) := rfl
  rw [e1, e2, e3]
  unfold movePV
  simp only
  rw [loopV_acc]
  cases hl : loopV E A.g (A.qsp * (m.part x.1).w) A.fuel ⟨m.part x.1, newS A x.2, fun v => m.acc (ab + v)⟩ with
  | none => rfl
  | some o =>
    obtain ⟨b, s'⟩ := o
    simp only [Option.map_some]
    cases b
    · simp only
      rw [e4, e5, e6, setAcc_add _ _ _ hy, put_comm _ (Ne.symm hne)]
      rfl
    · simp only
      by_cases hc : ((m.segm r).nm : ℤ) < cap
      · rw [if_pos hc, if_pos hc, e4, e5, e6, setAcc_add _ _ _ hy, put_comm _ (Ne.symm hne)]
        rfl
      · rw [if_neg hc, if_neg hc, e4, e5, e6, setAcc_add _ _ _ hy, put_comm _ (Ne.symm hne)]
        rfl

omit [IsStrictOrderedRing K] in
lemma mv_foldl_st (E : V4Env K) (A : Args K) (ab pb cap : ℤ) (r : ℕ) (x : ℤ × MoveP.Part K)
    (l : List (ℤ × MoveP.Part K)) (hl : ∀ y ∈ l, x.1 ≠ y.1 ∧ 0 ≤ y.2.i ∧ y.2.i < nvox A.g) :
    ∀ m : Mem K, mvS E A ab pb cap r x (l.foldl (fun m y => stS A ab y m) m) =
      l.foldl (fun m y => stS A ab y m) (mvS E A ab pb cap r x m) := by
  induction l with
  | nil => intro m; rfl
  | cons y l ih =>
    intro m
    obtain ⟨h1, h2⟩ := hl y List.mem_cons_self
    simp only [List.foldl_cons]
    rw [ih (fun z hz => hl z (List.mem_cons_of_mem _ hz)), mv_st E A ab pb cap r x y h1 h2]

omit [IsStrictOrderedRing K] in
/-- All stores, then all moves: the same as store and move of one particle after the other. -/
lemma stores_moves (E : V4Env K) (A : Args K) (ab pb cap : ℤ) (r : ℕ)
    (l : List (ℤ × MoveP.Part K)) (hn : (l.map Prod.fst).Nodup)
    (hl : ∀ y ∈ l, 0 ≤ y.2.i ∧ y.2.i < nvox A.g) : ∀ m : Mem K,
    l.foldl (fun m y => mvS E A ab pb cap r y m) (l.foldl (fun m y => stS A ab y m) m) =
      l.foldl (fun m y => mvS E A ab pb cap r y (stS A ab y m)) m := by
  induction l with
  | nil => intro m; rfl
  | cons x l ih =>
    intro m
    simp only [List.map_cons, List.nodup_cons] at hn
    simp only [List.foldl_cons]
    rw [mv_foldl_st E A ab pb cap r x l (fun y hy =>
      ⟨fun h => hn.1 (h ▸ List.mem_map_of_mem hy), hl y (List.mem_cons_of_mem _ hy)⟩)]
    exact ih hn.2 (fun y hy => hl y (List.mem_cons_of_mem _ hy)) _

omit [IsStrictOrderedRing K] in
lemma accAdd_zero (a : Accum K) (v : ℤ) : accAdd a v 0 = a := by
  funext x k; simp [accAdd]

/-- Store and move of one particle is the scalar push. -/
lemma mv_st_push (E : V4Env K) (hE : E.Exact) (A : Args K) (ab pb cap : ℤ) (r : ℕ) (i : ℤ)
    (m : Mem K) (hf : Fits E A (m.part i)) :
    mvS E A ab pb cap r (i, m.part i) (stS A ab (i, m.part i) m) = pushStep A ab pb cap r i m := by
  obtain ⟨hok, hn⟩ := hf
  have hi := pushOk_range hok
  have hr : ¬ ((m.part i).i < 0 ∨ nvox A.g ≤ (m.part i).i) := by omega
  unfold mvS pushStep pushOne
  simp only [if_neg hr]
  have hb : inBounds (fun k => (m.part i).d k + normDisp A (pushU A.rt A.qdt_2mc (A.f0 (m.part i).i)
      (m.part i).d (m.part i).u) k + normDisp A (pushU A.rt A.qdt_2mc (A.f0 (m.part i).i)
      (m.part i).d (m.part i).u) k) = stays A (m.part i) := rfl
  rw [hb]
  cases hs : stays A (m.part i)
  · simp only [Bool.false_eq_true, if_false]
    have e1 : (stS A ab (i, m.part i) m).part i = { m.part i with u := newU A (m.part i) } := by
      simp [stS, put, stPart, hs]
    have e2 : (stS A ab (i, m.part i) m).acc = m.acc := by
      funext y c; simp [stS, stJ, hs]
    have e3 : (stS A ab (i, m.part i) m).segm = m.segm := rfl
    have e4 : (stS A ab (i, m.part i) m).mover = m.mover := rfl
    have e6 : (stS A ab (i, m.part i) m).part = put m.part i (stPart A (m.part i)) := rfl
    have e7 : ∀ q, put (put m.part i (stPart A (m.part i))) i q = put m.part i q := by
      intro q; funext x; unfold put; by_cases h : x = i <;> simp [h]
    unfold moveLane
    rw [e1, e2, e3, movePV_eq E hE _ _ _ _ (hn hs)]
    cases hmv : moveP A.g A.qsp A.fuel ⟨{ m.part i with u := newU A (m.part i) },
        newS A (m.part i), fun v => m.acc (ab + v)⟩ with
    | none => exact absurd hmv (pushOk_moves hok hs _)
    | some o =>
      have hmv' := hmv
      unfold newS newU at hmv'
      obtain ⟨b, s'⟩ := o
      simp only [hmv']
      cases b
      · simp only
        rw [e4, e6, e7]
        rfl
      · simp only
        by_cases hc : ((m.segm r).nm : ℤ) < cap
        · rw [if_pos hc, if_pos hc, e4, e6, e7]; rfl
        · rw [if_neg hc, if_neg hc, e4, e6, e7]; rfl
  · simp only [if_true]
    refine mem_ext ?_ ?_ rfl rfl
    · simp only [stS, stPart, hs, if_true]
      rfl
    · funext y c
      simp only [stS, acc_mk, stJ, hs, if_true]
      by_cases h : ab ≤ y ∧ y < ab + nvox A.g
      · rw [if_pos h, accAdd]
        simp only [show ab + (y - ab) = y by ring]
        by_cases h2 : y = ab + (m.part i).i
        · rw [if_pos h2, if_pos (by omega)]; rfl
        · rw [if_neg h2, if_neg (by omega), add_zero]
      · rw [if_neg h, if_neg (by omega), add_zero]

omit [IsStrictOrderedRing K] in
lemma pushStep_part (A : Args K) (ab pb cap : ℤ) (r : ℕ) (i j : ℤ) (h : j ≠ i) (m : Mem K) :
    (pushStep A ab pb cap r i m).part j = m.part j := by
  unfold pushStep
  simp only
  split
  · rfl
  · split
    · simp [put, h]
    · split_ifs <;> simp [put, h]

/-- A particle after the other, with the data it had in the beginning: the scalar loop. -/
lemma foldl_push (E : V4Env K) (hE : E.Exact) (A : Args K) (ab pb cap : ℤ) (r : ℕ) (l : List ℤ)
    (hn : l.Nodup) : ∀ (m : Mem K) (p : ℤ → MoveP.Part K), (∀ i ∈ l, p i = m.part i) →
    (∀ i ∈ l, Fits E A (m.part i)) →
    (l.map fun i => (i, p i)).foldl (fun m y => mvS E A ab pb cap r y (stS A ab y m)) m =
      runSeq (l.map fun i => pushStep A ab pb cap r i) m := by
  induction l with
  | nil => intros; rfl
  | cons i l ih =>
    intro m p hp hf
    rw [List.nodup_cons] at hn
    simp only [List.map_cons, List.foldl_cons]
    rw [hp i List.mem_cons_self, mv_st_push E hE A ab pb cap r i m (hf i List.mem_cons_self)]
    have hpart : ∀ j ∈ l, (pushStep A ab pb cap r i m).part j = m.part j := fun j hj =>
      pushStep_part A ab pb cap r i j (fun h => hn.1 (h ▸ hj)) m
    rw [ih hn.2 _ p (fun j hj => by rw [hpart j hj]; exact hp j (List.mem_cons_of_mem _ hj))
      (fun j hj => by rw [hpart j hj]; exact hf j (List.mem_cons_of_mem _ hj))]
    rfl

omit [IsStrictOrderedRing K] in
/-- All stores of a block together. -/
lemma foldl_st (A : Args K) (ab : ℤ) (l : List (ℤ × MoveP.Part K)) : ∀ m : Mem K,
    l.foldl (fun m y => stS A ab y m) m =
      .mk (l.foldl (fun p y => put p y.1 (stPart A y.2)) m.part)
        (fun x c => m.acc x c + (l.map fun y => if x = ab + y.2.i then stJ A y.2 c else 0).sum)
        m.mover m.segm := by
  induction l with
  | nil =>
    intro m
    refine mem_ext rfl ?_ rfl rfl
    funext x c; simp
  | cons y l ih =>
    intro m
    rw [List.foldl_cons, ih]
    refine mem_ext rfl ?_ rfl rfl
    funext x c
    simp only [acc_mk, stS, List.map_cons, List.sum_cons]
    ring

/-- The particles of a block. -/
def blockItems (W : Width) (i : ℤ) : List ℤ :=
  (List.finRange W.lanes).map fun k : Fin W.lanes => i + ((k : ℕ) : ℤ)

lemma blockItems_nodup (W : Width) (i : ℤ) : (blockItems W i).Nodup :=
  (List.nodup_finRange _).map fun a b h => by
    have : ((a : ℕ) : ℤ) = ((b : ℕ) : ℤ) := by linarith
    exact Fin.ext (by exact_mod_cast this)

/-- **A block of a vector pipeline does what the scalar loop does on its particles.** -/
theorem blockStep_eq (W : Width) (E : V4Env K) (hE : E.Exact) (A : Args K) (hrt : IsSqrt A.rt)
    (ab pb cap : ℤ) (r : ℕ) (i : ℤ) (m : Mem K) (hf : ∀ j ∈ blockItems W i, Fits E A (m.part j)) :
    blockStep W E A ab pb cap r i m =
      runSeq ((blockItems W i).map fun j => pushStep A ab pb cap r j) m := by
  have hf' : ∀ k : Fin W.lanes, Fits E A (m.part (i + (k : ℕ))) := fun k =>
    hf _ (List.mem_map.mpr ⟨k, List.mem_finRange k, rfl⟩)
  have hi : ∀ k : Fin W.lanes, 0 ≤ (m.part (i + (k : ℕ))).i ∧ (m.part (i + (k : ℕ))).i < nvox A.g :=
    fun k => pushOk_range (hf' k).1
  unfold blockStep
  rw [block_eq W A hrt _ _ hi]
  simp only
  rw [← foldl_push E hE A ab pb cap r _ (blockItems_nodup W i) m m.part (fun _ _ => rfl) hf,
    ← stores_moves E A ab pb cap r _ (by
      rw [List.map_map]; simpa [Function.comp_def] using blockItems_nodup W i)
      (by
        intro y hy
        obtain ⟨j, hj, rfl⟩ := List.mem_map.mp hy
        exact pushOk_range (hf j hj).1), foldl_st]
  simp only [blockItems, List.map_map, List.foldl_map, Function.comp_def]
  have e : setAcc A.g ab (fun v j => m.acc (ab + v) j +
      ∑ l : Fin W.lanes, if v = (m.part (i + (l : ℕ))).i then stJ A (m.part (i + (l : ℕ))) j else 0) m.acc =
      fun x c => m.acc x c + ((List.finRange W.lanes).map fun k : Fin W.lanes =>
        if x = ab + (m.part (i + (k : ℕ))).i then stJ A (m.part (i + (k : ℕ))) c else 0).sum := by
    funext x c
    unfold setAcc
    rw [map_sum_finRange]
    by_cases hx : ab ≤ x ∧ x < ab + nvox A.g
    · rw [if_pos hx]
      simp only [show ab + (x - ab) = x by ring]
      congr 1
      refine Finset.sum_congr rfl fun l _ => if_congr (by omega) rfl rfl
    · rw [if_neg hx, Finset.sum_eq_zero, add_zero]
      intro l _
      rw [if_neg]
      have := hi l
      omega
  rw [e]
  congr 1
  funext m1 k
  unfold mvS
  cases stays A (m.part (i + ((k : ℕ) : ℤ))) <;> rfl

end Verif.Simd
