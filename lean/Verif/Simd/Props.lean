import Verif.Simd.Steps
import Verif.Simd.Refine
import Verif.AdvanceP.Instances

/-!
# Vector builds of `advance_p` do what the scalar build does
-/
namespace Verif.Simd

open MoveP Boris Grid AdvanceP Distribute Deposit SfInterface

variable {K : Type} [Field K] [LinearOrder K] [IsStrictOrderedRing K]

/-! ## Steps with labels -/

/-- The steps of the pipelines of a vector build. -/
inductive Lbl
  | init (r : ℕ)
  | blk (r : ℕ) (i : ℤ)
  | one (r : ℕ) (i : ℤ)

/-- The particles of a step. -/
def Lbl.items (W : Width) : Lbl → List ℤ
  | .init _ => []
  | .blk _ i => blockItems W i
  | .one _ i => [i]

/-- The step of the vector build. -/
def Lbl.big (W : Width) (E : V4Env K) (R : Rounding) (A : Args K) (P : ℕ) : Lbl → Mem K → Mem K
  | .init r => initStep r
  | .blk r i => blockStep W E A (accBase A.g P r) (firstMover R A P r) (nMover R A P r) r i
  | .one r i => hostStep E A (accBase A.g P r) (firstMover R A P r) (nMover R A P r) r i

/-- The steps of the scalar build. -/
def Lbl.small (W : Width) (R : Rounding) (A : Args K) (P : ℕ) : Lbl → List (Mem K → Mem K)
  | .init r => [initStep r]
  | .blk r i => (blockItems W i).map
      (pushStep A (accBase A.g P r) (firstMover R A P r) (nMover R A P r) r)
  | .one r i => [pushStep A (accBase A.g P r) (firstMover R A P r) (nMover R A P r) r i]

/-- The labels of pipeline `r`. -/
def labels (W : Width) (R : Rounding) (A : Args K) (P r : ℕ) : List Lbl :=
  .init r :: if r = P then (itemsOf R A P r).map (.one r)
    else (blockStarts W (firstPart R A P r) (firstPart R A P (r + 1) - firstPart R A P r)).map (.blk r)

lemma hostStep_eq (E : V4Env K) (hE : E.Exact) (A : Args K) (ab pb cap : ℤ) (r : ℕ) (i : ℤ)
    (m : Mem K) (hf : Fits E A (m.part i)) :
    hostStep E A ab pb cap r i m = pushStep A ab pb cap r i m := by
  rw [← mv_st_push E hE A ab pb cap r i m hf]
  have hi := pushOk_range hf.1
  unfold hostStep
  rw [if_neg (by omega)]
  have hb : inBounds (fun k => (m.part i).d k + normDisp A (pushU A.rt A.qdt_2mc (A.f0 (m.part i).i)
      (m.part i).d (m.part i).u) k + normDisp A (pushU A.rt A.qdt_2mc (A.f0 (m.part i).i)
      (m.part i).d (m.part i).u) k) = stays A (m.part i) := rfl
  simp only [hb, mvS]
  cases hs : stays A (m.part i)
  · simp only [Bool.false_eq_true, if_false]
    have e : stS A ab (i, m.part i) m = .mk (put m.part i { m.part i with u := newU A (m.part i) })
        m.acc m.mover m.segm := by
      refine mem_ext ?_ ?_ rfl rfl
      · simp [stS, stPart, hs]
      · funext y c; simp [stS, stJ, hs]
    rw [e]
    rfl
  · simp only [if_true]
    refine mem_ext ?_ ?_ rfl rfl
    · simp only [stS, stPart, hs, if_true]; rfl
    · funext y c
      simp only [stS, acc_mk, stJ, hs, if_true, setAcc]
      by_cases h : ab ≤ y ∧ y < ab + nvox A.g
      · rw [if_pos h, accAdd]
        simp only [show ab + (y - ab) = y by ring]
        by_cases h2 : y = ab + (m.part i).i
        · rw [if_pos h2, if_pos (by omega)]; rfl
        · rw [if_neg h2, if_neg (by omega), add_zero]
      · rw [if_neg h, if_neg (by omega), add_zero]

omit [IsStrictOrderedRing K] in
lemma runSeq_part (A : Args K) (ab pb cap : ℤ) (r : ℕ) (l : List ℤ) (j : ℤ) (hj : j ∉ l) :
    ∀ m : Mem K, (runSeq (l.map (pushStep A ab pb cap r)) m).part j = m.part j := by
  induction l with
  | nil => intro m; rfl
  | cons i l ih =>
    intro m
    simp only [List.mem_cons, not_or] at hj
    simp only [List.map_cons, runSeq_cons]
    rw [ih hj.2, pushStep_part A ab pb cap r i j hj.1]

omit [IsStrictOrderedRing K] in
/-- The blocks of a pipeline are its particles. -/
lemma blocks_items (W : Width) (first : ℤ) (n : ℕ) (h : W.lanes ∣ n) :
    (blockStarts W first n).flatMap (blockItems W) = iota first n := by
  have hb : ∀ i, blockItems W i = iota i W.lanes := by
    intro i
    unfold blockItems iota
    rw [← List.map_coe_finRange_eq_range, List.map_map]
    rfl
  obtain ⟨q, rfl⟩ := h
  have hw : 0 < W.lanes := by cases W <;> decide
  have hq : (((W.lanes * q : ℕ) : ℤ) / (W.lanes : ℤ)).toNat = q := by
    rw [Nat.cast_mul, Int.mul_ediv_cancel_left _ (by omega)]
    simp
  unfold blockStarts
  rw [hq]
  clear hq
  induction q with
  | zero => rfl
  | succ q ih =>
    rw [List.range_succ, List.map_append, List.flatMap_append, ih, List.map_singleton,
      List.flatMap_singleton, hb, Nat.mul_succ, ← iota_append]
    push_cast
    rfl

lemma share_cast (R : Rounding) (hR : R.Accurate) (A : Args K) (P r : ℕ) (hP : 0 < P)
    (hP2 : P ≤ 2 ^ 16) (hN : A.np < 2 ^ 31) (hr : r < P) :
    firstPart R A P (r + 1) - firstPart R A P r = (nPart R A P r : ℤ) ∧ 16 ∣ nPart R A P r := by
  have hm := cut_mono R hR (A.np / 16) P r hP hr (by omega) hP2
  have hle : firstPart R A P r ≤ firstPart R A P (r + 1) := by unfold firstPart; omega
  unfold nPart
  rw [if_neg (by omega)]
  constructor
  · omega
  · have : (firstPart R A P (r + 1) - firstPart R A P r).toNat =
        16 * (cut R (A.np / 16) P (r + 1) - cut R (A.np / 16) P r).toNat := by
      unfold firstPart; omega
    rw [this]; exact Dvd.intro _ rfl

lemma labels_items (W : Width) (R : Rounding) (hR : R.Accurate) (A : Args K) (P r : ℕ) (hP : 0 < P)
    (hP2 : P ≤ 2 ^ 16) (hN : A.np < 2 ^ 31) (hr : r ≤ P) :
    (labels W R A P r).flatMap (Lbl.items W) = itemsOf R A P r := by
  unfold labels
  rw [List.flatMap_cons]
  by_cases h : r = P
  · rw [if_pos h, List.flatMap_map]
    simp [Lbl.items]
  · rw [if_neg h, List.flatMap_map]
    obtain ⟨h1, h2⟩ := share_cast R hR A P r hP hP2 hN (by omega)
    rw [h1]
    have hw : W.lanes ∣ 16 := by cases W <;> decide
    exact blocks_items W _ _ (hw.trans h2)

lemma labels_small (W : Width) (R : Rounding) (hR : R.Accurate) (A : Args K) (P r : ℕ) (hP : 0 < P)
    (hP2 : P ≤ 2 ^ 16) (hN : A.np < 2 ^ 31) (hr : r ≤ P) :
    (labels W R A P r).flatMap (Lbl.small W R A P) = initStep r ::
      (itemsOf R A P r).map (pushStep A (accBase A.g P r) (firstMover R A P r) (nMover R A P r) r) := by
  have h := labels_items W R hR A P r hP hP2 hN hr
  unfold labels at h ⊢
  rw [List.flatMap_cons] at h ⊢
  by_cases hrP : r = P
  · rw [if_pos hrP, List.flatMap_map]
    simp [Lbl.small, ← List.map_eq_flatMap]
  · rw [if_neg hrP, List.flatMap_map] at h ⊢
    rw [← h]
    simp only [Lbl.items, Lbl.small, List.nil_append, List.map_flatMap, List.singleton_append]

lemma labels_big (W : Width) (E : V4Env K) (R : Rounding) (hR : R.Accurate) (A : Args K) (P r : ℕ)
    (hP : 0 < P) (hP2 : P ≤ 2 ^ 16) (hM : A.max_nm < 2 ^ 31) (hr : r ≤ P) :
    threadV W E R A P r = some ((labels W R A P r).map (Lbl.big W E R A P)) := by
  have hs := (moverSegs R hR A P hP hP2 hM).share r hr
  have hd : distribute R A.np 16 r P = some (firstPart R A P r, if r = P then ((A.np % 16 : ℕ) : ℤ)
      else firstPart R A P (r + 1) - firstPart R A P r) := by
    have h : ¬ ((16 : ℕ) = 0 ∨ P = 0) := by omega
    simp only [distribute, if_neg h]
    rfl
  have hi := items_eq R A P r hP
  unfold threadV
  rw [hs, hd]
  rw [hd] at hi
  simp only
  unfold labels
  by_cases hrP : r = P
  · rw [if_pos hrP, hi, if_pos hrP]
    simp only [Option.map_some, List.map_cons, List.map_map]
    rfl
  · rw [if_neg hrP, if_neg hrP]
    simp only [if_neg hrP, List.map_cons, List.map_map]
    rfl

/-- **C79.** Every execution of `advance_p` in a vector build (4, 8 or 16 lanes, any number of
pipelines, any interleaving of blocks) is an execution of the scalar `advance_p`: the particles, the
accumulators, the movers and the counts are those of a scalar run.  Hypotheses: `sqrt` is the square
root, no displacement is lost in the shifted denominator of the vector mover, every push stays
inside of the arrays, and no particle sits on the face that the sign of a zero displacement points
to. -/
theorem vector_advance_p (W : Width) (E : V4Env K) (hE : ∀ x, x ≠ 0 → E.den x = x + x)
    (R : Rounding) (hR : R.Accurate) (A : Args K)
    (hrt : ∀ x, 0 ≤ x → 0 ≤ A.rt x ∧ A.rt x * A.rt x = x) (P : ℕ) (hP : 0 < P)
    (hP2 : P ≤ 2 ^ 16) (hN : A.np < 2 ^ 31) (hM : A.max_nm < 2 ^ 31) (m m' : Mem K)
    (hok : ∀ i : ℤ, 0 ≤ i → i < A.np → PushOk A (m.part i))
    (hface : ∀ i : ℤ, 0 ≤ i → i < A.np → ∀ k,
      normDisp A (pushU A.rt A.qdt_2mc (A.f0 (m.part i).i) (m.part i).d (m.part i).u) k = 0 →
      1 ≤ (E.z - (m.part i).d k) / E.den 0)
    (res : Option ((ℤ → Mover K) × ℕ)) (h : AdvanceV W E R A P m m' res) :
    Advance R A P m m' res := by
  obtain ⟨ts, h1, h2, h3⟩ := h
  have hmem : ∀ r ∈ List.range (P + 1), r ≤ P := fun r hr => by
    have := List.mem_range.mp hr; omega
  rw [mapM_some _ _ _ (fun r hr => labels_big W E R hR A P r hP hP2 hM (hmem r hr)),
    Option.some.injEq] at h1
  subst h1
  refine ⟨_, mapM_some _ _ _ fun r hr => thread_eq R A P r hP (hmem r hr)
    (moverSegs R hR A P hP hP2 hM), ?_, h3⟩
  have e1 : (List.range (P + 1)).map (fun r => (labels W R A P r).map (Lbl.big W E R A P)) =
      ((List.range (P + 1)).map (labels W R A P)).map (List.map (Lbl.big W E R A P)) := by
    rw [List.map_map]; rfl
  have e2 : (List.range (P + 1)).map (fun r => initStep r ::
      (itemsOf R A P r).map (pushStep A (accBase A.g P r) (firstMover R A P r) (nMover R A P r) r)) =
      ((List.range (P + 1)).map (labels W R A P)).map (List.flatMap (Lbl.small W R A P)) := by
    rw [List.map_map]
    refine List.map_congr_left fun r hr => ?_
    exact (labels_small W R hR A P r hP hP2 hN (hmem r hr)).symm
  rw [e1] at h2
  rw [e2]
  refine runs_refine (Lbl.big W E R A P) (Lbl.small W R A P)
    (fun ts m => (ts.flatten.flatMap (Lbl.items W)).Nodup ∧
      ∀ i ∈ ts.flatten.flatMap (Lbl.items W), Fits E A (m.part i)) ?_ _ m m' h2 ?_
  · intro pre post s t m ⟨hn, hf⟩
    simp only [List.flatten_append, List.flatten_cons, List.cons_append, List.flatMap_append,
      List.flatMap_cons] at hn hf ⊢
    have hfs : ∀ i ∈ s.items W, Fits E A (m.part i) := fun i hi => hf i (by
      simp only [List.mem_append]; tauto)
    have hdis : ∀ i ∈ s.items W, i ∉ pre.flatten.flatMap (Lbl.items W) ∧
        i ∉ t.flatMap (Lbl.items W) ∧ i ∉ post.flatten.flatMap (Lbl.items W) := by
      intro i hi
      rw [List.nodup_append'] at hn
      obtain ⟨_, n2, n3⟩ := hn
      rw [List.nodup_append'] at n2
      refine ⟨fun hp => n3 hp (List.mem_append_left _ hi), fun hp => n2.2.2 hi (List.mem_append_left _ hp),
        fun hp => n2.2.2 hi (List.mem_append_right _ hp)⟩
    have e : Lbl.big W E R A P s m = runSeq (Lbl.small W R A P s) m := by
      cases s with
      | init r => rfl
      | blk r i => exact blockStep_eq W E hE A hrt _ _ _ r i m hfs
      | one r i => exact hostStep_eq E hE A _ _ _ r i m (hfs i List.mem_cons_self)
    have hkeep : ∀ j, j ∉ s.items W → (Lbl.big W E R A P s m).part j = m.part j := by
      intro j hj
      rw [e]
      cases s with
      | init r => rfl
      | blk r i => exact runSeq_part A _ _ _ r _ j hj m
      | one r i => exact pushStep_part A _ _ _ r i j (fun h => hj (by rw [h]; exact List.mem_cons_self)) m
    refine ⟨e, ?_, ?_⟩
    · exact hn.sublist (List.Sublist.append (List.Sublist.refl _) (List.sublist_append_right _ _))
    · intro j hj
      have hjs : j ∉ s.items W := by
        intro hjs
        obtain ⟨d1, d2, d3⟩ := hdis j hjs
        simp only [List.mem_append] at hj
        tauto
      rw [hkeep j hjs]
      refine hf j ?_
      simp only [List.mem_append] at hj ⊢
      tauto
  · have hfl : (((List.range (P + 1)).map (labels W R A P)).flatten).flatMap (Lbl.items W) =
        upTo A.np := by
      rw [← items_flatten R hR A P hP hP2 hN, List.flatMap_def, List.map_flatten,
        List.flatten_flatten, List.map_map, List.map_map]
      congr 1
      exact List.map_congr_left fun r hr => labels_items W R hR A P r hP hP2 hN (hmem r hr)
    simp only [hfl]
    constructor
    · unfold upTo
      exact List.Nodup.map (fun a b h => by simpa using h) List.nodup_range
    · intro i hi
      simp only [upTo, List.mem_map, List.mem_range] at hi
      obtain ⟨a, ha, rfl⟩ := hi
      exact ⟨hok _ (by omega) (by omega), fun _ k hk => hface _ (by omega) (by omega) k hk⟩

end Verif.Simd
