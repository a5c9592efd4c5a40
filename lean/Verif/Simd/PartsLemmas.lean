import Verif.Simd.PartsModel
import Verif.Simd.Props
import Verif.Hydro.Props
import Verif.EnergyP.Props

/-!
# Lemmas about the vector loops over particles
-/
namespace Verif.Simd

open MoveP Boris Grid Distribute

/-! ## Blocks and shares -/

section
variable {M : Type*}

/-- Coarse steps, each equal to a sequence of small ones. -/
lemma runs_coarse (ts : List (List ((M → M) × List (M → M))))
    (h : ∀ t ∈ ts, ∀ s ∈ t, ∀ m, s.1 m = runSeq s.2 m) (m m' : M)
    (hr : Runs (ts.map (List.map Prod.fst)) m m') : Runs (ts.map (List.flatMap Prod.snd)) m m' := by
  refine runs_refine Prod.fst Prod.snd (fun ts _ => ∀ t ∈ ts, ∀ s ∈ t, ∀ m, s.1 m = runSeq s.2 m)
    ?_ ts m m' hr h
  intro pre post s t m hI
  refine ⟨hI (s :: t) (by simp) s List.mem_cons_self m, ?_⟩
  intro t' ht' s' hs'
  rw [List.mem_append, List.mem_cons] at ht'
  rcases ht' with h1 | rfl | h1
  · exact hI t' (by simp [h1]) s' hs'
  · exact hI (s :: t') (by simp) s' (List.mem_cons_of_mem _ hs')
  · exact hI t' (by simp [h1]) s' hs'

lemma vec_runs (W : Width) (P : ℕ) (first : ℕ → ℤ) (n : ℕ → ℕ) (hn : ∀ r < P, 16 ∣ n r)
    (big : ℕ → ℤ → M → M) (small : ℕ → ℤ → List (M → M))
    (hbig : ∀ r i m, big r i m = runSeq ((blockItems W i).flatMap (small r)) m) (m m' : M)
    (h : Runs ((List.range (P + 1)).map fun r => if r = P then (iota (first r) (n r)).flatMap (small r)
      else (blockStarts W (first r) (n r)).map (big r)) m m') :
    Runs ((List.range (P + 1)).map fun r => (iota (first r) (n r)).flatMap (small r)) m m' := by
  let lab : ℕ → List ((M → M) × List (M → M)) := fun r =>
    if r = P then ((iota (first r) (n r)).flatMap (small r)).map fun f => (f, [f])
    else (blockStarts W (first r) (n r)).map fun i => (big r i, (blockItems W i).flatMap (small r))
  have e1 : ((List.range (P + 1)).map fun r => if r = P then (iota (first r) (n r)).flatMap (small r)
      else (blockStarts W (first r) (n r)).map (big r)) =
      ((List.range (P + 1)).map lab).map (List.map Prod.fst) := by
    rw [List.map_map]
    refine List.map_congr_left fun r _ => ?_
    simp only [Function.comp_apply, lab]
    split
    · rw [List.map_map]; exact (List.map_id _).symm
    · rw [List.map_map]; rfl
  have e2 : ((List.range (P + 1)).map fun r => (iota (first r) (n r)).flatMap (small r)) =
      ((List.range (P + 1)).map lab).map (List.flatMap Prod.snd) := by
    rw [List.map_map]
    refine List.map_congr_left fun r hr => ?_
    simp only [Function.comp_apply, lab]
    split
    · rw [List.flatMap_map]; simp
    · have hw : W.lanes ∣ 16 := by cases W <;> decide
      have := List.mem_range.mp hr
      rw [List.flatMap_map, ← blocks_items W (first r) (n r) (hw.trans (hn r (by omega))), List.flatMap_assoc]
  rw [e1] at h
  rw [e2]
  refine runs_coarse _ ?_ m m' h
  intro t ht s hs m
  obtain ⟨r, _, rfl⟩ := List.mem_map.mp ht
  simp only [lab] at hs
  split at hs
  · obtain ⟨f, _, rfl⟩ := List.mem_map.mp hs
    rfl
  · obtain ⟨i, _, rfl⟩ := List.mem_map.mp hs
    exact hbig r i m

end

/-- The shares of the pipelines; those of the pipelines `0 … P-1` are whole blocks. -/
lemma share_spec (R : Rounding) (hR : R.Accurate) (np P : ℕ) (hN : np < 2 ^ 31) (hP : 0 < P)
    (hP2 : P ≤ 2 ^ 16) : ∃ (first : ℕ → ℤ) (n : ℕ → ℕ),
      (∀ r ≤ P, distribute R np 16 r P = some (first r, (n r : ℤ))) ∧ ∀ r < P, 16 ∣ n r := by
  refine ⟨fun r => (16 : ℕ) * cut R (np / 16) P r, fun r => if r = P then np % 16 else
    16 * (cut R (np / 16) P (r + 1) - cut R (np / 16) P r).toNat, ?_, ?_⟩
  · intro r hr
    have h : ¬ ((16 : ℕ) = 0 ∨ P = 0) := by omega
    simp only [distribute, if_neg h]
    by_cases hrP : r = P
    · simp [hrP]
    · have hm := cut_mono R hR (np / 16) P r hP (by omega) (by omega) hP2
      simp only [if_neg hrP]
      congr 2
      push_cast
      omega
  · intro r hr
    simp only [if_neg (show r ≠ P by omega)]
    exact Dvd.intro _ rfl

lemma items_iota (first : ℤ) (n : ℕ) : items (some (first, (n : ℤ))) = some (iota first n) := by
  simp [items, iota]

/-! ## `center_p` and `uncenter_p` -/

section
variable {K : Type*} [Field K] [LinearOrder K] [IsStrictOrderedRing K]

omit [LinearOrder K] [IsStrictOrderedRing K] in
/-- Storing a block that agrees lane by lane with `φ` is updating its particles one by one. -/
lemma storeU_eq (W : Width) (i : ℤ) (φ : MoveP.Part K → MoveP.Part K)
    (u : Vec W.lanes K × Vec W.lanes K × Vec W.lanes K) (p : ℤ → MoveP.Part K)
    (h : ∀ k : Fin W.lanes, φ (p (i + ((k : ℕ) : ℤ))) = ⟨(p (i + ((k : ℕ) : ℤ))).d, (p (i + ((k : ℕ) : ℤ))).i,
      ![u.1 k, u.2.1 k, u.2.2 k], (p (i + ((k : ℕ) : ℤ))).w⟩) :
    storeU W i u p = runSeq ((blockItems W i).flatMap (hostUpdate φ)) p := by
  unfold storeU blockItems
  rw [List.flatMap_map]
  simp only [hostUpdate, ← List.map_eq_flatMap, ← h]
  have key : ∀ (l : List (Fin W.lanes)) (hl : l.Nodup) (m : ℤ → MoveP.Part K)
      (_ : ∀ k ∈ l, m (i + ((k : ℕ) : ℤ)) = p (i + ((k : ℕ) : ℤ))),
      l.foldl (fun m (k : Fin W.lanes) => put m (i + ((k : ℕ) : ℤ)) (φ (p (i + ((k : ℕ) : ℤ))))) m =
      runSeq (l.map fun (k : Fin W.lanes) (m : ℤ → MoveP.Part K) =>
        put m (i + ((k : ℕ) : ℤ)) (φ (m (i + ((k : ℕ) : ℤ))))) m := by
    intro l
    induction l with
    | nil => intro _ m _; rfl
    | cons k l ih =>
      intro hl m hm
      rw [List.nodup_cons] at hl
      rw [List.foldl_cons, List.map_cons, runSeq_cons, hm k List.mem_cons_self]
      refine ih hl.2 _ fun k' hk' => ?_
      rw [put_ne _ _ (fun e => hl.1 ?_), hm k' (List.mem_cons_of_mem _ hk')]
      have : k' = k := Fin.ext (by omega)
      rwa [← this]
  exact key _ (List.nodup_finRange _) p fun _ _ => rfl

lemma centerBlock_eq (W : Width) {rt : K → K} (hrt : IsSqrt rt) (qdt : K) (f0 : ℤ → Interp K) (i : ℤ)
    (p : ℤ → MoveP.Part K) :
    centerBlock W rt qdt f0 i p = runSeq ((blockItems W i).flatMap (hostUpdate (centerPart rt qdt f0))) p := by
  refine storeU_eq W i _ _ p fun k => ?_
  have hf := fieldsV_eq qdt f0 (fun k : Fin W.lanes => (p (i + ((k : ℕ) : ℤ))).i) (fun k => (p (i + ((k : ℕ) : ℤ))).d 0)
    (fun k => (p (i + ((k : ℕ) : ℤ))).d 1) (fun k => (p (i + ((k : ℕ) : ℤ))).d 2)
    (fun k => (p (i + ((k : ℕ) : ℤ))).d) (fun _ => ⟨rfl, rfl, rfl⟩)
  obtain ⟨r0, r1, r2⟩ := rotateV_eq hrt (1 / 2 * qdt) _ _ _ _ _ _
    (fun k j => (p (i + ((k : ℕ) : ℤ))).u j + halfE qdt (f0 (p (i + ((k : ℕ) : ℤ))).i) (p (i + ((k : ℕ) : ℤ))).d j)
    (fun k => interpB (f0 (p (i + ((k : ℕ) : ℤ))).i) (p (i + ((k : ℕ) : ℤ))).d)
    (fun k => ⟨by rw [← (hf k).1.1], by rw [← (hf k).1.2.1], by rw [← (hf k).1.2.2]⟩)
    (fun k => (hf k).2) k
  refine (congrArg (fun u => (⟨_, _, u, _⟩ : MoveP.Part K)) ?_).symm
  exact vec_of3 _ r0 r1 r2

lemma uncenterBlock_eq (W : Width) {rt : K → K} (hrt : IsSqrt rt) (qdt : K) (f0 : ℤ → Interp K) (i : ℤ)
    (p : ℤ → MoveP.Part K) :
    uncenterBlock W rt qdt f0 i p =
      runSeq ((blockItems W i).flatMap (hostUpdate (uncenterPart rt qdt f0))) p := by
  refine storeU_eq W i _ _ p fun k => ?_
  have hf := fieldsV_eq (-qdt) f0 (fun k : Fin W.lanes => (p (i + ((k : ℕ) : ℤ))).i) (fun k => (p (i + ((k : ℕ) : ℤ))).d 0)
    (fun k => (p (i + ((k : ℕ) : ℤ))).d 1) (fun k => (p (i + ((k : ℕ) : ℤ))).d 2)
    (fun k => (p (i + ((k : ℕ) : ℤ))).d) (fun _ => ⟨rfl, rfl, rfl⟩)
  obtain ⟨r0, r1, r2⟩ := rotateV_eq hrt (-(1 / 2) * qdt) (fun k : Fin W.lanes => (p (i + ((k : ℕ) : ℤ))).u 0)
    (fun k => (p (i + ((k : ℕ) : ℤ))).u 1) (fun k => (p (i + ((k : ℕ) : ℤ))).u 2) _ _ _
    (fun k => (p (i + ((k : ℕ) : ℤ))).u)
    (fun k => interpB (f0 (p (i + ((k : ℕ) : ℤ))).i) (p (i + ((k : ℕ) : ℤ))).d)
    (fun k => ⟨rfl, rfl, rfl⟩) (fun k => (hf k).2) k
  refine (congrArg (fun u => (⟨_, _, u, _⟩ : MoveP.Part K)) ?_).symm
  refine vec_of3 _ ?_ ?_ ?_
  · exact congrArg₂ (· + ·) r0 (hf k).1.1
  · exact congrArg₂ (· + ·) r1 (hf k).1.2.1
  · exact congrArg₂ (· + ·) r2 (hf k).1.2.2

end

/-! ## `energy_p` -/

section
variable {K : Type*} [Field K]

lemma energyV_eq {w : ℕ} (rt : K → K) (msp qdt : K) (f0 : ℤ → Interp K) (ps : Vec w (MoveP.Part K))
    (k : Fin w) : energyV rt msp qdt f0 ps k = EnergyP.energyOne rt msp qdt f0 (ps k) := by
  have w0 : ∀ f : Interp K, word f 0 = f.ex := fun _ => rfl
  have w1 : ∀ f : Interp K, word f 1 = f.dexdy := fun _ => rfl
  have w2 : ∀ f : Interp K, word f 2 = f.dexdz := fun _ => rfl
  have w3 : ∀ f : Interp K, word f 3 = f.d2exdydz := fun _ => rfl
  have w4 : ∀ f : Interp K, word f 4 = f.ey := fun _ => rfl
  have w5 : ∀ f : Interp K, word f 5 = f.deydz := fun _ => rfl
  have w6 : ∀ f : Interp K, word f 6 = f.deydx := fun _ => rfl
  have w7 : ∀ f : Interp K, word f 7 = f.d2eydzdx := fun _ => rfl
  have w8 : ∀ f : Interp K, word f 8 = f.ez := fun _ => rfl
  have w9 : ∀ f : Interp K, word f 9 = f.dezdx := fun _ => rfl
  have w10 : ∀ f : Interp K, word f 10 = f.dezdy := fun _ => rfl
  have w11 : ∀ f : Interp K, word f 11 = f.d2ezdxdy := fun _ => rfl
  simp only [energyV, EnergyP.energyOne, halfE, gather, fma, splat, Pi.mul_apply, Pi.add_apply, Pi.div_apply,
    Matrix.cons_val_zero, Matrix.cons_val_one, Matrix.cons_val,
    w0, w1, w2, w3, w4, w5, w6, w7, w8, w9, w10, w11]
  have e : ∀ a b c a' b' c' : K, a = a' → b = b' → c = c' →
      a * a + (b * b + c * c) = a' * a' + b' * b' + c' * c' := by rintro a b c _ _ _ rfl rfl rfl; ring
  congr 1
  have := e _ _ _ _ _ _
    (show ((((ps k).d 1 * (f0 (ps k).i).d2exdydz + (f0 (ps k).i).dexdz) * (ps k).d 2 +
      ((ps k).d 1 * (f0 (ps k).i).dexdy + (f0 (ps k).i).ex)) * qdt + (ps k).u 0 : K) = (ps k).u 0 + qdt *
      ((f0 (ps k).i).ex + (ps k).d 1 * (f0 (ps k).i).dexdy +
        (ps k).d 2 * ((f0 (ps k).i).dexdz + (ps k).d 1 * (f0 (ps k).i).d2exdydz)) by ring)
    (show ((((ps k).d 2 * (f0 (ps k).i).d2eydzdx + (f0 (ps k).i).deydx) * (ps k).d 0 +
      ((ps k).d 2 * (f0 (ps k).i).deydz + (f0 (ps k).i).ey)) * qdt + (ps k).u 1 : K) = (ps k).u 1 + qdt *
      ((f0 (ps k).i).ey + (ps k).d 2 * (f0 (ps k).i).deydz +
        (ps k).d 0 * ((f0 (ps k).i).deydx + (ps k).d 2 * (f0 (ps k).i).d2eydzdx)) by ring)
    (show ((((ps k).d 0 * (f0 (ps k).i).d2ezdxdy + (f0 (ps k).i).dezdy) * (ps k).d 1 +
      ((ps k).d 0 * (f0 (ps k).i).dezdx + (f0 (ps k).i).ez)) * qdt + (ps k).u 2 : K) = (ps k).u 2 + qdt *
      ((f0 (ps k).i).ez + (ps k).d 0 * (f0 (ps k).i).dezdx +
        (ps k).d 1 * ((f0 (ps k).i).dezdy + (ps k).d 0 * (f0 (ps k).i).d2ezdxdy)) by ring)
  rw [this]

lemma energy_lanes (W : Width) (e : ℤ → K) (E : ℤ → Vec W.lanes K)
    (hE : ∀ i k, E i k = e (i + ((k : ℕ) : ℤ))) (l : List ℤ) :
    (List.finRange W.lanes).foldl (fun s k => s + (l.foldl (fun en i => en + E i) 0 : Vec W.lanes K) k) 0 =
      ((l.flatMap (blockItems W)).map e).sum := by
  have h1 : ∀ (l : List ℤ) (a : Vec W.lanes K) (k : Fin W.lanes),
      (l.foldl (fun en i => en + E i) a : Vec W.lanes K) k = a k + (l.map fun i => E i k).sum := by
    intro l
    induction l with
    | nil => intro a k; simp
    | cons i l ih =>
      intro a k
      rw [List.foldl_cons, ih]
      simp [add_assoc]
  have h2 : ∀ (l : List (Fin W.lanes)) (f : Fin W.lanes → K) (a : K),
      l.foldl (fun s k => s + f k) a = a + (l.map f).sum := by
    intro l f
    induction l with
    | nil => intro a; simp
    | cons x l ih => intro a; simp [ih, add_assoc]
  rw [h2, zero_add]
  simp only [h1, Pi.zero_apply, zero_add, map_sum_finRange]
  induction l with
  | nil => simp
  | cons i l ih =>
    simp only [List.map_cons, List.sum_cons, Finset.sum_add_distrib, List.flatMap_cons, List.map_append,
      List.sum_append, ih]
    congr 1
    unfold blockItems
    rw [List.map_map, map_sum_finRange]
    exact Finset.sum_congr rfl fun k _ => hE i k

end

/-! ## `accumulate_hydro_p` -/

section
variable {K : Type*} [Field K]

lemma doIncrsH_eq (l : List (Incr K)) (hl : ∀ x ∈ l, x.off + x.vals.length ≤ 16) :
    ∀ h : ℤ → Fin 14 → K, l.foldlM doIncrH h =
      some fun v k => h v k + (l.map fun x => if v = x.v then contrib x (k : ℕ) else 0).sum := by
  induction l with
  | nil => intro a; simp
  | cons x l ih =>
    intro a
    have ih' := ih (fun y hy => hl y (List.mem_cons_of_mem _ hy))
    rw [List.foldlM_cons]
    simp only [doIncrH, if_pos (hl x List.mem_cons_self), Option.bind_eq_bind, Option.bind_some]
    refine (ih' (fun v k => if v = x.v then a v k + contrib x (k : ℕ) else a v k)).trans ?_
    congr 1
    funext v k
    simp only [List.map_cons, List.sum_cons, contrib]
    by_cases h : v = x.v
    · simp only [if_pos h]; ring
    · simp only [if_neg h]; ring

lemma incrementsH_len (W : Width) (ii : Vec W.lanes ℤ) (v : Fin 16 → Vec W.lanes K) :
    ∀ x ∈ incrementsH W ii v, x.off + x.vals.length ≤ 16 := by
  intro x hx
  cases W
  · simp only [incrementsH, List.mem_append, List.mem_map] at hx
    rcases hx with ⟨l, _, rfl⟩ | ⟨l, _, rfl⟩ | ⟨l, _, rfl⟩ | ⟨l, _, rfl⟩ <;> simp
  · simp only [incrementsH, List.mem_append, List.mem_map] at hx
    rcases hx with ⟨l, _, rfl⟩ | ⟨l, _, rfl⟩ <;> simp
  · simp only [incrementsH, List.mem_map] at hx
    rcases hx with ⟨l, _, rfl⟩
    simp

lemma incrementsH_mem (W : Width) (ii : Vec W.lanes ℤ) (v : Fin 16 → Vec W.lanes K) (y : ℤ) :
    (∃ x ∈ incrementsH W ii v, x.v = y) ↔ ∃ k, ii k = y := by
  cases W
  · simp only [incrementsH, List.mem_append, List.mem_map, List.mem_finRange, true_and]
    constructor
    · rintro ⟨x, ⟨l, rfl⟩ | ⟨l, rfl⟩ | ⟨l, rfl⟩ | ⟨l, rfl⟩, h⟩ <;> exact ⟨l, h⟩
    · rintro ⟨k, h⟩; exact ⟨_, Or.inl ⟨k, rfl⟩, h⟩
  · simp only [incrementsH, List.mem_append, List.mem_map, List.mem_finRange, true_and]
    constructor
    · rintro ⟨x, ⟨l, rfl⟩ | ⟨l, rfl⟩, h⟩ <;> exact ⟨l, h⟩
    · rintro ⟨k, h⟩; exact ⟨_, Or.inl ⟨k, rfl⟩, h⟩
  · simp only [incrementsH, List.mem_map, List.mem_finRange, true_and]
    constructor
    · rintro ⟨x, ⟨l, rfl⟩, h⟩; exact ⟨l, h⟩
    · rintro ⟨k, h⟩; exact ⟨_, ⟨k, rfl⟩, h⟩

lemma pickH4 (v : Fin 16 → Vec 4 K) (l : Fin 4) (o : ℕ) (f : Fin 4 → Vec 4 K) (k : ℕ) (hk : k < 16)
    (h : o ≤ k ∧ k - o < 4) (hf : ∀ j : Fin 4, ∀ h : o + j < 16, f j = v ⟨o + j, h⟩) :
    transpose f l ⟨k - o, h.2⟩ = v ⟨k, hk⟩ l := by
  rw [transpose_apply, hf ⟨k - o, h.2⟩ (by simp only; omega)]
  have : (⟨o + (k - o), by omega⟩ : Fin 16) = ⟨k, hk⟩ := Fin.ext (by simp only; omega)
  exact congrFun (congrArg v this) l

lemma pickH8 (v : Fin 16 → Vec 8 K) (l : Fin 8) (o : ℕ) (f : Fin 8 → Vec 8 K) (k : ℕ) (hk : k < 16)
    (h : o ≤ k ∧ k - o < 8) (hf : ∀ j : Fin 8, ∀ h : o + j < 16, f j = v ⟨o + j, h⟩) :
    transpose f l ⟨k - o, h.2⟩ = v ⟨k, hk⟩ l := by
  rw [transpose_apply, hf ⟨k - o, h.2⟩ (by simp only; omega)]
  have : (⟨o + (k - o), by omega⟩ : Fin 16) = ⟨k, hk⟩ := Fin.ext (by simp only; omega)
  exact congrFun (congrArg v this) l

lemma fin4_cases {P : Fin 4 → Prop} (h0 : P 0) (h1 : P 1) (h2 : P 2) (h3 : P 3) : ∀ j, P j := by
  intro j; fin_cases j; exacts [h0, h1, h2, h3]

lemma fin8_cases {P : Fin 8 → Prop} (h0 : P 0) (h1 : P 1) (h2 : P 2) (h3 : P 3) (h4 : P 4) (h5 : P 5)
    (h6 : P 6) (h7 : P 7) : ∀ j, P j := by
  intro j; fin_cases j; exacts [h0, h1, h2, h3, h4, h5, h6, h7]

/-- All increments of one `ACCUM_HYDRO` together add the fourteen amounts of every lane to the entry of the
lane. -/
lemma incrementsH_eq (W : Width) (ii : Vec W.lanes ℤ) (v : Fin 16 → Vec W.lanes K) (y : ℤ) (q : Fin 14) :
    ((incrementsH W ii v).map fun x => if y = x.v then contrib x (q : ℕ) else 0).sum =
      ∑ l, if y = ii l then v ⟨q, by omega⟩ l else 0 := by
  cases W
  · simp only [incrementsH]
    rw [List.map_append, List.map_append, List.map_append, List.map_map, List.map_map, List.map_map,
      List.map_map, List.sum_append, List.sum_append, List.sum_append, map_sum_finRange, map_sum_finRange,
      map_sum_finRange, map_sum_finRange, ← Finset.sum_add_distrib, ← Finset.sum_add_distrib,
      ← Finset.sum_add_distrib]
    refine Finset.sum_congr rfl fun l _ => ?_
    dsimp only [Function.comp_apply]
    rw [contrib_ofFn, contrib_ofFn, contrib_ofFn, contrib_ofFn]
    by_cases h : y = ii l
    · rw [if_pos h, if_pos h, if_pos h, if_pos h, if_pos h]
      have h0 : ∀ j : Fin 4, ∀ h : 0 + j.1 < 16,
          (![v 0, v 1, v 2, v 3] : Fin 4 → Vec 4 K) j = v ⟨0 + j, h⟩ :=
        fin4_cases (fun _ => rfl) (fun _ => rfl) (fun _ => rfl) (fun _ => rfl)
      have h4 : ∀ j : Fin 4, ∀ h : 4 + j.1 < 16,
          (![v 4, v 5, v 6, v 7] : Fin 4 → Vec 4 K) j = v ⟨4 + j, h⟩ :=
        fin4_cases (fun _ => rfl) (fun _ => rfl) (fun _ => rfl) (fun _ => rfl)
      have h8 : ∀ j : Fin 4, ∀ h : 8 + j.1 < 16,
          (![v 8, v 9, v 10, v 11] : Fin 4 → Vec 4 K) j = v ⟨8 + j, h⟩ :=
        fin4_cases (fun _ => rfl) (fun _ => rfl) (fun _ => rfl) (fun _ => rfl)
      have h12 : ∀ j : Fin 4, ∀ h : 12 + j.1 < 16,
          (![v 12, v 13, v 14, v 15] : Fin 4 → Vec 4 K) j = v ⟨12 + j, h⟩ :=
        fin4_cases (fun _ => rfl) (fun _ => rfl) (fun _ => rfl) (fun _ => rfl)
      have hq := q.2
      by_cases c1 : (q : ℕ) < 4
      · rw [dif_pos ⟨by omega, by omega⟩, dif_neg (by omega), dif_neg (by omega), dif_neg (by omega), add_zero,
          add_zero, add_zero]
        exact pickH4 v l 0 _ q (by omega) ⟨by omega, by omega⟩ h0
      · by_cases c2 : (q : ℕ) < 8
        · rw [dif_neg (by omega), dif_pos ⟨by omega, by omega⟩, dif_neg (by omega), dif_neg (by omega), add_zero,
            add_zero, zero_add]
          exact pickH4 v l 4 _ q (by omega) ⟨by omega, by omega⟩ h4
        · by_cases c3 : (q : ℕ) < 12
          · rw [dif_neg (by omega), dif_neg (by omega), dif_pos ⟨by omega, by omega⟩, dif_neg (by omega), add_zero,
              zero_add, zero_add]
            exact pickH4 v l 8 _ q (by omega) ⟨by omega, by omega⟩ h8
          · rw [dif_neg (by omega), dif_neg (by omega), dif_neg (by omega), dif_pos ⟨by omega, by omega⟩, zero_add,
              zero_add, zero_add]
            exact pickH4 v l 12 _ q (by omega) ⟨by omega, by omega⟩ h12
    · rw [if_neg h, if_neg h, if_neg h, if_neg h, if_neg h, add_zero, add_zero, add_zero]
  · simp only [incrementsH]
    rw [List.map_append, List.map_map, List.map_map, List.sum_append, map_sum_finRange, map_sum_finRange,
      ← Finset.sum_add_distrib]
    refine Finset.sum_congr rfl fun l _ => ?_
    dsimp only [Function.comp_apply]
    rw [contrib_ofFn, contrib_ofFn]
    by_cases h : y = ii l
    · rw [if_pos h, if_pos h, if_pos h]
      have h0 : ∀ j : Fin 8, ∀ h : 0 + j.1 < 16,
          (![v 0, v 1, v 2, v 3, v 4, v 5, v 6, v 7] : Fin 8 → Vec 8 K) j = v ⟨0 + j, h⟩ :=
        fin8_cases (fun _ => rfl) (fun _ => rfl) (fun _ => rfl) (fun _ => rfl) (fun _ => rfl) (fun _ => rfl)
          (fun _ => rfl) (fun _ => rfl)
      have h8 : ∀ j : Fin 8, ∀ h : 8 + j.1 < 16,
          (![v 8, v 9, v 10, v 11, v 12, v 13, v 14, v 15] : Fin 8 → Vec 8 K) j = v ⟨8 + j, h⟩ :=
        fin8_cases (fun _ => rfl) (fun _ => rfl) (fun _ => rfl) (fun _ => rfl) (fun _ => rfl) (fun _ => rfl)
          (fun _ => rfl) (fun _ => rfl)
      have hq := q.2
      by_cases c1 : (q : ℕ) < 8
      · rw [dif_pos ⟨by omega, by omega⟩, dif_neg (by omega), add_zero]
        exact pickH8 v l 0 _ q (by omega) ⟨by omega, by omega⟩ h0
      · rw [dif_neg (by omega), dif_pos ⟨by omega, by omega⟩, zero_add]
        exact pickH8 v l 8 _ q (by omega) ⟨by omega, by omega⟩ h8
    · rw [if_neg h, if_neg h, if_neg h, add_zero]
  · simp only [incrementsH]
    rw [List.map_map, map_sum_finRange]
    refine Finset.sum_congr rfl fun l _ => ?_
    dsimp only [Function.comp_apply]
    rw [contrib_ofFn]
    by_cases h : y = ii l
    · rw [if_pos h, if_pos h, dif_pos ⟨by omega, by omega⟩, transpose_apply]
      rfl
    · rw [if_neg h, if_neg h]

lemma cornersV_eq {w : ℕ} (g : LGrid) (ii : Vec w ℤ) (j : Fin 8) (l : Fin w) :
    cornersV g ii j l = ii l + Hydro.offsets g j := by
  fin_cases j <;> simp [cornersV, Hydro.offsets, VOXEL] <;> ring

lemma hydroV_wn {w : ℕ} (A : Hydro.Args K) (ps : Vec w (MoveP.Part K)) (l : Fin w) :
    ∀ j, (hydroV A ps).wn j l = Hydro.weights A.r8V (ps l) j :=
  fin8_cases rfl rfl rfl rfl rfl rfl rfl rfl

set_option maxHeartbeats 1000000 in
/-- The vector kinematics of a block are the scalar ones of every lane. -/
lemma hydroV_kin {w : ℕ} (A : Hydro.Args K) (ps : Vec w (MoveP.Part K)) (l : Fin w) :
    (hydroV A ps).ux l = (Hydro.kinematics A (ps l)).1 0 ∧ (hydroV A ps).uy l = (Hydro.kinematics A (ps l)).1 1 ∧
    (hydroV A ps).uz l = (Hydro.kinematics A (ps l)).1 2 ∧ (hydroV A ps).vx l = (Hydro.kinematics A (ps l)).2.1 0 ∧
    (hydroV A ps).vy l = (Hydro.kinematics A (ps l)).2.1 1 ∧ (hydroV A ps).vz l = (Hydro.kinematics A (ps l)).2.1 2 ∧
    (hydroV A ps).ke l = (Hydro.kinematics A (ps l)).2.2 := by
  have hf := fieldsV_eq A.qdt_2mc A.f (fun k => (ps k).i) (fun k => (ps k).d 0)
    (fun k => (ps k).d 1) (fun k => (ps k).d 2) (fun k => (ps k).d) (fun _ => ⟨rfl, rfl, rfl⟩) l
  obtain ⟨⟨h0, h1, h2⟩, b0, b1, b2⟩ := hf
  simp only [hydroV, Hydro.kinematics, fma, fms, rcp, splat, Pi.add_apply, Pi.mul_apply, h0, h1, h2, ← b0, ← b1,
    ← b2, Matrix.cons_val_zero, Matrix.cons_val_one, Matrix.cons_val]
  generalize halfE A.qdt_2mc (A.f (ps l).i) (ps l).d = h
  generalize interpB (A.f (ps l).i) (ps l).d = b
  generalize (ps l).u 0 + h 0 = x
  generalize (ps l).u 1 + h 1 = y
  generalize (ps l).u 2 + h 2 = z
  have eke : x * x + (y * y + z * z) = x * x + y * y + z * z := by ring
  rw [eke]
  generalize x * x + y * y + z * z = ke
  generalize A.rt (1 + ke) = vz
  have evz : A.c * (1 / vz) = A.c / vz := by ring
  rw [evz]
  generalize A.c / vz = v
  generalize A.qdt_2mc / (2 * A.c) * v = w0
  generalize b 0 = bx
  generalize b 1 = bY
  generalize b 2 = bz
  have eb : bx * bx + (bY * bY + bz * bz) = bx * bx + bY * bY + bz * bz := by ring
  rw [eb]
  generalize bx * bx + bY * bY + bz * bz = w1
  have e3 : w0 * ((2 / 15 * (w0 * w0 * w1) + 1 / 3) * (w0 * w0 * w1) + 1) =
      w0 * (1 + 1 / 3 * (w0 * w0 * w1) * (1 + 2 / 5 * (w0 * w0 * w1))) := by
    have : (2 / 15 : K) = 1 / 3 * (2 / 5) := by
      rw [show (15 : K) = 3 * 5 by norm_num, div_mul_div_comm, one_mul]
    rw [this]; ring
  rw [e3]
  generalize w0 * (1 + 1 / 3 * (w0 * w0 * w1) * (1 + 2 / 5 * (w0 * w0 * w1))) = w3
  have e4 : w3 * (1 / (w3 * w3 * w1 + 1)) = w3 / (1 + w1 * w3 * w3) := by
    rw [mul_one_div, show w3 * w3 * w1 + 1 = 1 + w1 * w3 * w3 by ring]
  rw [e4]
  generalize w3 / (1 + w1 * w3 * w3) = w4
  refine ⟨by ring, by ring, by ring, by ring, by ring, by ring, ?_⟩
  rw [mul_one_div, add_comm 1 vz]; ring

lemma accumV_eq {w : ℕ} (A : Hydro.Args K) (ps : Vec w (MoveP.Part K)) (j : Fin 8) (l : Fin w) (q : Fin 14) :
    accumV A (hydroV A ps) ((hydroV A ps).wn j) ⟨q, by omega⟩ l =
      Hydro.accum A (Hydro.kinematics A (ps l)).1 (Hydro.kinematics A (ps l)).2.1
        (Hydro.kinematics A (ps l)).2.2 (Hydro.weights A.r8V (ps l) j) q := by
  obtain ⟨h1, h2, h3, h4, h5, h6, h7⟩ := hydroV_kin A ps l
  rw [← hydroV_wn A ps l j]
  unfold accumV Hydro.accum
  simp only [← h1, ← h2, ← h3, ← h4, ← h5, ← h6, ← h7, mul_comm A.c A.msp]
  obtain ⟨q, hq⟩ := q
  interval_cases q <;> rfl

end

end Verif.Simd
