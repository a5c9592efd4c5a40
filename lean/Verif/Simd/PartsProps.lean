import Verif.Simd.PartsLemmas

/-!
# Vector builds of `center_p`, `uncenter_p`, `energy_p` and `accumulate_hydro_p` do what the scalar builds do
-/
namespace Verif.Simd

open MoveP Boris Grid Distribute

section
variable {K : Type*} [Field K] [LinearOrder K] [IsStrictOrderedRing K]

omit [LinearOrder K] [IsStrictOrderedRing K] in
lemma flatMap_hostUpdate (φ : MoveP.Part K → MoveP.Part K) (l : List ℤ) :
    l.flatMap (hostUpdate φ) = mapSteps (fun _ => φ) l := by
  unfold hostUpdate mapSteps
  rw [← List.map_eq_flatMap]
  rfl

lemma updatesV (W : Width) (R : Rounding) (hR : R.Accurate) (np P : ℕ) (hN : np < 2 ^ 31) (hP : 0 < P)
    (hP2 : P ≤ 2 ^ 16) (φ : MoveP.Part K → MoveP.Part K)
    (big : ℤ → (ℤ → MoveP.Part K) → ℤ → MoveP.Part K)
    (hbig : ∀ i m, big i m = runSeq ((blockItems W i).flatMap (hostUpdate φ)) m) (ps ps' : ℤ → MoveP.Part K) :
    (∃ ts, (List.range (P + 1)).mapM (partThread W R np P big (hostUpdate φ)) = some ts ∧ Runs ts ps ps') ↔
      Updates R np P φ ps ps' := by
  obtain ⟨first, n, hd, hn⟩ := share_spec R hR np P hN hP hP2
  have hmem : ∀ r ∈ List.range (P + 1), r ≤ P := fun r hr => by
    have := List.mem_range.mp hr; omega
  have e1 : (List.range (P + 1)).mapM (partThread W R np P big (hostUpdate φ)) =
      some ((List.range (P + 1)).map fun r => if r = P then (iota (first r) (n r)).flatMap (hostUpdate φ)
        else (blockStarts W (first r) (n r)).map big) := by
    refine mapM_some _ _ _ fun r hr => ?_
    unfold partThread
    rw [hd r (hmem r hr)]
    simp only [items_iota]
    split <;> rfl
  have e2 : shares R np P = some ((List.range (P + 1)).map fun r => iota (first r) (n r)) := by
    unfold shares
    refine mapM_some _ _ _ fun r hr => ?_
    rw [hd r (hmem r hr), items_iota]
  have hto : ∀ ps', (∃ ts, (List.range (P + 1)).mapM (partThread W R np P big (hostUpdate φ)) = some ts ∧
      Runs ts ps ps') → Updates R np P φ ps ps' := by
    rintro ps' ⟨ts, h1, h2⟩
    rw [e1, Option.some.injEq] at h1
    subst h1
    refine ⟨_, e2, ?_⟩
    have := vec_runs W P first n hn (fun _ => big) (fun _ => hostUpdate φ) (fun _ => hbig) ps ps' h2
    simp only [flatMap_hostUpdate] at this
    rw [List.map_map]
    exact this
  refine ⟨hto ps', fun h => ?_⟩
  have h1 := hto _ ⟨_, e1, runs_seq _ ps⟩
  have h2 : ps' = _ := funext fun i => (updates_each_once R hR np P hN hP hP2 φ ps ps' h i).trans
    (updates_each_once R hR np P hN hP hP2 φ ps _ h1 i).symm
  rw [h2]
  exact ⟨_, e1, runs_seq _ ps⟩

/-- **C84.** `center_p` of a vector build (4, 8 or 16 lanes, any number of pipelines, any interleaving) does
exactly what the scalar `center_p` does. -/
theorem vector_center_p (W : Width) (rt : K → K) (hrt : ∀ x, 0 ≤ x → 0 ≤ rt x ∧ rt x * rt x = x) (qdt : K)
    (f0 : ℤ → Interp K) (R : Rounding) (hR : R.Accurate) (np P : ℕ) (hN : np < 2 ^ 31) (hP : 0 < P)
    (hP2 : P ≤ 2 ^ 16) (ps ps' : ℤ → MoveP.Part K) :
    CenterPV W rt qdt f0 R np P ps ps' ↔ CenterP rt qdt f0 R np P ps ps' :=
  updatesV W R hR np P hN hP hP2 _ _ (centerBlock_eq W hrt qdt f0) ps ps'

/-- **C84.** The same for `uncenter_p`. -/
theorem vector_uncenter_p (W : Width) (rt : K → K) (hrt : ∀ x, 0 ≤ x → 0 ≤ rt x ∧ rt x * rt x = x) (qdt : K)
    (f0 : ℤ → Interp K) (R : Rounding) (hR : R.Accurate) (np P : ℕ) (hN : np < 2 ^ 31) (hP : 0 < P)
    (hP2 : P ≤ 2 ^ 16) (ps ps' : ℤ → MoveP.Part K) :
    UncenterPV W rt qdt f0 R np P ps ps' ↔ UncenterP rt qdt f0 R np P ps ps' :=
  updatesV W R hR np P hN hP hP2 _ _ (uncenterBlock_eq W hrt qdt f0) ps ps'

/-- **C84.** `energy_p` of a vector build returns the local energy of the scalar `energy_p`. -/
theorem vector_energy_p (W : Width) (rt : K → K) (msp qdt : K) (f0 : ℤ → Interp K) (ps : ℤ → MoveP.Part K)
    (R : Rounding) (hR : R.Accurate) (np P : ℕ) (hN : np < 2 ^ 31) (hP : 0 < P) (hP2 : P ≤ 2 ^ 16) :
    energyPV W rt msp qdt f0 ps R np P = EnergyP.energyP rt msp qdt f0 ps R np P := by
  obtain ⟨first, n, hd, hn⟩ := share_spec R hR np P hN hP hP2
  have hs : ∀ r ≤ P, EnergyP.energyRank (EnergyP.energyOne rt msp qdt f0) ps R np P r =
      some (((iota (first r) (n r)).map fun i => EnergyP.energyOne rt msp qdt f0 (ps i)).sum) := by
    intro r hr
    unfold EnergyP.energyRank
    rw [hd r hr, items_iota, Option.map_some, EnergyP.foldl_add, zero_add]
  have hmem : ∀ r ∈ List.range (P + 1), r ≤ P := fun r hr => by
    have := List.mem_range.mp hr; omega
  unfold energyPV EnergyP.energyP
  rw [mapM_some _ _ _ fun r hr => hs r (hmem r hr)]
  rw [mapM_some _ _ _ fun r hr => (?_ : energyRankV W rt msp qdt f0 ps R np P r = some _)]
  unfold energyRankV
  rw [hd r (hmem r hr)]
  simp only
  by_cases hrP : r = P
  · rw [if_pos hrP, hs r (hmem r hr)]
  · rw [if_neg hrP, energy_lanes W (fun i => EnergyP.energyOne rt msp qdt f0 (ps i)) _ (fun i k => energyV_eq rt msp qdt f0 _ k)]
    have hw : W.lanes ∣ 16 := by cases W <;> decide
    have := hmem r hr
    rw [blocks_items W (first r) (n r) (hw.trans (hn r (by omega)))]

end

section
variable {K : Type*} [Field K] [LinearOrder K] [IsStrictOrderedRing K]

omit [LinearOrder K] [IsStrictOrderedRing K] in
lemma sum_flatMap' {α : Type*} (l : List α) (f : α → List K) :
    (l.flatMap f).sum = (l.map fun a => (f a).sum).sum := by
  induction l with
  | nil => rfl
  | cons a l ih => simp [ih]

/-- A block of the vector `accumulate_hydro_p` adds what the scalar code adds for its particles. -/
lemma hydroBlock_eq (W : Width) (A : Hydro.Args K) (r : ℕ) (i : ℤ) (h : ℤ → Fin 14 → K) :
    (hydroIncrs W A (r * A.hSize) i).foldlM doIncrH h = some (runSeq ((blockItems W i).flatMap fun n =>
      (List.finRange 8).map fun k => Hydro.accumStep A r n k) h) := by
  rw [doIncrsH_eq]
  swap
  · intro x hx
    simp only [hydroIncrs, List.mem_flatMap] at hx
    obtain ⟨j, _, hj⟩ := hx
    exact incrementsH_len W _ _ x hj
  congr 1
  funext y q
  have e : ((blockItems W i).flatMap fun n => (List.finRange 8).map fun k => Hydro.accumStep A r n k) =
      ((blockItems W i).flatMap fun n => (List.finRange 8).map fun k => (n, k)).map fun s (h : ℤ → Fin 14 → K) =>
        put h (Hydro.target A r s.1 s.2) fun q => h (Hydro.target A r s.1 s.2) q +
          Hydro.accum A (Hydro.kinematics A (A.p s.1)).1 (Hydro.kinematics A (A.p s.1)).2.1
            (Hydro.kinematics A (A.p s.1)).2.2 (Hydro.weights A.r8V (A.p s.1) s.2) q := by
    rw [List.map_flatMap]
    simp only [List.map_map]
    rfl
  rw [e, Hydro.runSeq_accum]
  congr 1
  simp only [hydroIncrs, List.map_flatMap, List.map_map, Function.comp_def]
  rw [sum_flatMap', sum_flatMap']
  simp only [incrementsH_eq, accumV_eq, cornersV_eq]
  unfold blockItems
  rw [List.map_map, map_sum_finRange, map_sum_finRange, Finset.sum_comm]
  refine Finset.sum_congr rfl fun l _ => ?_
  simp only [Function.comp_apply]
  rw [map_sum_finRange]
  rfl

/-- **C84.** Every execution of the vector `accumulate_hydro_p` is an execution of the scalar one, and it is
free of invalid accesses whenever the scalar one is. -/
theorem vector_hydro_p (W : Width) (R : Rounding) (hR : R.Accurate) (A : Hydro.Args K) (P : ℕ)
    (hN : A.np < 2 ^ 31) (hP : 0 < P) (hP2 : P ≤ 2 ^ 16) (h : ℤ → Fin 14 → K) :
    (∀ h', HydroPV W R A P h h' → Hydro.HydroP R A P h h') ∧
    ((∃ h', Hydro.HydroP R A P h h') → ∃ h', HydroPV W R A P h h') := by
  obtain ⟨first, n, hd, hn⟩ := share_spec R hR A.np P hN hP hP2
  have hmem : ∀ r ∈ List.range (P + 1), r ≤ P := fun r hr => by
    have := List.mem_range.mp hr; omega
  have hw : W.lanes ∣ 16 := by cases W <;> decide
  let small : ℕ → ℤ → List ((ℤ → Fin 14 → K) → ℤ → Fin 14 → K) := fun r i =>
    (List.finRange 8).map fun k => Hydro.accumStep A r i k
  let big : ℕ → ℤ → (ℤ → Fin 14 → K) → ℤ → Fin 14 → K := fun r i h =>
    match (hydroIncrs W A (r * A.hSize) i).foldlM doIncrH h with
    | some h' => h'
    | none => h
  have hbig : ∀ r i m, big r i m = runSeq ((blockItems W i).flatMap (small r)) m := by
    intro r i m
    simp only [big, small, hydroBlock_eq]
  -- the scalar threads
  let ok : ℕ → Prop := fun r => ∀ i ∈ iota (first r) (n r), (0 ≤ (A.p i).i ∧ (A.p i).i < nvox A.g) ∧
    ∀ k, 0 ≤ Hydro.target A r i k ∧ Hydro.target A r i k < A.size
  have hsc : ∀ r ≤ P, (ok r → Hydro.hydroRank R A r P = some ((iota (first r) (n r)).flatMap (small r))) ∧
      (¬ ok r → Hydro.hydroRank R A r P = none) := by
    intro r hr
    unfold Hydro.hydroRank
    rw [hd r hr, items_iota, Option.bind_some]
    have e : (((iota (first r) (n r)).flatMap fun n => (List.finRange 8).map fun k => (n, k)).all fun x =>
        decide (0 ≤ (A.p x.1).i ∧ (A.p x.1).i < nvox A.g ∧ 0 ≤ Hydro.target A r x.1 x.2 ∧
          Hydro.target A r x.1 x.2 < A.size)) = true ↔ ok r := by
      simp only [List.all_eq_true, List.mem_flatMap, List.mem_map, List.mem_finRange, true_and,
        decide_eq_true_eq, ok]
      constructor
      · intro h i hi
        have h0 := h (i, 0) ⟨i, hi, 0, rfl⟩
        exact ⟨⟨h0.1, h0.2.1⟩, fun k => (h (i, k) ⟨i, hi, k, rfl⟩).2.2⟩
      · rintro h _ ⟨i, hi, k, rfl⟩
        obtain ⟨⟨h1, h2⟩, h3⟩ := h i hi
        exact ⟨h1, h2, h3 k⟩
    constructor
    · intro hok
      simp only
      rw [if_pos (e.mpr hok), List.map_flatMap]
      simp only [List.map_map]
      rfl
    · intro hok
      simp only
      rw [if_neg (fun h => hok (e.mp h))]
  have hve : ∀ r ≤ P, (ok r → hydroRankV W R A P r = some (if r = P then
      (iota (first r) (n r)).flatMap (small r) else (blockStarts W (first r) (n r)).map (big r))) ∧
      (¬ ok r → hydroRankV W R A P r = none) := by
    intro r hr
    unfold hydroRankV
    rw [hd r hr]
    simp only
    by_cases hrP : r = P
    · simp only [if_pos hrP]
      exact hsc r hr
    · simp only [if_neg hrP]
      have e : ((blockStarts W (first r) (n r)).all fun i =>
          ((List.finRange W.lanes).all fun k =>
            decide (0 ≤ (A.p (i + (k : ℕ))).i ∧ (A.p (i + (k : ℕ))).i < nvox A.g)) &&
          ((hydroIncrs W A (r * A.hSize) i).all fun x =>
            decide (0 ≤ x.v ∧ x.v < A.size ∧ x.off + x.vals.length ≤ 16))) = true ↔ ok r := by
        have hb := blocks_items W (first r) (n r) (hw.trans (hn r (by omega)))
        simp only [ok, ← hb, List.all_eq_true, Bool.and_eq_true, decide_eq_true_eq, List.mem_flatMap]
        constructor
        · rintro h i ⟨b, hb, hi⟩
          obtain ⟨l, _, rfl⟩ := List.mem_map.mp hi
          obtain ⟨h1, h2⟩ := h b hb
          refine ⟨h1 l (List.mem_finRange l), fun k => ?_⟩
          obtain ⟨x, hx, hxv⟩ := (incrementsH_mem W (fun l => r * A.hSize + cornersV A.g (fun k : Fin W.lanes => (A.p (b + (k : ℕ))).i) k l)
            (accumV A (hydroV A fun k : Fin W.lanes => A.p (b + (k : ℕ))) ((hydroV A fun k : Fin W.lanes => A.p (b + (k : ℕ))).wn k))
            (Hydro.target A r (b + (l : ℕ)) k)).mpr ⟨l, by rw [cornersV_eq]; rfl⟩
          have := h2 x (List.mem_flatMap.mpr ⟨k, List.mem_finRange k, hx⟩)
          rw [hxv] at this
          exact ⟨this.1, this.2.1⟩
        · intro h b hb
          refine ⟨fun l _ => (h _ ⟨b, hb, List.mem_map_of_mem (List.mem_finRange l)⟩).1, fun x hx => ?_⟩
          obtain ⟨k, _, hx⟩ := List.mem_flatMap.mp hx
          obtain ⟨l, hl⟩ := (incrementsH_mem W _ _ x.v).mp ⟨x, hx, rfl⟩
          have h3 := (h _ ⟨b, hb, List.mem_map_of_mem (List.mem_finRange l)⟩).2 k
          have h4 : Hydro.target A r (b + ((l : ℕ) : ℤ)) k = x.v := by
            rw [← hl, cornersV_eq]; rfl
          rw [h4] at h3
          exact ⟨h3.1, h3.2, incrementsH_len W _ _ x hx⟩
      constructor
      · intro hok
        rw [if_pos (e.mpr hok)]
        rfl
      · intro hok
        rw [if_neg (fun h => hok (e.mp h))]
  have hall : ∀ {F : ℕ → Option (List ((ℤ → Fin 14 → K) → ℤ → Fin 14 → K))},
      (∀ r ≤ P, ¬ ok r → F r = none) → ∀ ts, (List.range (P + 1)).mapM F = some ts → ∀ r ≤ P, ok r := by
    intro F hF ts hts r hr
    by_contra hno
    have hlen : ∀ (l : List ℕ) ts, l.mapM F = some ts → ∀ a ∈ l, F a ≠ none := by
      intro l
      induction l with
      | nil => intro _ _ a ha; exact absurd ha List.not_mem_nil
      | cons x l ih =>
        intro ts h a ha
        rw [List.mapM_cons] at h
        cases hx : F x with
        | none => rw [hx] at h; exact absurd h (by simp)
        | some y =>
          rw [hx] at h
          cases hl : l.mapM F with
          | none => rw [hl] at h; exact absurd h (by simp)
          | some ys =>
            rcases List.mem_cons.mp ha with rfl | ha
            · rw [hx]; simp
            · exact ih ys hl a ha
    exact hlen _ ts hts r (List.mem_range.mpr (by omega)) (hF r hr hno)
  constructor
  · rintro h' ⟨ts, h1, h2⟩
    have hok := hall (fun r hr hno => (hve r hr).2 hno) ts h1
    rw [mapM_some _ _ _ fun r hr => (hve r (hmem r hr)).1 (hok r (hmem r hr)), Option.some.injEq] at h1
    subst h1
    exact ⟨_, mapM_some _ _ _ fun r hr => (hsc r (hmem r hr)).1 (hok r (hmem r hr)),
      vec_runs W P first n hn big small hbig h h' h2⟩
  · rintro ⟨h', ts, h1, -⟩
    have hok := hall (fun r hr hno => (hsc r hr).2 hno) ts h1
    exact ⟨_, _, mapM_some _ _ _ fun r hr => (hve r (hmem r hr)).1 (hok r (hmem r hr)), runs_seq _ h⟩

end

/-! ## Concrete cases -/

/-- 37 particles on 3 pipelines, real square root: centred by an 8-lane build, taken back by a 16-lane one. -/
example (f0 : ℤ → Interp ℝ) (ps : ℤ → MoveP.Part ℝ) :
    ∃ ps1 ps2, CenterPV .v8 Real.sqrt (1 / 2) f0 doubleRounding 37 3 ps ps1 ∧
      UncenterPV .v16 Real.sqrt (1 / 2) f0 doubleRounding 37 3 ps1 ps2 ∧ ps2 = ps := by
  have hrt : ∀ x : ℝ, 0 ≤ x → 0 ≤ Real.sqrt x ∧ Real.sqrt x * Real.sqrt x = x :=
    fun x hx => ⟨Real.sqrt_nonneg x, Real.mul_self_sqrt hx⟩
  obtain ⟨ps1, h1⟩ := updates_exist doubleRounding doubleRounding_accurate 37 3 (by norm_num)
    (by norm_num) (by norm_num) (centerPart Real.sqrt (1 / 2) f0) ps
  obtain ⟨ps2, h2⟩ := updates_exist doubleRounding doubleRounding_accurate 37 3 (by norm_num)
    (by norm_num) (by norm_num) (uncenterPart Real.sqrt (1 / 2) f0) ps1
  exact ⟨ps1, ps2, (vector_center_p .v8 _ hrt _ f0 _ doubleRounding_accurate 37 3 (by norm_num) (by norm_num)
      (by norm_num) ps ps1).mpr h1,
    (vector_uncenter_p .v16 _ hrt _ f0 _ doubleRounding_accurate 37 3 (by norm_num) (by norm_num)
      (by norm_num) ps1 ps2).mpr h2,
    (center_uncenter_species Real.sqrt (1 / 2) f0 doubleRounding doubleRounding_accurate 37 3 3 (by norm_num)
      (by norm_num) (by norm_num) (by norm_num) (by norm_num) ps ps1 ps2).1 h1 h2⟩

/-- The example of `Hydro/Props.lean` on 3 pipelines, 4 lanes. -/
example (h : ℤ → Fin 14 → ℚ) : ∃ h', HydroPV .v4 doubleRounding Hydro.exArgs 3 h h' :=
  (vector_hydro_p .v4 doubleRounding doubleRounding_accurate Hydro.exArgs 3 Hydro.exArgs_ok.np (by norm_num)
    (by norm_num) h).2
    (Hydro.hydro_adds doubleRounding doubleRounding_accurate Hydro.exArgs 3 _ Hydro.exArgs_ok (by norm_num)
      (by norm_num) h).1

end Verif.Simd
