import Verif.Collision.Model
import Verif.Rng.Perm
import Mathlib.Data.List.Count
import Mathlib.Data.List.Range
import Mathlib.Algebra.BigOperators.Group.List.Basic

/-!
# C53, C54, C56, C57: pair selection, pairing, striping, update rule
-/
namespace Verif.Collision

/-! ## C56 -/

/-- What a pipeline visits: the voxels below `v1` congruent to its rank. -/
lemma stripeLoop_spec (v1 P : ℕ) (hP : 0 < P) (fuel v : ℕ) (h0 : 0 < fuel) (hf : v1 < v + fuel) :
    ∃ L, stripeLoop v1 P fuel v = some L ∧ L.Nodup ∧ ∀ u, u ∈ L ↔ v ≤ u ∧ u < v1 ∧ u % P = v % P := by
  induction fuel generalizing v with
  | zero =>
    omega
  | succ fuel ih =>
    unfold stripeLoop
    split_ifs with h
    · obtain ⟨L, h1, h2, h3⟩ := ih (v + P) (by omega) (by omega)
      refine ⟨v :: L, by rw [h1]; rfl, ?_, ?_⟩
      · rw [List.nodup_cons]
        refine ⟨?_, h2⟩
        intro hm
        have := (h3 v).mp hm
        omega
      · intro u
        rw [List.mem_cons, h3]
        constructor
        · rintro (rfl | ⟨g1, g2, g3⟩)
          · exact ⟨le_refl _, h, rfl⟩
          · rw [Nat.add_mod_right] at g3
            exact ⟨by omega, g2, g3⟩
        · rintro ⟨g1, g2, g3⟩
          rcases Nat.eq_or_lt_of_le g1 with e | e
          · exact Or.inl e.symm
          · refine Or.inr ⟨?_, g2, by rw [Nat.add_mod_right]; exact g3⟩
            -- u ≡ v (mod P), u > v
            have hd : P ∣ u - v := (Nat.dvd_iff_mod_eq_zero).mpr (Nat.sub_mod_eq_zero_of_mod_eq g3)
            have := Nat.le_of_dvd (by omega) hd
            omega
    · refine ⟨[], rfl, List.nodup_nil, ?_⟩
      intro u
      simp
      omega

/-- C56: every voxel up to the last interior one is visited by exactly one of the `P` pipelines, exactly
once; in particular every interior voxel `(x,y,z)`. -/
theorem stripes_partition (nx ny nz P : ℕ) (hP : 0 < P) (fuel : ℕ)
    (hf : nx + (nx + 2) * (ny + (ny + 2) * nz) + 1 < fuel) :
    ∃ L : ℕ → List ℕ, (∀ r < P, stripe nx ny nz P r fuel = some (L r)) ∧ (∀ r < P, (L r).Nodup) ∧
      (∀ r < P, ∀ r' < P, r ≠ r' → ∀ v ∈ L r, v ∉ L r') ∧
      (∀ x y z, x ≤ nx → y ≤ ny → z ≤ nz → ∃ r < P, x + (nx + 2) * (y + (ny + 2) * z) ∈ L r) ∧
      (∀ r < P, ∀ v ∈ L r, v + 1 < (nx + 2) * (ny + 2) * (nz + 2)) := by
  have h := fun r => stripeLoop_spec (nx + (nx + 2) * (ny + (ny + 2) * nz) + 1) P hP fuel r (by omega) (by omega)
  choose L h1 h2 h3 using h
  refine ⟨L, fun r _ => h1 r, fun r _ => h2 r, ?_, ?_, ?_⟩
  · intro r hr r' hr' hne v hv hv'
    have a := ((h3 r v).mp hv).2.2
    have b := ((h3 r' v).mp hv').2.2
    rw [a, Nat.mod_eq_of_lt hr, Nat.mod_eq_of_lt hr'] at b
    exact hne b
  · intro x y z hx hy hz
    generalize hv : x + (nx + 2) * (y + (ny + 2) * z) = v
    refine ⟨v % P, Nat.mod_lt _ hP, (h3 _ v).mpr ⟨Nat.mod_le _ _, ?_, (Nat.mod_mod _ _).symm⟩⟩
    have : (nx + 2) * (y + (ny + 2) * z) ≤ (nx + 2) * (ny + (ny + 2) * nz) :=
      Nat.mul_le_mul_left _ (Nat.add_le_add hy (Nat.mul_le_mul_left _ hz))
    omega
  · intro r hr v hv
    have := ((h3 r v).mp hv).2.1
    have e1 : (nx + 2) * (ny + 2) * (nz + 2) = (nx + 2) * (ny + (ny + 2) * nz) + (nx + 2) * (ny + 4) := by ring
    have e2 : (nx + 2) * (ny + 4) ≥ (nx + 2) * 4 := Nat.mul_le_mul_left _ (by omega)
    omega

/-- C56: no two pipelines update the same particle: the particles of different voxels are disjoint ranges of
a sorted species. -/
theorem voxel_ranges_disjoint (part : ℕ → ℕ) (hmono : ∀ v, part v ≤ part (v + 1)) (v v' : ℕ) (hne : v ≠ v') (i : ℕ)
    (h : part v ≤ i ∧ i < part (v + 1)) (h' : part v' ≤ i ∧ i < part (v' + 1)) : False := by
  have hm : Monotone part := monotone_nat_of_le_succ hmono
  rcases Nat.lt_or_gt_of_ne hne with hlt | hlt
  · have := hm (show v + 1 ≤ v' from hlt); omega
  · have := hm (show v' + 1 ≤ v from hlt); omega

/-! ## C53 -/

/-- The largest possible quotient. -/
lemma quot_le {a n : ℕ} (hn : 0 < n) (hs : (2 ^ 32 - 1) % n < (2 ^ 32 - 1) / n) (ha : a < 2 ^ 32) :
    a / ((2 ^ 32 - 1) / n) ≤ n := by
  have hM := Nat.div_add_mod (2 ^ 32 - 1) n
  generalize (2 ^ 32 - 1) / n = d at *
  generalize (2 ^ 32 - 1) % n = r at *
  have hd : 0 < d := by omega
  have : a / d < n + 1 := by
    rw [Nat.div_lt_iff_lt_mul hd, Nat.add_mul, Nat.one_mul]
    omega
  omega

lemma selectOne_some {n k : ℕ} {as bs : List ℕ} (hn : 0 < n) (hs : (2 ^ 32 - 1) % n < (2 ^ 32 - 1) / n)
    (has : ∀ a ∈ as, a < 2 ^ 32) (h : selectOne n as = some (k, bs)) : k < n ∧ ∀ a ∈ bs, a < 2 ^ 32 := by
  induction as with
  | nil => simp [selectOne] at h
  | cons a as ih =>
    unfold selectOne at h
    split_ifs at h with he
    · exact ih (fun b hb => has b (List.mem_cons_of_mem _ hb)) h
    · simp only [Option.some.injEq, Prod.mk.injEq] at h
      obtain ⟨rfl, rfl⟩ := h
      have := quot_le hn hs (has a (List.mem_cons_self ..))
      exact ⟨by omega, fun b hb => has b (List.mem_cons_of_mem _ hb)⟩

lemma small_safe {n : ℕ} (hn : 0 < n) (h : n ≤ 65535) : (2 ^ 32 - 1) % n < (2 ^ 32 - 1) / n := by
  have h1 := Nat.mod_lt (2 ^ 32 - 1) hn
  have h2 : 65535 ≤ (2 ^ 32 - 1) / n := by
    rw [Nat.le_div_iff_mul_le hn]
    calc 65535 * n ≤ 65535 * 65535 := Nat.mul_le_mul_left _ h
      _ ≤ 2 ^ 32 - 1 := by norm_num
  omega

/-- C53, for up to 65535 particles per voxel (of each species): every candidate pair of the binary operator consists of
particles of the voxel, for all raw random numbers and any number of candidates. -/
theorem pairs_inside_partial (k0 nk l0 nl nc : ℕ) (hk : 0 < nk) (hk2 : nk ≤ 65535) (hl : 0 < nl) (hl2 : nl ≤ 65535)
    (as bs : List ℕ) (has : ∀ a ∈ as, a < 2 ^ 32) (L : List (ℕ × ℕ))
    (h : selectPairs k0 nk l0 nl nc as = some (L, bs)) :
    L.length = nc ∧ ∀ kl ∈ L, (k0 ≤ kl.1 ∧ kl.1 < k0 + nk) ∧ (l0 ≤ kl.2 ∧ kl.2 < l0 + nl) := by
  induction nc generalizing as L with
  | zero =>
    simp only [selectPairs, Option.some.injEq, Prod.mk.injEq] at h
    obtain ⟨rfl, -⟩ := h
    simp
  | succ nc ih =>
    unfold selectPairs at h
    split at h
    · cases h
    · rename_i kl as' hp
      rw [Option.map_eq_some_iff] at h
      obtain ⟨⟨L', bs'⟩, h1, h2⟩ := h
      simp only [Prod.mk.injEq] at h2
      obtain ⟨rfl, rfl⟩ := h2
      unfold selectPair at hp
      split at hp
      · cases hp
      · rename_i k as1 hs1
        split at hp
        · cases hp
        · rename_i l as2 hs2
          simp only [Option.some.injEq, Prod.mk.injEq] at hp
          obtain ⟨rfl, rfl⟩ := hp
          obtain ⟨g1, g2⟩ := selectOne_some hk (small_safe hk hk2) has hs1
          obtain ⟨g3, g4⟩ := selectOne_some hl (small_safe hl hl2) g2 hs2
          obtain ⟨i1, i2⟩ := ih as2 g4 L' h1
          refine ⟨by simp [i1], ?_⟩
          intro kl hkl
          rcases List.mem_cons.mp hkl with rfl | hkl
          · simp; omega
          · exact i2 kl hkl

/-- Exactly when selection is safe: iff the remainder of `2^32-1` is less than the quotient. -/
theorem select_safe_iff (n : ℕ) (hn : 0 < n) (hn2 : n < 2 ^ 31) :
    (∀ a < 2 ^ 32, ∀ k, selectOne n [a] = some (k, []) → k < n) ↔ (2 ^ 32 - 1) % n < (2 ^ 32 - 1) / n := by
  constructor
  · intro h
    by_contra hcon
    have hM := Nat.div_add_mod (2 ^ 32 - 1) n
    have hd : 0 < (2 ^ 32 - 1) / n := Nat.div_pos (by omega) hn
    have hne : (2 ^ 32 - 1) / ((2 ^ 32 - 1) / n) ≥ n + 1 := by
      show n + 1 ≤ _
      rw [Nat.le_div_iff_mul_le hd, Nat.add_mul, Nat.one_mul]
      omega
    have := h (2 ^ 32 - 1) (by norm_num) ((2 ^ 32 - 1) / ((2 ^ 32 - 1) / n)) (by
      rw [selectOne, if_neg (by omega)])
    omega
  · intro hs a ha k hk
    exact (selectOne_some hn hs (by simpa using ha) hk).1

/-- Negative result: with 65536 particles in a voxel the largest raw number selects particle number 65537 of the voxel,
outside of it (the loop should repeat while `k >= nk`). -/
theorem pair_outside : selectOne 65536 [2 ^ 32 - 1] = some (65537, []) := by
  have h1 : (2 ^ 32 - 1) / 65536 = 65535 := by norm_num
  have h2 : (2 ^ 32 - 1) / 65535 = 65537 := by norm_num
  have h : ∀ n a k, a / ((2 ^ 32 - 1) / n) = k → k ≠ n → selectOne n [a] = some (k, []) := by
    intro n a k h1 h2
    unfold selectOne
    rw [h1, if_neg h2]
  have h3 : (2 ^ 32 - 1) / ((2 ^ 32 - 1) / 65536) = 65537 := by rw [h1, h2]
  exact h 65536 (2 ^ 32 - 1) 65537 h3 (by norm_num)

/-- Every particle of the voxel is selected by the same number of raw numbers. -/
theorem selection_uniform (n k : ℕ) (hk : k < n) (hn : n ≤ 2 ^ 32 - 1) :
    (Finset.univ.filter (fun a : Fin (2 ^ 32) => selectOne n [a.val] = some (k, []))).card = (2 ^ 32 - 1) / n := by
  rw [← Rng.draw_preimages n k hk hn]
  refine congrArg Finset.card (Finset.filter_congr ?_)
  intro a _
  unfold selectOne
  split_ifs with h
  · constructor
    · intro h'; simp [selectOne] at h'
    · intro h'; omega
  · simp

/-! ## C57 -/

variable {K : Type*}

/-- C57: the particle of least weight is always updated, both are when the weights are equal, and the heavier one exactly
when the random number falls below the ratio of the weights. -/
theorem lighter_updated [Field K] [LinearOrder K] [IsStrictOrderedRing K] (wk wl r : K) :
    (wk < wl → (updateType wk wl r) % 2 = 1 ∧ (updateType wk wl r / 2 % 2 = 1 ↔ wl * r < wk)) ∧
    (wl < wk → (updateType wk wl r) / 2 % 2 = 1 ∧ (updateType wk wl r % 2 = 1 ↔ wk * r < wl)) ∧
    (wk = wl → updateType wk wl r = 3) := by
  refine ⟨?_, ?_, ?_⟩
  · intro h
    have h1 : ¬ wk > wl := not_lt.mpr h.le
    have h2 : ¬ wl = wk := h.ne'
    by_cases h3 : wl * r < wk <;> simp [updateType, h1, h2, h3]
  · intro h
    have h2 : ¬ wk = wl := h.ne'
    by_cases h3 : wk * r < wl <;> simp [updateType, h, h2, h3]
  · rintro rfl
    simp [updateType]

/-- C57: the same rule in the Takizuka-Abe kernel: the lighter particle is changed as in the equal weight case, the heavier
one is left alone exactly when the random number exceeds the ratio of the weights. -/
theorem ta_lighter_updated [Field K] [LinearOrder K] [IsStrictOrderedRing K] (rt : K → K)
    (eps mi mj std g cs sn r wi wj : K) (ui uj : Fin 3 → K) :
    let full := takizukaAbe rt eps mi mj std g cs sn r 1 1 ui uj
    let got := takizukaAbe rt eps mi mj std g cs sn r wi wj ui uj
    (wi ≤ wj → got.1 = full.1) ∧ (wj ≤ wi → got.2 = full.2) ∧
    (wi < wj → got.2 = if wj * r > wi then uj else full.2) ∧ (wj < wi → got.1 = if wi * r > wj then ui else full.1) := by
  intro full got
  refine ⟨?_, ?_, ?_, ?_⟩
  · intro h
    have : ¬ wj < wi := not_lt.mpr h
    simp [full, got, takizukaAbe, this]
  · intro h
    have : ¬ wi < wj := not_lt.mpr h
    simp [full, got, takizukaAbe, this]
  · intro h
    by_cases h2 : wj * r > wi <;> simp [full, got, takizukaAbe, h, h2]
  · intro h
    by_cases h2 : wi * r > wj <;> simp [full, got, takizukaAbe, h, h2]

-- Weights 1 and 4, random number 1/8: both updated; 1/2: only the lighter one.
example : updateType (1 : ℚ) 4 (1/8) = 3 ∧ updateType (1 : ℚ) 4 (1/2) = 1 ∧ updateType (4 : ℚ) 1 (1/2) = 2 := by
  norm_num [updateType]

/-! ## C54 -/

lemma pairLoop_fst (m w k l : ℕ) : (pairLoop m w k l).map Prod.fst = List.range' k (m * w) := by
  induction m generalizing k l with
  | zero => simp [pairLoop]
  | succ m ih =>
    rw [pairLoop, List.map_append, ih, List.map_map]
    have h1 : (List.range w).map (Prod.fst ∘ fun j => (k + j, l)) = List.range' k w := by
      rw [List.range'_eq_map_range]
      apply List.map_congr_left
      intro a _
      rfl
    rw [h1, List.range'_append_1]
    congr 1
    ring

lemma pairLoop_snd (m w k l x : ℕ) :
    ((pairLoop m w k l).map Prod.snd).count x = if l ≤ x ∧ x < l + m then w else 0 := by
  induction m generalizing k l with
  | zero => rw [if_neg (by omega)]; simp [pairLoop]
  | succ m ih =>
    rw [pairLoop, List.map_append, List.count_append, ih, List.map_map]
    have h1 : (List.range w).map (Prod.snd ∘ fun j => (k + j, l)) = List.replicate w l := by
      rw [List.eq_replicate_iff]
      simp
    rw [h1, List.count_replicate]
    by_cases hx : x = l
    · subst hx
      simp
    · have : ¬ (l == x) = true := by simpa using fun h => hx h.symm
      rw [if_neg this]
      by_cases h2 : l ≤ x ∧ x < l + (m + 1)
      · rw [if_pos h2, if_pos (by omega)]; omega
      · rw [if_neg h2, if_neg (by omega)]

/-- The two loops: positions of the larger group are visited in order, the others are shared out evenly. -/
lemma twoLoops (k0 nk l0 nl : ℕ) (hl : 0 < nl) :
    let ii := nk / nl
    let rn := nk - ii * nl
    let L := pairLoop rn (ii + 1) k0 l0 ++ pairLoop (nl - rn) ii (k0 + rn * (ii + 1)) (l0 + rn)
    L.map Prod.fst = List.range' k0 nk ∧
    ∀ x, (L.map Prod.snd).count x = if l0 ≤ x ∧ x < l0 + nl then (if x < l0 + nk % nl then nk / nl + 1 else nk / nl) else 0 := by
  intro ii rn L
  have hmod : rn = nk % nl := by
    have := Nat.div_add_mod nk nl
    simp only [rn, ii]
    rw [Nat.mul_comm]; omega
  have hlt : rn < nl := by rw [hmod]; exact Nat.mod_lt _ hl
  have hsum : rn * (ii + 1) + (nl - rn) * ii = nk := by
    have h1 : rn * (ii + 1) + (nl - rn) * ii = (rn + (nl - rn)) * ii + rn := by ring
    rw [h1, show rn + (nl - rn) = nl by omega, hmod]
    exact Nat.div_add_mod nk nl
  constructor
  · rw [List.map_append, pairLoop_fst, pairLoop_fst, List.range'_append_1, hsum]
  · intro x
    rw [List.map_append, List.count_append, pairLoop_snd, pairLoop_snd, ← hmod]
    by_cases h1 : l0 ≤ x ∧ x < l0 + rn
    · rw [if_pos h1, if_neg (by omega), if_pos (by omega), if_pos h1.2]
    · rw [if_neg h1]
      by_cases h2 : l0 ≤ x ∧ x < l0 + nl
      · rw [if_pos h2, if_pos (by omega), if_neg (by omega)]; omega
      · rw [if_neg h2, if_neg (by omega)]

/-- C54 between species: with at least one particle of each species in the voxel, the particles of the larger
group collide exactly once each, those of the smaller group floor or ceiling of the ratio times, and nothing else
collides. -/
theorem ta_inter_counts (k0 nk l0 nl : ℕ) (hk : 0 < nk) (hl : 0 < nl) :
    let L := taInter k0 nk l0 nl
    (∀ p ∈ L, (k0 ≤ p.1 ∧ p.1 < k0 + nk) ∧ (l0 ≤ p.2 ∧ p.2 < l0 + nl)) ∧
    (nl ≤ nk → (∀ k, k0 ≤ k → k < k0 + nk → (L.map Prod.fst).count k = 1) ∧
      ∀ l, l0 ≤ l → l < l0 + nl → (L.map Prod.snd).count l = nk / nl ∨ (L.map Prod.snd).count l = (nk + nl - 1) / nl) ∧
    (nk ≤ nl → (∀ l, l0 ≤ l → l < l0 + nl → (L.map Prod.snd).count l = 1) ∧
      ∀ k, k0 ≤ k → k < k0 + nk → (L.map Prod.fst).count k = nl / nk ∨ (L.map Prod.fst).count k = (nl + nk - 1) / nk) := by
  intro L
  have one : ∀ a n x, a ≤ x → x < a + n → (List.range' a n).count x = 1 := by
    intro a n x h1 h2
    exact List.count_eq_one_of_mem List.nodup_range' (List.mem_range'_1.mpr ⟨h1, h2⟩)
  have ceil : ∀ a b : ℕ, 0 < b → 0 < a % b → (a + b - 1) / b = a / b + 1 := by
    intro a b hb hm
    have h1 := Nat.div_add_mod a b
    have h2 := Nat.mod_lt a hb
    rw [Nat.div_eq_iff hb]
    generalize a / b = q at *
    generalize a % b = r at *
    subst h1
    constructor
    · rw [Nat.add_mul, Nat.mul_comm]; omega
    · rw [Nat.add_mul, Nat.mul_comm q b]; omega
  have hL : L = taPairs k0 nk l0 nl := by
    simp only [L, taInter]
    rw [if_neg (by omega), if_neg (by omega)]
  rw [hL]
  unfold taPairs
  by_cases hgt : nk > nl
  · rw [if_pos hgt]
    obtain ⟨h1, h2⟩ := twoLoops k0 nk l0 nl hl
    simp only at h1 h2 ⊢
    generalize pairLoop (nk - nk / nl * nl) (nk / nl + 1) k0 l0 ++
      pairLoop (nl - (nk - nk / nl * nl)) (nk / nl) (k0 + (nk - nk / nl * nl) * (nk / nl + 1)) (l0 + (nk - nk / nl * nl)) = Q at h1 h2 ⊢
    refine ⟨?_, ?_, fun h => by omega⟩
    · intro p hp
      constructor
      · have : p.1 ∈ Q.map Prod.fst := List.mem_map_of_mem hp
        rw [h1, List.mem_range'_1] at this
        omega
      · have : p.2 ∈ Q.map Prod.snd := List.mem_map_of_mem hp
        by_contra hc
        have hz := h2 p.2
        rw [if_neg hc] at hz
        exact List.count_eq_zero.mp hz this
    · intro _
      refine ⟨fun k g1 g2 => by rw [h1]; exact one _ _ _ g1 g2, fun l g1 g2 => ?_⟩
      rw [h2, if_pos ⟨g1, g2⟩]
      split_ifs with hlt
      · right; rw [ceil nk nl hl (by omega)]
      · left; rfl
  · rw [if_neg hgt]
    obtain ⟨h1, h2⟩ := twoLoops l0 nl k0 nk hk
    simp only at h1 h2 ⊢
    generalize pairLoop (nl - nl / nk * nk) (nl / nk + 1) l0 k0 ++
      pairLoop (nk - (nl - nl / nk * nk)) (nl / nk) (l0 + (nl - nl / nk * nk) * (nl / nk + 1)) (k0 + (nl - nl / nk * nk)) = Q at h1 h2 ⊢
    have hf : (Q.map Prod.swap).map Prod.fst = Q.map Prod.snd := by rw [List.map_map]; rfl
    have hs : (Q.map Prod.swap).map Prod.snd = Q.map Prod.fst := by rw [List.map_map]; rfl
    rw [hf, hs]
    have key : ∀ l, k0 ≤ l → l < k0 + nk → (Q.map Prod.snd).count l = nl / nk ∨ (Q.map Prod.snd).count l = (nl + nk - 1) / nk := by
      intro l g1 g2
      rw [h2, if_pos ⟨g1, g2⟩]
      split_ifs with hlt
      · right; rw [ceil nl nk hk (by omega)]
      · left; rfl
    have keyone : ∀ l, l0 ≤ l → l < l0 + nl → (Q.map Prod.fst).count l = 1 := fun k g1 g2 => by
      rw [h1]; exact one _ _ _ g1 g2
    refine ⟨?_, ?_, fun _ => ⟨keyone, key⟩⟩
    · intro p hp
      obtain ⟨q, hq, rfl⟩ := List.mem_map.mp hp
      constructor
      · have : q.2 ∈ Q.map Prod.snd := List.mem_map_of_mem hq
        by_contra hc
        have hz := h2 q.2
        rw [if_neg (by simpa using hc)] at hz
        exact List.count_eq_zero.mp hz this
      · have : q.1 ∈ Q.map Prod.fst := List.mem_map_of_mem hq
        rw [h1, List.mem_range'_1] at this
        simp; omega
    · intro hle
      have he : nl = nk := by omega
      subst he
      have e1 : nl / nl = 1 := Nat.div_self hk
      refine ⟨fun k g1 g2 => ?_, fun l g1 g2 => ?_⟩
      · rw [h2, if_pos ⟨g1, g2⟩, Nat.mod_self, if_neg (by omega), e1]
      · rw [keyone l g1 g2, e1]; left; rfl

/-- Pairing without collisions when one of the species is absent. -/
theorem ta_inter_empty (k0 nk l0 nl : ℕ) (h : nk = 0 ∨ nl = 0) : taInter k0 nk l0 nl = [] := by
  unfold taInter
  rcases h with h | h
  · rw [if_pos h]
  · split_ifs <;> rfl

/-- C54 within a species: nobody collides with itself, no index leaves the voxel, and the number of collisions of
each particle is one, except none for a lone particle and two for the first three of an odd number. -/
theorem ta_intra_counts (k0 nk : ℕ) :
    let L := taIntra k0 nk
    (∀ p ∈ L, p.1 ≠ p.2 ∧ (k0 ≤ p.1 ∧ p.1 < k0 + nk) ∧ (k0 ≤ p.2 ∧ p.2 < k0 + nk)) ∧
    ∀ k, k0 ≤ k → k < k0 + nk → (L.map Prod.fst).count k + (L.map Prod.snd).count k =
      if nk = 1 then 0 else if nk % 2 = 1 ∧ k < k0 + 3 then 2 else 1 := by
  intro L
  -- equal halves
  have half : ∀ a n, 0 < n → taPairs a n (a + n) n = (List.range n).map (fun j => (a + j, a + n + j)) := by
    intro a n hn
    unfold taPairs
    rw [if_neg (by omega)]
    have e : n / n = 1 := Nat.div_self hn
    simp only [e, Nat.one_mul, Nat.sub_self, Nat.zero_mul, Nat.add_zero, Nat.sub_zero, pairLoop, List.nil_append]
    have : ∀ m l k, pairLoop m 1 l k = (List.range m).map (fun j => (l + j, k + j)) := by
      intro m
      induction m with
      | zero => intro l k; rfl
      | succ m ih =>
        intro l k
        rw [pairLoop, ih]
        conv_rhs => rw [List.range_succ_eq_map, List.map_cons, List.map_map]
        simp only [List.range_one, List.map_cons, List.map_nil, List.cons_append, List.nil_append, Nat.add_zero]
        congr 1
        apply List.map_congr_left
        intro j _
        simp only [Function.comp, Nat.succ_eq_add_one, Prod.mk.injEq]
        omega
    rw [this, List.map_map]
    rfl
  have halfCount : ∀ a n k, 0 < n →
      ((taPairs a n (a + n) n).map Prod.fst).count k + ((taPairs a n (a + n) n).map Prod.snd).count k =
      if a ≤ k ∧ k < a + 2 * n then 1 else 0 := by
    intro a n k hn
    rw [half a n hn, List.map_map, List.map_map]
    have e1 : (List.range n).map (Prod.fst ∘ fun j => (a + j, a + n + j)) = List.range' a n := by
      rw [List.range'_eq_map_range]; rfl
    have e2 : (List.range n).map (Prod.snd ∘ fun j => (a + j, a + n + j)) = List.range' (a + n) n := by
      rw [List.range'_eq_map_range]; rfl
    rw [e1, e2, ← List.count_append, List.range'_append_1]
    split_ifs with h
    · exact List.count_eq_one_of_mem List.nodup_range' (List.mem_range'_1.mpr ⟨h.1, by omega⟩)
    · rw [List.count_eq_zero, List.mem_range'_1]; omega
  have halfIn : ∀ a n, 0 < n → ∀ p ∈ taPairs a n (a + n) n, p.1 ≠ p.2 ∧ (a ≤ p.1 ∧ p.1 < a + 2 * n) ∧ (a ≤ p.2 ∧ p.2 < a + 2 * n) := by
    intro a n hn p hp
    rw [half a n hn] at hp
    obtain ⟨j, hj, rfl⟩ := List.mem_map.mp hp
    have := List.mem_range.mp hj
    simp only
    omega
  simp only [L]
  unfold taIntra
  by_cases h0 : nk = 0
  · rw [if_pos h0]
    refine ⟨by simp, fun k h1 h2 => by omega⟩
  · rw [if_neg h0]
    by_cases hodd : nk % 2 = 1 ∧ nk ≥ 3
    · simp only [if_pos hodd]
      by_cases h3 : (nk - 3) / 2 = 0
      · have : nk = 3 := by omega
        subst this
        rw [if_pos (by norm_num)]
        refine ⟨?_, ?_⟩
        · intro p hp
          simp only [List.mem_cons, List.not_mem_nil, or_false] at hp
          rcases hp with rfl | rfl | rfl <;> simp
        · intro k h1 h2
          rw [if_neg (by omega), if_pos (by omega)]
          have : k = k0 ∨ k = k0 + 1 ∨ k = k0 + 2 := by omega
          rcases this with rfl | rfl | rfl <;> simp [List.count_cons]
      · rw [if_neg h3]
        have hn : 0 < (nk - 3) / 2 := by omega
        refine ⟨?_, ?_⟩
        · intro p hp
          rcases List.mem_append.mp hp with hp | hp
          · simp only [List.mem_cons, List.not_mem_nil, or_false] at hp
            rcases hp with rfl | rfl | rfl <;> simp <;> omega
          · have := halfIn _ _ hn p hp
            omega
        · intro k h1 h2
          rw [List.map_append, List.map_append, List.count_append, List.count_append]
          have hc := halfCount (k0 + 3) ((nk - 3) / 2) k hn
          rw [if_neg (show ¬ nk = 1 by omega)]
          by_cases hk : k < k0 + 3
          · rw [if_neg (by omega)] at hc
            rw [if_pos ⟨hodd.1, hk⟩]
            have : k = k0 ∨ k = k0 + 1 ∨ k = k0 + 2 := by omega
            have h3 : (([(k0, k0 + 1), (k0, k0 + 2), (k0 + 1, k0 + 2)] : List (ℕ × ℕ)).map Prod.fst).count k +
                (([(k0, k0 + 1), (k0, k0 + 2), (k0 + 1, k0 + 2)] : List (ℕ × ℕ)).map Prod.snd).count k = 2 := by
              rcases this with rfl | rfl | rfl <;> simp [List.count_cons]
            omega
          · rw [if_pos (by omega)] at hc
            rw [if_neg (by omega)]
            have h3 : (([(k0, k0 + 1), (k0, k0 + 2), (k0 + 1, k0 + 2)] : List (ℕ × ℕ)).map Prod.fst).count k = 0 := by
              rw [List.count_eq_zero]; simp; omega
            have h4 : (([(k0, k0 + 1), (k0, k0 + 2), (k0 + 1, k0 + 2)] : List (ℕ × ℕ)).map Prod.snd).count k = 0 := by
              rw [List.count_eq_zero]; simp; omega
            omega
    · simp only [if_neg hodd]
      by_cases h3 : nk / 2 = 0
      · rw [if_pos h3]
        refine ⟨by simp, fun k h1 h2 => ?_⟩
        rw [if_pos (by omega)]; simp
      · rw [if_neg h3, List.nil_append]
        have hn : 0 < nk / 2 := by omega
        refine ⟨fun p hp => ?_, fun k h1 h2 => ?_⟩
        · have := halfIn _ _ hn p hp
          omega
        · rw [halfCount k0 (nk / 2) k hn, if_pos (by omega), if_neg (by omega), if_neg (by omega)]

-- Seven particles: three collisions among the first three and two pairs.
example : taIntra 10 7 = [(10, 11), (10, 12), (11, 12), (13, 15), (14, 16)] := by decide
example : taInter 0 5 100 2 = [(0, 100), (1, 100), (2, 100), (3, 101), (4, 101)] := by decide

lemma taShuffle_choices {P : Type*} [AddCommMonoid K] (w : P → K) (k1 : ℕ) (m : ℕ) : ∀ (i : ℕ) (x y : ℕ → P) (d d' : K) (as bs : List ℕ),
    i + m + 1 = k1 → taShuffle w k1 m i x d as = some (y, d', bs) →
    ∃ js : List ℕ, js.length = m ∧ Rng.Admissible k1 js i ∧ y = Rng.applyChoices js i x ∧
      d' = d + ((List.range' i (m + 1)).map fun k => w (y k)).sum := by
  induction m with
  | zero =>
    intro i x y d d' as bs him h
    simp only [taShuffle, Option.some.injEq, Prod.mk.injEq] at h
    obtain ⟨rfl, rfl, rfl⟩ := h
    exact ⟨[], rfl, trivial, rfl, by simp⟩
  | succ m ih =>
    intro i x y d d' as bs him h
    unfold taShuffle at h
    split at h
    · cases h
    · rename_i j as' hp
      obtain ⟨-, h1, h2, -⟩ := Rng.pick_some hp
      obtain ⟨js, g1, g2, g3, g4⟩ := ih (i + 1) _ _ _ _ _ _ (by omega) h
      refine ⟨j :: js, by simp [g1], ⟨h1, h2, g2⟩, g3, ?_⟩
      have hyi : y i = Rng.swap x i j i := by
        rw [g3]; exact Rng.applyChoices_below js k1 (i + 1) _ g2 i (by omega)
      rw [g4]
      conv_rhs => rw [List.range'_succ, List.map_cons, List.sum_cons, hyi]
      rw [add_assoc]

lemma applyChoices_perm {P : Type*} (js : List ℕ) : ∀ (i n : ℕ) (x : ℕ → P), js.length + i ≤ n → Rng.Admissible n js i →
    ∃ σ : ℕ → ℕ, Rng.applyChoices js i x = x ∘ σ ∧ (∀ k, k < i ∨ n ≤ k → σ k = k) ∧ (∀ a b, σ a = σ b → a = b) ∧
      (∀ k, i ≤ k → k < n → i ≤ σ k ∧ σ k < n) := by
  induction js with
  | nil =>
    intro i n x _ _
    exact ⟨fun k => k, rfl, fun _ _ => rfl, fun _ _ h => h, fun k h1 h2 => ⟨h1, h2⟩⟩
  | cons j js ih =>
    intro i n x hl ha
    obtain ⟨h1, h2, h3⟩ := ha
    simp only [List.length_cons] at hl
    obtain ⟨σ, g1, g2, g3, g4⟩ := ih (i + 1) n (Rng.swap x i j) (by omega) h3
    refine ⟨fun k => Rng.swap (fun k => k) i j (σ k), ?_, ?_, ?_, ?_⟩
    · rw [Rng.applyChoices, g1]
      funext k
      simp only [Function.comp, Rng.swap]
      split_ifs <;> rfl
    · intro k hk
      show Rng.swap (fun k => k) i j (σ k) = k
      rw [g2 k (by omega)]
      unfold Rng.swap
      rw [if_neg (by omega), if_neg (by omega)]
    · intro a b hab
      exact g3 _ _ (Rng.swap_injective (x := fun k : ℕ => k) i j (fun _ _ h => h) _ _ hab)
    · intro k hk1 hk2
      show i ≤ Rng.swap (fun k => k) i j (σ k) ∧ Rng.swap (fun k => k) i j (σ k) < n
      rcases Nat.eq_or_lt_of_le hk1 with e | e
      · subst e
        rw [g2 i (by omega)]
        unfold Rng.swap
        rw [if_pos rfl]; exact ⟨h1, h2⟩
      · have := g4 k (by omega) hk2
        unfold Rng.swap
        dsimp only
        split_ifs <;> omega

/-- C54: the shuffle before the pairing rearranges the particles of the voxel only, and the density it sums up is the
sum of the weights of all particles of the voxel. -/
theorem ta_shuffle {P : Type*} [AddCommMonoid K] (w : P → K) (k0 nk : ℕ) (hk : 0 < nk) (x y : ℕ → P) (d : K) (as bs : List ℕ)
    (h : taShuffle w (k0 + nk) (nk - 1) k0 x 0 as = some (y, d, bs)) :
    (∃ σ : ℕ → ℕ, y = x ∘ σ ∧ (∀ k, k < k0 ∨ k0 + nk ≤ k → σ k = k) ∧ (∀ a b, σ a = σ b → a = b) ∧
      (∀ k, k0 ≤ k → k < k0 + nk → k0 ≤ σ k ∧ σ k < k0 + nk)) ∧
    d = ((List.range' k0 nk).map fun k => w (x k)).sum := by
  obtain ⟨js, h1, h2, h3, h4⟩ := taShuffle_choices w (k0 + nk) (nk - 1) k0 x y 0 d as bs (by omega) h
  obtain ⟨σ, g1, g2, g3, g4⟩ := applyChoices_perm js k0 (k0 + nk) x (by omega) h2
  rw [← h3] at g1
  refine ⟨⟨σ, g1, g2, g3, g4⟩, ?_⟩
  rw [h4, zero_add, show nk - 1 + 1 = nk by omega, g1]
  have hperm : ((List.range' k0 nk).map σ).Perm (List.range' k0 nk) := by
    have hnd : ((List.range' k0 nk).map σ).Nodup := List.Nodup.map (fun a b h => g3 a b h) List.nodup_range'
    have hsub : (List.range' k0 nk).map σ ⊆ List.range' k0 nk := by
      intro a ha
      obtain ⟨k, hk, rfl⟩ := List.mem_map.mp ha
      rw [List.mem_range'_1] at hk ⊢
      exact g4 k hk.1 hk.2
    exact (List.subperm_of_subset hnd hsub).perm_of_length_le (by simp)
  have : (List.range' k0 nk).map (fun k => w ((x ∘ σ) k)) = ((List.range' k0 nk).map σ).map (fun k => w (x k)) := by
    rw [List.map_map]; rfl
  rw [this]
  exact (hperm.map _).sum_eq

end Verif.Collision
