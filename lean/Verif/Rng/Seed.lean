import Verif.Rng.Stream
import Mathlib.Tactic.Ring
import Mathlib.Tactic.NormNum
import Mathlib.Tactic.Linarith
import Mathlib.Tactic.FinCases
import Mathlib.Data.Fintype.Basic

/-!
# C44, C45: seeding of the generators
-/
namespace Verif.Rng

/-! ## C45 -/

set_option maxRecDepth 10000 in
lemma xorBits_bit (k : ℕ) (hk : k < 32) : xorBits (1#32 <<< k) = true := by
  have : ∀ k : Fin 32, xorBits (1#32 <<< k.val) = true := by decide
  exact this ⟨k, hk⟩

lemma bit_and (k : ℕ) (p : BitVec 32) (hk : k < 32) :
    (1#32 <<< k) &&& p = if p.getLsbD k then 1#32 <<< k else 0#32 := by
  apply BitVec.eq_of_getLsbD_eq
  intro i hi
  have hone : (1#32 <<< k).getLsbD i = decide (i = k) := by
    simp only [BitVec.getLsbD_shiftLeft, BitVec.getLsbD_one]
    by_cases h : i = k
    · subst h; simp [hi]
    · by_cases h2 : i < k
      · simp [h2, h]
      · have : ¬ i - k = 0 := by omega
        simp [h, this]
  rw [BitVec.getLsbD_and, hone]
  by_cases h : i = k
  · subst h
    cases hp : p.getLsbD i <;> simp [hone]
  · cases hp : p.getLsbD k <;> simp [h, hone]

lemma bit_ne_zero (k : ℕ) (hk : k < 32) : 1#32 <<< k ≠ 0#32 := by
  have : ∀ k : Fin 32, 1#32 <<< k.val ≠ 0#32 := by decide
  exact this ⟨k, hk⟩

/-- The loops find a bit of the parity when there is one. -/
lemma firstBit_some (parity : Fin 4 → BitVec 32) (h : ∃ n k, k < 32 ∧ (parity n).getLsbD k = true) :
    ∃ n k, firstBit parity = some (n, k) ∧ k < 32 ∧ (parity n).getLsbD k = true := by
  obtain ⟨n0, k0, hk0, hb⟩ := h
  cases hf : firstBit parity with
  | none =>
    unfold firstBit at hf
    rw [List.findSome?_eq_none_iff] at hf
    have := hf n0 (by fin_cases n0 <;> simp)
    rw [List.findSome?_eq_none_iff] at this
    have := this k0 (List.mem_range.mpr hk0)
    rw [bit_and k0 _ hk0, hb] at this
    simp [bit_ne_zero k0 hk0] at this
  | some r =>
    obtain ⟨n, k⟩ := r
    refine ⟨n, k, rfl, ?_⟩
    unfold firstBit at hf
    obtain ⟨m, hm, hm2⟩ := List.exists_of_findSome?_eq_some hf
    obtain ⟨j, hj, hj2⟩ := List.exists_of_findSome?_eq_some hm2
    have hj' := List.mem_range.mp hj
    rw [bit_and j _ hj'] at hj2
    cases hb : (parity m).getLsbD j with
    | false => simp [hb] at hj2
    | true =>
      simp [hb, bit_ne_zero j hj'] at hj2
      obtain ⟨e1, e2⟩ := hj2
      subst e1 e2
      exact ⟨hj', hb⟩

lemma parityOf_eq (parity u : Fin 4 → BitVec 32) :
    parityOf parity u = (xorBits (u 0 &&& parity 0) ^^ xorBits (u 1 &&& parity 1) ^^ xorBits (u 2 &&& parity 2)
      ^^ xorBits (u 3 &&& parity 3)) := by
  unfold parityOf xorBits
  simp only [List.foldl_cons, List.foldl_nil, BitVec.getLsbD_and, Bool.false_xor]

/-- C45: whatever the leading words of the state and whatever the (nonzero) parity vector, after the
adjustment the selected bits have odd parity, i.e. the state passes the certification of the period. -/
theorem adjust_certified (parity u : Fin 4 → BitVec 32) (h : ∃ n k, k < 32 ∧ (parity n).getLsbD k = true) :
    parityOf parity (adjust parity u) = true := by
  unfold adjust
  split
  · rename_i h1
    rw [parityBit_eq] at h1
    by_contra hcon
    simp [hcon] at h1
  · rename_i h1
    rw [parityBit_eq] at h1
    have hf : parityOf parity u = false := by
      by_contra hcon
      simp at hcon
      simp [hcon] at h1
    obtain ⟨n, k, hfb, hk, hb⟩ := firstBit_some parity h
    rw [hfb]
    simp only
    rw [parityOf_eq] at hf ⊢
    have hflip : xorBits ((u n ^^^ (1#32 <<< k)) &&& parity n) = !xorBits (u n &&& parity n) := by
      have e : (u n ^^^ (1#32 <<< k)) &&& parity n = (u n &&& parity n) ^^^ ((1#32 <<< k) &&& parity n) := by
        apply BitVec.eq_of_getLsbD_eq
        intro i _
        simp only [BitVec.getLsbD_and, BitVec.getLsbD_xor]
        cases (u n).getLsbD i <;> cases (1#32 <<< k).getLsbD i <;> cases (parity n).getLsbD i <;> rfl
      rw [e, xorBits_xor, bit_and k _ hk, hb, if_pos rfl, xorBits_bit k hk]
      simp
    generalize hX : xorBits = X at hflip hf ⊢
    fin_cases n <;> simp only [Fin.isValue, Fin.reduceFinMk, Fin.zero_eta, Fin.mk_one, Fin.reduceEq, if_true, if_false,
      one_ne_zero, zero_ne_one] at hflip hf ⊢ <;> rw [hflip] <;> revert hf <;>
      cases X (u 0 &&& parity 0) <;> cases X (u 1 &&& parity 1) <;> cases X (u 2 &&& parity 2) <;>
      cases X (u 3 &&& parity 3) <;> decide

/-- The adjustment changes at most one bit. -/
theorem adjust_minimal (parity u : Fin 4 → BitVec 32) :
    adjust parity u = u ∨ ∃ (n : Fin 4) (k : ℕ), adjust parity u = fun m => if m = n then u m ^^^ (1#32 <<< k) else u m := by
  unfold adjust
  split
  · exact Or.inl rfl
  · split
    · exact Or.inl rfl
    · exact Or.inr ⟨_, _, rfl⟩

/-- A state which already passes is not changed. -/
theorem adjust_certified_id (parity u : Fin 4 → BitVec 32) (h : parityOf parity u = true) : adjust parity u = u := by
  unfold adjust
  rw [parityBit_eq, h]; simp

/-- All seeds of the default generator. -/
theorem seeded_certified (seed : BitVec 32) :
    parityOf parity11213 (fun m => seedRng parity11213 seed m) = true := by
  have : (fun m : Fin 4 => seedRng parity11213 seed m) = adjust parity11213 (fun m => seedWord seed m) := by
    funext m
    unfold seedRng
    simp [m.isLt]
  rw [this]
  exact adjust_certified _ _ ⟨0, 0, by decide, by decide⟩

-- a seed which fails the check before the adjustment.
set_option maxRecDepth 10000 in
example : ∃ seed : BitVec 32, parityOf parity11213 (fun m => seedWord seed m) = false := ⟨0, by decide⟩

/-! ## C44 -/

lemma mix_inj (x y : BitVec 32) (h : x ^^^ (x >>> 30) = y ^^^ (y >>> 30)) : x = y := by
  have key : ∀ x : BitVec 32, (x ^^^ (x >>> 30)) ^^^ ((x ^^^ (x >>> 30)) >>> 30) = x := by
    intro x
    apply BitVec.eq_of_getLsbD_eq
    intro i hi
    simp only [BitVec.getLsbD_xor, BitVec.getLsbD_ushiftRight]
    have : x.getLsbD (30 + (30 + i)) = false := BitVec.getLsbD_of_ge _ _ (by omega)
    rw [this]
    cases x.getLsbD i <;> cases x.getLsbD (30 + i) <;> rfl
  rw [← key x, ← key y, h]

lemma mul_inj32 (x y : BitVec 32) (h : 1812433253#32 * x = 1812433253#32 * y) : x = y := by
  have e : 2520285293#32 * 1812433253#32 = 1#32 := by decide
  have : 2520285293#32 * (1812433253#32 * x) = 2520285293#32 * (1812433253#32 * y) := by rw [h]
  rw [← BitVec.mul_assoc, ← BitVec.mul_assoc, e, BitVec.one_mul, BitVec.one_mul] at this
  exact this

lemma firstBit_zero (parity : Fin 4 → BitVec 32) (h : (parity 0).getLsbD 0 = true) : firstBit parity = some (0, 0) := by
  unfold firstBit
  have : List.range 32 = 0 :: (List.range 31).map (· + 1) := by decide
  rw [this, List.findSome?_cons, List.findSome?_cons, bit_and 0 _ (by decide), h]
  simp

/-- C44: different 32-bit seeds give different generator states. -/
theorem seedRng_injective (parity : Fin 4 → BitVec 32) (hp : (parity 0).getLsbD 0 = true) (s s' : BitVec 32)
    (h : ∀ k, seedRng parity s k = seedRng parity s' k) : s = s' := by
  have h1 : ∀ s, seedRng parity s 1 = 1812433253#32 * (s ^^^ (s >>> 30)) + 1#32 := by
    intro s
    unfold seedRng adjust
    rw [firstBit_zero parity hp]
    simp only [show (1:ℕ) < 4 from by decide, dif_pos]
    split
    · rfl
    · simp [seedWord]
  have := h 1
  rw [h1, h1] at this
  have := mul_inj32 _ _ ((BitVec.add_left_inj _).mp this)
  exact mix_inj _ _ this

/-- A generator of a simulation: which pool (user seed), synchronous or local to a rank, and its index. -/
structure GenId where
  /-- user seed -/
  seed : ℤ
  /-- rank of a local generator, `none` for a synchronous one -/
  owner : Option ℤ
  /-- index in the pool -/
  index : ℤ

/-- Existing generators of pools with `nRng` generators on `worldSize` ranks. -/
def GenId.Ok (worldSize nRng : ℤ) (g : GenId) : Prop :=
  (∀ r, g.owner = some r → 0 ≤ r ∧ r < worldSize) ∧ 0 ≤ g.index ∧ g.index < nRng

/-- The seed which `seed_rng_pool` gives to the generator, seen from rank `rank`. -/
def GenId.seedOn (worldSize nRng rank : ℤ) (g : GenId) : ℤ :=
  match g.owner with
  | none => poolSeed worldSize rank nRng g.seed true g.index
  | some r => poolSeed worldSize r nRng g.seed false g.index

/-- C44: synchronous generators get the same seed on all ranks. -/
theorem sync_seed_same (worldSize nRng r r' seed n : ℤ) :
    poolSeed worldSize r nRng seed true n = poolSeed worldSize r' nRng seed true n := rfl

lemma digits_unique (b q q' r r' : ℤ) (hr : 0 ≤ r) (hr2 : r < b) (hr' : 0 ≤ r') (hr2' : r' < b)
    (h : r + b * q = r' + b * q') : q = q' ∧ r = r' := by
  have hq : q = q' := by
    rcases lt_trichotomy q q' with hlt | he | hgt
    · nlinarith [mul_le_mul_of_nonneg_left (show q + 1 ≤ q' from hlt) (show 0 ≤ b by omega)]
    · exact he
    · nlinarith [mul_le_mul_of_nonneg_left (show q' + 1 ≤ q from hgt) (show 0 ≤ b by omega)]
  subst hq
  exact ⟨rfl, by linarith⟩

/-- C44: two generators of the simulation with the same seed are the same generator. -/
theorem pool_seeds_distinct (worldSize nRng rank rank' : ℤ) (g g' : GenId)
    (hw : 1 ≤ worldSize) (hg : g.Ok worldSize nRng) (hg' : g'.Ok worldSize nRng)
    (h : g.seedOn worldSize nRng rank = g'.seedOn worldSize nRng rank') : g = g' := by
  have slot : ∀ (k : GenId), k.Ok worldSize nRng → ∀ rk, ∃ s, 0 ≤ s ∧ s < worldSize + 1 ∧
      (s = match k.owner with | none => worldSize | some r => r) ∧
      k.seedOn worldSize nRng rk = s + (worldSize + 1) * (k.index + nRng * k.seed) := by
    intro k hk rk
    unfold GenId.seedOn poolSeed
    cases ho : k.owner with
    | none => exact ⟨worldSize, by omega, by omega, rfl, by simp; ring⟩
    | some r =>
      have := hk.1 r ho
      exact ⟨r, by omega, by omega, rfl, by simp; ring⟩
  obtain ⟨s, a1, a2, a3, a4⟩ := slot g hg rank
  obtain ⟨s', b1, b2, b3, b4⟩ := slot g' hg' rank'
  rw [a4, b4] at h
  obtain ⟨h1, h2⟩ := digits_unique _ _ _ _ _ a1 a2 b1 b2 h
  obtain ⟨h3, h4⟩ := digits_unique nRng _ _ _ _ hg.2.1 hg.2.2 hg'.2.1 hg'.2.2 h1
  obtain ⟨sd, ow, ix⟩ := g
  obtain ⟨sd', ow', ix'⟩ := g'
  simp only at *
  subst h3 h4
  have : ow = ow' := by
    subst h2
    rw [a3] at b3
    cases ow with
    | none => cases ow' with
      | none => rfl
      | some r' => have := hg'.1 r' rfl; simp only at b3; omega
    | some r => cases ow' with
      | none => have := hg.1 r rfl; simp only at b3; omega
      | some r' => simp only at b3; rw [b3]
  rw [this]

/-- The seed arithmetic does not leave the range of `int`. -/
def Fits (x : ℤ) : Prop := -2 ^ 31 ≤ x ∧ x < 2 ^ 31

/-- C44: different generators of the simulation start in different states (for user seeds whose derived
seeds are representable; the C++ arithmetic is undefined otherwise). -/
theorem generators_start_differently (parity : Fin 4 → BitVec 32) (hp : (parity 0).getLsbD 0 = true)
    (worldSize nRng rank rank' : ℤ) (g g' : GenId) (hw : 1 ≤ worldSize)
    (hg : g.Ok worldSize nRng) (hg' : g'.Ok worldSize nRng)
    (hf : Fits (g.seedOn worldSize nRng rank)) (hf' : Fits (g'.seedOn worldSize nRng rank'))
    (h : ∀ k, seedRng parity (BitVec.ofInt 32 (g.seedOn worldSize nRng rank)) k =
      seedRng parity (BitVec.ofInt 32 (g'.seedOn worldSize nRng rank')) k) : g = g' := by
  have := seedRng_injective parity hp _ _ h
  apply pool_seeds_distinct worldSize nRng rank rank' g g' hw hg hg'
  have e := congrArg BitVec.toInt this
  rw [BitVec.toInt_ofInt, BitVec.toInt_ofInt] at e
  obtain ⟨f1, f2⟩ := hf
  obtain ⟨f3, f4⟩ := hf'
  have c1 : ∀ x : ℤ, -2 ^ 31 ≤ x → x < 2 ^ 31 → x.bmod (2 ^ 32) = x := by
    intro x h1 h2
    unfold Int.bmod
    norm_num at h1 h2 ⊢
    split <;> omega
  rw [c1 _ f1 f2, c1 _ f3 f4] at e
  exact e

-- generators 3 of rank 2 and synchronous of seed 7 on 4 ranks with 5 generators per pool.
example : (GenId.Ok 4 5 ⟨7, some 2, 3⟩) ∧ Fits (GenId.seedOn 4 5 2 ⟨7, some 2, 3⟩) ∧
    GenId.seedOn 4 5 2 ⟨7, some 2, 3⟩ = 192 ∧ GenId.seedOn 4 5 0 ⟨7, none, 3⟩ = 194 := by
  refine ⟨⟨?_, by decide, by decide⟩, ?_, by decide, by decide⟩
  · intro r hr; simp at hr; omega
  · unfold Fits; norm_num [GenId.seedOn, poolSeed]

end Verif.Rng
