import Verif.Rng.Model
import Mathlib.Tactic.Linarith
import Mathlib.Tactic.Ring
import Mathlib.Tactic.IntervalCases
import Mathlib.Logic.Function.Iterate
import Mathlib.Data.Nat.Bitwise

/-!
# The raw stream of the generator: C42, C45, C65
-/
namespace Verif.Rng

/-! ## C42 -/

/-- Specification: the endless sequence of bytes of the successive states, the seed state first. -/
def stream {B : Type*} (NC : ℕ) (next : (ℕ → B) → ℕ → B) (seed : ℕ → B) (p : ℕ) : B :=
  (next^[p / NC] seed) (p % NC)

/-- Specification: where the draws of the given widths (as powers of two) begin and the last one ends,
when `p` bytes have been used: each begins at the next multiple of its size. -/
def starts : List ℕ → ℕ → List ℕ × ℕ
  | [], p => ([], p)
  | k :: ks, p =>
    let q := (p + 2 ^ k - 1) / 2 ^ k * 2 ^ k
    ((q :: (starts ks (q + 2 ^ k)).1), (starts ks (q + 2 ^ k)).2)

/-- A generator that has used `p` bytes of the stream. -/
structure At {B : Type*} (NC : ℕ) (next : (ℕ → B) → ℕ → B) (seed : ℕ → B) (p : ℕ) (r : Gen B) : Prop where
  le : r.n ≤ NC
  pos : ∃ b, r.state = next^[b] seed ∧ p = b * NC + r.n

lemma ceil_add (NC b n sz : ℕ) (hsz : 0 < sz) (h : sz ∣ NC) :
    (b * NC + n + sz - 1) / sz * sz = b * NC + (n + sz - 1) / sz * sz := by
  obtain ⟨c, rfl⟩ := h
  have : b * (sz * c) + n + sz - 1 = sz * (b * c) + (n + sz - 1) := by
    have : b * (sz * c) = sz * (b * c) := by ring
    omega
  rw [this, Nat.mul_add_div hsz]
  ring

lemma rngNext_at {B : Type*} (NC : ℕ) (next : (ℕ → B) → ℕ → B) (seed : ℕ → B) (k p : ℕ) (r : Gen B)
    (hk : 2 ^ k ∣ NC) (hNC : 0 < NC) (h : At NC next seed p r) :
    ∃ r', rngNext NC next k r = some ((List.range (2 ^ k)).map (fun b =>
        stream NC next seed ((p + 2 ^ k - 1) / 2 ^ k * 2 ^ k + b)), r') ∧
      At NC next seed ((p + 2 ^ k - 1) / 2 ^ k * 2 ^ k + 2 ^ k) r' := by
  obtain ⟨hle, b, hb, hp⟩ := h
  have hsz : 0 < 2 ^ k := by positivity
  set sz := 2 ^ k with hszd
  have hq : (p + sz - 1) / sz * sz = b * NC + (r.n + sz - 1) / sz * sz := by
    rw [hp, ceil_add NC b r.n sz hsz hk]
  obtain ⟨c, hc⟩ := hk
  set n := (r.n + sz - 1) / sz * sz with hn
  have hdvd : sz ∣ n := ⟨_, by rw [hn, Nat.mul_comm]⟩
  have hnle : n ≤ NC := by
    rw [hn, hc, Nat.mul_comm sz c]
    refine Nat.mul_le_mul_right _ ?_
    rw [← Nat.lt_succ_iff, Nat.div_lt_iff_lt_mul hsz]
    have : (c + 1) * sz = sz * c + sz := by ring
    simp only [Nat.succ_eq_add_one]
    omega
  by_cases hge : n ≥ NC
  · have hnNC : n = NC := by omega
    have hc0 : 0 < c := by
      rcases Nat.eq_zero_or_pos c with h | h
      · rw [h] at hc; omega
      · exact h
    have hszNC : sz ≤ NC := by rw [hc]; exact Nat.le_mul_of_pos_right _ hc0
    refine ⟨⟨next r.state, 0 + sz⟩, ?_, ?_⟩
    · unfold rngNext
      simp only [← hszd, ← hn, if_pos hge]
      rw [if_pos (by omega)]
      congr 2
      refine List.map_congr_left fun j hj => ?_
      have hj' : j < sz := List.mem_range.mp hj
      simp only [stream, hq, hnNC]
      have e1 : (b * NC + NC + j) / NC = b + 1 := by
        rw [show b * NC + NC + j = NC * (b + 1) + j by ring, Nat.mul_add_div hNC,
          Nat.div_eq_of_lt (by omega), Nat.add_zero]
      have e2 : (b * NC + NC + j) % NC = j := by
        rw [show b * NC + NC + j = NC * (b + 1) + j by ring, Nat.mul_add_mod, Nat.mod_eq_of_lt (by omega)]
      rw [e1, e2, Function.iterate_succ', Function.comp_apply, ← hb]
      simp
    · refine ⟨by simpa using hszNC, b + 1, ?_, ?_⟩
      · rw [Function.iterate_succ', Function.comp_apply, ← hb]
      · rw [hq, hnNC]; simp only; ring
  · have hlt : n < NC := by omega
    have hle2 : n + sz ≤ NC := by
      obtain ⟨e, he⟩ := hdvd
      rw [he, hc] at hlt ⊢
      have : e < c := lt_of_mul_lt_mul_left hlt (Nat.zero_le _)
      calc sz * e + sz = sz * (e + 1) := by ring
        _ ≤ sz * c := Nat.mul_le_mul_left _ this
    refine ⟨⟨r.state, n + sz⟩, ?_, ?_⟩
    · unfold rngNext
      simp only [← hszd, ← hn, if_neg hge]
      rw [if_pos hle2]
      congr 2
      refine List.map_congr_left fun j hj => ?_
      have hj' : j < sz := List.mem_range.mp hj
      simp only [stream, hq]
      have e1 : (b * NC + n + j) / NC = b := by
        rw [show b * NC + n + j = NC * b + (n + j) by ring, Nat.mul_add_div hNC,
          Nat.div_eq_of_lt (by omega), Nat.add_zero]
      have e2 : (b * NC + n + j) % NC = n + j := by
        rw [show b * NC + n + j = NC * b + (n + j) by ring, Nat.mul_add_mod, Nat.mod_eq_of_lt (by omega)]
      rw [e1, e2, ← hb, Nat.div_mul_cancel hdvd]
    · refine ⟨hle2, b, hb, ?_⟩
      rw [hq]; simp only; ring

/-- C42: a freshly seeded generator (`n = NC`) delivers, for every sequence of draws of 1, 2, 4 and 8 byte
integers, the bytes of the stream of states after the seed, each draw beginning at the next multiple of
its size: nothing is read outside of the state, at most `size - 1` bytes are skipped per draw, and a new
state is computed exactly when the old one is used up. -/
theorem draws_follow_stream {B : Type*} (N : ℕ) (hN : 0 < N) (next : (ℕ → B) → ℕ → B) (seed : ℕ → B)
    (ks : List ℕ) (hks : ∀ k ∈ ks, k ≤ 3) :
    ∃ r', draws (16 * N) next ks ⟨seed, 16 * N⟩ = some ((List.zip (starts ks (16 * N)).1 ks).map (fun qk =>
        (List.range (2 ^ qk.2)).map fun b => stream (16 * N) next seed (qk.1 + b)), r') ∧
      At (16 * N) next seed (starts ks (16 * N)).2 r' := by
  have key : ∀ (ks : List ℕ), (∀ k ∈ ks, k ≤ 3) → ∀ (p : ℕ) (r : Gen B), At (16 * N) next seed p r →
      ∃ r', draws (16 * N) next ks r = some ((List.zip (starts ks p).1 ks).map (fun qk =>
        (List.range (2 ^ qk.2)).map fun b => stream (16 * N) next seed (qk.1 + b)), r') ∧
      At (16 * N) next seed (starts ks p).2 r' := by
    intro ks
    induction ks with
    | nil => intro _ p r h; exact ⟨r, rfl, h⟩
    | cons k ks ih =>
      intro hks p r h
      have hk3 := hks k (by simp)
      have hk : 2 ^ k ∣ 16 * N := Dvd.dvd.mul_right (pow_dvd_pow 2 (by omega : k ≤ 4)) N
      obtain ⟨r1, h1, h1'⟩ := rngNext_at (16 * N) next seed k p r hk (by omega) h
      obtain ⟨r2, h2, h2'⟩ := ih (fun k hk => hks k (by simp [hk])) _ r1 h1'
      refine ⟨r2, ?_, h2'⟩
      simp only [draws, h1, h2, starts]
      rfl
  exact key ks hks _ _ ⟨le_rfl, 0, rfl, by simp⟩

example : starts [0, 3, 2, 1] 16 = ([16, 24, 32, 36], 38) := by decide

/-! ## C65: the recursion -/

/-- Specification: the sequence defined by the linear recursion of the generator. -/
def recSeq {W : Type*} (N M : ℕ) (f : W → W → W → W → W) (x : ℕ → W) : ℕ → W := fun i =>
  if h : i < N ∨ N < 3 ∨ N ≤ M then x i
  else f (recSeq N M f x (i - N)) (recSeq N M f x (i - N + M)) (recSeq N M f x (i - 2)) (recSeq N M f x (i - 1))
termination_by i => i
decreasing_by all_goals omega

/-- C65: computing the next state in place gives the next `N` terms of the recursion
`x(i+N) = f(x(i), x(i+M), x(i+N-2), x(i+N-1))`. -/
theorem sfmt_next_is_recursion {W : Type*} (N M : ℕ) (f : W → W → W → W → W) (x : ℕ → W) (hM : 0 < M)
    (hNM : M + 2 ≤ N) (i : ℕ) (hi : i < N) : sfmtNext N M f x i = recSeq N M f x (N + i) := by
  have hrec : ∀ j, recSeq N M f x (N + j) = f (recSeq N M f x j) (recSeq N M f x (j + M))
      (recSeq N M f x (N + j - 2)) (recSeq N M f x (N + j - 1)) := by
    intro j
    rw [recSeq, dif_neg (by omega)]
    simp only [show N + j - N = j by omega]
  have hlow : ∀ j < N, recSeq N M f x j = x j := by
    intro j hj
    rw [recSeq, dif_pos (Or.inl hj)]
  -- after `n` words
  let P : ℕ → (ℕ → W) → Prop := fun n y => ∀ k, k < N → y k = if k < n then recSeq N M f x (N + k) else x k
  let y0 : ℕ → W := fun k => if k = 0 then f (x 0) (x M) (x (N - 2)) (x (N - 1)) else x k
  let y1 : ℕ → W := fun k => if k = 1 then f (y0 1) (y0 (M + 1)) (y0 (N - 1)) (y0 0) else y0 k
  have h0 : P 1 y0 := by
    intro k hk
    simp only [y0]
    by_cases hk0 : k = 0
    · rw [if_pos hk0, if_pos (by omega), hk0, hrec 0, hlow 0 (by omega), hlow (0 + M) (by omega),
        hlow _ (by omega), hlow _ (by omega)]
      simp
    · rw [if_neg hk0, if_neg (by omega)]
  have h1 : P 2 y1 := by
    intro k hk
    simp only [y1]
    by_cases hk1 : k = 1
    · rw [if_pos hk1, if_pos (by omega), hk1, hrec 1, h0 1 (by omega), h0 (M + 1) (by omega),
        h0 (N - 1) (by omega), h0 0 (by omega), if_neg (by omega), if_neg (by omega), if_neg (by omega),
        if_pos (by omega), hlow 1 (by omega), hlow (1 + M) (by omega)]
      rw [show N + 1 - 2 = N - 1 by omega, show N + 1 - 1 = N by omega, hlow (N - 1) (by omega), Nat.add_comm 1 M]
      rfl
    · rw [if_neg hk1, h0 k hk]
      by_cases hk0 : k < 1
      · rw [if_pos hk0, if_pos (by omega)]
      · rw [if_neg hk0, if_neg (by omega)]
  have hstep : ∀ n y (b : ℕ → ℕ), 2 ≤ n → n < N → P n y → (y (b n) = recSeq N M f x (n + M)) →
      P (n + 1) (fun k => if k = n then f (y n) (y (b n)) (y (n - 2)) (y (n - 1)) else y k) := by
    intro n y b hn hnN hP hb k hk
    by_cases hkn : k = n
    · subst hkn
      simp only [if_true, if_pos (Nat.lt_succ_self k)]
      rw [hrec k, hP k hk, if_neg (by omega), hb, hP (k - 2) (by omega), if_pos (by omega), hP (k - 1) (by omega),
        if_pos (by omega), hlow k hk]
      rw [show N + (k - 2) = N + k - 2 by omega, show N + (k - 1) = N + k - 1 by omega]
    · simp only [if_neg hkn]
      rw [hP k hk]
      by_cases hk' : k < n
      · rw [if_pos hk', if_pos (by omega)]
      · rw [if_neg hk', if_neg (by omega)]
  have hfold1 : ∀ m, m ≤ N - M - 2 → P (2 + m) ((List.range' 2 m).foldl
      (fun x n => fun k => if k = n then f (x n) (x (n + M)) (x (n - 2)) (x (n - 1)) else x k) y1) := by
    intro m
    induction m with
    | zero => intro _; exact h1
    | succ m ih =>
      intro hm
      have hP := ih (by omega)
      rw [List.range'_1_concat, List.foldl_append]
      simp only [List.foldl_cons, List.foldl_nil]
      refine hstep (2 + m) _ (fun n => n + M) (by omega) (by omega) hP ?_
      rw [hP _ (by omega), if_neg (by omega), hlow _ (by omega)]
  have hfold2 : ∀ (y : ℕ → W), P (N - M) y → ∀ m, m ≤ M → P (N - M + m) ((List.range' (N - M) m).foldl
      (fun x n => fun k => if k = n then f (x n) (x (n - (N - M))) (x (n - 2)) (x (n - 1)) else x k) y) := by
    intro y hy m
    induction m with
    | zero => intro _; exact hy
    | succ m ih =>
      intro hm
      have hP := ih (by omega)
      rw [List.range'_1_concat, List.foldl_append]
      simp only [List.foldl_cons, List.foldl_nil]
      refine hstep (N - M + m) _ (fun n => n - (N - M)) (by omega) (by omega) hP ?_
      rw [hP _ (by omega), if_pos (by omega), show N + (N - M + m - (N - M)) = N - M + m + M by omega]
  have hA := hfold1 (N - M - 2) le_rfl
  rw [show 2 + (N - M - 2) = N - M by omega] at hA
  have hB := hfold2 _ hA M le_rfl i hi
  rw [if_pos (by omega)] at hB
  exact hB

lemma ofLanes_getLsbD (a b c d : BitVec 32) (i : ℕ) :
    (ofLanes a b c d).getLsbD i = if i < 32 then a.getLsbD i else if i < 64 then b.getLsbD (i - 32)
      else if i < 96 then c.getLsbD (i - 64) else d.getLsbD (i - 96) := by
  unfold ofLanes
  simp only [BitVec.getLsbD_append]
  split_ifs <;> first | rfl | omega | (congr 1; omega)

lemma lanes_getLsbD (x : BitVec 128) (k i : ℕ) : (lanes x k).getLsbD i = (decide (i < 32) && x.getLsbD (32 * k + i)) := by
  unfold lanes
  simp only [BitVec.getLsbD_extractLsb']

lemma bit_lane (x : BitVec 128) (q r : ℕ) (hr : r < 32) : x.getLsbD (32 * q + r) = (lanes x q).getLsbD r := by
  rw [lanes_getLsbD]; simp [hr]

lemma shl_lane (a : BitVec 128) (s q r : ℕ) (hr : r < 32) (hs : s ≤ 32) (hq : q < 4) :
    (a <<< s).getLsbD (32 * q + r) = if q = 0 then (lanes a 0 <<< s).getLsbD r
      else ((lanes a q <<< s) ||| (lanes a (q - 1) >>> (32 - s))).getLsbD r := by
  simp only [BitVec.getLsbD_shiftLeft, BitVec.getLsbD_or, BitVec.getLsbD_ushiftRight, lanes_getLsbD]
  have h1 : 32 * q + r < 128 := by omega
  by_cases hlt : r < s
  · by_cases hq0 : q = 0
    · subst hq0; simp [hlt, hr]
    · have e : 32 * (q - 1) + (32 - s + r) = 32 * q + r - s := by omega
      have h2 : ¬ (32 * q + r < s) := by omega
      have h3 : 32 - s + r < 32 := by omega
      simp [hlt, hr, hq0, e, h1, h2, h3]
  · have e : 32 * q + (r - s) = 32 * q + r - s := by omega
    have h2 : ¬ (32 * q + r < s) := by omega
    have h3 : ¬ (32 - s + r < 32) := by omega
    have h4 : r - s < 32 := by omega
    by_cases hq0 : q = 0
    · subst hq0; simp [hlt, hr, h4]; omega
    · simp [hlt, hr, hq0, e, h1, h2, h3, h4]

lemma shr_lane (a : BitVec 128) (s q r : ℕ) (hr : r < 32) (hs : 0 < s) (hs' : s ≤ 32) (hq : q < 4) :
    (a >>> s).getLsbD (32 * q + r) = if q = 3 then (lanes a 3 >>> s).getLsbD r
      else ((lanes a q >>> s) ||| (lanes a (q + 1) <<< (32 - s))).getLsbD r := by
  simp only [BitVec.getLsbD_shiftLeft, BitVec.getLsbD_or, BitVec.getLsbD_ushiftRight, lanes_getLsbD]
  by_cases hlt : s + r < 32
  · have e : 32 * q + (s + r) = s + (32 * q + r) := by omega
    have h2 : r < 32 - s := by omega
    by_cases hq0 : q = 3
    · subst hq0; simp [hlt]; congr 1; omega
    · simp [hlt, hq0, e, h2]
  · have h2 : ¬ r < 32 - s := by omega
    by_cases hq0 : q = 3
    · subst hq0
      simp [hlt]
      exact BitVec.getLsbD_of_ge _ _ (by omega)
    · have e : 32 * (q + 1) + (r - (32 - s)) = s + (32 * q + r) := by omega
      have h3 : r - (32 - s) < 32 := by omega
      simp [hlt, hq0, e, h2, h3, hr]

/-- C65: the SSE2 and the portable version of the mixing function are the same, so the stream does not
depend on the instruction set (shifts by one to three bytes, as in all parameter sets). -/
theorem sfmt_sse_eq_portable (L1 L2 R1 R2 : ℕ) (hL : 1 ≤ L2 ∧ L2 ≤ 3) (hR : 1 ≤ R2 ∧ R2 ≤ 3)
    (mask a b c d : BitVec 128) :
    sfmtSse L1 L2 R1 R2 mask a b c d = sfmtPortable L1 L2 R1 R2 mask a b c d := by
  apply BitVec.eq_of_getLsbD_eq
  intro i hi
  obtain ⟨q, r, hr, rfl⟩ : ∃ q r, r < 32 ∧ i = 32 * q + r := ⟨i / 32, i % 32, by omega, by omega⟩
  have hq : q < 4 := by omega
  unfold sfmtSse sfmtPortable
  simp only [BitVec.getLsbD_xor, BitVec.getLsbD_and, shl_lane a (8 * L2) q r hr (by omega) hq,
    shr_lane c (8 * R2) q r hr (by omega) (by omega) hq, bit_lane a q r hr, bit_lane mask q r hr, ofLanes_getLsbD]
  have hr2 : ¬ (32 + r < 32) := by omega
  have hr3 : 32 + r < 64 := by omega
  have hr4 : ¬ (64 + r < 32) := by omega
  have hr5 : ¬ (64 + r < 64) := by omega
  have hr6 : 64 + r < 96 := by omega
  have hr7 : ¬ (96 + r < 32) := by omega
  have hr8 : ¬ (96 + r < 64) := by omega
  have hr9 : ¬ (96 + r < 96) := by omega
  interval_cases q
  · simp only [Nat.mul_zero, Nat.zero_add, if_pos hr, BitVec.getLsbD_xor, BitVec.getLsbD_and]
    simp
  · simp only [Nat.mul_one, if_neg hr2, if_pos hr3, Nat.add_sub_cancel_left, BitVec.getLsbD_xor, BitVec.getLsbD_and]
    simp
  · simp only [Nat.reduceMul, if_neg hr4, if_neg hr5, if_pos hr6, Nat.add_sub_cancel_left, BitVec.getLsbD_xor,
      BitVec.getLsbD_and]
    simp
  · simp only [Nat.reduceMul, if_neg hr7, if_neg hr8, if_neg hr9, Nat.add_sub_cancel_left, BitVec.getLsbD_xor,
      BitVec.getLsbD_and]
    simp

/-! ## C45 -/

/-- Specification: exclusive or of all selected bits of the four words. -/
def parityOf (parity u : Fin 4 → BitVec 32) : Bool :=
  ([0, 1, 2, 3] : List (Fin 4)).foldl (fun acc n =>
    acc ^^ ((List.range 32).foldl (fun acc k => acc ^^ ((u n).getLsbD k && (parity n).getLsbD k)) false)) false

/-- Exclusive or of the bits of a word. -/
def xorBits (b : BitVec 32) : Bool := (List.range 32).foldl (fun acc k => acc ^^ b.getLsbD k) false

lemma foldl_xor {α : Type*} (l : List α) (f g : α → Bool) (x y : Bool) :
    l.foldl (fun acc k => acc ^^ (f k ^^ g k)) (x ^^ y) =
      (l.foldl (fun acc k => acc ^^ f k) x ^^ l.foldl (fun acc k => acc ^^ g k) y) := by
  induction l generalizing x y with
  | nil => rfl
  | cons a l ih =>
    simp only [List.foldl_cons]
    rw [← ih]
    congr 1
    cases x <;> cases y <;> cases f a <;> cases g a <;> rfl

lemma xorBits_xor (a b : BitVec 32) : xorBits (a ^^^ b) = (xorBits a ^^ xorBits b) := by
  unfold xorBits
  simp only [BitVec.getLsbD_xor]
  exact foldl_xor _ _ _ false false

/-- The folding by shifts computes the exclusive or of all bits. -/
lemma fold_eq (b : BitVec 32) :
    (let b := b ^^^ (b >>> 16)
     let b := b ^^^ (b >>> 8)
     let b := b ^^^ (b >>> 4)
     let b := b ^^^ (b >>> 2)
     let b := b ^^^ (b >>> 1)
     b &&& 1#32) = if xorBits b then 1#32 else 0#32 := by
  have hbit : ∀ x : BitVec 32, x &&& 1#32 = if x.getLsbD 0 then 1#32 else 0#32 := by
    intro x
    apply BitVec.eq_of_getLsbD_eq
    intro i hi
    rcases Nat.eq_zero_or_pos i with rfl | h
    · cases hx : x.getLsbD 0 <;> simp_all
    · have : (1#32).getLsbD i = false := by
        simp [BitVec.getLsbD_one]; omega
      cases hx : x.getLsbD 0 <;> simp [this]
  simp only [hbit]
  have : (b ^^^ (b >>> 16)) = (b ^^^ (b >>> 16)) := rfl
  congr 1
  simp only [BitVec.getLsbD_xor, BitVec.getLsbD_ushiftRight, xorBits, List.range, List.range.loop,
    List.foldl_cons, List.foldl_nil]
  simp only [Nat.reduceAdd, Nat.add_zero, Bool.false_xor]
  generalize b.getLsbD = f
  haveI : Std.Commutative Bool.xor := ⟨Bool.xor_comm⟩
  haveI : Std.Associative Bool.xor := ⟨Bool.xor_assoc⟩
  ac_rfl

lemma parityBit_eq (parity u : Fin 4 → BitVec 32) :
    parityBit parity u = if parityOf parity u then 1#32 else 0#32 := by
  unfold parityBit
  have := fold_eq ((((0#32 ^^^ (u 0 &&& parity 0)) ^^^ (u 1 &&& parity 1)) ^^^ (u 2 &&& parity 2)) ^^^ (u 3 &&& parity 3))
  dsimp only at this ⊢
  rw [this]
  clear this
  have key : ∀ x y : Bool, x = y → (if x then 1#32 else 0#32) = if y then 1#32 else 0#32 := by
    rintro x _ rfl; rfl
  apply key
  have h0 : xorBits 0#32 = false := by decide
  have hx : ∀ n, xorBits (u n &&& parity n) =
      (List.range 32).foldl (fun acc k => acc ^^ ((u n).getLsbD k && (parity n).getLsbD k)) false := by
    intro n; unfold xorBits; simp only [BitVec.getLsbD_and]
  simp only [xorBits_xor, h0, hx, parityOf, List.foldl_cons, List.foldl_nil]

end Verif.Rng
