import Verif.Util.Model
import Mathlib.Tactic.Ring
import Mathlib.Tactic.IntervalCases
import Mathlib.Data.Fintype.Card
import Mathlib.Data.Finset.Card

/-!
# Properties of the utilities (C46-C49, C51)
-/
namespace Verif.Util

/-! ## C46 -/

lemma loadPtr_storePtr (mem : Bytes) (addr v : ℕ) (hv : v < 2 ^ 64) :
    loadPtr (storePtr mem addr v) addr = v := by
  simp only [loadPtr, storePtr]
  norm_num
  omega

lemma loadPtr_congr (mem mem' : Bytes) (addr : ℕ) (h : ∀ x, addr ≤ x → x < addr + 8 → mem x = mem' x) :
    loadPtr mem addr = loadPtr mem' addr := by
  simp only [loadPtr]
  rw [h addr, h (addr + 1), h (addr + 2), h (addr + 3), h (addr + 4), h (addr + 5), h (addr + 6),
    h (addr + 7)] <;> omega

lemma and_compl_mask (x k : ℕ) (hx : x < 2 ^ 64) (hk : k ≤ 64) :
    x &&& (2 ^ 64 - 1 - (2 ^ k - 1)) = x / 2 ^ k * 2 ^ k := by
  apply Nat.eq_of_testBit_eq
  intro i
  have h1 : 2 ^ 64 - 1 - (2 ^ k - 1) = 2 ^ 64 - ((2 ^ k - 1) + 1) := by omega
  have hlt : 2 ^ k - 1 < 2 ^ 64 := by
    have := Nat.pow_le_pow_right (show 0 < 2 by norm_num) hk
    have : 0 < 2 ^ k := by positivity
    omega
  rw [Nat.testBit_and, h1, Nat.testBit_two_pow_sub_succ hlt, Nat.testBit_two_pow_sub_one,
    Nat.mul_comm, Nat.testBit_two_pow_mul, Nat.testBit_div_two_pow]
  by_cases hi : i < 64
  · by_cases hik : i < k
    · simp [hi, hik]
    · have hki : k ≤ i := by omega
      have : i - k + k = i := by omega
      simp [hi, hik, hki, this]
  · have h0 : x.testBit i = false :=
      Nat.testBit_lt_two_pow (lt_of_lt_of_le hx (Nat.pow_le_pow_right (by norm_num) (by omega)))
    by_cases hki : k ≤ i
    · have : i - k + k = i := by omega
      simp [hki, this, h0]
    · simp [h0]; omega

/-- **C46.** If `malloc` returns a block of the size it is asked for, the pointer returned for `n > 0`
bytes aligned on a power of two `a` is a multiple of `a` (and of 16), the `n` bytes lie inside of the
block, only bytes of the block in front of them are written, and freeing hands back exactly the pointer
that `malloc` returned, whatever has been stored in the `n` bytes. -/
theorem malloc_aligned (malloc : ℕ → ℕ) (mem : Bytes) (n a : ℕ) (hn : 0 < n)
    (ha : ∃ k, a = 2 ^ k) (hsz : n + max a 16 + 7 < 2 ^ 64)
    (u : ℕ) (hu : u = malloc (n + max a 16 + 7)) (hu0 : 0 < u)
    (hblock : u + (n + max a 16 + 7) ≤ 2 ^ 64) :
    ∃ p mem', mallocAligned malloc mem n a = some (p, mem') ∧ 0 < p ∧ a ∣ p ∧ 16 ∣ p ∧
      u + 8 ≤ p ∧ p + n ≤ u + (n + max a 16 + 7) ∧
      (∀ x, x < p - 8 ∨ p ≤ x → mem' x = mem x) ∧
      ∀ mem'', (∀ x, x < p ∨ p + n ≤ x → mem'' x = mem' x) → freeAligned mem'' p = some u := by
  obtain ⟨k, rfl⟩ := ha
  have hpow : ((2 : ℕ) ^ k &&& (2 ^ k - 1)) = 0 :=
    (Nat.and_sub_one_eq_zero_iff_isPowerOfTwo (by positivity)).mpr ⟨k, rfl⟩
  obtain ⟨j, hj, hkj, h4j⟩ : ∃ j, (if 2 ^ k < 16 then 16 else 2 ^ k) = 2 ^ j ∧ k ≤ j ∧ 4 ≤ j := by
    split_ifs with h
    · refine ⟨4, rfl, ?_, le_rfl⟩
      by_contra hk
      have : (2 : ℕ) ^ 4 ≤ 2 ^ k := Nat.pow_le_pow_right (by norm_num) (by omega)
      omega
    · refine ⟨k, rfl, le_rfl, ?_⟩
      by_contra hk
      have : (2 : ℕ) ^ k ≤ 2 ^ 3 := Nat.pow_le_pow_right (by norm_num) (by omega)
      omega
  have hmax : max (2 ^ k) 16 = 2 ^ j := by
    rw [← hj]; split_ifs <;> omega
  rw [hmax] at hsz hu hblock ⊢
  have hjpos : 0 < 2 ^ j := by positivity
  have hj64 : j ≤ 64 := by
    by_contra h
    have : (2 : ℕ) ^ 65 ≤ 2 ^ j := Nat.pow_le_pow_right (by norm_num) (by omega)
    omega
  have hs : n + (2 ^ j - 1) + 8 = n + 2 ^ j + 7 := by omega
  have hx : (u + (2 ^ j - 1) + 8) % 2 ^ 64 = u + 2 ^ j + 7 := by
    rw [Nat.mod_eq_of_lt] <;> omega
  set p := (u + 2 ^ j + 7) / 2 ^ j * 2 ^ j with hp
  have hdm := Nat.div_add_mod (u + 2 ^ j + 7) (2 ^ j)
  have hml := Nat.mod_lt (u + 2 ^ j + 7) hjpos
  rw [Nat.mul_comm, ← hp] at hdm
  have hp8 : (p + 2 ^ 64 - 8) % 2 ^ 64 = p - 8 := by
    have : p + 2 ^ 64 - 8 = p - 8 + 2 ^ 64 := by omega
    rw [this, Nat.add_mod_right, Nat.mod_eq_of_lt]; omega
  refine ⟨p, storePtr mem (p - 8) u, ?_, by omega, ?_, ?_, by omega, by omega, ?_, ?_⟩
  · unfold mallocAligned
    rw [if_neg (by rw [hpow]; simp), if_neg (by omega)]
    simp only [hj, hs]
    rw [Nat.mod_eq_of_lt hsz, ← hu, if_neg (by omega), hx, and_compl_mask _ _ (by omega) hj64, ← hp, hp8]
  · exact (pow_dvd_pow 2 hkj).trans (Dvd.intro_left _ rfl)
  · exact (pow_dvd_pow 2 h4j).trans (Dvd.intro_left _ rfl)
  · intro x hx
    simp only [storePtr]
    rw [if_neg (by omega)]
  · intro mem'' hm
    unfold freeAligned
    rw [if_neg (by omega), hp8, loadPtr_congr mem'' (storePtr mem (p - 8) u),
      loadPtr_storePtr _ _ _ (by omega)]
    intro x h1 h2
    exact hm x (by omega)

/-- Alignments that are not powers of two, and allocation failures, abort; empty requests give null
and freeing null frees nothing. -/
theorem malloc_aligned_rejects (malloc : ℕ → ℕ) (mem : Bytes) (n a : ℕ) :
    (¬ (∃ k, a = 2 ^ k) → mallocAligned malloc mem n a = none) ∧
    (0 < n → (∀ s, malloc s = 0) → mallocAligned malloc mem n a = none) ∧
    ((∃ k, a = 2 ^ k) → mallocAligned malloc mem 0 a = some (0, mem)) ∧ freeAligned mem 0 = none := by
  refine ⟨fun h => ?_, fun hn hm => ?_, fun h => ?_, rfl⟩
  · unfold mallocAligned
    by_cases h0 : a = 0
    · rw [if_pos (Or.inl h0)]
    · rw [if_pos (Or.inr fun h1 => h ((Nat.and_sub_one_eq_zero_iff_isPowerOfTwo h0).mp h1))]
  · unfold mallocAligned
    split
    · rfl
    · rw [if_neg (by omega)]; simp [hm]
  · obtain ⟨k, rfl⟩ := h
    unfold mallocAligned
    rw [if_neg, if_pos rfl]
    have : ((2 : ℕ) ^ k &&& (2 ^ k - 1)) = 0 :=
      (Nat.and_sub_one_eq_zero_iff_isPowerOfTwo (by positivity)).mpr ⟨k, rfl⟩
    rw [this]; simp

/-- The bound on the size cannot be dropped: the size computation wraps around for requests close to
2^64, and a pointer to a 15-byte block is returned for a request of 2^64-8 bytes. -/
theorem malloc_aligned_wraps : ∃ (malloc : ℕ → ℕ) (n : ℕ), n < 2 ^ 64 ∧
    (∀ s < 2 ^ 63, 0 < malloc s ∧ malloc s + s ≤ 2 ^ 64) ∧
    ∃ p mem', mallocAligned malloc (fun _ => 0) n 16 = some (p, mem') ∧ malloc 15 + 15 < p + n := by
  refine ⟨fun _ => 4096, 2 ^ 64 - 8, by norm_num, fun s hs => ⟨by norm_num, ?_⟩, 4112, _, rfl, by norm_num⟩
  show 4096 + s ≤ 2 ^ 64
  omega

/-- A request of 1000 bytes on 128. -/
example : ∃ p mem', mallocAligned (fun _ => 1001) (fun _ => 7) 1000 128 = some (p, mem') ∧
    128 ∣ p ∧ freeAligned mem' p = some 1001 := by
  obtain ⟨p, mem', h1, -, h2, -, -, -, -, h3⟩ := malloc_aligned (fun _ => 1001) (fun _ => 7) 1000 128
    (by norm_num) ⟨7, by norm_num⟩ (by norm_num) 1001 rfl (by norm_num) (by norm_num)
  exact ⟨p, mem', h1, h2, h3 mem' fun _ _ => rfl⟩

/-- `POW2_CEIL` rounds up to the next multiple of a power of two. -/
theorem pow2Ceil_spec (u k : ℕ) (hk : k ≤ 64) (h : u + 2 ^ k ≤ 2 ^ 64) :
    2 ^ k ∣ pow2Ceil u (2 ^ k) ∧ u ≤ pow2Ceil u (2 ^ k) ∧ pow2Ceil u (2 ^ k) < u + 2 ^ k := by
  have hpos : 0 < 2 ^ k := by positivity
  have h1 : (u + 2 ^ k + 2 ^ 64 - 1) % 2 ^ 64 = u + 2 ^ k - 1 := by
    have : u + 2 ^ k + 2 ^ 64 - 1 = u + 2 ^ k - 1 + 2 ^ 64 := by omega
    rw [this, Nat.add_mod_right, Nat.mod_eq_of_lt]; omega
  have h2 : pow2Ceil u (2 ^ k) = (u + 2 ^ k - 1) / 2 ^ k * 2 ^ k := by
    rw [pow2Ceil, h1, and_compl_mask _ _ (by omega) hk]
  have hdm := Nat.div_add_mod (u + 2 ^ k - 1) (2 ^ k)
  have hml := Nat.mod_lt (u + 2 ^ k - 1) hpos
  rw [Nat.mul_comm, ← h2] at hdm
  exact ⟨by rw [h2]; exact Dvd.intro_left _ rfl, by omega, by omega⟩

/-! ## C47 -/

/-- Spec: the command line `args` has the options `key v` with values `vs` in this order and the
other arguments `rest` in this order.  A key that is the last argument has no value. -/
inductive Options {α : Type*} (key : α) : List α → List α → List α → Prop
  | nil : Options key [] [] []
  | other {a args rest vs} : a ≠ key → Options key args rest vs → Options key (a :: args) (a :: rest) vs
  | option {v args rest vs} : Options key args rest vs → Options key (key :: v :: args) rest (v :: vs)
  | noValue : Options key [key] [] []

/-- Spec: `argv` holds the arguments `args` and is terminated by null. -/
def IsArgv {α : Type*} (argv : ℕ → Option α) (args : List α) : Prop :=
  ∀ x ≤ args.length, argv x = args[x]?

/-- Every command line has exactly one reading. -/
theorem options_exists {α : Type*} [DecidableEq α] (key : α) :
    ∀ (n : ℕ) (args : List α), args.length ≤ n → ∃ rest vs, Options key args rest vs := by
  intro n
  induction n with
  | zero => 
    intro args h
    obtain rfl : args = [] := List.length_eq_zero_iff.mp (by omega)
    exact ⟨[], [], .nil⟩
  | succ n ih =>
    intro args h
    match args with
    | [] => exact ⟨[], [], .nil⟩
    | [a] =>
      by_cases ha : a = key
      · subst ha; exact ⟨[], [], .noValue⟩
      · exact ⟨[a], [], .other ha .nil⟩
    | a :: b :: args =>
      by_cases ha : a = key
      · subst ha
        obtain ⟨r, v, hr⟩ := ih args (by simp at h ⊢; omega)
        exact ⟨r, b :: v, .option hr⟩
      · obtain ⟨r, v, hr⟩ := ih (b :: args) (by simp at h ⊢; omega)
        exact ⟨a :: r, v, .other ha hr⟩

lemma stripGo_spec {α β : Type*} [DecidableEq α] (convert : α → β) (key : α)
    {args rest vs : List α} (h : Options key args rest vs) :
    ∀ (pre : List α) (argv : ℕ → Option α) (argc i : ℕ) (val : β), argc = i + args.length →
      pre.length ≤ i → (∀ x < pre.length, argv x = pre[x]?) →
      (∀ x, argv (i + x) = args[x]? ∨ args.length < x) →
      ∃ argv', stripGo convert key argc argv i pre.length val =
        some (argv', (pre ++ rest).length, (vs.map convert).getLast?.getD val) ∧
        IsArgv argv' (pre ++ rest) := by
  induction h with
  | nil =>
    intro pre argv argc i val hc hi hp hx
    unfold stripGo
    rw [if_neg (by simp at hc; omega)]
    refine ⟨fun x => if x = pre.length then none else argv x, by simp, ?_⟩
    intro x hx
    simp only [List.append_nil] at hx ⊢
    by_cases h : x = pre.length
    · simp [h]
    · simp only [if_neg h]; exact hp x (by omega)
  | noValue =>
    intro pre argv argc i val hc hi hp hx
    unfold stripGo
    simp only [List.length_singleton] at hc
    have h0 : argv i = some key := by simpa using hx 0
    rw [if_pos (by omega), h0]
    simp only [ne_eq, not_true_eq_false, if_false]
    rw [if_neg (by omega)]
    unfold stripGo
    rw [if_neg (by omega)]
    refine ⟨fun x => if x = pre.length then none else argv x, by simp, ?_⟩
    intro x hx
    simp only [List.append_nil] at hx ⊢
    by_cases h : x = pre.length
    · simp [h]
    · simp only [if_neg h]; exact hp x (by omega)
  | @other a args rest vs ha ho ih =>
    intro pre argv argc i val hc hi hp hx
    unfold stripGo
    simp only [List.length_cons] at hc
    have h0 : argv i = some a := by simpa using hx 0
    rw [if_pos (by omega), h0]
    simp only [ne_eq, ha, not_false_eq_true, if_true]
    obtain ⟨argv', h1, h2⟩ := ih (pre ++ [a]) (fun x => if x = pre.length then some a else argv x) argc
      (i + 1) val (by omega) (by simp; omega) (by
        intro x hx
        by_cases h : x = pre.length
        · simp [h]
        · simp at hx
          simp only [if_neg h]
          rw [hp x (by omega), List.getElem?_append_left (by omega)]) (by
        intro x
        have h3 := hx (x + 1)
        simp only [List.getElem?_cons_succ, List.length_cons] at h3
        rw [if_neg (by omega), show i + 1 + x = i + (x + 1) by omega]
        rcases h3 with h3 | h3
        · exact Or.inl h3
        · exact Or.inr (by omega))
    simp only [List.append_assoc, List.cons_append, List.nil_append] at h1 h2
    exact ⟨argv', by rw [← h1]; simp, h2⟩
  | @option v args rest vs ho ih =>
    intro pre argv argc i val hc hi hp hx
    unfold stripGo
    simp only [List.length_cons] at hc
    have h0 : argv i = some key := by simpa using hx 0
    have h1 : argv (i + 1) = some v := by simpa using hx 1
    rw [if_pos (by omega), h0]
    simp only [ne_eq, not_true_eq_false, if_false]
    rw [if_pos (by omega), h1]
    simp only
    obtain ⟨argv', h1, h2⟩ := ih pre argv argc (i + 1 + 1) (convert v) (by omega) (by omega) hp (by
        intro x
        have h3 := hx (x + 1 + 1)
        simp only [List.getElem?_cons_succ, List.length_cons] at h3
        rw [show i + 1 + 1 + x = i + (x + 1 + 1) by omega]
        rcases h3 with h3 | h3
        · exact Or.inl h3
        · exact Or.inr (by omega))
    refine ⟨argv', ?_, h2⟩
    rw [h1]
    congr 3
    simp only [List.map_cons]
    rw [List.getLast?_cons]
    cases hh : (vs.map convert).getLast? <;> simp

/-- **C47.** For a null-terminated `argv` with arguments `args`, read as options `key v` with values
`vs` and other arguments `rest`: `strip_cmdline_*` leaves exactly `rest` in order, null-terminated, and
returns the conversion of the last value, or the default if there is none. -/
theorem strip_cmdline_value {α β : Type*} [DecidableEq α] (convert : α → β) (key : α) (val : β)
    (argv : ℕ → Option α) (args rest vs : List α) (hargv : IsArgv argv args)
    (h : Options key args rest vs) :
    ∃ argv', stripCmdlineVal convert args.length argv key val =
        some (argv', rest.length, (vs.map convert).getLast?.getD val) ∧ IsArgv argv' rest := by
  have := stripGo_spec convert key h [] argv args.length 0 val (by simp) (by simp) (by simp) (by
    intro x
    by_cases hx : x ≤ args.length
    · left; simpa using hargv x hx
    · right; omega)
  simpa [stripCmdlineVal, stripCmdline] using this

/-- What is left does not contain the key, is a sublist of the arguments, and is everything when the
key does not occur. -/
theorem options_rest {α : Type*} (key : α) {args rest vs : List α} (h : Options key args rest vs) :
    key ∉ rest ∧ rest.Sublist args ∧ (key ∉ args → rest = args ∧ vs = []) := by
  induction h with
  | nil => simp
  | @other a args rest vs ha ho ih =>
    refine ⟨?_, ih.2.1.cons_cons a, fun hk => ?_⟩
    · simp only [List.mem_cons, not_or]; exact ⟨Ne.symm ha, ih.1⟩
    · simp only [List.mem_cons, not_or] at hk
      rw [(ih.2.2 hk.2).1, (ih.2.2 hk.2).2]; simp
  | @option v args rest vs ho ih =>
    exact ⟨ih.1, (ih.2.1.cons _).cons _, fun hk => absurd (List.mem_cons_self ..) hk⟩
  | noValue => simp

lemma stripFlagGo_spec {α : Type*} [DecidableEq α] (key : α) (args : List α) :
    ∀ (pre : List α) (argv : ℕ → Option α) (argc i val : ℕ), argc = i + args.length →
      pre.length ≤ i → (∀ x < pre.length, argv x = pre[x]?) →
      (∀ x, argv (i + x) = args[x]? ∨ args.length < x) →
      ∃ argv', stripFlagGo key argc argv i pre.length val =
        some (argv', (pre ++ args.filter (· ≠ key)).length, val + args.count key) ∧
        IsArgv argv' (pre ++ args.filter (· ≠ key)) := by
  induction args with
  | nil =>
    intro pre argv argc i val hc hi hp hx
    unfold stripFlagGo
    rw [if_neg (by simp at hc; omega)]
    refine ⟨fun x => if x = pre.length then none else argv x, by simp, ?_⟩
    intro x hx
    simp only [List.filter_nil, List.append_nil] at hx ⊢
    by_cases h : x = pre.length
    · simp [h]
    · simp only [if_neg h]; exact hp x (by omega)
  | cons a args ih =>
    intro pre argv argc i val hc hi hp hx
    unfold stripFlagGo
    simp only [List.length_cons] at hc
    have h0 : argv i = some a := by simpa using hx 0
    have hx' : ∀ x, argv (i + 1 + x) = args[x]? ∨ args.length < x := by
      intro x
      have h3 := hx (x + 1)
      simp only [List.getElem?_cons_succ, List.length_cons] at h3
      rw [show i + 1 + x = i + (x + 1) by omega]
      rcases h3 with h3 | h3
      · exact Or.inl h3
      · exact Or.inr (by omega)
    rw [if_pos (by omega), h0]
    simp only
    by_cases ha : a = key
    · subst ha
      simp only [ne_eq, not_true_eq_false, if_false]
      obtain ⟨argv', h1, h2⟩ := ih pre argv argc (i + 1) (val + 1) (by omega) (by omega) hp hx'
      refine ⟨argv', ?_, by simpa using h2⟩
      rw [h1]; simp; omega
    · simp only [ne_eq, ha, not_false_eq_true, if_true]
      obtain ⟨argv', h1, h2⟩ := ih (pre ++ [a]) (fun x => if x = pre.length then some a else argv x)
        argc (i + 1) val (by omega) (by simp; omega) (by
          intro x hx
          by_cases h : x = pre.length
          · simp [h]
          · simp at hx
            simp only [if_neg h]
            rw [hp x (by omega), List.getElem?_append_left (by omega)]) (by
          intro x
          rw [if_neg (by omega)]
          exact hx' x)
      simp only [List.append_assoc, List.cons_append, List.nil_append] at h1 h2
      have hf : (a :: args).filter (· ≠ key) = a :: args.filter (· ≠ key) := by simp [ha]
      have hc : (a :: args).count key = args.count key := by simp [List.count_cons, ha]
      rw [hf, hc]
      exact ⟨argv', by rw [← h1]; simp, h2⟩

/-- **C47**, flags: every occurrence of the key is removed and counted, the other arguments stay in
order. -/
theorem strip_cmdline_flag {α : Type*} [DecidableEq α] (key : α) (argv : ℕ → Option α) (args : List α)
    (hargv : IsArgv argv args) :
    ∃ argv', stripCmdline args.length argv key =
        some (argv', (args.filter (· ≠ key)).length, args.count key) ∧
      IsArgv argv' (args.filter (· ≠ key)) := by
  have := stripFlagGo_spec key args [] argv args.length 0 0 (by simp) (by simp) (by simp) (by
    intro x
    by_cases hx : x ≤ args.length
    · left; simpa using hargv x hx
    · right; omega)
  simpa [stripCmdlineVal, stripCmdline] using this

/-- A repeated option, an option whose value looks like the key, and a trailing key. -/
example : Options "--tpp" ["vpic", "--tpp", "2", "deck", "--tpp", "--tpp", "x", "--tpp"]
    ["vpic", "deck", "x"] ["2", "--tpp"] :=
  .other (by decide) (.option (.other (by decide) (.option (.other (by decide) .noValue))))

/-! ## C48 -/

/-- Byte `k` of a word. -/
def byte {n : ℕ} (x : BitVec n) (k : ℕ) : BitVec 8 := x.extractLsb' (8 * k) 8

/-- **C48**, 2 bytes. -/
theorem bswap16_spec (x : BitVec 16) : bswap16 (bswap16 x) = x ∧
    ∀ k < 2, byte (bswap16 x) k = byte x (1 - k) := by
  constructor
  · apply BitVec.eq_of_getLsbD_eq
    intro i hi
    unfold bswap16
    interval_cases i <;> simp
  · intro k hk
    apply BitVec.eq_of_getLsbD_eq
    intro i hi
    unfold bswap16 byte
    interval_cases k <;> interval_cases i <;> simp

/-- **C48**, 4 bytes. -/
theorem bswap32_spec (x : BitVec 32) : bswap32 (bswap32 x) = x ∧
    ∀ k < 4, byte (bswap32 x) k = byte x (3 - k) := by
  constructor
  · apply BitVec.eq_of_getLsbD_eq
    intro i hi
    unfold bswap32
    interval_cases i <;> simp
  · intro k hk
    apply BitVec.eq_of_getLsbD_eq
    intro i hi
    unfold bswap32 byte
    interval_cases k <;> interval_cases i <;> simp

/-- **C48**, 8 bytes. -/
theorem bswap64_spec (x : BitVec 64) : bswap64 (bswap64 x) = x ∧
    ∀ k < 8, byte (bswap64 x) k = byte x (7 - k) := by
  constructor
  · apply BitVec.eq_of_getLsbD_eq
    intro i hi
    unfold bswap64
    interval_cases i <;> simp
  · intro k hk
    apply BitVec.eq_of_getLsbD_eq
    intro i hi
    unfold bswap64 byte
    interval_cases k <;> interval_cases i <;> simp

/-- The bytes of a value of `n` bytes, in the order of a little endian memory. -/
def bytes {w : ℕ} (n : ℕ) (x : BitVec w) : List (BitVec 8) := (List.range n).map (byte x)

/-- The members of a particle in memory, each as its bytes (species_advance.h). -/
def PWord.mem (p : PWord) : List (List (BitVec 8)) :=
  [p.dx, p.dy, p.dz, p.i, p.ux, p.uy, p.uz, p.w].map (bytes 4)

/-- The members of a hydro record in memory. -/
def HWord.mem (h : HWord) : List (List (BitVec 8)) :=
  [h.jx, h.jy, h.jz, h.rho, h.px, h.py, h.pz, h.ke, h.txx, h.tyy, h.tzz, h.tyz, h.tzx, h.txy].map (bytes 4)

/-- The members of a field record in memory. -/
def FWord.mem (f : FWord) : List (List (BitVec 8)) :=
  [f.ex, f.ey, f.ez, f.div_e_err, f.cbx, f.cby, f.cbz, f.div_b_err, f.tcax, f.tcay, f.tcaz, f.rhob,
    f.jfx, f.jfy, f.jfz, f.rhof].map (bytes 4) ++
  [f.ematx, f.ematy, f.ematz, f.nmat, f.fmatx, f.fmaty, f.fmatz, f.cmat].map (bytes 2)

lemma bytes_bswap16 (x : BitVec 16) : bytes 2 (bswap16 x) = (bytes 2 x).reverse := by
  have h := (bswap16_spec x).2
  simp [bytes, List.range_succ, h 0, h 1]

lemma bytes_bswap32 (x : BitVec 32) : bytes 4 (bswap32 x) = (bytes 4 x).reverse := by
  have h := (bswap32_spec x).2
  simp [bytes, List.range_succ, h 0, h 1, h 2, h 3]

/-- **C48** for the structures of the dump files: the bytes of every member are reversed, the members stay
where they are, and swapping twice restores the record. -/
theorem swap_structs (p : PWord) (h : HWord) (f : FWord) :
    ((swapParticle p).mem = p.mem.map List.reverse ∧ swapParticle (swapParticle p) = p) ∧
    ((swapHydro h).mem = h.mem.map List.reverse ∧ swapHydro (swapHydro h) = h) ∧
    ((swapField f).mem = f.mem.map List.reverse ∧ swapField (swapField f) = f) := by
  simp only [swapParticle, swapHydro, swapField, PWord.mem, HWord.mem, FWord.mem, (bswap32_spec _).1,
    (bswap16_spec _).1, and_true, List.map_cons, List.map_nil, List.map_append, bytes_bswap16, bytes_bswap32,
    and_self]

/-! ## C49 -/

lemma shl1_and (bits : BitVec 32) (bit : ℕ) (h : bit < 32) :
    decide ((1#32 <<< bit) &&& bits ≠ 0#32) = bits.getLsbD bit := by
  by_cases hb : bits.getLsbD bit
  · rw [hb, decide_eq_true_iff]
    intro h0
    have := congrArg (fun v => BitVec.getLsbD v bit) h0
    simp only [BitVec.getLsbD_and, BitVec.getLsbD_shiftLeft, hb, BitVec.getLsbD_zero] at this
    simp [h] at this
  · rw [decide_eq_false]
    · simpa using hb
    · simp only [ne_eq, not_not]
      apply BitVec.eq_of_getLsbD_eq
      intro i hi
      by_cases hib : i = bit
      · subst hib; simpa using fun _ => by simpa using hb
      · simp only [BitVec.getLsbD_and, BitVec.getLsbD_shiftLeft, BitVec.getLsbD_one,
          BitVec.getLsbD_zero]
        by_cases h2 : i < bit
        · simp [h2]
        · have : i - bit ≠ 0 := by omega
          simp [this]

lemma bitset_eq (bits : BitVec 32) (bit : ℕ) (h : bit < 32) :
    bitset bits bit = some (bits.getLsbD bit) := by
  simp only [bitset, shl1, if_pos h, Option.map_some, shl1_and _ _ h]

/-- **C49**, membership: after `set(mask)` exactly the bits set before or in the mask are reported as
set, after `clear(mask)` exactly those set before and not in the mask; `bitclear` is the opposite
answer; single bits likewise. -/
theorem bitfield_membership (bits mask : BitVec 32) (b : ℕ) (hb : b < 32) :
    bitset (bfSet bits mask) b = some (bits.getLsbD b || mask.getLsbD b) ∧
    bitset (bfClear bits mask) b = some (bits.getLsbD b && !mask.getLsbD b) ∧
    bitset bits b = some (bits.getLsbD b) ∧
    bitclear bits b = some (!bits.getLsbD b) ∧
    (∀ c < 32, ∃ bits', bfSetBit bits c = some bits' ∧
      bitset bits' b = some (bits.getLsbD b || decide (b = c))) ∧
    (∀ c < 32, ∃ bits', bfClearBit bits c = some bits' ∧
      bitset bits' b = some (bits.getLsbD b && !decide (b = c))) := by
  have h1 : ∀ c < 32, (1#32 <<< c).getLsbD b = decide (b = c) := by
    intro c hc
    simp only [BitVec.getLsbD_shiftLeft, BitVec.getLsbD_one, hb, decide_true, Bool.true_and]
    by_cases h : b < c
    · simp [h, (show b ≠ c by omega)]
    · by_cases h2 : b = c
      · simp [h2]
      · simp [h2, h, (show b - c ≠ 0 by omega)]
  refine ⟨?_, ?_, bitset_eq _ _ hb, ?_, fun c hc => ?_, fun c hc => ?_⟩
  · rw [bitset_eq _ _ hb]; simp [bfSet]
  · rw [bitset_eq _ _ hb]; simp [bfClear, hb]
  · simp only [bitclear, shl1, if_pos hb, Option.map_some]
    rw [decide_not, shl1_and _ _ hb]
  · refine ⟨bits ||| (1#32 <<< c), by simp only [bfSetBit, shl1, if_pos hc, Option.map_some], ?_⟩
    rw [bitset_eq _ _ hb, BitVec.getLsbD_or, h1 c hc]
  · refine ⟨bits &&& ~~~(1#32 <<< c), by simp only [bfClearBit, shl1, if_pos hc, Option.map_some], ?_⟩
    rw [bitset_eq _ _ hb, BitVec.getLsbD_and, BitVec.getLsbD_not, h1 c hc]; simp [hb]

lemma bitsumOf_eq (bits : BitVec 32) (l : List ℕ) (h : ∀ i ∈ l, i < 32) :
    ∀ s, bitsumOf bits l s = some (s + l.countP fun i => bits.getLsbD i) := by
  induction l with
  | nil => intro s; simp [bitsumOf]
  | cons i l ih =>
    intro s
    simp only [bitsumOf, bitset_eq bits i (h i (by simp)), Option.bind_some,
      ih fun i hi => h i (by simp [hi]), List.countP_cons]
    split <;> simp <;> omega

/-- **C49**, counts: `bitsum()` is the number of selected variables, `bitsum(indices)` the number of
those listed that are selected. -/
theorem bitfield_counts (bits : BitVec 32) :
    bitsum bits = some ((Finset.univ.filter fun i : Fin 32 => bits.getLsbD i = true).card) ∧
    ∀ l : List ℕ, (∀ i ∈ l, i < 32) →
      bitsumOf bits l 0 = some ((l.filter fun i => bits.getLsbD i).length) := by
  constructor
  · rw [bitsum, bitsumOf_eq _ _ fun i hi => List.mem_range.mp hi]
    congr 1
    rw [Nat.zero_add, List.countP_eq_length_filter]
    rw [← List.toFinset_card_of_nodup (List.nodup_range.filter _)]
    apply Eq.symm
    apply Finset.card_bij (fun (i : Fin 32) _ => (i : ℕ))
    · intro i hi
      simp only [Finset.mem_filter, Finset.mem_univ, true_and] at hi
      simp [hi]
    · intro i _ j _ h; exact Fin.ext h
    · intro b hb
      simp only [List.mem_toFinset, List.mem_filter, List.mem_range] at hb
      exact ⟨⟨b, hb.1⟩, by rw [Finset.mem_filter]; exact ⟨Finset.mem_univ _, hb.2⟩, rfl⟩
  · intro l hl
    rw [bitsumOf_eq _ _ hl, Nat.zero_add, List.countP_eq_length_filter]

/-- The mask query of the class does not do what it says: with only bit 1 selected it reports the
mask 1 (bit 0) as set, and it is undefined for masks above 31. -/
theorem bitsset_wrong : bitsset 2#32 1#32 = some true ∧ (2#32).getLsbD 0 = false ∧
    bitsset 0xffffffff#32 32#32 = none := by decide

/-- What is missing in C49 is the mask query: it reads the mask as a bit number. -/
theorem bitfield_mask_query_partial (bits mask : BitVec 32) :
    bitsset bits mask = if mask.toNat < 32 then some (bits.getLsbD mask.toNat) else none := by
  by_cases h : mask.toNat < 32
  · rw [if_pos h, ← bitset_eq _ _ h]; rfl
  · rw [if_neg h]; simp [bitsset, shl1, h]

/-! ## C51 -/

/-- **C51**, one request on a valid port: the capacity becomes at least the request, never shrinks, the
contents are kept, and the other ports are untouched. -/
theorem size_buffer_partial (junk : ℕ → ℕ) (bufs : List (List ℕ)) (port : ℕ) (hport : port < bufs.length)
    (sz : ℤ) (h1 : 1 ≤ sz) (h2 : sz * 21 / 16 < 2 ^ 31) :
    ∃ bufs' b b', sizeBuffer junk bufs port sz = .ok bufs' ∧ getBuffer bufs port = .ok b ∧
      getBuffer bufs' port = .ok b' ∧ sz ≤ b'.length ∧ b <+: b' ∧ bufs'.length = bufs.length ∧
      ∀ k : ℤ, k ≠ port → getBuffer bufs' k = getBuffer bufs k := by
  have hg : ∀ l : List (List ℕ), port < l.length → ∀ b, l[port]? = some b → getBuffer l port = .ok b := by
    intro l hl b hb
    unfold getBuffer
    rw [if_neg (by omega)]
    simp only [Int.toNat_natCast, hb]
  have hb := List.getElem?_eq_getElem hport
  unfold sizeBuffer
  rw [if_neg (by omega)]
  simp only [Int.toNat_natCast, hb]
  by_cases hc : sz ≤ (bufs[port].length : ℤ)
  · rw [if_pos hc]
    exact ⟨bufs, _, _, rfl, hg _ hport _ hb, hg _ hport _ hb, hc, List.prefix_refl _, rfl, fun _ _ => rfl⟩
  · rw [if_neg hc, if_neg (by omega)]
    refine ⟨_, _, _, rfl, hg _ hport _ hb, hg _ (by simpa using hport) _ (by
      rw [List.getElem?_set_self (by simpa using hport)]), ?_, List.prefix_append _ _, by simp, ?_⟩
    · simp only [List.length_append, List.length_map, List.length_range]; omega
    · intro k hk
      unfold getBuffer
      simp only [List.length_set]
      by_cases hr : k < 0 ∨ k ≥ bufs.length
      · rw [if_pos hr, if_pos hr]
      · rw [if_neg hr, if_neg hr, List.getElem?_set_ne]
        omega

/-- **C51**, any history of requests on valid ports: every request stays satisfied. -/
theorem size_buffers_partial (junk : ℕ → ℕ) (reqs : List (ℕ × ℤ)) : ∀ bufs : List (List ℕ),
    (∀ r ∈ reqs, r.1 < bufs.length ∧ 1 ≤ r.2 ∧ r.2 * 21 / 16 < 2 ^ 31) →
    ∃ bufs', reqs.foldl (fun (acc : Res (List (List ℕ))) r => match acc with
        | .ok bufs => sizeBuffer junk bufs r.1 r.2
        | x => x) (.ok bufs) = .ok bufs' ∧ bufs'.length = bufs.length ∧
      (∀ p < bufs.length, ∃ b b', getBuffer bufs p = .ok b ∧ getBuffer bufs' p = .ok b' ∧ b <+: b') ∧
      ∀ r ∈ reqs, ∃ b', getBuffer bufs' r.1 = .ok b' ∧ r.2 ≤ b'.length := by
  induction reqs with
  | nil =>
    intro bufs _
    refine ⟨bufs, rfl, rfl, fun p hp => ?_, by simp⟩
    refine ⟨bufs[p], bufs[p], ?_, ?_, List.prefix_refl _⟩ <;>
    · unfold getBuffer
      rw [if_neg (by omega)]
      simp [List.getElem?_eq_getElem hp]
  | cons r reqs ih =>
    intro bufs h
    obtain ⟨hp, hs1, hs2⟩ := h r (by simp)
    obtain ⟨b1, b, b', e1, e2, e3, e4, e5, e6, e7⟩ := size_buffer_partial junk bufs r.1 hp r.2 hs1 hs2
    obtain ⟨b2, f1, f2, f3, f4⟩ := ih b1 fun q hq => by rw [e6]; exact h q (by simp [hq])
    refine ⟨b2, by rw [List.foldl_cons]; simp only [e1]; exact f1, by rw [f2, e6], fun p hpl => ?_, ?_⟩
    · obtain ⟨c, c', g1, g2, g3⟩ := f3 p (by omega)
      by_cases hpr : p = r.1
      · subst hpr
        rw [e3] at g1
        obtain rfl : b' = c := by injection g1
        exact ⟨b, c', e2, g2, e5.trans g3⟩
      · rw [e7 p (by exact_mod_cast hpr)] at g1
        exact ⟨c, c', g1, g2, g3⟩
    · intro q hq
      rcases List.mem_cons.mp hq with rfl | hq
      · obtain ⟨c, c', g1, g2, g3⟩ := f3 q.1 (by omega)
        rw [e3] at g1
        obtain rfl : b' = c := by injection g1
        exact ⟨c', g2, e4.trans (by exact_mod_cast g3.length_le)⟩
      · exact f4 q hq

/-- Ports below 0 or above the number of ports, and empty requests, are rejected. -/
theorem size_buffer_rejects (junk : ℕ → ℕ) (bufs : List (List ℕ)) (port sz : ℤ)
    (h : port < 0 ∨ port > bufs.length ∨ sz < 1) : sizeBuffer junk bufs port sz = .error := by
  unfold sizeBuffer; rw [if_pos h]

/-- C51 does not hold in full: the port just behind the last one is not rejected (for every number of
ports), although reading the buffer itself rejects it. -/
theorem size_buffer_off_by_one (junk : ℕ → ℕ) (bufs : List (List ℕ)) (sz : ℤ) (h : 1 ≤ sz) :
    sizeBuffer junk bufs bufs.length sz = .ub ∧ getBuffer bufs bufs.length = .error := by
  constructor
  · unfold sizeBuffer
    rw [if_neg (by omega)]
    simp
  · unfold getBuffer
    rw [if_pos (by omega)]

/-- Requests above 1636178017 bytes overflow. -/
theorem size_buffer_overflow (junk : ℕ → ℕ) : sizeBuffer junk [[]] 0 1636178018 = .ub := by
  simp [sizeBuffer]

example : ∃ b, sizeBuffer (fun _ => 9) [[], [1, 2]] 1 4 = .ok b ∧ b = [[], [1, 2, 9, 9, 9]] :=
  ⟨_, rfl, rfl⟩

end Verif.Util
