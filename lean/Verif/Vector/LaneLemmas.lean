import Verif.Vector.LaneSpec
import Verif.Vector.Lemmas
import Mathlib.Order.Lattice
import Mathlib.Tactic.Ring
import Mathlib.Tactic.FieldSimp
import Mathlib.Tactic.LinearCombination
import Mathlib.Algebra.Order.Group.Unbundled.Int
import Mathlib.Algebra.Order.Group.Unbundled.Abs

/-! Lemmas for what the vector operations do in each lane. -/
namespace Verif.Vector

variable {n : ℕ} {W : Type}

/-! ### From the lanes to the vectors -/

theorem lane1_of {f : Reg n W → Reg n W} {g g' : W → W} (h : ∀ a q l, f a q l = g' (a q l)) (e : ∀ a, g' a = g a) : Lane1 f g :=
  fun a q l => (h a q l).trans (e _)

theorem lane2_of {f : Reg n W → Reg n W → Reg n W} {g g' : W → W → W} (h : ∀ a b q l, f a b q l = g' (a q l) (b q l)) (e : ∀ a b, g' a b = g a b) :
    Lane2 f g := fun a b q l => (h a b q l).trans (e _ _)

theorem to_of {f g : Reg n W → Reg n W → Reg n W} (h : ∀ a b q l, f a b q l = g a b q l) : f = g :=
  funext fun a => funext fun b => funext fun q => funext fun l => h a b q l

theorem bits1_of {f : Reg n Word → Reg n Word} {g : Word → Word} {r : ℕ → Bool → Bool} (e : ∀ a i, (g a).getLsbD i = r i (a.getLsbD i))
    (h : ∀ a q l, f a q l = g (a q l)) : ∀ a q l i, (f a q l).getLsbD i = r i ((a q l).getLsbD i) := fun a q l i => by rw [h, e]

theorem bits2_of {f : Reg n Word → Reg n Word → Reg n Word} {g : Word → Word → Word} {r : Bool → Bool → Bool}
    (e : ∀ a b i, (g a b).getLsbD i = r (a.getLsbD i) (b.getLsbD i)) (h : ∀ a b q l, f a b q l = g (a q l) (b q l)) :
    ∀ a b q l i, (f a b q l).getLsbD i = r ((a q l).getLsbD i) ((b q l).getLsbD i) := fun a b q l i => by rw [h, e]

theorem pair_of {f : Reg n W → Reg n W × Reg n W} {g g' : W → W} (h : ∀ a q l, (f a).1 q l = g (a q l)) (h' : ∀ a q l, (f a).2 q l = g' (a q l)) :
    ∀ a q l, (f a).1 q l = g (a q l) ∧ (f a).2 q l = g' (a q l) := fun a q l => ⟨h a q l, h' a q l⟩

theorem czero_of {f : Reg n Word → Reg n Word → Reg n Word} {g : Word → Word → Word}
    (e : ∀ c a i, (g c a).getLsbD i = (!c.getLsbD i && a.getLsbD i)) (h : ∀ a b q l, f a b q l = g (a q l) (b q l)) :
    ∀ a b q l i, (f a b q l).getLsbD i = (!(a q l).getLsbD i && (b q l).getLsbD i) := fun a b q l i => by rw [h, e]

theorem bits3_of {f : Reg n Word → Reg n Word → Reg n Word → Reg n Word} {g : Word → Word → Word → Word}
    (e : ∀ c t f i, (g c t f).getLsbD i = if c.getLsbD i then t.getLsbD i else f.getLsbD i) (h : ∀ a b c q l, f a b c q l = g (a q l) (b q l) (c q l)) :
    ∀ a b c q l i, (f a b c q l).getLsbD i = if (a q l).getLsbD i then (b q l).getLsbD i else (c q l).getLsbD i := fun a b c q l i => by rw [h, e]

/-! ### One lane: masks -/

theorem neg_bit (b : Bool) : -(Word.bit b) = mask b := by cases b <;> rfl
theorem cmp_eq (b : Bool) : (if b then 0xffffffff#32 else 0) = mask b := by cases b <;> rfl
theorem mask_and (b c : Bool) : mask b &&& mask c = mask (b && c) := by cases b <;> cases c <;> rfl
theorem mask_or (b c : Bool) : mask b ||| mask c = mask (b || c) := by cases b <;> cases c <;> rfl
theorem mask_not (b : Bool) : ~~~ mask b = mask (!b) := by cases b <;> rfl

theorem cmp_mask (r : Word → Word → Bool) (a b : Word) : Word.cmp r a b = mask (r a b) := cmp_eq _
theorem neg_bit' (r : Word → Word → Bool) (a b : Word) : -(Word.bit (r a b)) = mask (r a b) := neg_bit _
theorem fgt_eq (a b : Word) : Word.fgt a b = Word.flt b a := by unfold Word.fgt Word.flt; rw [Bool.and_comm (!Word.nan a)]
theorem fge_eq (a b : Word) : Word.fge a b = Word.fle b a := by unfold Word.fge Word.fle; rw [Bool.and_comm (!Word.nan a)]
theorem cmp_gt (a b : Word) : Word.cmp Word.fgt a b = mask (Word.flt b a) := by rw [cmp_mask, fgt_eq]
theorem cmp_ge (a b : Word) : Word.cmp Word.fge a b = mask (Word.fle b a) := by rw [cmp_mask, fge_eq]
theorem bit_gt (a b : Word) : -(Word.bit (Word.fgt a b)) = mask (Word.flt b a) := by rw [neg_bit, fgt_eq]
theorem bit_ge (a b : Word) : -(Word.bit (Word.fge a b)) = mask (Word.fle b a) := by rw [neg_bit, fge_eq]
theorem not_cmp_mask (a b : Word) : ~~~ Word.cmp Word.feq a b = mask (!Word.feq a b) := by rw [cmp_mask, mask_not]

theorem xor_ones (a : Word) : Word.xor a (-1) = ~~~ a := by
  show a ^^^ (-1) = _
  apply BitVec.eq_of_getLsbD_eq
  intro i hi
  have h1 : (-1 : Word).getLsbD i = true := (BitVec.getLsbD_allOnes (v := 32)).trans (decide_eq_true hi)
  rw [BitVec.getLsbD_xor, h1, BitVec.getLsbD_not, decide_eq_true hi, Bool.xor_true, Bool.true_and]

theorem bne_zero (a : Word) : (a != 0) = decide (a ≠ 0) := by rw [decide_not]; rfl

theorem lnot_mask (a : Word) : -(Word.bit (!(a != 0))) = mask (a = 0) := by
  rw [neg_bit, bne_zero, decide_not, Bool.not_not]
theorem ilt_mask (a b : Word) : -(Word.bit (Word.ilt a b)) = mask (a.toInt < b.toInt) := neg_bit _
theorem igt_mask (a b : Word) : -(Word.bit (Word.igt a b)) = mask (a.toInt > b.toInt) := neg_bit _
theorem ile_mask (a b : Word) : -(Word.bit (Word.ile a b)) = mask (a.toInt ≤ b.toInt) := neg_bit _
theorem ige_mask (a b : Word) : -(Word.bit (Word.ige a b)) = mask (a.toInt ≥ b.toInt) := neg_bit _
theorem ieq_mask (a b : Word) : -(Word.bit (Word.ieq a b)) = mask (a = b) := by
  rw [neg_bit]; congr 1
theorem ine_mask (a b : Word) : -(Word.bit (Word.ine a b)) = mask (a ≠ b) := by
  rw [neg_bit]; congr 1; by_cases h : a = b <;> simp [Word.ine, h]
theorem iland_mask (a b : Word) : -(Word.bit ((a != 0) && (b != 0))) = mask (a ≠ 0 ∧ b ≠ 0) := by
  rw [neg_bit, bne_zero, bne_zero, Bool.decide_and]
theorem ilor_mask (a b : Word) : -(Word.bit ((a != 0) || (b != 0))) = mask (a ≠ 0 ∨ b ≠ 0) := by
  rw [neg_bit, bne_zero, bne_zero, Bool.decide_or]
theorem fland_mask (a b : Word) : -(Word.bit (Word.fne a 0 && Word.fne b 0)) = mask (!Word.feq a 0 && !Word.feq b 0) := neg_bit _
theorem flor_mask (a b : Word) : -(Word.bit (Word.fne a 0 || Word.fne b 0)) = mask (!Word.feq a 0 || !Word.feq b 0) := neg_bit _
theorem land_mask (a b : Word) : Word.and (Word.cmp Word.fne a 0) (Word.cmp Word.fne b 0) = mask (!Word.feq a 0 && !Word.feq b 0) := by
  rw [cmp_mask, cmp_mask]; exact mask_and _ _
theorem lor_mask (a b : Word) : Word.or (Word.cmp Word.fne a 0) (Word.cmp Word.fne b 0) = mask (!Word.feq a 0 || !Word.feq b 0) := by
  rw [cmp_mask, cmp_mask]; exact mask_or _ _
theorem landO_mask (a b : Word) : Word.and (Word.cmp Word.fneO a 0) (Word.cmp Word.fneO b 0) = mask (Word.fneO a 0 && Word.fneO b 0) := by
  rw [cmp_mask, cmp_mask]; exact mask_and _ _
theorem lorO_mask (a b : Word) : Word.or (Word.cmp Word.fneO a 0) (Word.cmp Word.fneO b 0) = mask (Word.fneO a 0 || Word.fneO b 0) := by
  rw [cmp_mask, cmp_mask]; exact mask_or _ _
theorem nland_mask (a b : Word) : Word.and (~~~ Word.cmp Word.feq a 0) (~~~ Word.cmp Word.feq b 0) = mask (!Word.feq a 0 && !Word.feq b 0) := by
  rw [not_cmp_mask, not_cmp_mask]; exact mask_and _ _
theorem nlor_mask (a b : Word) : Word.or (~~~ Word.cmp Word.feq a 0) (~~~ Word.cmp Word.feq b 0) = mask (!Word.feq a 0 || !Word.feq b 0) := by
  rw [not_cmp_mask, not_cmp_mask]; exact mask_or _ _

theorem feq_comm (a b : Word) : Word.feq a b = Word.feq b a := by
  unfold Word.feq
  rw [Bool.and_comm (!Word.nan a), show decide (Word.key a = Word.key b) = decide (Word.key b = Word.key a) from decide_eq_decide.2 eq_comm]

theorem zero_mask (a : Word) : Word.cmp Word.feq 0 a = mask (Word.feq a 0) := by rw [cmp_mask, feq_comm]

theorem ite_mask (a : Word) : (if (a != 0) then (0 : Word) else -1) = mask (a = 0) := by
  by_cases h : a = 0 <;> simp [mask, h]

/-! ### One lane: bits -/

theorem andnot_bits (c a : Word) (i : ℕ) : (Word.andnot c a).getLsbD i = (!c.getLsbD i && a.getLsbD i) := by
  unfold Word.andnot
  by_cases h : i < 32
  · simp [h]
  · simp [h, BitVec.getLsbD_of_ge a i (by omega)]
theorem and_not_bits (c a : Word) (i : ℕ) : (a &&& ~~~ c).getLsbD i = (!c.getLsbD i && a.getLsbD i) := by
  rw [BitVec.and_comm]; exact andnot_bits c a i
theorem and_bits (c a : Word) (i : ℕ) : (Word.and c a).getLsbD i = (c.getLsbD i && a.getLsbD i) := by simp [Word.and]
theorem and_bits' (c a : Word) (i : ℕ) : (a &&& c).getLsbD i = (c.getLsbD i && a.getLsbD i) := by simp [Bool.and_comm]
theorem or_bits (c a : Word) (i : ℕ) : (c ||| a).getLsbD i = (c.getLsbD i || a.getLsbD i) := by simp
theorem xor_bits (c a : Word) (i : ℕ) : (c ^^^ a).getLsbD i = (c.getLsbD i ^^ a.getLsbD i) := by simp
theorem clear_bits_bits (c a : Word) (i : ℕ) : (~~~c &&& a).getLsbD i = (!c.getLsbD i && a.getLsbD i) := andnot_bits c a i
theorem merge_bits' (c t f : Word) (i : ℕ) : ((f &&& ~~~c) ||| (t &&& c)).getLsbD i = if c.getLsbD i then t.getLsbD i else f.getLsbD i := by
  rw [BitVec.getLsbD_or, and_not_bits, and_bits']
  cases c.getLsbD i <;> simp
theorem merge_bits (c t f : Word) (i : ℕ) : (Word.or (Word.andnot c f) (Word.and c t)).getLsbD i = if c.getLsbD i then t.getLsbD i else f.getLsbD i := by
  rw [Word.or, BitVec.getLsbD_or, andnot_bits, and_bits]
  cases c.getLsbD i <;> simp

theorem sign_bits (i : ℕ) : Word.sign.getLsbD i = decide (i = 31) := by
  rw [show Word.sign = BitVec.twoPow 32 31 from rfl, BitVec.getLsbD_twoPow]
  by_cases h : i = 31
  · subst h; rfl
  · rw [decide_eq_false h, decide_eq_false (Ne.symm h)]; simp
theorem fabs_bits (a : Word) (i : ℕ) : (Word.fabs a).getLsbD i = (decide (i ≠ 31) && a.getLsbD i) := by
  unfold Word.fabs
  rw [and_not_bits, sign_bits, decide_not]
theorem fabs_bits' (a : Word) (i : ℕ) : (Word.andnot Word.sign a).getLsbD i = (decide (i ≠ 31) && a.getLsbD i) := by
  rw [andnot_bits, sign_bits, decide_not]

theorem copysign_of {f : Reg n Word → Reg n Word → Reg n Word}
    (h : ∀ a b q l, f a b q l = Word.or (Word.and Word.sign (b q l)) (Word.andnot Word.sign (a q l))) :
    ∀ a b q l i, i < 32 → (f a b q l).getLsbD i = if i = 31 then (b q l).getLsbD i else (a q l).getLsbD i := by
  intro a b q l i _
  rw [h, Word.or, BitVec.getLsbD_or, and_bits, andnot_bits, sign_bits]
  by_cases h : i = 31 <;> simp [h]

/-- `copysign` with a comparison. -/
def copyLess (a b : Word) : Word := if Word.flt b 0 then Word.fneg (Word.fabs a) else Word.fabs a

theorem abs_of {f : Reg n Word → Reg n Word} (h : ∀ a q l, f a q l = if Word.ige (a q l) (0 : Word) then a q l else -(a q l)) :
    ∀ a q l, (a q l).toInt ≠ -2147483648 → (f a q l).toInt = |(a q l).toInt| := by
  intro a q l hm
  rw [h]
  generalize a q l = x at hm
  by_cases hx : (0 : ℤ) ≤ x.toInt
  · rw [if_pos (by simpa [Word.ige] using hx), abs_of_nonneg hx]
  · rw [if_neg (by simpa [Word.ige] using hx), abs_of_neg (by omega), BitVec.toInt_neg]
    have h1 := BitVec.le_toInt x
    have h2 := BitVec.toInt_lt (x := x)
    simp only [Nat.reduceSub, Int.reducePow] at h1 h2
    have h3 : -2147483648 ≤ x.toInt := by simpa using h1
    exact Int.bmod_eq_of_le (m := 4294967296) (n := -x.toInt) (by omega) (by omega)

theorem any4 (a : Reg 1 Word) : ((((a 0 0 != 0) || (a 0 1 != 0)) || (a 0 2 != 0)) || (a 0 3 != 0)) = true ↔ ∃ q l, a q l ≠ 0 := by
  rw [← not_iff_not, not_exists]
  simp only [bne_zero, Bool.or_eq_true, decide_eq_true_eq, not_or, not_exists, not_not]
  constructor
  · intro h
    simp only [and_assoc] at h
    obtain ⟨h0, h1, h2, h3⟩ := h
    exact all1 (all4 h0 h1 h2 h3)
  · intro h
    simp only [h, and_self]

theorem every4 (a : Reg 1 Word) : ((((a 0 0 != 0) && (a 0 1 != 0)) && (a 0 2 != 0)) && (a 0 3 != 0)) = true ↔ ∀ q l, a q l ≠ 0 := by
  simp only [bne_zero, Bool.and_eq_true, decide_eq_true_eq]
  constructor
  · intro h
    simp only [and_assoc] at h
    obtain ⟨h0, h1, h2, h3⟩ := h
    exact all1 (all4 h0 h1 h2 h3)
  · intro h
    simp only [ne_eq, h, not_false_eq_true, and_self]

theorem any8 (a : Reg 2 Word) : ((((((((a 0 0 != 0) || (a 0 1 != 0)) || (a 0 2 != 0)) || (a 0 3 != 0)) || (a 1 0 != 0)) || (a 1 1 != 0)) || (a 1 2 != 0)) || (a 1 3 != 0)) = true ↔ ∃ q l, a q l ≠ 0 := by
  rw [← not_iff_not, not_exists]
  simp only [bne_zero, Bool.or_eq_true, decide_eq_true_eq, not_or, not_exists, not_not]
  constructor
  · intro h
    simp only [and_assoc] at h
    obtain ⟨h0, h1, h2, h3, h4, h5, h6, h7⟩ := h
    exact all2 (all4 h0 h1 h2 h3) (all4 h4 h5 h6 h7)
  · intro h
    simp only [h, and_self]

theorem every8 (a : Reg 2 Word) : ((((((((a 0 0 != 0) && (a 0 1 != 0)) && (a 0 2 != 0)) && (a 0 3 != 0)) && (a 1 0 != 0)) && (a 1 1 != 0)) && (a 1 2 != 0)) && (a 1 3 != 0)) = true ↔ ∀ q l, a q l ≠ 0 := by
  simp only [bne_zero, Bool.and_eq_true, decide_eq_true_eq]
  constructor
  · intro h
    simp only [and_assoc] at h
    obtain ⟨h0, h1, h2, h3, h4, h5, h6, h7⟩ := h
    exact all2 (all4 h0 h1 h2 h3) (all4 h4 h5 h6 h7)
  · intro h
    simp only [ne_eq, h, not_false_eq_true, and_self]

theorem any16 (a : Reg 4 Word) : ((((((((((((((((a 0 0 != 0) || (a 0 1 != 0)) || (a 0 2 != 0)) || (a 0 3 != 0)) || (a 1 0 != 0)) || (a 1 1 != 0)) || (a 1 2 != 0)) || (a 1 3 != 0)) || (a 2 0 != 0)) || (a 2 1 != 0)) || (a 2 2 != 0)) || (a 2 3 != 0)) || (a 3 0 != 0)) || (a 3 1 != 0)) || (a 3 2 != 0)) || (a 3 3 != 0)) = true ↔ ∃ q l, a q l ≠ 0 := by
  rw [← not_iff_not, not_exists]
  simp only [bne_zero, Bool.or_eq_true, decide_eq_true_eq, not_or, not_exists, not_not]
  constructor
  · intro h
    simp only [and_assoc] at h
    obtain ⟨h0, h1, h2, h3, h4, h5, h6, h7, h8, h9, h10, h11, h12, h13, h14, h15⟩ := h
    exact all4 (all4 h0 h1 h2 h3) (all4 h4 h5 h6 h7) (all4 h8 h9 h10 h11) (all4 h12 h13 h14 h15)
  · intro h
    simp only [h, and_self]

theorem every16 (a : Reg 4 Word) : ((((((((((((((((a 0 0 != 0) && (a 0 1 != 0)) && (a 0 2 != 0)) && (a 0 3 != 0)) && (a 1 0 != 0)) && (a 1 1 != 0)) && (a 1 2 != 0)) && (a 1 3 != 0)) && (a 2 0 != 0)) && (a 2 1 != 0)) && (a 2 2 != 0)) && (a 2 3 != 0)) && (a 3 0 != 0)) && (a 3 1 != 0)) && (a 3 2 != 0)) && (a 3 3 != 0)) = true ↔ ∀ q l, a q l ≠ 0 := by
  simp only [bne_zero, Bool.and_eq_true, decide_eq_true_eq]
  constructor
  · intro h
    simp only [and_assoc] at h
    obtain ⟨h0, h1, h2, h3, h4, h5, h6, h7, h8, h9, h10, h11, h12, h13, h14, h15⟩ := h
    exact all4 (all4 h0 h1 h2 h3) (all4 h4 h5 h6 h7) (all4 h8 h9 h10 h11) (all4 h12 h13 h14 h15)
  · intro h
    simp only [ne_eq, h, not_false_eq_true, and_self]

theorem clear_of {o : Ops n} (h : ∀ m a q l, o.clear_bits m a q l = ~~~(m q l) &&& a q l) : o.Clear :=
  fun m a q l i => by rw [h]; exact clear_bits_bits _ _ _

/-! ### Memory -/

theorem updates_of {w : ℕ} {op : W → W → W} {f : Memory W → ℕ → Reg n W → Option (Memory W)}
    (h : ∀ m p a, p % w = 0 → f m p a = some (puts m ((order n 1).map fun i => (p + 4 * i.1 + i.2.1, op (m (p + 4 * i.1 + i.2.1)) (a i.1 i.2.1)))))
    (hb : ∀ m p a, p % w ≠ 0 → f m p a = none) : Updates w op f := by
  intro m p a
  refine ⟨fun hw => ?_, hb m p a⟩
  obtain ⟨h1, h2⟩ := puts_rows (order n 1) (fun i => p + 4 * i.1 + i.2.1) (fun i => op (m (p + 4 * i.1 + i.2.1)) (a i.1 i.2.1)) mem_order (by
    rintro ⟨q, l, j⟩ ⟨q', l', j'⟩ e
    simp only [Prod.mk.injEq]
    simp only at e
    exact ⟨Fin.ext (by omega), Fin.ext (by omega), Subsingleton.elim _ _⟩) m
  refine ⟨_, h m p a hw, fun q l => h1 (q, l, 0), fun x hx => h2 x fun i => ?_⟩
  have := hx (4 * i.1 + i.2.1) (by omega)
  omega

/-- Words updated one after the other. -/
def updateWords (op : W → W → W) (a : ℕ → W) (m : Memory W) (p : ℕ) : ℕ → Memory W
  | 0 => m
  | k + 1 => let m' := updateWords op a m p k; put m' (p + k) (op (m' (p + k)) (a k))

theorem updateWords_spec (op : W → W → W) (a : ℕ → W) (m : Memory W) (p : ℕ) : ∀ k, (∀ i < k, updateWords op a m p k (p + i) = op (m (p + i)) (a i)) ∧
    ∀ x, (∀ i < k, x ≠ p + i) → updateWords op a m p k x = m x
  | 0 => ⟨fun i hi => absurd hi (by omega), fun _ _ => rfl⟩
  | k + 1 => by
    obtain ⟨h1, h2⟩ := updateWords_spec op a m p k
    have hp : ∀ x, updateWords op a m p (k + 1) x = if x = p + k then op (updateWords op a m p k (p + k)) (a k) else updateWords op a m p k x :=
      fun _ => rfl
    refine ⟨fun i hi => ?_, fun x hx => ?_⟩
    · rw [hp]
      by_cases h : i = k
      · rw [if_pos (by omega), h2 (p + k) fun j hj => by omega, h]
      · rw [if_neg (by omega), h1 i (by omega)]
    · rw [hp, if_neg (hx k (by omega)), h2 x fun i hi => hx i (by omega)]

/-- The words of a vector in one row. -/
def row (a : Reg n W) (k : ℕ) (d : W) : W := if h : k / 4 < n then a ⟨k / 4, h⟩ ⟨k % 4, Nat.mod_lt _ (by decide)⟩ else d

theorem updates_of_words {op : W → W → W} {f : Memory W → ℕ → Reg n W → Memory W}
    (h : ∀ m p (a : Reg n W), f m p a = updateWords op (fun k => row a k (m p)) m p (4 * n)) : Updates 1 op fun m p a => some (f m p a) := by
  intro m p a
  refine ⟨fun _ => ⟨_, rfl, fun q l => ?_, fun x hx => ?_⟩, fun h => absurd (Nat.mod_one p) h⟩
  · rw [h, Nat.add_assoc, (updateWords_spec op _ m p (4 * n)).1 (4 * q + l) (by omega)]
    congr 1
    unfold row
    rw [dif_pos (show (4 * (q : ℕ) + l) / 4 < n by omega)]
    congr 1
    · exact Fin.ext (by show (4 * (q : ℕ) + l) / 4 = q; omega)
    · exact Fin.ext (by show (4 * (q : ℕ) + l) % 4 = l; omega)
  · rw [h]; exact (updateWords_spec op _ m p (4 * n)).2 x hx

theorem updates_of_load1 {op : W → W → W} {f : Memory W → ℕ → Reg 1 W → Option (Memory W)}
    (h : ∀ m p a, f m p a = (load1 m p >>= fun x => store1 m p (lift2 op x a))) : Updates 4 op f := by
  refine updates_of (fun m p a hw => (h m p a).trans ?_) fun m p a hw => (h m p a).trans (bind_bad (load1_bad hw))
  rw [load1_ok hw]
  exact (store1_ok hw).trans rfl

theorem updates_of_load2 {op : W → W → W} {f : Memory W → ℕ → Reg 2 W → Option (Memory W)}
    (h : ∀ m p a, f m p a = (load2 m p >>= fun x => store2 m p (lift2 op x a))) : Updates 8 op f := by
  refine updates_of (fun m p a hw => (h m p a).trans ?_) fun m p a hw => (h m p a).trans (bind_bad (load2_bad hw))
  rw [load2_ok hw]
  exact (store2_ok hw).trans rfl

theorem updates_of_load4 {op : W → W → W} {f : Memory W → ℕ → Reg 4 W → Option (Memory W)}
    (h : ∀ m p a, f m p a = (load4 m p >>= fun x => store4 m p (lift2 op x a))) : Updates 16 op f := by
  refine updates_of (fun m p a hw => (h m p a).trans ?_) fun m p a hw => (h m p a).trans (bind_bad (load4_bad hw))
  rw [load4_ok hw]
  exact (store4_ok hw).trans rfl

theorem updates_of_ldq {op : W → W → W} {f : Memory W → ℕ → Reg 1 W → Memory W} (h : ∀ m p a, f m p a = stq m p (lift2 op (ldq m p) a)) :
    Updates 1 op fun m p a => some (f m p a) :=
  updates_of (fun m p a _ => (congrArg some (h m p a)).trans rfl) fun _ p _ h => absurd (Nat.mod_one p) h

/-! ### Numbers -/

theorem rsqrt_step {K : Type} [Field K] [CharZero K] (x s ε : K) (hs : s * s = x) (h : s ≠ 0) :
    (1 + ε) / s + 1 / 2 * ((1 + ε) / s - x * ((1 + ε) / s * ((1 + ε) / s * ((1 + ε) / s)))) = (1 - ε ^ 2 * (3 + ε) / 2) / s := by
  subst hs
  field_simp
  ring

theorem rcp_step {K : Type} [Field K] (x ε : K) (h : x ≠ 0) : (1 + ε) / x + (1 + ε) / x - x * ((1 + ε) / x * ((1 + ε) / x)) = (1 - ε ^ 2) / x := by
  field_simp
  ring

theorem refinesRsqrt_of {K : Type} [Field K] [CharZero K] {sqrt rs rc : K → K} {f : Arith K → Reg n K → Reg n K}
    (h : ∀ F a q l, f F a q l = F.add (F.rsqrtE (a q l)) (F.mul F.half (F.sub (F.rsqrtE (a q l)) (F.mul (a q l) (F.mul (F.rsqrtE (a q l))
      (F.mul (F.rsqrtE (a q l)) (F.rsqrtE (a q l)))))))) : RefinesRsqrt rs (f (exact K sqrt rs rc)) := by
  intro a q l s ε hs h0 he
  rw [h]
  show rs _ + 1 / 2 * (rs _ - _ * (rs _ * (rs _ * rs _))) = _
  rw [he]
  exact rsqrt_step _ _ _ hs h0

theorem refinesRsqrt_of' {K : Type} [Field K] [CharZero K] {sqrt rs rc : K → K} {f : Arith K → Reg n K → Reg n K}
    (h : ∀ F a q l, f F a q l = F.fmadd F.half (F.fnmadd (a q l) (F.mul (F.rsqrtE (a q l)) (F.mul (F.rsqrtE (a q l)) (F.rsqrtE (a q l))))
      (F.rsqrtE (a q l))) (F.rsqrtE (a q l))) : RefinesRsqrt rs (f (exact K sqrt rs rc)) := by
  intro a q l s ε hs h0 he
  rw [h]
  show 1 / 2 * (rs _ - _ * (rs _ * (rs _ * rs _))) + rs _ = _
  rw [he, add_comm]
  exact rsqrt_step _ _ _ hs h0

theorem refinesRcp_of {K : Type} [Field K] {sqrt rs rc : K → K} {f : Arith K → Reg n K → Reg n K}
    (h : ∀ a q l, f (exact K sqrt rs rc) a q l = rc (a q l) + rc (a q l) - a q l * (rc (a q l) * rc (a q l))) :
    RefinesRcp rc (f (exact K sqrt rs rc)) := by
  intro a q l ε h0 he
  rw [h, he]
  exact rcp_step _ _ h0

end Verif.Vector
