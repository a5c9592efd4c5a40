import Verif.Vector.LOps
import Mathlib.Tactic.LinearCombination
import Mathlib.Tactic.Positivity
import Mathlib.Tactic.NormNum
import Mathlib.Order.Monotone.Basic

/-! # C116: the operators and functions of the vector classes do in each lane what C does with one number

The transcribed functions are in the modules `LV4Portable` to `LV16Avx512`, what they shall do in `Verif/Vector/LaneSpec.lean`. Words are words of 32 bits, the
arithmetic of numbers in single precision is any (`F`). -/
namespace Verif.Vector

/-- In all versions: integers, bits, comparisons, selection, assignment, increment, sums, differences, products, quotients, roots. -/
theorem operators_right (F : Arith Word) :
    (V4Portable.ops F).Right F ∧ (V4Sse.ops F).Right F ∧ (V4Avx.ops F).Right F ∧ (V4Avx2.ops F).Right F ∧ (V4Neon.ops F).Right F ∧
    (V8Portable.ops F).Right F ∧ (V8Avx.ops F).Right F ∧ (V8Avx2.ops F).Right F ∧ (V16Portable.ops F).Right F ∧ (V16Avx512.ops F).Right F :=
  ⟨V4Portable.right F, V4Sse.right F, V4Avx.right F, V4Avx2.right F, V4Neon.right F, V8Portable.right F, V8Avx.right F, V8Avx2.right F, V16Portable.right F,
    V16Avx512.right F⟩

/-- A comparison selects: `merge( a<b, t, f )` is `t` in the lanes where `a<b`, `f` in the others, in any version. -/
theorem merge_select {n : ℕ} {o : Ops n} {F : Arith Word} (h : o.Right F) (a b t f : Reg n Word) (q : Fin n) (l : Fin 4) :
    o.merge (o.flt a b) t f q l = if Word.flt (a q l) (b q l) then t q l else f q l := by
  apply BitVec.eq_of_getLsbD_eq
  intro i hi
  rw [h.merge, show o.flt a b q l = mask (Word.flt (a q l) (b q l)) from h.flt a b q l]
  cases Word.flt (a q l) (b q l)
  · rw [if_neg (by simp [mask])]; rfl
  · rw [if_pos (by rw [show mask true = BitVec.allOnes 32 from rfl, BitVec.getLsbD_allOnes]; exact decide_eq_true hi)]; rfl

/-- `increment`, `decrement`, `scale` change the words behind the pointer and no others; on x86 the pointer must be aligned. -/
theorem updates_right {W : Type} (F : Arith W) :
    (Updates 1 F.add (fun m p a => some (V4Portable.increment F m p a)) ∧ Updates 4 F.add (V4Sse.increment F) ∧ Updates 4 F.add (V4Avx.increment F) ∧
      Updates 4 F.add (V4Avx2.increment F) ∧ Updates 1 F.add (fun m p a => some (V4Neon.increment F m p a)) ∧
      Updates 1 F.add (fun m p a => some (V8Portable.increment F m p a)) ∧ Updates 8 F.add (V8Avx.increment F) ∧ Updates 8 F.add (V8Avx2.increment F) ∧
      Updates 1 F.add (fun m p a => some (V16Portable.increment F m p a)) ∧ Updates 16 F.add (V16Avx512.increment F)) ∧
    (Updates 1 F.sub (fun m p a => some (V4Portable.decrement F m p a)) ∧ Updates 4 F.sub (V4Sse.decrement F) ∧ Updates 4 F.sub (V4Avx.decrement F) ∧
      Updates 4 F.sub (V4Avx2.decrement F) ∧ Updates 1 F.sub (fun m p a => some (V4Neon.decrement F m p a)) ∧
      Updates 1 F.sub (fun m p a => some (V8Portable.decrement F m p a)) ∧ Updates 8 F.sub (V8Avx.decrement F) ∧ Updates 8 F.sub (V8Avx2.decrement F) ∧
      Updates 1 F.sub (fun m p a => some (V16Portable.decrement F m p a)) ∧ Updates 16 F.sub (V16Avx512.decrement F)) ∧
    (Updates 1 F.mul (fun m p a => some (V4Portable.scale F m p a)) ∧ Updates 4 F.mul (V4Sse.scale F) ∧ Updates 4 F.mul (V4Avx.scale F) ∧
      Updates 4 F.mul (V4Avx2.scale F) ∧ Updates 1 F.mul (fun m p a => some (V4Neon.scale F m p a)) ∧
      Updates 1 F.mul (fun m p a => some (V8Portable.scale F m p a)) ∧ Updates 8 F.mul (V8Avx.scale F) ∧ Updates 8 F.mul (V8Avx2.scale F) ∧
      Updates 1 F.mul (fun m p a => some (V16Portable.scale F m p a)) ∧ Updates 16 F.mul (V16Avx512.scale F)) :=
  ⟨⟨V4Portable.increments F, V4Sse.increments F, V4Avx.increments F, V4Avx2.increments F, V4Neon.increments F, V8Portable.increments F, V8Avx.increments F,
    V8Avx2.increments F, V16Portable.increments F, V16Avx512.increments F⟩,
   ⟨V4Portable.decrements F, V4Sse.decrements F, V4Avx.decrements F, V4Avx2.decrements F, V4Neon.decrements F, V8Portable.decrements F, V8Avx.decrements F,
    V8Avx2.decrements F, V16Portable.decrements F, V16Avx512.decrements F⟩,
   ⟨V4Portable.scales F, V4Sse.scales F, V4Avx.scales F, V4Avx2.scales F, V4Neon.scales F, V8Portable.scales F, V8Avx.scales F, V8Avx2.scales F,
    V16Portable.scales F, V16Avx512.scales F⟩⟩

theorem magnitude_step (k : ℕ) : Word.magnitude k < Word.magnitude (k + 1) := by
  unfold Word.magnitude
  have h1 := Nat.mod_lt k (show 0 < 2 ^ 23 by norm_num)
  by_cases h : k % 2 ^ 23 + 1 < 2 ^ 23
  · have e1 : (k + 1) / 2 ^ 23 = k / 2 ^ 23 := by omega
    have e2 : (k + 1) % 2 ^ 23 = k % 2 ^ 23 + 1 := by omega
    rw [e1, e2]
    split
    · omega
    · exact Nat.mul_lt_mul_of_pos_right (by omega) (by positivity)
  · have e0 : k % 2 ^ 23 = 2 ^ 23 - 1 := by omega
    have e1 : (k + 1) / 2 ^ 23 = k / 2 ^ 23 + 1 := by omega
    have e2 : (k + 1) % 2 ^ 23 = 0 := by omega
    rw [e1, e2, e0, if_neg (Nat.succ_ne_zero (k / 2 ^ 23)), Nat.add_zero, Nat.add_sub_cancel]
    split
    · next h => rw [h]; norm_num
    · next h =>
      obtain ⟨j, hj⟩ := Nat.exists_eq_succ_of_ne_zero h
      rw [hj, Nat.succ_sub_one, show 2 ^ j.succ = 2 * 2 ^ j from by rw [Nat.pow_succ, Nat.mul_comm], ← Nat.mul_assoc]
      exact Nat.mul_lt_mul_of_pos_right (by norm_num) (by positivity)

theorem fabs_toNat (a : Word) : (Word.fabs a).toNat = a.toNat % 2 ^ 31 := by
  have : Word.fabs a = (a.setWidth 31).setWidth 32 := by
    apply BitVec.eq_of_getLsbD_eq
    intro i hi
    rw [fabs_bits, BitVec.getLsbD_setWidth, BitVec.getLsbD_setWidth, decide_eq_true hi, Bool.true_and]
    congr 1
    exact decide_eq_decide.2 (by omega)
  rw [this, BitVec.toNat_setWidth, BitVec.toNat_setWidth]
  omega

theorem value_eq (a : Word) : Word.value a = if a.msb then - (Word.magnitude (Word.fabs a).toNat : ℤ) else Word.magnitude (Word.fabs a).toNat := by
  unfold Word.value
  rw [fabs_toNat, show a.getLsbD 31 = a.msb from (BitVec.msb_eq_getLsbD_last a).symm]

/-- The comparisons of the words are those of the numbers they stand for. -/
theorem compare_value (a b : Word) (ha : Word.finite a) (hb : Word.finite b) :
    (Word.flt a b = true ↔ Word.value a < Word.value b) ∧ (Word.fle a b = true ↔ Word.value a ≤ Word.value b) ∧
    (Word.feq a b = true ↔ Word.value a = Word.value b) := by
  have hm : StrictMono Word.magnitude := strictMono_nat_of_lt_succ magnitude_step
  have h0 : Word.magnitude 0 = 0 := rfl
  have na : Word.nan a = false := decide_eq_false (by unfold Word.finite at ha; omega)
  have nb : Word.nan b = false := decide_eq_false (by unfold Word.finite at hb; omega)
  have key : ∀ a b : Word, Word.key a < Word.key b ↔ Word.value a < Word.value b := fun a b => by
    rw [value_eq, value_eq]
    unfold Word.key
    have h1 := hm.lt_iff_lt (a := (Word.fabs a).toNat) (b := (Word.fabs b).toNat)
    have h2 := hm.lt_iff_lt (a := (Word.fabs b).toNat) (b := (Word.fabs a).toNat)
    have h3 := hm.lt_iff_lt (a := 0) (b := (Word.fabs a).toNat)
    have h4 := hm.lt_iff_lt (a := 0) (b := (Word.fabs b).toNat)
    rw [h0] at h3 h4
    split <;> split <;> omega
  unfold Word.flt Word.fle Word.feq
  simp only [na, nb, Bool.not_false, Bool.true_and, decide_eq_true_eq]
  have k1 := key a b
  have k2 := key b a
  refine ⟨k1, ?_, ?_⟩ <;> omega

/-! ### What not all versions do -/

/-- All that an operator of C does. -/
def Ops.Full {n : ℕ} (o : Ops n) (F : Arith Word) : Prop := o.Right F ∧ o.NotEqual ∧ o.Not ∧ o.Opposite ∧ o.CopySign ∧ o.Clear

/-- `!=`, `&&`, `||` of numbers are right except in the versions with 8 words for AVX and AVX2. -/
theorem notEqual_right_partial (F : Arith Word) :
    (V4Portable.ops F).NotEqual ∧ (V4Sse.ops F).NotEqual ∧ (V4Avx.ops F).NotEqual ∧ (V4Avx2.ops F).NotEqual ∧ (V4Neon.ops F).NotEqual ∧
    (V8Portable.ops F).NotEqual ∧ (V16Portable.ops F).NotEqual ∧ (V16Avx512.ops F).NotEqual :=
  ⟨V4Portable.notEqual F, V4Sse.notEqual F, V4Avx.notEqual F, V4Avx2.notEqual F, V4Neon.notEqual F, V8Portable.notEqual F, V16Portable.notEqual F,
    V16Avx512.notEqual F⟩

theorem fneO_eq (a b : Word) (ha : Word.nan a = false) (hb : Word.nan b = false) : Word.fneO a b = !Word.feq a b := by
  unfold Word.fneO Word.feq
  rw [ha, hb, decide_not]; rfl

/-- There they are right for numbers ... -/
theorem ordered_right_partial (F : Arith Word) (o : Ops 2) (ho : o = V8Avx.ops F ∨ o = V8Avx2.ops F) (a b : Reg 2 Word) (q : Fin 2) (l : Fin 4)
    (ha : Word.nan (a q l) = false) (hb : Word.nan (b q l) = false) :
    o.fne a b q l = mask (!Word.feq (a q l) (b q l)) ∧ o.fland a b q l = mask (!Word.feq (a q l) 0 && !Word.feq (b q l) 0) ∧
    o.flor a b q l = mask (!Word.feq (a q l) 0 || !Word.feq (b q l) 0) := by
  have h : Lane2 o.fne (fun a b => mask (Word.fneO a b)) ∧ Lane2 o.fland (fun a b => mask (Word.fneO a 0 && Word.fneO b 0)) ∧
      Lane2 o.flor (fun a b => mask (Word.fneO a 0 || Word.fneO b 0)) := by
    rcases ho with rfl | rfl
    · exact V8Avx.ordered F
    · exact V8Avx2.ordered F
  rw [h.1, h.2.1, h.2.2]
  beta_reduce
  rw [fneO_eq _ _ ha hb, fneO_eq _ 0 ha (by decide), fneO_eq _ 0 hb (by decide)]
  exact ⟨rfl, rfl, rfl⟩

/-- ... but what is not a number is not unequal to itself, unlike in C and in all other versions. -/
theorem ordered_wrong (F : Arith Word) (o : Ops 2) (ho : o = V8Avx.ops F ∨ o = V8Avx2.ops F) (a b : Reg 2 Word) (q : Fin 2) (l : Fin 4)
    (h : Word.nan (a q l) = true ∨ Word.nan (b q l) = true) : o.fne a b q l = 0 ∧ (V8Portable.ops F).fne a b q l = -1 := by
  constructor
  · have e : o.fne a b q l = mask (Word.fneO (a q l) (b q l)) := by
      rcases ho with rfl | rfl
      · exact (V8Avx.ordered F).1 a b q l
      · exact (V8Avx2.ordered F).1 a b q l
    have : Word.fneO (a q l) (b q l) = false := by unfold Word.fneO; rcases h with h | h <;> simp [h]
    rw [e, this]; rfl
  · have : Word.feq (a q l) (b q l) = false := by unfold Word.feq; rcases h with h | h <;> simp [h]
    rw [(V8Portable.notEqual F).fne a b q l]
    beta_reduce
    rw [this]; rfl

theorem ordered_not_right (F : Arith Word) : ¬ (V8Avx.ops F).NotEqual ∧ ¬ (V8Avx2.ops F).NotEqual := by
  have key : ∀ o : Ops 2, (o = V8Avx.ops F ∨ o = V8Avx2.ops F) → ¬ o.NotEqual := fun o ho h => by
    have hn : Word.nan 0x7fc00000#32 = true := by decide
    have h1 := (ordered_wrong F o ho (fun _ _ => 0x7fc00000#32) (fun _ _ => 0x7fc00000#32) 0 0 (.inl hn)).1
    have h2 := h.fne (fun _ _ => 0x7fc00000#32) (fun _ _ => 0x7fc00000#32) 0 0
    rw [h1] at h2
    exact absurd h2 (by decide)
  exact ⟨key _ (.inl rfl), key _ (.inr rfl)⟩

/-- `!` of numbers is right with SSE and AVX. -/
theorem not_right_partial (F : Arith Word) : (V4Sse.ops F).Not ∧ (V4Avx.ops F).Not ∧ (V4Avx2.ops F).Not ∧ (V8Avx.ops F).Not ∧ (V8Avx2.ops F).Not :=
  ⟨V4Sse.not F, V4Avx.not F, V4Avx2.not F, V8Avx.not F, V8Avx2.not F⟩

theorem fabs_zero (a : Word) (h : Word.fabs a = 0) : a = 0 ∨ a = Word.sign := by
  have hb : ∀ i, i ≠ 31 → a.getLsbD i = false := fun i hi => by
    have := congrArg (fun x : Word => x.getLsbD i) h
    simp only [fabs_bits, decide_eq_true hi, Bool.true_and] at this
    exact this.trans (BitVec.getLsbD_zero)
  cases h31 : a.getLsbD 31
  · left
    apply BitVec.eq_of_getLsbD_eq
    intro i _
    rw [show (0 : Word) = 0#32 from rfl, BitVec.getLsbD_zero]
    by_cases hi : i = 31
    · rw [hi, h31]
    · exact hb i hi
  · right
    apply BitVec.eq_of_getLsbD_eq
    intro i _
    rw [sign_bits]
    by_cases hi : i = 31
    · rw [hi, h31]; rfl
    · rw [hb i hi, decide_eq_false hi]

theorem feq_zero (a : Word) : Word.feq a 0 = true ↔ a = 0 ∨ a = Word.sign := by
  constructor
  · intro h
    unfold Word.feq at h
    simp only [Bool.and_eq_true, decide_eq_true_eq] at h
    have hk : Word.key a = 0 := h.2.trans (by decide)
    apply fabs_zero
    unfold Word.key at hk
    apply BitVec.eq_of_toNat_eq
    show (Word.fabs a).toNat = 0
    split at hk <;> omega
  · rintro (rfl | rfl) <;> decide

/-- In the other versions it is right but for minus zero, which equals zero. -/
theorem not_wrong (F : Arith Word) (f : ∀ n, Reg n Word → Reg n Word) (n : ℕ) (a : Reg n Word) (q : Fin n) (l : Fin 4)
    (hf : (n = 1 ∧ (f 1 = (V4Portable.ops F).flnot ∨ f 1 = (V4Neon.ops F).flnot)) ∨ (n = 2 ∧ f 2 = (V8Portable.ops F).flnot) ∨
      (n = 4 ∧ (f 4 = (V16Portable.ops F).flnot ∨ f 4 = (V16Avx512.ops F).flnot))) :
    (f n a q l = mask (Word.feq (a q l) 0) ↔ a q l ≠ Word.sign) := by
  have e : f n a q l = mask (a q l = 0) := by
    rcases hf with ⟨rfl, h | h⟩ | ⟨rfl, h⟩ | ⟨rfl, h | h⟩ <;> rw [h]
    · exact V4Portable.notBits F a q l
    · exact V4Neon.notBits F a q l
    · exact V8Portable.notBits F a q l
    · exact V16Portable.notBits F a q l
    · exact V16Avx512.notBits F a q l
  rw [e]
  generalize a q l = x
  constructor
  · rintro h rfl
    exact absurd h (by decide)
  · intro h
    congr 1
    by_cases h0 : x = 0
    · rw [h0]; rfl
    · rw [decide_eq_false h0]
      cases hx : Word.feq x 0
      · rfl
      · rcases (feq_zero x).1 hx with h' | h'
        · exact absurd h' h0
        · exact absurd h' h

/-- Unary minus is right in the portable versions and with NEON. -/
theorem opposite_right_partial (F : Arith Word) : (V4Portable.ops F).Opposite ∧ (V4Neon.ops F).Opposite ∧ (V8Portable.ops F).Opposite ∧
    (V16Portable.ops F).Opposite := ⟨V4Portable.opposite F, V4Neon.opposite F, V8Portable.opposite F, V16Portable.opposite F⟩

/-- In the others it is `0 - a`, which is wrong as soon as `0 - 0` is zero without sign, as in IEEE 754. -/
theorem opposite_wrong (F : Arith Word) :
    (Lane1 (V4Sse.ops F).fneg (F.sub F.zero) ∧ Lane1 (V4Avx.ops F).fneg (F.sub F.zero) ∧ Lane1 (V4Avx2.ops F).fneg (F.sub F.zero) ∧
      Lane1 (V8Avx.ops F).fneg (F.sub F.zero) ∧ Lane1 (V8Avx2.ops F).fneg (F.sub F.zero) ∧ Lane1 (V16Avx512.ops F).fneg (F.sub F.zero)) ∧
    (F.sub F.zero 0 = 0 → ¬ (V4Sse.ops F).Opposite ∧ ¬ (V4Avx.ops F).Opposite ∧ ¬ (V4Avx2.ops F).Opposite ∧ ¬ (V8Avx.ops F).Opposite ∧
      ¬ (V8Avx2.ops F).Opposite ∧ ¬ (V16Avx512.ops F).Opposite) := by
  have hall := (⟨V4Sse.minus F, V4Avx.minus F, V4Avx2.minus F, V8Avx.minus F, V8Avx2.minus F, V16Avx512.minus F⟩ :
    Lane1 (V4Sse.ops F).fneg (F.sub F.zero) ∧ Lane1 (V4Avx.ops F).fneg (F.sub F.zero) ∧ Lane1 (V4Avx2.ops F).fneg (F.sub F.zero) ∧
      Lane1 (V8Avx.ops F).fneg (F.sub F.zero) ∧ Lane1 (V8Avx2.ops F).fneg (F.sub F.zero) ∧ Lane1 (V16Avx512.ops F).fneg (F.sub F.zero))
  refine ⟨hall, fun h0 => ?_⟩
  have key : ∀ (n : ℕ) (f : Reg (n + 1) Word → Reg (n + 1) Word), Lane1 f (F.sub F.zero) → ¬ Lane1 f Word.fneg := fun n f h h' => by
    have e := (h (fun _ _ => 0) 0 0).symm.trans (h' (fun _ _ => 0) 0 0)
    rw [h0] at e
    exact absurd e (by decide)
  exact ⟨key _ _ hall.1, key _ _ hall.2.1, key _ _ hall.2.2.1, key _ _ hall.2.2.2.1, key _ _ hall.2.2.2.2.1, key _ _ hall.2.2.2.2.2⟩

/-- `copysign` is right with the instructions of x86. -/
theorem copySign_right_partial (F : Arith Word) : (V4Sse.ops F).CopySign ∧ (V4Avx.ops F).CopySign ∧ (V4Avx2.ops F).CopySign ∧ (V8Avx.ops F).CopySign ∧
    (V8Avx2.ops F).CopySign ∧ (V16Avx512.ops F).CopySign :=
  ⟨V4Sse.copySign F, V4Avx.copySign F, V4Avx2.copySign F, V8Avx.copySign F, V8Avx2.copySign F, V16Avx512.copySign F⟩

theorem copyLess_bits (a b : Word) (i : ℕ) : (copyLess a b).getLsbD i = if i = 31 then Word.flt b 0 else a.getLsbD i := by
  unfold copyLess
  split
  · next h =>
    rw [Word.fneg, BitVec.getLsbD_xor, fabs_bits, sign_bits, h]
    by_cases hi : i = 31 <;> simp [hi]
  · next h =>
    rw [fabs_bits, eq_false_of_ne_true h]
    by_cases hi : i = 31 <;> simp [hi]

theorem flt_sign (b : Word) (hn : Word.nan b = false) (hs : b ≠ Word.sign) : Word.flt b 0 = b.getLsbD 31 := by
  have h0 : Word.nan 0 = false := by decide
  have hk : Word.key 0 = 0 := by decide
  unfold Word.flt
  rw [hn, h0, hk, show b.getLsbD 31 = b.msb from (BitVec.msb_eq_getLsbD_last b).symm]
  show decide (Word.key b < 0) = _
  unfold Word.key
  cases hm : b.msb
  · simp
  · simp only [if_true]
    apply decide_eq_true
    have : (Word.fabs b).toNat ≠ 0 := fun h => by
      rcases fabs_zero b (BitVec.eq_of_toNat_eq h) with h | h
      · rw [h] at hm; exact absurd hm (by decide)
      · exact hs h
    omega

/-- In the portable versions and with NEON it takes the sign of the second argument, except that of minus zero and of what is not a number, ... -/
theorem copyLess_right_partial (F : Arith Word) (f : ∀ n, Reg n Word → Reg n Word → Reg n Word) (n : ℕ)
    (hf : (n = 1 ∧ (f 1 = (V4Portable.ops F).copysign ∨ f 1 = (V4Neon.ops F).copysign)) ∨ (n = 2 ∧ f 2 = (V8Portable.ops F).copysign) ∨
      (n = 4 ∧ f 4 = (V16Portable.ops F).copysign)) (a b : Reg n Word) (q : Fin n) (l : Fin 4) :
    (Word.nan (b q l) = false → b q l ≠ Word.sign → ∀ i, (f n a b q l).getLsbD i = if i = 31 then (b q l).getLsbD i else (a q l).getLsbD i) ∧
    (Word.nan (b q l) = true ∨ b q l = Word.sign → ∀ i, (f n a b q l).getLsbD i = if i = 31 then false else (a q l).getLsbD i) := by
  have e : f n a b q l = copyLess (a q l) (b q l) := by
    rcases hf with ⟨rfl, h | h⟩ | ⟨rfl, h⟩ | ⟨rfl, h⟩ <;> rw [h]
    · exact V4Portable.copyLess F a b q l
    · exact V4Neon.copyLess F a b q l
    · exact V8Portable.copyLess F a b q l
    · exact V16Portable.copyLess F a b q l
  rw [e]
  refine ⟨fun hn hs i => ?_, fun h i => ?_⟩
  · rw [copyLess_bits, flt_sign _ hn hs]
    by_cases hi : i = 31
    · rw [if_pos hi, if_pos hi, hi]
    · rw [if_neg hi, if_neg hi]
  · have : Word.flt (b q l) 0 = false := by
      rcases h with h | h
      · unfold Word.flt; rw [h]; rfl
      · rw [h]; decide
    rw [copyLess_bits, this]

/-- ... which makes it wrong: the sign of minus zero is minus. -/
theorem copySign_wrong (F : Arith Word) : ¬ (V4Portable.ops F).CopySign ∧ ¬ (V4Neon.ops F).CopySign ∧ ¬ (V8Portable.ops F).CopySign ∧
    ¬ (V16Portable.ops F).CopySign := by
  have key : ∀ (n : ℕ) (o : Ops (n + 1)), Lane2 o.copysign copyLess → ¬ o.CopySign := fun n o h h' => by
    have h1 := h' (fun _ _ => 0) (fun _ _ => Word.sign) 0 0 31 (by decide)
    rw [h] at h1
    exact absurd h1 (by decide)
  exact ⟨key _ _ (V4Portable.copyLess F), key _ _ (V4Neon.copyLess F), key _ _ (V8Portable.copyLess F), key _ _ (V16Portable.copyLess F)⟩

/-- `clear_bits` is right in all versions but that for NEON. -/
theorem clear_right_partial (F : Arith Word) : (V4Portable.ops F).Clear ∧ (V4Sse.ops F).Clear ∧ (V4Avx.ops F).Clear ∧ (V4Avx2.ops F).Clear ∧
    (V8Portable.ops F).Clear ∧ (V8Avx.ops F).Clear ∧ (V8Avx2.ops F).Clear ∧ (V16Portable.ops F).Clear ∧ (V16Avx512.ops F).Clear :=
  ⟨V4Portable.clear F, V4Sse.clear F, V4Avx.clear F, V4Avx2.clear F, V8Portable.clear F, V8Avx.clear F, V8Avx2.clear F, V16Portable.clear F, V16Avx512.clear F⟩

/-- The version for NEON clears the bits of the mask that the vector has instead of the bits of the vector that the mask has. -/
theorem clear_wrong (F : Arith Word) : (∀ m a q l i, ((V4Neon.ops F).clear_bits m a q l).getLsbD i = (!(a q l).getLsbD i && (m q l).getLsbD i)) ∧
    ¬ (V4Neon.ops F).Clear := by
  have h : ∀ m a q l i, ((V4Neon.ops F).clear_bits m a q l).getLsbD i = (!(a q l).getLsbD i && (m q l).getLsbD i) := fun m a q l i =>
    and_not_bits (a q l) (m q l) i
  refine ⟨h, fun hc => ?_⟩
  have e := (h (fun _ _ => 1) (fun _ _ => 0) 0 0 0).symm.trans (hc (fun _ _ => 1) (fun _ _ => 0) 0 0 0)
  exact absurd e (by decide)

/-- So no version does all that C does, if `0 - 0` is zero without sign. -/
theorem none_full (F : Arith Word) (h0 : F.sub F.zero 0 = 0) :
    ¬ (V4Portable.ops F).Full F ∧ ¬ (V4Sse.ops F).Full F ∧ ¬ (V4Avx.ops F).Full F ∧ ¬ (V4Avx2.ops F).Full F ∧ ¬ (V4Neon.ops F).Full F ∧
    ¬ (V8Portable.ops F).Full F ∧ ¬ (V8Avx.ops F).Full F ∧ ¬ (V8Avx2.ops F).Full F ∧ ¬ (V16Portable.ops F).Full F ∧ ¬ (V16Avx512.ops F).Full F := by
  obtain ⟨a1, a2, a3, a4⟩ := copySign_wrong F
  obtain ⟨b1, b2, b3, b4, b5, b6⟩ := (opposite_wrong F).2 h0
  exact ⟨fun h => a1 h.2.2.2.2.1, fun h => b1 h.2.2.2.1, fun h => b2 h.2.2.2.1, fun h => b3 h.2.2.2.1, fun h => a2 h.2.2.2.2.1, fun h => a3 h.2.2.2.2.1,
    fun h => b4 h.2.2.2.1, fun h => b5 h.2.2.2.1, fun h => a4 h.2.2.2.2.1, fun h => b6 h.2.2.2.1⟩

/-! ### Exact arithmetic -/

/-- `fma`, `fms`, `fnms` are `a b + c`, `a b - c`, `c - a b` in all versions, fused or not. -/
theorem fused_right {K : Type} [Field K] (s r e : K → K) :
    FusedRight (V4Portable.fma (exact K s r e)) (V4Portable.fms (exact K s r e)) (V4Portable.fnms (exact K s r e)) ∧
    FusedRight (V4Sse.fma (exact K s r e)) (V4Sse.fms (exact K s r e)) (V4Sse.fnms (exact K s r e)) ∧
    FusedRight (V4Avx.fma (exact K s r e)) (V4Avx.fms (exact K s r e)) (V4Avx.fnms (exact K s r e)) ∧
    FusedRight (V4Avx2.fma (exact K s r e)) (V4Avx2.fms (exact K s r e)) (V4Avx2.fnms (exact K s r e)) ∧
    FusedRight (V4Neon.fma (exact K s r e)) (V4Neon.fms (exact K s r e)) (V4Neon.fnms (exact K s r e)) ∧
    FusedRight (V8Portable.fma (exact K s r e)) (V8Portable.fms (exact K s r e)) (V8Portable.fnms (exact K s r e)) ∧
    FusedRight (V8Avx.fma (exact K s r e)) (V8Avx.fms (exact K s r e)) (V8Avx.fnms (exact K s r e)) ∧
    FusedRight (V8Avx2.fma (exact K s r e)) (V8Avx2.fms (exact K s r e)) (V8Avx2.fnms (exact K s r e)) ∧
    FusedRight (V16Portable.fma (exact K s r e)) (V16Portable.fms (exact K s r e)) (V16Portable.fnms (exact K s r e)) ∧
    FusedRight (V16Avx512.fma (exact K s r e)) (V16Avx512.fms (exact K s r e)) (V16Avx512.fnms (exact K s r e)) :=
  ⟨V4Portable.fused s r e, V4Sse.fused s r e, V4Avx.fused s r e, V4Avx2.fused s r e, V4Neon.fused s r e, V8Portable.fused s r e, V8Avx.fused s r e,
    V8Avx2.fused s r e, V16Portable.fused s r e, V16Avx512.fused s r e⟩

/-- `rsqrt`: an estimate with relative error `ε` becomes one with relative error `- ε² (3+ε)/2`. -/
theorem rsqrt_right {K : Type} [Field K] [CharZero K] (s r e : K → K) :
    RefinesRsqrt r (V4Sse.rsqrt (exact K s r e)) ∧ RefinesRsqrt r (V4Avx.rsqrt (exact K s r e)) ∧ RefinesRsqrt r (V4Avx2.rsqrt (exact K s r e)) ∧
    RefinesRsqrt r (V4Neon.rsqrt (exact K s r e)) ∧ RefinesRsqrt r (V8Avx.rsqrt (exact K s r e)) ∧ RefinesRsqrt r (V8Avx2.rsqrt (exact K s r e)) ∧
    RefinesRsqrt r (V16Avx512.rsqrt (exact K s r e)) :=
  ⟨V4Sse.newtonRsqrt s r e, V4Avx.newtonRsqrt s r e, V4Avx2.newtonRsqrt s r e, V4Neon.newtonRsqrt s r e, V8Avx.newtonRsqrt s r e, V8Avx2.newtonRsqrt s r e,
    V16Avx512.newtonRsqrt s r e⟩

/-- `rcp`: an estimate with relative error `ε` becomes one with relative error `- ε²`. -/
theorem rcp_right {K : Type} [Field K] (s r e : K → K) :
    RefinesRcp e (V4Sse.rcp (exact K s r e)) ∧ RefinesRcp e (V4Avx.rcp (exact K s r e)) ∧ RefinesRcp e (V4Avx2.rcp (exact K s r e)) ∧
    RefinesRcp e (V4Neon.rcp (exact K s r e)) ∧ RefinesRcp e (V8Avx.rcp (exact K s r e)) ∧ RefinesRcp e (V8Avx2.rcp (exact K s r e)) ∧
    RefinesRcp e (V16Avx512.rcp (exact K s r e)) :=
  ⟨V4Sse.newtonRcp s r e, V4Avx.newtonRcp s r e, V4Avx2.newtonRcp s r e, V4Neon.newtonRcp s r e, V8Avx.newtonRcp s r e, V8Avx2.newtonRcp s r e,
    V16Avx512.newtonRcp s r e⟩

/-- The portable versions divide: `sqrt(1/a)` and `1/a`, whatever the arithmetic. -/
theorem inverse_portable {W : Type} (F : Arith W) :
    (Lane1 (V4Portable.rsqrt F) (fun a => F.sqrt (F.div F.one a)) ∧ Lane1 (V4Portable.rcp F) (F.div F.one)) ∧
    (Lane1 (V8Portable.rsqrt F) (fun a => F.sqrt (F.div F.one a)) ∧ Lane1 (V8Portable.rcp F) (F.div F.one)) ∧
    (Lane1 (V16Portable.rsqrt F) (fun a => F.sqrt (F.div F.one a)) ∧ Lane1 (V16Portable.rcp F) (F.div F.one)) :=
  ⟨V4Portable.inverse F, V8Portable.inverse F, V16Portable.inverse F⟩

/-- `trilinear` gives the weights of the corners in the portable version and with NEON. -/
theorem trilinear_right {K : Type} [Field K] (s r e : K → K) :
    Weights (V4Portable.trilinear (exact K s r e)) ∧ Weights (V4Neon.trilinear (exact K s r e)) := by
  have key : Weights (V4Portable.trilinear (exact K s r e)) := by
    intro w q i j k
    obtain rfl : q = 0 := Subsingleton.elim _ _
    cases i <;> cases j <;> cases k <;>
      simp only [Bool.false_eq_true, if_false, if_true, neg_one_mul, one_mul, ← sub_eq_add_neg] <;> rfl
  exact ⟨key, key⟩

/-- With SSE and AVX it gives the same, bit by bit, if `a - b` is `a + (-b)`, as in IEEE 754. -/
theorem trilinear_sse (F : Arith Word) (h : ∀ a b, F.sub a b = F.add a (Word.fneg b)) :
    V4Sse.trilinear F = V4Portable.trilinear F ∧ V4Avx.trilinear F = V4Portable.trilinear F ∧ V4Avx2.trilinear F = V4Portable.trilinear F := by
  have hx : ∀ a : Word, Word.xor Word.sign a = Word.fneg a := fun a => BitVec.xor_comm _ _
  have hz : ∀ a : Word, Word.xor 0 a = a := fun a => BitVec.zero_xor
  have key : V4Sse.trilinear F = V4Portable.trilinear F := by
    funext w
    have e : ∀ b : Word, F.add F.one (Word.xor Word.sign b) = F.sub F.one b := fun b => by rw [h, hx]
    have e' : ∀ b : Word, F.add F.one (Word.xor 0 b) = F.add F.one b := fun b => by rw [hz]
    refine Prod.ext ?_ ?_ <;> refine funext fun q => funext fun l => ?_ <;> revert q l <;> refine all1 (all4 ?_ ?_ ?_ ?_)
    · show F.mul (F.mul (F.add F.one (Word.xor Word.sign (w 0 0))) (F.add F.one (Word.xor Word.sign (w 0 1)))) (F.add F.one (Word.xor Word.sign (w 0 2))) = _
      rw [e, e, e]; rfl
    · show F.mul (F.mul (F.add F.one (Word.xor 0 (w 0 0))) (F.add F.one (Word.xor Word.sign (w 0 1)))) (F.add F.one (Word.xor Word.sign (w 0 2))) = _
      rw [e, e, e']; rfl
    · show F.mul (F.mul (F.add F.one (Word.xor Word.sign (w 0 0))) (F.add F.one (Word.xor 0 (w 0 1)))) (F.add F.one (Word.xor Word.sign (w 0 2))) = _
      rw [e, e, e']; rfl
    · show F.mul (F.mul (F.add F.one (Word.xor 0 (w 0 0))) (F.add F.one (Word.xor 0 (w 0 1)))) (F.add F.one (Word.xor Word.sign (w 0 2))) = _
      rw [e, e', e']; rfl
    · show F.mul (F.mul (F.add F.one (Word.xor Word.sign (w 0 0))) (F.add F.one (Word.xor Word.sign (w 0 1)))) (F.add F.one (Word.xor 0 (w 0 2))) = _
      rw [e, e, e']; rfl
    · show F.mul (F.mul (F.add F.one (Word.xor 0 (w 0 0))) (F.add F.one (Word.xor Word.sign (w 0 1)))) (F.add F.one (Word.xor 0 (w 0 2))) = _
      rw [e, e', e']; rfl
    · show F.mul (F.mul (F.add F.one (Word.xor Word.sign (w 0 0))) (F.add F.one (Word.xor 0 (w 0 1)))) (F.add F.one (Word.xor 0 (w 0 2))) = _
      rw [e, e', e']; rfl
    · show F.mul (F.mul (F.add F.one (Word.xor 0 (w 0 0))) (F.add F.one (Word.xor 0 (w 0 1)))) (F.add F.one (Word.xor 0 (w 0 2))) = _
      rw [e', e', e']; rfl
  exact ⟨key, key, key⟩

end Verif.Vector
