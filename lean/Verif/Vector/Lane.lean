import Verif.Vector.Instr

/-!
What the vector operations do in one lane: words of 32 bits, which are integers or numbers in single precision, and the arithmetic of numbers, which is left open
(`Arith`): rounded or exact. The functions that use them are in the modules `LV4Portable` to `LV16Avx512`, which `tools/gen_lanes.py` transcribes from /repo/src/util.
-/
namespace Verif.Vector

/-- A word of 32 bits. -/
abbrev Word := BitVec 32

/-- The arithmetic of numbers: the operations of C and of the processors. `rsqrtE`, `rcpE` are the estimates of `rsqrtps`, `rcpps`, `vrsqrte`, ...; `fmadd a b c`,
`fmsub a b c`, `fnmadd a b c` are `a b + c`, `a b - c`, `c - a b` with one rounding. -/
structure Arith (W : Type) where
  zero : W
  one : W
  half : W
  add : W → W → W
  sub : W → W → W
  mul : W → W → W
  div : W → W → W
  sqrt : W → W
  rsqrtE : W → W
  rcpE : W → W
  fmadd : W → W → W → W
  fmsub : W → W → W → W
  fnmadd : W → W → W → W

namespace Word

/-- The bit of the sign, which is the number minus zero. -/
def sign : Word := 0x80000000#32

/-- `1` or `0`: a truth value of C as integer. -/
def bit (b : Bool) : Word := if b then 1 else 0

/-! ### Integers -/

/-- Comparison of integers. -/
def ilt (a b : Word) : Bool := a.toInt < b.toInt
@[inherit_doc ilt] def igt (a b : Word) : Bool := b.toInt < a.toInt
@[inherit_doc ilt] def ile (a b : Word) : Bool := a.toInt ≤ b.toInt
@[inherit_doc ilt] def ige (a b : Word) : Bool := b.toInt ≤ a.toInt
@[inherit_doc ilt] def ieq (a b : Word) : Bool := a == b
@[inherit_doc ilt] def ine (a b : Word) : Bool := a != b

/-! ### Numbers in single precision (IEEE 754) -/

/-- Without the sign. -/
def fabs (a : Word) : Word := a &&& ~~~ sign

/-- With the opposite sign. -/
def fneg (a : Word) : Word := a ^^^ sign

/-- Not a number: all bits of the exponent and one of the fraction. -/
def nan (a : Word) : Bool := 0x7f800000 < (fabs a).toNat

/-- Numbers are ordered as these integers. -/
def key (a : Word) : ℤ := if a.msb then - ((fabs a).toNat : ℤ) else (fabs a).toNat

/-- Comparison of numbers; what is not a number is not less, equal or greater. -/
def flt (a b : Word) : Bool := !nan a && !nan b && decide (key a < key b)
@[inherit_doc flt] def fgt (a b : Word) : Bool := !nan a && !nan b && decide (key b < key a)
@[inherit_doc flt] def fle (a b : Word) : Bool := !nan a && !nan b && decide (key a ≤ key b)
@[inherit_doc flt] def fge (a b : Word) : Bool := !nan a && !nan b && decide (key b ≤ key a)
@[inherit_doc flt] def feq (a b : Word) : Bool := !nan a && !nan b && decide (key a = key b)

/-- Not equal: `!=` of C, `cmpneqps`. -/
def fne (a b : Word) : Bool := !feq a b

/-- Numbers and not equal: the predicate `_CMP_NEQ_OS` of `vcmpps`. -/
def fneO (a b : Word) : Bool := !nan a && !nan b && decide (key a ≠ key b)

/-! ### Instructions in one lane -/

/-- All bits if the relation holds, otherwise none. -/
def cmp (r : Word → Word → Bool) (a b : Word) : Word := if r a b then 0xffffffff#32 else 0

/-- `andps`. -/
def and (a b : Word) : Word := a &&& b
/-- `orps`. -/
def or (a b : Word) : Word := a ||| b
/-- `xorps`. -/
def xor (a b : Word) : Word := a ^^^ b
/-- `andnps`: the first operand is complemented. -/
def andnot (a b : Word) : Word := ~~~a &&& b
/-- `bic` of ARM: the second operand is complemented. -/
def bic (a b : Word) : Word := a &&& ~~~b

end Word

variable {W : Type}

/-- An instruction that does the same in all lanes. -/
def lift1 {n : ℕ} {V : Type} (f : W → V) (a : Reg n W) : Reg n V := fun q l => f (a q l)
@[inherit_doc lift1] def lift2 {n : ℕ} {V : Type} (f : W → W → V) (a b : Reg n W) : Reg n V := fun q l => f (a q l) (b q l)
@[inherit_doc lift1] def lift3 {n : ℕ} {V : Type} (f : W → W → W → V) (a b c : Reg n W) : Reg n V := fun q l => f (a q l) (b q l) (c q l)

end Verif.Vector
