import Verif.Vector.Lane
import Mathlib.Algebra.Field.Basic
import Mathlib.Algebra.Order.Group.Unbundled.Int

/-! What the operators and functions of the vector classes should do in each lane. -/
namespace Verif.Vector

variable {n : ℕ} {W : Type}

/-- True and false as words: all bits or none. -/
def mask (b : Bool) : Word := if b then -1 else 0

/-- A function of vectors is a function of the words of each lane. -/
def Lane1 (f : Reg n W → Reg n W) (g : W → W) : Prop := ∀ a q l, f a q l = g (a q l)
@[inherit_doc Lane1] def Lane2 (f : Reg n W → Reg n W → Reg n W) (g : W → W → W) : Prop := ∀ a b q l, f a b q l = g (a q l) (b q l)
@[inherit_doc Lane1] def Lane3 (f : Reg n W → Reg n W → Reg n W → Reg n W) (g : W → W → W → W) : Prop := ∀ a b c q l, f a b c q l = g (a q l) (b q l) (c q l)

/-- The operators and functions of one version of the vector classes. -/
structure Ops (n : ℕ) where
  iadd : Reg n Word → Reg n Word → Reg n Word
  isub : Reg n Word → Reg n Word → Reg n Word
  imul : Reg n Word → Reg n Word → Reg n Word
  ixor : Reg n Word → Reg n Word → Reg n Word
  iand : Reg n Word → Reg n Word → Reg n Word
  ior : Reg n Word → Reg n Word → Reg n Word
  iadd_to : Reg n Word → Reg n Word → Reg n Word
  isub_to : Reg n Word → Reg n Word → Reg n Word
  imul_to : Reg n Word → Reg n Word → Reg n Word
  ixor_to : Reg n Word → Reg n Word → Reg n Word
  iand_to : Reg n Word → Reg n Word → Reg n Word
  ior_to : Reg n Word → Reg n Word → Reg n Word
  ineg : Reg n Word → Reg n Word
  inot : Reg n Word → Reg n Word
  ilnot : Reg n Word → Reg n Word
  ilt : Reg n Word → Reg n Word → Reg n Word
  igt : Reg n Word → Reg n Word → Reg n Word
  ieq : Reg n Word → Reg n Word → Reg n Word
  ine : Reg n Word → Reg n Word → Reg n Word
  ile : Reg n Word → Reg n Word → Reg n Word
  ige : Reg n Word → Reg n Word → Reg n Word
  iland : Reg n Word → Reg n Word → Reg n Word
  ilor : Reg n Word → Reg n Word → Reg n Word
  abs : Reg n Word → Reg n Word
  czero : Reg n Word → Reg n Word → Reg n Word
  notczero : Reg n Word → Reg n Word → Reg n Word
  merge : Reg n Word → Reg n Word → Reg n Word → Reg n Word
  any : Reg n Word → Bool
  all : Reg n Word → Bool
  fadd : Reg n Word → Reg n Word → Reg n Word
  fsub : Reg n Word → Reg n Word → Reg n Word
  fmul : Reg n Word → Reg n Word → Reg n Word
  fdiv : Reg n Word → Reg n Word → Reg n Word
  fadd_to : Reg n Word → Reg n Word → Reg n Word
  fsub_to : Reg n Word → Reg n Word → Reg n Word
  fmul_to : Reg n Word → Reg n Word → Reg n Word
  fdiv_to : Reg n Word → Reg n Word → Reg n Word
  preinc : Reg n Word → Reg n Word × Reg n Word
  predec : Reg n Word → Reg n Word × Reg n Word
  postinc : Reg n Word → Reg n Word × Reg n Word
  postdec : Reg n Word → Reg n Word × Reg n Word
  fneg : Reg n Word → Reg n Word
  flnot : Reg n Word → Reg n Word
  flt : Reg n Word → Reg n Word → Reg n Word
  fgt : Reg n Word → Reg n Word → Reg n Word
  feq : Reg n Word → Reg n Word → Reg n Word
  fne : Reg n Word → Reg n Word → Reg n Word
  fle : Reg n Word → Reg n Word → Reg n Word
  fge : Reg n Word → Reg n Word → Reg n Word
  fland : Reg n Word → Reg n Word → Reg n Word
  flor : Reg n Word → Reg n Word → Reg n Word
  fabs : Reg n Word → Reg n Word
  sqrt : Reg n Word → Reg n Word
  copysign : Reg n Word → Reg n Word → Reg n Word
  clear_bits : Reg n Word → Reg n Word → Reg n Word
  set_bits : Reg n Word → Reg n Word → Reg n Word
  toggle_bits : Reg n Word → Reg n Word → Reg n Word

/-- What all versions do: the operators are those of C in each lane, comparisons give masks, selection by bits. -/
structure Ops.Right (o : Ops n) (F : Arith Word) : Prop where
  iadd : Lane2 o.iadd (· + ·)
  isub : Lane2 o.isub (· - ·)
  imul : Lane2 o.imul (· * ·)
  ixor : Lane2 o.ixor (· ^^^ ·)
  iand : Lane2 o.iand (· &&& ·)
  ior : Lane2 o.ior (· ||| ·)
  iadd_to : o.iadd_to = o.iadd
  isub_to : o.isub_to = o.isub
  imul_to : o.imul_to = o.imul
  ixor_to : o.ixor_to = o.ixor
  iand_to : o.iand_to = o.iand
  ior_to : o.ior_to = o.ior
  ineg : Lane1 o.ineg (- ·)
  inot : Lane1 o.inot (~~~ ·)
  ilnot : Lane1 o.ilnot fun a => mask (a = 0)
  ilt : Lane2 o.ilt fun a b => mask (a.toInt < b.toInt)
  igt : Lane2 o.igt fun a b => mask (a.toInt > b.toInt)
  ieq : Lane2 o.ieq fun a b => mask (a = b)
  ine : Lane2 o.ine fun a b => mask (a ≠ b)
  ile : Lane2 o.ile fun a b => mask (a.toInt ≤ b.toInt)
  ige : Lane2 o.ige fun a b => mask (a.toInt ≥ b.toInt)
  iland : Lane2 o.iland fun a b => mask (a ≠ 0 ∧ b ≠ 0)
  ilor : Lane2 o.ilor fun a b => mask (a ≠ 0 ∨ b ≠ 0)
  /-- except for the least integer, which has no opposite -/
  abs : ∀ a q l, (a q l).toInt ≠ -2147483648 → (o.abs a q l).toInt = |(a q l).toInt|
  /-- bit by bit -/
  czero : ∀ c a q l i, (o.czero c a q l).getLsbD i = (!(c q l).getLsbD i && (a q l).getLsbD i)
  notczero : ∀ c a q l i, (o.notczero c a q l).getLsbD i = ((c q l).getLsbD i && (a q l).getLsbD i)
  merge : ∀ c t f q l i, (o.merge c t f q l).getLsbD i = if (c q l).getLsbD i then (t q l).getLsbD i else (f q l).getLsbD i
  any : ∀ a, o.any a = true ↔ ∃ q l, a q l ≠ 0
  all : ∀ a, o.all a = true ↔ ∀ q l, a q l ≠ 0
  fadd : Lane2 o.fadd F.add
  fsub : Lane2 o.fsub F.sub
  fmul : Lane2 o.fmul F.mul
  fdiv : Lane2 o.fdiv F.div
  fadd_to : o.fadd_to = o.fadd
  fsub_to : o.fsub_to = o.fsub
  fmul_to : o.fmul_to = o.fmul
  fdiv_to : o.fdiv_to = o.fdiv
  /-- the variable and the value -/
  preinc : ∀ a q l, (o.preinc a).1 q l = F.add (a q l) F.one ∧ (o.preinc a).2 q l = F.add (a q l) F.one
  predec : ∀ a q l, (o.predec a).1 q l = F.sub (a q l) F.one ∧ (o.predec a).2 q l = F.sub (a q l) F.one
  postinc : ∀ a q l, (o.postinc a).1 q l = F.add (a q l) F.one ∧ (o.postinc a).2 q l = a q l
  postdec : ∀ a q l, (o.postdec a).1 q l = F.sub (a q l) F.one ∧ (o.postdec a).2 q l = a q l
  flt : Lane2 o.flt fun a b => mask (Word.flt a b)
  fgt : Lane2 o.fgt fun a b => mask (Word.flt b a)
  feq : Lane2 o.feq fun a b => mask (Word.feq a b)
  fle : Lane2 o.fle fun a b => mask (Word.fle a b)
  fge : Lane2 o.fge fun a b => mask (Word.fle b a)
  /-- all bits but the sign -/
  fabs : ∀ a q l i, (o.fabs a q l).getLsbD i = (decide (i ≠ 31) && (a q l).getLsbD i)
  sqrt : Lane1 o.sqrt F.sqrt
  set_bits : ∀ m a q l i, (o.set_bits m a q l).getLsbD i = ((m q l).getLsbD i || (a q l).getLsbD i)
  toggle_bits : ∀ m a q l i, (o.toggle_bits m a q l).getLsbD i = ((m q l).getLsbD i ^^ (a q l).getLsbD i)

/-! What not all versions do. -/

/-- `!=`, `&&`, `||` of numbers. -/
structure Ops.NotEqual (o : Ops n) : Prop where
  fne : Lane2 o.fne fun a b => mask (!Word.feq a b)
  fland : Lane2 o.fland fun a b => mask (!Word.feq a 0 && !Word.feq b 0)
  flor : Lane2 o.flor fun a b => mask (!Word.feq a 0 || !Word.feq b 0)

/-- `!` of numbers. -/
def Ops.Not (o : Ops n) : Prop := Lane1 o.flnot fun a => mask (Word.feq a 0)

/-- `-` of a number. -/
def Ops.Opposite (o : Ops n) : Prop := Lane1 o.fneg Word.fneg

/-- `copysign`: the sign of the second number, all else of the first. -/
def Ops.CopySign (o : Ops n) : Prop := ∀ a b q l i, i < 32 → (o.copysign a b q l).getLsbD i = if i = 31 then (b q l).getLsbD i else (a q l).getLsbD i

/-- `clear_bits`: the bits of the mask become zero. -/
def Ops.Clear (o : Ops n) : Prop := ∀ m a q l i, (o.clear_bits m a q l).getLsbD i = (!(m q l).getLsbD i && (a q l).getLsbD i)

/-- `increment_Nx1` and so on: combines the words behind the pointer with the vector; `w` is what the address must be a multiple of. -/
def Updates (w : ℕ) (op : W → W → W) (f : Memory W → ℕ → Reg n W → Option (Memory W)) : Prop :=
  ∀ m p a, (p % w = 0 → ∃ m', f m p a = some m' ∧ (∀ (q : Fin n) (l : Fin 4), m' (p + 4 * q + l) = op (m (p + 4 * q + l)) (a q l)) ∧
    ∀ x, (∀ i < 4 * n, x ≠ p + i) → m' x = m x) ∧ (p % w ≠ 0 → f m p a = none)

/-- Neither infinite nor not a number: not all bits of the exponent. -/
def Word.finite (a : Word) : Prop := (Word.fabs a).toNat < 0x7f800000

/-- The value of a number in single precision in units of 2⁻¹⁴⁹, the least positive number: bit 31 is the sign, the bits 23 to 30 are the exponent `e`, the others
the fraction `f`; the number is `f` if `e = 0`, else `(2²³ + f) 2^(e-1)`. -/
def Word.magnitude (k : ℕ) : ℕ := if k / 2 ^ 23 = 0 then k % 2 ^ 23 else (2 ^ 23 + k % 2 ^ 23) * 2 ^ (k / 2 ^ 23 - 1)
@[inherit_doc Word.magnitude] def Word.value (a : Word) : ℤ :=
  if a.getLsbD 31 then - (Word.magnitude (a.toNat % 2 ^ 31) : ℤ) else Word.magnitude (a.toNat % 2 ^ 31)

/-- Exact arithmetic, with any estimates. -/
def exact (K : Type) [Field K] (sqrt rsqrtE rcpE : K → K) : Arith K where
  zero := 0
  one := 1
  half := 1 / 2
  add := (· + ·)
  sub := (· - ·)
  mul := (· * ·)
  div := (· / ·)
  sqrt := sqrt
  rsqrtE := rsqrtE
  rcpE := rcpE
  fmadd a b c := a * b + c
  fmsub a b c := a * b - c
  fnmadd a b c := c - a * b

/-- `fma`, `fms`, `fnms`. -/
structure FusedRight {K : Type} [Field K] (fma fms fnms : Reg n K → Reg n K → Reg n K → Reg n K) : Prop where
  fma : Lane3 fma fun a b c => a * b + c
  fms : Lane3 fms fun a b c => a * b - c
  fnms : Lane3 fnms fun a b c => c - a * b

/-- One step of Newton's method makes the relative error `ε` of the estimate of an inverse root small of second order. -/
def RefinesRsqrt {K : Type} [Field K] (estimate : K → K) (f : Reg n K → Reg n K) : Prop :=
  ∀ a q l s ε, s * s = a q l → s ≠ 0 → estimate (a q l) = (1 + ε) / s → f a q l = (1 - ε ^ 2 * (3 + ε) / 2) / s

@[inherit_doc RefinesRsqrt] def RefinesRcp {K : Type} [Field K] (estimate : K → K) (f : Reg n K → Reg n K) : Prop :=
  ∀ a q l ε, a q l ≠ 0 → estimate (a q l) = (1 + ε) / a q l → f a q l = (1 - ε ^ 2) / a q l

/-- `trilinear`: the weights of the eight corners of the cube from -1 to 1 for the point whose coordinates are the first three words. Bit 0, 1 of the lane and the
choice of the vector say on which side the corner is. -/
def Weights {K : Type} [Field K] (f : Reg 1 K → Reg 1 K × Reg 1 K) : Prop :=
  ∀ w q (i j k : Bool), (if k then (f w).2 else (f w).1) q ⟨i.toNat + 2 * j.toNat, by cases i <;> cases j <;> decide⟩ =
    (1 + (if i then 1 else -1) * w 0 0) * (1 + (if j then 1 else -1) * w 0 1) * (1 + (if k then 1 else -1) * w 0 2)

end Verif.Vector
