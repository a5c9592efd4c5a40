import Mathlib.Data.Fin.VecNotation
import Mathlib.Data.Fintype.Basic
import Mathlib.Tactic.FinCases

/-!
The vector instructions of x86 (and, at the end, of ARM) that move words, as the "Intel 64 and IA-32 Architectures Software Developer's Manual" describes them. A register of 128, 256
or 512 bits is one, two or four blocks of four words of 32 bits. Memory is a function from word addresses to words; an address is its number divided by four.
An access of a whole register with an address that is not a multiple of the register is undefined (`none`): it may raise an exception.
The functions that use them are in the modules `V4Sse` to `V16Avx512`, which `tools/gen_vector.py` transcribes from /repo/src/util.
-/
namespace Verif.Vector

variable {α : Type}

/-- A register of `n` blocks of four words. -/
abbrev Reg (n : ℕ) (α : Type) := Fin n → Fin 4 → α

/-- Contents of the memory. -/
abbrev Memory (α : Type) := ℕ → α

/-- A block with the given words, the lowest first. -/
def quad (x0 x1 x2 x3 : α) : Fin 4 → α
  | 0 => x0
  | 1 => x1
  | 2 => x2
  | 3 => x3

/-- A register of one, two, four blocks. -/
def one (x : Fin 4 → α) : Reg 1 α := fun _ => x

@[inherit_doc one] def two (x y : Fin 4 → α) : Reg 2 α
  | 0 => x
  | 1 => y

@[inherit_doc one] def four (x y z w : Fin 4 → α) : Reg 4 α
  | 0 => x
  | 1 => y
  | 2 => z
  | 3 => w

/-! ### Between registers -/

/-- Two bits of an immediate operand. -/
def sel (imm k : ℕ) : Fin 4 := ⟨imm / 4 ^ k % 4, Nat.mod_lt _ (by decide)⟩

/-- `_MM_SHUFFLE`. -/
def mmShuffle (z y x w : ℕ) : ℕ := z * 64 + y * 16 + x * 4 + w

/-- `unpcklps`, in each block. -/
def unpacklo {n : ℕ} (a b : Reg n α) : Reg n α := fun q => quad (a q 0) (b q 0) (a q 1) (b q 1)

/-- `unpckhps`, in each block. -/
def unpackhi {n : ℕ} (a b : Reg n α) : Reg n α := fun q => quad (a q 2) (b q 2) (a q 3) (b q 3)

/-- `shufps`, in each block. -/
def shuffle {n : ℕ} (a b : Reg n α) (imm : ℕ) : Reg n α := fun q => quad (a q (sel imm 0)) (a q (sel imm 1)) (b q (sel imm 2)) (b q (sel imm 3))

/-- `movlhps`. -/
def movelh (a b : Reg 1 α) : Reg 1 α := one (quad (a 0 0) (a 0 1) (b 0 0) (b 0 1))

/-- `movhlps`. -/
def movehl (a b : Reg 1 α) : Reg 1 α := one (quad (b 0 2) (b 0 3) (a 0 2) (a 0 3))

/-- Register with the same word everywhere; with zeros. -/
def set1 {n : ℕ} (x : α) : Reg n α := fun _ _ => x

@[inherit_doc set1] def setzero {n : ℕ} [Zero α] : Reg n α := set1 0

/-- Half of `vperm2f128` that four bits select. -/
def half [Zero α] (a b : Reg 2 α) (c : ℕ) : Fin 4 → α :=
  if c / 8 % 2 = 1 then fun _ => 0
  else match sel c 0 with
    | 0 => a 0
    | 1 => a 1
    | 2 => b 0
    | 3 => b 1

/-- `vperm2f128`. -/
def permute2f128 [Zero α] (a b : Reg 2 α) (imm : ℕ) : Reg 2 α := two (half a b (imm % 16)) (half a b (imm / 16))

/-- `vextractf128`. -/
def extractf128 (a : Reg 2 α) (imm : ℕ) : Reg 1 α := one (if imm % 2 = 0 then a 0 else a 1)

/-- `_mm256_set_m128`, /repo/src/util/v8/v8_avx.h:22-25: the upper half first; the instruction overwrites the half that the cast leaves undefined. -/
def setM128 (hi lo : Reg 1 α) : Reg 2 α := two (lo 0) (hi 0)

/-- `vshuff32x4`. -/
def shuffleF32x4 (a b : Reg 4 α) (imm : ℕ) : Reg 4 α := four (a (sel imm 0)) (a (sel imm 1)) (b (sel imm 2)) (b (sel imm 3))

/-- `_mm512_set_epi32`: the highest word first. -/
def setEpi32 (e15 e14 e13 e12 e11 e10 e9 e8 e7 e6 e5 e4 e3 e2 e1 e0 : ℕ) : Reg 4 ℕ :=
  four (quad e0 e1 e2 e3) (quad e4 e5 e6 e7) (quad e8 e9 e10 e11) (quad e12 e13 e14 e15)

/-- The word with the number `k` modulo 16. -/
def pick (a : Reg 4 α) (k : ℕ) : α := a (sel k 1) (sel k 0)

/-- `vpermps`. -/
def permutexvar (idx : Reg 4 ℕ) (a : Reg 4 α) : Reg 4 α := fun q l => pick a (idx q l)

/-- `vpermt2ps`. -/
def permutex2var (a : Reg 4 α) (idx : Reg 4 ℕ) (b : Reg 4 α) : Reg 4 α := fun q l => if idx q l / 16 % 2 = 0 then pick a (idx q l) else pick b (idx q l)

/-! ### Between registers and memory -/

/-- `(v)movaps` from memory, 128 bits. -/
def load1 (m : Memory α) (p : ℕ) : Option (Reg 1 α) := if p % 4 = 0 then some (one (quad (m p) (m (p + 1)) (m (p + 2)) (m (p + 3)))) else none

/-- `vmovaps` from memory, 256 bits. -/
def load2 (m : Memory α) (p : ℕ) : Option (Reg 2 α) :=
  if p % 8 = 0 then some (two (quad (m p) (m (p + 1)) (m (p + 2)) (m (p + 3))) (quad (m (p + 4)) (m (p + 5)) (m (p + 6)) (m (p + 7)))) else none

/-- `vmovaps` from memory, 512 bits. -/
def load4 (m : Memory α) (p : ℕ) : Option (Reg 4 α) :=
  if p % 16 = 0 then
    some (four (quad (m p) (m (p + 1)) (m (p + 2)) (m (p + 3))) (quad (m (p + 4)) (m (p + 5)) (m (p + 6)) (m (p + 7)))
      (quad (m (p + 8)) (m (p + 9)) (m (p + 10)) (m (p + 11))) (quad (m (p + 12)) (m (p + 13)) (m (p + 14)) (m (p + 15))))
  else none

/-- `movlps`, `movhps` from memory: any address. -/
def loadl (a : Reg 1 α) (m : Memory α) (p : ℕ) : Reg 1 α := one (quad (m p) (m (p + 1)) (a 0 2) (a 0 3))

@[inherit_doc loadl] def loadh (a : Reg 1 α) (m : Memory α) (p : ℕ) : Reg 1 α := one (quad (a 0 0) (a 0 1) (m p) (m (p + 1)))

/-- Store one word. -/
def put (m : Memory α) (p : ℕ) (x : α) : Memory α := fun k => if k = p then x else m k

/-- Store a list of words, each at its address, one after the other. -/
def puts (m : Memory α) (l : List (ℕ × α)) : Memory α := l.foldl (fun m e => put m e.1 e.2) m

/-- Address and word for a block at `p`. -/
def words (p : ℕ) (x : Fin 4 → α) : List (ℕ × α) := [(p, x 0), (p + 1, x 1), (p + 2, x 2), (p + 3, x 3)]

/-- `(v)movaps` to memory (and `movntps`), 128 bits. -/
def store1 (m : Memory α) (p : ℕ) (a : Reg 1 α) : Option (Memory α) := if p % 4 = 0 then some (puts m (words p (a 0))) else none

/-- `vmovaps` to memory, 256 bits. -/
def store2 (m : Memory α) (p : ℕ) (a : Reg 2 α) : Option (Memory α) :=
  if p % 8 = 0 then some (puts m (words p (a 0) ++ words (p + 4) (a 1))) else none

/-- `vmovaps` to memory, 512 bits. -/
def store4 (m : Memory α) (p : ℕ) (a : Reg 4 α) : Option (Memory α) :=
  if p % 16 = 0 then some (puts m (words p (a 0) ++ words (p + 4) (a 1) ++ words (p + 8) (a 2) ++ words (p + 12) (a 3))) else none

/-- `movlps`, `movhps` to memory: any address. -/
def storel (m : Memory α) (p : ℕ) (a : Reg 1 α) : Memory α := puts m [(p, a 0 0), (p + 1, a 0 1)]

@[inherit_doc storel] def storeh (m : Memory α) (p : ℕ) (a : Reg 1 α) : Memory α := puts m [(p, a 0 2), (p + 1, a 0 3)]

/-! ### Registers of ARM

As the "Arm Architecture Reference Manual" describes them. The loads and stores of whole registers need no alignment beyond that of a word. -/

/-- `trn1`, `trn2` of words. -/
def trn1 (a b : Reg 1 α) : Reg 1 α := one (quad (a 0 0) (b 0 0) (a 0 2) (b 0 2))

@[inherit_doc trn1] def trn2 (a b : Reg 1 α) : Reg 1 α := one (quad (a 0 1) (b 0 1) (a 0 3) (b 0 3))

/-- `trn1`, `trn2` of pairs of words. -/
def trn1d (a b : Reg 1 α) : Reg 1 α := one (quad (a 0 0) (a 0 1) (b 0 0) (b 0 1))

@[inherit_doc trn1d] def trn2d (a b : Reg 1 α) : Reg 1 α := one (quad (a 0 2) (a 0 3) (b 0 2) (b 0 3))

/-- `uzp1`, `uzp2` of words. -/
def uzp1 (a b : Reg 1 α) : Reg 1 α := one (quad (a 0 0) (a 0 2) (b 0 0) (b 0 2))

@[inherit_doc uzp1] def uzp2 (a b : Reg 1 α) : Reg 1 α := one (quad (a 0 1) (a 0 3) (b 0 1) (b 0 3))

/-- `ld1` of one register. -/
def ldq (m : Memory α) (p : ℕ) : Reg 1 α := one (quad (m p) (m (p + 1)) (m (p + 2)) (m (p + 3)))

/-- `st1` of one register. -/
def stq (m : Memory α) (p : ℕ) (a : Reg 1 α) : Memory α := puts m (words p (a 0))

/-- Register `k` of the four that `ld4` loads: every fourth word. -/
def ld4 (m : Memory α) (p k : ℕ) : Reg 1 α := one (quad (m (p + k)) (m (p + 4 + k)) (m (p + 8 + k)) (m (p + 12 + k)))

/-- `st4`: the words of four registers in turn. -/
def st4 (m : Memory α) (p : ℕ) (a b c d : Reg 1 α) : Memory α :=
  puts m (words p (quad (a 0 0) (b 0 0) (c 0 0) (d 0 0)) ++ words (p + 4) (quad (a 0 1) (b 0 1) (c 0 1) (d 0 1)) ++
    words (p + 8) (quad (a 0 2) (b 0 2) (c 0 2) (d 0 2)) ++ words (p + 12) (quad (a 0 3) (b 0 3) (c 0 3) (d 0 3)))

end Verif.Vector
