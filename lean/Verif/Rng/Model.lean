import Mathlib.Data.Int.Basic
import Mathlib.Data.Rat.Defs
import Mathlib.Data.Fin.VecNotation
import Mathlib.Algebra.Order.Field.Rat

/-!
# Random number generators

Models of /repo/src/util/rng/rng.cc, rng_pool.cc and rng_private.h.
-/
namespace Verif.Rng

/-! ## Integer to floating point conversions -/

/-- A binary floating point format: `rnd` is the rounding of the exact result of an operation.  Only
needed: a number with at most `p` significant bits and a moderate exponent is not changed. -/
structure Format where
  p : ℕ
  rnd : ℚ → ℚ
  exact : ∀ (m e : ℕ), m ≤ 2 ^ p → e ≤ 100 → rnd (m / 2 ^ e) = m / 2 ^ e

/-- `conv_frand`, /repo/src/util/rng/rng_private.h:290, every operation rounded. -/
def convFrand (F : Format) (u : ℕ) : ℚ :=
  F.rnd (F.rnd (F.rnd (u / 2 ^ 9 : ℕ) + F.rnd (1 / 2)) * F.rnd (2 / 16777216))

/-- `conv_frand_c0`, line 291. -/
def convFrandC0 (F : Format) (u : ℕ) : ℚ := F.rnd (F.rnd (u / 2 ^ 8 : ℕ) * F.rnd (1 / 16777216))

/-- `conv_frand_c1`, line 292 (the integer sum is modulo 2^32). -/
def convFrandC1 (F : Format) (u : ℕ) : ℚ :=
  F.rnd (F.rnd ((u / 2 ^ 8 + 1) % 2 ^ 32 : ℕ) * F.rnd (1 / 16777216))

/-- `conv_frand_c`, line 293. -/
def convFrandC (F : Format) (u : ℕ) : ℚ :=
  F.rnd (F.rnd ((u / 2 ^ 8 + u % 2) % 2 ^ 32 : ℕ) * F.rnd (1 / 16777216))

/-- `conv_drand`, line 295. -/
def convDrand (F : Format) (u : ℕ) : ℚ :=
  F.rnd (F.rnd (F.rnd (u / 2 ^ 12 : ℕ) + F.rnd (1 / 2)) * F.rnd (2 / 9007199254740992))

/-- `conv_drand_c0`, line 296. -/
def convDrandC0 (F : Format) (u : ℕ) : ℚ := F.rnd (F.rnd (u / 2 ^ 11 : ℕ) * F.rnd (1 / 9007199254740992))

/-- `conv_drand_c1`, line 297 (the integer sum is modulo 2^64). -/
def convDrandC1 (F : Format) (u : ℕ) : ℚ :=
  F.rnd (F.rnd ((u / 2 ^ 11 + 1) % 2 ^ 64 : ℕ) * F.rnd (1 / 9007199254740992))

/-- `conv_drand_c`, line 298. -/
def convDrandC (F : Format) (u : ℕ) : ℚ :=
  F.rnd (F.rnd ((u / 2 ^ 11 + u % 2) % 2 ^ 64 : ℕ) * F.rnd (1 / 9007199254740992))

/-- The integer generators, /repo/src/util/rng/rng.cc:81-113: unsigned types return the raw integer,
signed types the raw integer shifted right by one. -/
def convInt (isSigned : Bool) (u : ℕ) : ℕ := if isSigned then u / 2 else u

/-! ## The block buffer -/

/-- `rng_t`, rng_private.h:190-205: the state as bytes and the next unextracted byte. -/
structure Gen (B : Type*) where
  state : ℕ → B
  n : ℕ

/-- `RNG_NEXT`, rng_private.h:262-269, for a type of `2^k` bytes: the bytes extracted.  `NC` is the size
of the state in bytes, `next` is `sfmt_next`.  `none` is a read outside of the state. -/
def rngNext {B : Type*} (NC : ℕ) (next : (ℕ → B) → ℕ → B) (k : ℕ) (r : Gen B) : Option (List B × Gen B) :=
  let sz := 2 ^ k
  let n := (r.n + sz - 1) / sz * sz
  let state := if n ≥ NC then next r.state else r.state
  let n := if n ≥ NC then 0 else n
  if n + sz ≤ NC then
    some ((List.range sz).map fun b => state (n / sz * sz + b), ⟨state, n + sz⟩)
  else none

/-- A sequence of draws of the given widths. -/
def draws {B : Type*} (NC : ℕ) (next : (ℕ → B) → ℕ → B) : List ℕ → Gen B → Option (List (List B) × Gen B)
  | [], r => some ([], r)
  | k :: ks, r =>
    match rngNext NC next k r with
    | none => none
    | some (x, r) =>
      match draws NC next ks r with
      | none => none
      | some (xs, r) => some (x :: xs, r)

/-- `sfmt_next`, rng_private.h:242-255, for an arbitrary mixing function `f` of four 128-bit words
(the macro `SFMT`): the loop, in place. `N` words, lag `M`. -/
def sfmtNext {W : Type*} (N M : ℕ) (f : W → W → W → W → W) (x : ℕ → W) : ℕ → W :=
  let x := fun k => if k = 0 then f (x 0) (x M) (x (N - 2)) (x (N - 1)) else x k
  let x := fun k => if k = 1 then f (x 1) (x (M + 1)) (x (N - 1)) (x 0) else x k
  let x := (List.range' 2 (N - M - 2)).foldl
    (fun x n => fun k => if k = n then f (x n) (x (n + M)) (x (n - 2)) (x (n - 1)) else x k) x
  (List.range' (N - M) M).foldl
    (fun x n => fun k => if k = n then f (x n) (x (n - (N - M))) (x (n - 2)) (x (n - 1)) else x k) x

/-- `SFMT` with SSE2, rng_private.h:209-219, on 128-bit registers; `srl32`, `sll32` are the shifts of the
four 32-bit lanes. -/
def lanes (x : BitVec 128) (k : ℕ) : BitVec 32 := x.extractLsb' (32 * k) 32

/-- Four lanes put together. -/
def ofLanes (a b c d : BitVec 32) : BitVec 128 := d ++ c ++ b ++ a

/-- The SSE2 version of `SFMT`: shifts in bytes for `L2`, `R2`. -/
def sfmtSse (L1 L2 R1 R2 : ℕ) (mask a b c d : BitVec 128) : BitVec 128 :=
  let srl := ofLanes (lanes b 0 >>> R1) (lanes b 1 >>> R1) (lanes b 2 >>> R1) (lanes b 3 >>> R1)
  let sll := ofLanes (lanes d 0 <<< L1) (lanes d 1 <<< L1) (lanes d 2 <<< L1) (lanes d 3 <<< L1)
  a ^^^ ((((a <<< (8 * L2))) ^^^ (srl &&& mask)) ^^^ ((c >>> (8 * R2)) ^^^ sll))

/-- The portable version of `SFMT`, rng_private.h:226-238. -/
def sfmtPortable (L1 L2 R1 R2 : ℕ) (mask a b c d : BitVec 128) : BitVec 128 :=
  let L2A := 8 * L2
  let L2B := 32 - L2A
  let R2A := 8 * R2
  let R2B := 32 - R2A
  let x0 := lanes a 0 <<< L2A
  let x1 := (lanes a 1 <<< L2A) ||| (lanes a 0 >>> L2B)
  let x2 := (lanes a 2 <<< L2A) ||| (lanes a 1 >>> L2B)
  let x3 := (lanes a 3 <<< L2A) ||| (lanes a 2 >>> L2B)
  let y0 := (lanes c 0 >>> R2A) ||| (lanes c 1 <<< R2B)
  let y1 := (lanes c 1 >>> R2A) ||| (lanes c 2 <<< R2B)
  let y2 := (lanes c 2 >>> R2A) ||| (lanes c 3 <<< R2B)
  let y3 := lanes c 3 >>> R2A
  ofLanes
    (lanes a 0 ^^^ ((x0 ^^^ ((lanes b 0 >>> R1) &&& lanes mask 0)) ^^^ (y0 ^^^ (lanes d 0 <<< L1))))
    (lanes a 1 ^^^ ((x1 ^^^ ((lanes b 1 >>> R1) &&& lanes mask 1)) ^^^ (y1 ^^^ (lanes d 1 <<< L1))))
    (lanes a 2 ^^^ ((x2 ^^^ ((lanes b 2 >>> R1) &&& lanes mask 2)) ^^^ (y2 ^^^ (lanes d 2 <<< L1))))
    (lanes a 3 ^^^ ((x3 ^^^ ((lanes b 3 >>> R1) &&& lanes mask 3)) ^^^ (y3 ^^^ (lanes d 3 <<< L1))))

/-! ## Seeding -/

/-- The check of `adjust_rng`, rng.cc:52-54. -/
def parityBit (parity u : Fin 4 → BitVec 32) : BitVec 32 :=
  let b := ((0#32 ^^^ (u 0 &&& parity 0)) ^^^ (u 1 &&& parity 1)) ^^^ (u 2 &&& parity 2)
  let b := b ^^^ (u 3 &&& parity 3)
  let b := b ^^^ (b >>> 16)
  let b := b ^^^ (b >>> 8)
  let b := b ^^^ (b >>> 4)
  let b := b ^^^ (b >>> 2)
  let b := b ^^^ (b >>> 1)
  b &&& 1#32

/-- The loops of `adjust_rng`, rng.cc:59-61: the first bit (word, position) of the parity. -/
def firstBit (parity : Fin 4 → BitVec 32) : Option (Fin 4 × ℕ) :=
  ([0, 1, 2, 3] : List (Fin 4)).findSome? fun n =>
    (List.range 32).findSome? fun k => if (1#32 <<< k) &&& parity n ≠ 0#32 then some (n, k) else none

/-- `adjust_rng`, rng.cc:43-62, on the first four words. -/
def adjust (parity u : Fin 4 → BitVec 32) : Fin 4 → BitVec 32 :=
  if parityBit parity u = 1#32 then u
  else match firstBit parity with
    | none => u
    | some (n, k) => fun m => if m = n then u m ^^^ (1#32 <<< k) else u m

/-- The words written by `seed_rng`, rng.cc:69-71. -/
def seedWord (seed : BitVec 32) : ℕ → BitVec 32
  | 0 => seed
  | n + 1 => 1812433253#32 * (seedWord seed n ^^^ (seedWord seed n >>> 30)) + BitVec.ofNat 32 (n + 1)

/-- `seed_rng`, rng.cc:64-75: the 32-bit words of the state. -/
def seedRng (parity : Fin 4 → BitVec 32) (seed : BitVec 32) (k : ℕ) : BitVec 32 :=
  if h : k < 4 then adjust parity (fun m => seedWord seed m) ⟨k, h⟩ else seedWord seed k

/-- The parity words of the default generator, SFMT_E = 11213, rng_private.h:111-114. -/
def parity11213 : Fin 4 → BitVec 32 := ![0x00000001#32, 0x00000000#32, 0xe8148000#32, 0xd0c7afa3#32]

/-- Seed of generator `n` of a pool, `seed_rng_pool`, rng_pool.cc:53-62. -/
def poolSeed (worldSize rank nRng : ℤ) (seed : ℤ) (sync : Bool) (n : ℤ) : ℤ :=
  (if sync then worldSize else rank) + (worldSize + 1) * nRng * seed + (worldSize + 1) * n

/-! ## Permutations -/

/-- The rejection loop of `randperm`, rng.cc:476-479: the raw numbers are taken from a list, `none` when
it is used up (or on a division by zero). -/
def pick (d i n : ℕ) : List ℕ → Option (ℕ × List ℕ)
  | [] => none
  | a :: as => if d = 0 then none else if i + a / d ≥ n then pick d i n as else some (i + a / d, as)

/-- Swap of two elements, rng.cc:480. -/
def swap {α : Type*} (x : ℕ → α) (i j : ℕ) : ℕ → α := fun k => if k = i then x j else if k = j then x i else x k

/-- The loop of `randperm`, rng.cc:474-481, `m` iterations from `i`. -/
def permLoop {α : Type*} (dOf : ℕ → ℕ) (n : ℕ) : ℕ → ℕ → (ℕ → α) → List ℕ → Option ((ℕ → α) × List ℕ)
  | 0, _, x, as => some (x, as)
  | m + 1, i, x, as =>
    match pick (dOf (n - i)) i n as with
    | none => none
    | some (j, as) => permLoop dOf n m (i + 1) (swap x i j) as

/-- `randperm`, rng.cc:451-484; raw numbers are 32-bit. -/
def randperm (n : ℕ) (as : List ℕ) : Option ((ℕ → ℕ) × List ℕ) :=
  permLoop (fun t => (2 ^ 32 - 1) / t) n (n - 1) 0 (fun i => i) as

/-- `d` of `shuffle`, rng.cc:503: the quotient is stored in a `uint32_t`. -/
def shuffleD (t : ℕ) : ℕ := (2 ^ 64 - 1) / t % 2 ^ 32

/-- Exchange of the elements `i` and `j` of `sz` bytes at stride `str`, rng.cc:516-517, 531-533. -/
def swapEle {B : Type*} (sz str : ℕ) (x : ℕ → B) (i j : ℕ) : ℕ → B :=
  (List.range sz).foldl (fun x k => swap x (i * str + k) (j * str + k)) x

/-- The loop of `shuffle`, rng.cc:502-509; the raw numbers are stored in a `uint32_t`, line 505. -/
def shuffleLoop {B : Type*} (sz str n : ℕ) : ℕ → ℕ → (ℕ → B) → List ℕ → Option ((ℕ → B) × List ℕ)
  | 0, _, x, as => some (x, as)
  | m + 1, i, x, as =>
    match pick (shuffleD (n - i)) i n as with
    | none => none
    | some (j, as) => shuffleLoop sz str n m (i + 1) (swapEle sz str x i j) as

/-- `shuffle`, rng.cc:486-541, `none` also for the error of line 496.  Raw 64-bit numbers. -/
def shuffle {B : Type*} (sz str n : ℕ) (x : ℕ → B) (as : List ℕ) : Option ((ℕ → B) × List ℕ) :=
  if n < 2 ∨ sz = 0 then some (x, as)
  else if sz > str then none
  else shuffleLoop sz str n (n - 1) 0 x (as.map (· % 2 ^ 32))

/-! ## Ziggurat -/

/-- The pieces of a raw number in `frandn`, rng.cc:308-311: sign, index, trapezoid number. -/
def frandnParts (a : ℕ) : ℕ × ℕ × ℕ :=
  (a &&& 0x01, (a &&& 0x7e) >>> 1, ((a &&& (2 ^ 32 - 1 - 0xff)) + ((a &&& 0x80) <<< 1) % 2 ^ 32) % 2 ^ 32)

/-- The pieces of a raw number in `drandn`, rng.cc:367-370. -/
def drandnParts (a : ℕ) : ℕ × ℕ × ℕ :=
  (a &&& 0x001, (a &&& 0x1fe) >>> 1, ((a &&& (2 ^ 64 - 1 - 0x3ff)) + ((a &&& 0x400) <<< 1) % 2 ^ 64) % 2 ^ 64)

end Verif.Rng
