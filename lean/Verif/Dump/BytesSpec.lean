import Verif.Dump.Bytes

/-!
# A reader of dump files (specification of C109)

Written from the description of the format alone, for a reader that does not know the machine that wrote the file.
-/
namespace Verif.Dump

/-- A reader: takes bytes from the front; `none` if the file is not as it should be or ends too early. -/
abbrev Reader := StateT (List Byte) Option

/-- The next `n` bytes. -/
def take (n : ℕ) : Reader (List Byte) := fun l => if n ≤ l.length then some (l.take n, l.drop n) else none

/-- Stop unless `c` holds. -/
def check (c : Prop) [Decidable c] : Reader Unit := fun l => if c then some ((), l) else none

/-- The unsigned number with the given bytes. -/
def number (big : Bool) (l : List Byte) : ℕ := (if big then l.reverse else l).foldr (fun b v => b.toNat + 256 * v) 0

def rInt (big : Bool) : Reader ℤ := do return (BitVec.ofNat 32 (number big (← take 4))).toInt
def rWord (big : Bool) : Reader (BitVec 32) := do return BitVec.ofNat 32 (number big (← take 4))
def rLong (big : Bool) : Reader ℤ := do return (BitVec.ofNat 64 (number big (← take 8))).toInt

/-- `n` times the same. -/
def times {α : Type} (n : ℕ) (r : Reader α) : Reader (List α) :=
  match n with
  | 0 => return []
  | n + 1 => do
    let x ← r
    let l ← times n r
    return x :: l

/-- Sizes of the types, then 0xcafe, which shows the order of the bytes, 0xdeadbeef, 1.0 in single and double precision and version 0. -/
def rMagic : Reader Bool := do
  let s ← take 5
  check (s = [8, 2, 4, 4, 8])
  let m ← take 2
  check (m = [0xfe, 0xca] ∨ m = [0xca, 0xfe])
  let big := decide (m = [0xca, 0xfe])
  let i ← rWord big
  let f ← rWord big
  let d ← take 8
  let v ← rInt big
  check (i = 0xdeadbeef ∧ f = 0x3f800000 ∧ number big d = 0x3ff0000000000000 ∧ v = 0)
  return big

/-- The rest of the header. -/
def rHead (big : Bool) : Reader Head := do
  let kind ← rInt big
  let step ← rInt big
  let n0 ← rInt big
  let n1 ← rInt big
  let n2 ← rInt big
  let dt ← rWord big
  let d0 ← rWord big
  let d1 ← rWord big
  let d2 ← rWord big
  let x0 ← rWord big
  let x1 ← rWord big
  let x2 ← rWord big
  let cvac ← rWord big
  let eps0 ← rWord big
  let _ ← rWord big
  let rank ← rInt big
  let nproc ← rInt big
  let sp ← rInt big
  let q_m ← rWord big
  return ⟨kind, step, ![n0, n1, n2], dt, ![d0, d1, d2], ![x0, x1, x2], cvac, eps0, rank, nproc, sp, q_m⟩

/-- Bytes per element and dimensions of the next array. -/
def rArrayHead (big : Bool) : Reader (ℤ × List ℤ) := do
  let elem ← rInt big
  let ndim ← rInt big
  let dim ← times ndim.toNat (rInt big)
  return (elem, dim)

/-- The end of the file. -/
def atEnd : Reader Unit := fun l => if l = [] then some ((), l) else none

/-- A file with one array of words: `per` words for each of its elements if it is given (a dump in bands has only the selected ones), otherwise as many as
the array header says. -/
def readWords (per : Option ℕ) : Reader (Head × ℤ × List ℤ × List (BitVec 32)) := do
  let big ← rMagic
  let h ← rHead big
  let a ← rArrayHead big
  let data ← times (per.getD (a.1.toNat / 4) * a.2.prod.toNat) (rWord big)
  atEnd
  return (h, a.1, a.2, data)

/-- A dump of particles: records of eight words. -/
def readParticles : Reader (Head × List (List (BitVec 32))) := do
  let big ← rMagic
  let h ← rHead big
  let a ← rArrayHead big
  check (a.1 = 32)
  let data ← times a.2.prod.toNat (times 8 (rWord big))
  atEnd
  return (h, data)

/-- A dump of the grid: boundary conditions, ranges, neighbours, each with its dimensions. -/
def readGrid : Reader (Head × (List ℤ × List ℤ) × (List ℤ × List ℤ) × (List ℤ × List ℤ)) := do
  let big ← rMagic
  let h ← rHead big
  let a ← rArrayHead big
  check (a.1 = 4)
  let bc ← times a.2.prod.toNat (rInt big)
  let b ← rArrayHead big
  check (b.1 = 8)
  let range ← times b.2.prod.toNat (rLong big)
  let c ← rArrayHead big
  check (c.1 = 8)
  let neighbor ← times c.2.prod.toNat (rLong big)
  atEnd
  return (h, (a.2, bc), (b.2, range), (c.2, neighbor))

/-- What a reader finds in a file: nothing if it is not complete. -/
def found {α : Type} (r : Reader α) (file : List Byte) : Option α := (r file).map (·.1)

/-- The file says `v`, and says it only when complete: a file that ends early, after any number of bytes, and a file with anything after the end are refused. -/
structure Says {α : Type} (r : Reader α) (file : List Byte) (v : α) : Prop where
  whole : found r file = some v
  short : ∀ n < file.length, found r (file.take n) = none
  long : ∀ more, more ≠ [] → found r (file ++ more) = none

/-- The integers of a header are in the range of `int`. -/
structure Head.Fits (h : Head) : Prop where
  step : -2 ^ 31 ≤ h.step ∧ h.step < 2 ^ 31
  kind : -2 ^ 31 ≤ h.kind ∧ h.kind < 2 ^ 31
  nout : ∀ c, -2 ^ 31 ≤ h.nout c ∧ h.nout c < 2 ^ 31
  rank : -2 ^ 31 ≤ h.rank ∧ h.rank < 2 ^ 31
  nproc : -2 ^ 31 ≤ h.nproc ∧ h.nproc < 2 ^ 31
  sp : -2 ^ 31 ≤ h.sp ∧ h.sp < 2 ^ 31

end Verif.Dump
