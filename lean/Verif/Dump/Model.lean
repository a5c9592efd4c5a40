import Verif.Util.Model
import Verif.Boris.Model

/-!
Model of the dumps of fields, moments and particles (/repo/src/vpic/dump.cc,
/repo/src/vpic/dumpmacros.h, /repo/src/vpic/vpic.h).

An array in memory is its list of 32-bit words, of an arbitrary type `W`; one element of it takes
`size` words.  A file is what was passed to `fileIO.write`, in order; opening, closing and the messages
are left out, the members of the header that do not depend on the parameters of the dump too (byte
order marks, `dt`, origin, `cvac`, `eps0`, rank).
-/

namespace Verif.Dump

/-- `ERROR` aborts the run (`error`); `undef` is an access outside an allocation or the use of an
uninitialised value. -/
inductive Fault | error | undef
deriving DecidableEq

/-- An allocated array: words per element and the words. `field_t` has 20 words (sixteen floats and
eight 16-bit material ids, /repo/src/field_advance/field_advance.h:152-160), `hydro_t` 16 (fourteen floats
and two of padding, /repo/src/sf_interface/sf_interface.h:185-192). -/
structure Arr (W : Type) where
  size : ℕ
  words : List W

/-- Read of a word `n` words after the start of the array. -/
def Arr.read {W : Type} (a : Arr W) (n : ℕ) : Except Fault W :=
  match a.words[n]? with
  | some x => .ok x
  | none => .error .undef

/-- `reinterpret_cast<uint32_t *>(&a[v])[w]`. -/
def Arr.word {W : Type} (a : Arr W) (v w : ℕ) : Except Fault W := a.read (v * a.size + w)

/-- Bytes of `fileIO.write( &a[v], n )`: `n` elements starting at element `v`. -/
def Arr.write {W : Type} (a : Arr W) (v n : ℕ) : Except Fault (List W) :=
  (List.range (n * a.size)).mapM fun w => a.read (v * a.size + w)

/-- The rank's mesh: interior cells and spacing. -/
structure Mesh (K : Type) where
  n : Fin 3 → ℕ
  d : Fin 3 → K

/-- `VOXEL(x,y,z, nx,ny,nz)` with `size_t` arguments, /repo/src/grid/grid.h:136. -/
def Mesh.voxel {K : Type} (g : Mesh K) (x y z : ℕ) : ℕ := x + (g.n 0 + 2) * (y + (g.n 1 + 2) * z)

/-- `DumpFormat`, /repo/src/vpic/vpic.h:92-95. -/
inductive Format | band | bandInterleave
deriving DecidableEq

/-- `DumpParameters`, /repo/src/vpic/vpic.h:100-118: selected variables, strides and format. -/
structure Params where
  vars : BitVec 32
  stride : Fin 3 → ℕ
  fmt : Format

/-- A dump: `nxout…`, `dxout…` of the header (`WRITE_HEADER_V0`,
/repo/src/vpic/dumpmacros.h:7-41), the array header (`WRITE_ARRAY_HEADER`, 45-49: bytes per element and
dimensions) and the words of the array. -/
structure File (K W : Type) where
  nout : Fin 3 → ℕ
  dout : Fin 3 → K
  elem : ℕ
  dim : Fin 3 → ℕ
  data : List W

/-- `remainder(a,b)` of two non-negative integers as C defines it, `a - n b` with `n` the integer nearest
to `a/b`, even in a tie; not a number for `b = 0`. /repo/src/vpic/vpic.h:653-654. -/
def cRemainder (a b : ℕ) : Option ℤ :=
  if b = 0 then none
  else if 2 * (a % b) < b ∨ (2 * (a % b) = b ∧ a / b % 2 = 0) then some (a % b : ℕ)
  else some ((a % b : ℕ) - (b : ℤ))

/-- `remainder(n,stride) != 0`; not-a-number differs from zero. /repo/src/vpic/dump.cc:576-581. -/
def badStride (n s : ℕ) : Bool := cRemainder n s ≠ some 0

/-- `(k == 0) ? 0 : (k == nout+1) ? n+1 : k*stride-1`, /repo/src/vpic/dump.cc:662-664. -/
def off (n nout s k : ℕ) : ℕ := if k = 0 then 0 else if k = nout + 1 then n + 1 else k * s - 1

/-- The list of the variables to write: `numvars` words are allocated, the selected ones among the first
`total` filled in. /repo/src/vpic/dump.cc:626-631 (fields), 797-801 (moments). The result is
`varlist[0…numvars-1]` with `none` where nothing was stored. -/
def varlist (vars : BitVec 32) (total : ℕ) : Except Fault (List (Option ℕ)) :=
  match Util.bitsum vars with
  | none => .error .undef
  | some sum =>
    let numvars := min sum total
    let set := (List.range total).filter fun i => Util.bitset vars i == some true
    if numvars < set.length then .error .undef
    else .ok (set.map some ++ List.replicate (numvars - set.length) none)

/-- `varlist[v]`. -/
def entry : Option ℕ → Except Fault ℕ
  | some w => .ok w
  | none => .error .undef

/-- Three nested loops, the first index fastest. -/
def loop3 {W : Type} (nx ny nz : ℕ) (body : ℕ → ℕ → ℕ → Except Fault (List W)) :
    Except Fault (List W) := do
  let planes ← (List.range nz).mapM fun k => do
    let rows ← (List.range ny).mapM fun j => do
      let cells ← (List.range nx).mapM fun i => body i j k
      pure cells.flatten
    pure rows.flatten
  pure planes.flatten

/-- Body of the banded loops: one word. -/
def putWord {W : Type} (a : Arr W) (v : ℕ) (w : Option ℕ) : Except Fault (List W) := do
  let w ← entry w
  let x ← a.word v w
  pure [x]

/-- The banded loops, /repo/src/vpic/dump.cc:636-673: `vs` the variable list, `oi oj ok` the mesh index
read for each index written. -/
def bands {K W : Type} (a : Arr W) (g : Mesh K) (nout : Fin 3 → ℕ) (vs : List (Option ℕ))
    (o : Fin 3 → ℕ → ℕ) : Except Fault (List W) := do
  let bs ← vs.mapM fun v =>
    loop3 (nout 0 + 2) (nout 1 + 2) (nout 2 + 2) fun i j k =>
      putWord a (g.voxel (o 0 i) (o 1 j) (o 2 k)) v
  pure bs.flatten

/-- All strides are one: "more efficient for standard case". -/
def unit3 (P : Params) : Bool := P.stride 0 == 1 && P.stride 1 == 1 && P.stride 2 == 1

/-- `vpic_simulation::field_dump`, /repo/src/vpic/dump.cc:533-706. -/
def fieldDump {K W : Type} [Mul K] [NatCast K] (a : Arr W) (g : Mesh K) (P : Params) :
    Except Fault (File K W) :=
  if badStride (g.n 0) (P.stride 0) || badStride (g.n 1) (P.stride 1) || badStride (g.n 2) (P.stride 2) then
    .error .error
  else do
    let nout : Fin 3 → ℕ := fun c => g.n c / P.stride c
    let dout : Fin 3 → K := fun c => g.d c * (P.stride c : K)
    let dim : Fin 3 → ℕ := fun c => nout c + 2
    let o : Fin 3 → ℕ → ℕ := fun c k => if unit3 P then k else off (g.n c) (nout c) (P.stride c) k
    let data ← match P.fmt with
      | .band => do
        let vs ← varlist P.vars 24
        bands a g nout vs o
      | .bandInterleave =>
        if unit3 P then a.write 0 (dim 0 * dim 1 * dim 2)
        else loop3 (nout 0 + 2) (nout 1 + 2) (nout 2 + 2) fun i j k =>
          a.write (g.voxel (o 0 i) (o 1 j) (o 2 k)) 1
    pure { nout, dout, elem := 4 * a.size, dim, data }

/-- `vpic_simulation::hydro_dump`, /repo/src/vpic/dump.cc:708-868, with the moments in `a`
(accumulated before when no array is given, lines 745-751). The interleaved format has no
boundary: `dim` is `nout` (lines 836-838) and the loops stop there (850-852). -/
def hydroDump {K W : Type} [Mul K] [NatCast K] (a : Arr W) (g : Mesh K) (P : Params) :
    Except Fault (File K W) :=
  if badStride (g.n 0) (P.stride 0) || badStride (g.n 1) (P.stride 1) || badStride (g.n 2) (P.stride 2) then
    .error .error
  else do
    let nout : Fin 3 → ℕ := fun c => g.n c / P.stride c
    let dout : Fin 3 → K := fun c => g.d c * (P.stride c : K)
    let o : Fin 3 → ℕ → ℕ := fun c k => if unit3 P then k else off (g.n c) (nout c) (P.stride c) k
    match P.fmt with
    | .band => do
      let vs ← varlist P.vars 14
      let data ← bands a g nout vs o
      pure { nout, dout, elem := 4 * a.size, dim := fun c => nout c + 2, data }
    | .bandInterleave => do
      let data ← if unit3 P then a.write 0 (nout 0 * nout 1 * nout 2)
        else loop3 (nout 0) (nout 1) (nout 2) fun i j k =>
          a.write (g.voxel (o 0 i) (o 1 j) (o 2 k)) 1
      pure { nout, dout, elem := 4 * a.size, dim := nout, data }

/-- `vpic_simulation::dump_fields` and `dump_hydro`, /repo/src/vpic/dump.cc:180-219, 221-271. -/
def dumpWhole {K W : Type} (a : Arr W) (g : Mesh K) : Except Fault (File K W) := do
  let dim : Fin 3 → ℕ := fun c => g.n c + 2
  let data ← a.write 0 (dim 0 * dim 1 * dim 2)
  pure { nout := g.n, dout := g.d, elem := 4 * a.size, dim, data }

/-! ## Particles -/

variable {K : Type} [Field K]

/-- `PBUF_SIZE`, /repo/src/vpic/dump.cc:283. -/
def PBUF : ℕ := 32768

/-- What the dump touches: the blocks of memory (the species' particles and the buffer), and the members
`p`, `np`, `max_np` of the species; `p` is the number of the block it points to. -/
structure PState (K : Type) where
  mem : ℕ → ℤ → MoveP.Part K
  p : ℕ
  np : ℕ
  maxNp : ℕ

/-- `COPY( d, s+start, n )`. -/
def copyIn (d s : ℤ → MoveP.Part K) (start n : ℕ) : ℤ → MoveP.Part K :=
  fun i => if 0 ≤ i ∧ i < n then s (start + i) else d i

/-- The loop over hunks, /repo/src/vpic/dump.cc:323-328, as a relation because `center_p` runs on
pipelines: from `buf_start` with file `out`. `src` is `sp_p`, `np0` is `sp_np`.  `buf_start` is an `int`:
a step is possible only while it does not overflow. -/
inductive Hunks (rt : K → K) (q : K) (f0 : ℤ → Boris.Interp K) (R : Distribute.Rounding) (P : ℕ)
    (src np0 : ℕ) : ℕ → PState K → List (MoveP.Part K) → PState K → List (MoveP.Part K) → Prop
  | stop {start s out} : ¬ start < np0 → Hunks rt q f0 R P src np0 start s out s out
  | hunk {start s out mem' s' out'} :
      start < np0 → start + PBUF < 2 ^ 31 →
      Boris.CenterP rt q f0 R (min (np0 - start) PBUF) P
        (copyIn (s.mem s.p) (s.mem src) start (min (np0 - start) PBUF)) mem' →
      Hunks rt q f0 R P src np0 (start + PBUF)
        { s with mem := fun b => if b = s.p then mem' else s.mem b, np := min (np0 - start) PBUF }
        (out ++ (List.range (min (np0 - start) PBUF)).map fun i : ℕ => mem' (i : ℤ)) s' out' →
      Hunks rt q f0 R P src np0 start s out s' out'

/-- `vpic_simulation::dump_particles`, /repo/src/vpic/dump.cc:273-335, from the array header on (line
312): `buf` is the block of `p_buf`. Result: the state afterwards, the number declared in the array
header and the particles written. -/
def DumpParticles (rt : K → K) (q : K) (f0 : ℤ → Boris.Interp K) (R : Distribute.Rounding) (P : ℕ)
    (buf : ℕ) (s s' : PState K) (dim : ℕ) (out : List (MoveP.Part K)) : Prop :=
  ∃ t, dim = s.np ∧
    Hunks rt q f0 R P s.p s.np 0 { s with p := buf, np := 0, maxNp := PBUF } [] t out ∧
    s' = { t with p := s.p, np := s.np, maxNp := s.maxNp }

end Verif.Dump
