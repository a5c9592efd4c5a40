import Verif.Dump.Model

/-!
The bytes of the binary dumps (/repo/src/vpic/dump.cc, /repo/src/vpic/dumpmacros.h), on machines of either byte order.  A float is its
32 bits; an `int`, a `short` and a `char` are the integer, and the conversion to them keeps the low bits (as all supported compilers
do).  `fileIO.write` appends the bytes of its elements as they are in memory
(`fwrite`, /repo/src/util/io/StandardIOPolicy.h:139-144); failing writes (a full disk) are not modelled.
-/

namespace Verif.Dump

abbrev Byte := BitVec 8

/-- The bytes in memory of the unsigned value `v` of `n` bytes. -/
def mem (big : Bool) (n : ℕ) (v : ℕ) : List Byte :=
  let l := (List.range n).map fun i => BitVec.ofNat 8 (v / 256 ^ i)
  if big then l.reverse else l

/-- `WRITE( char, value, fileIO )`, /repo/src/vpic/dumpmacros.h:64-67. -/
def wChar (big : Bool) (v : ℤ) : List Byte := mem big 1 (BitVec.ofInt 8 v).toNat

/-- `WRITE( short int, value, fileIO )`. -/
def wShort (big : Bool) (v : ℤ) : List Byte := mem big 2 (BitVec.ofInt 16 v).toNat

/-- `WRITE( int, value, fileIO )`. -/
def wInt (big : Bool) (v : ℤ) : List Byte := mem big 4 (BitVec.ofInt 32 v).toNat

/-- `WRITE( float, value, fileIO )`, also one 32-bit word of an array. -/
def wWord (big : Bool) (v : BitVec 32) : List Byte := mem big 4 v.toNat

/-- `WRITE( double, value, fileIO )`. -/
def wDouble (big : Bool) (v : BitVec 64) : List Byte := mem big 8 v.toNat

/-- One element of an `int64_t` array. -/
def wLong (big : Bool) (v : ℤ) : List Byte := mem big 8 (BitVec.ofInt 64 v).toNat

/-- What the header of a dump says beside the binary compatibility information. -/
structure Head where
  kind : ℤ
  step : ℤ
  nout : Fin 3 → ℤ
  dt : BitVec 32
  dout : Fin 3 → BitVec 32
  x0 : Fin 3 → BitVec 32
  cvac : BitVec 32
  eps0 : BitVec 32
  rank : ℤ
  nproc : ℤ
  sp : ℤ
  q_m : BitVec 32

/-- `WRITE_HEADER_V0`, /repo/src/vpic/dumpmacros.h:7-41. -/
def header (big : Bool) (h : Head) : List Byte :=
  wChar big 8 ++ wChar big 2 ++ wChar big 4 ++ wChar big 4 ++ wChar big 8 ++
  wShort big 0xcafe ++ wInt big 0xdeadbeef ++ wWord big 0x3f800000 ++ wDouble big 0x3ff0000000000000 ++
  wInt big 0 ++ wInt big h.kind ++
  wInt big h.step ++ wInt big (h.nout 0) ++ wInt big (h.nout 1) ++ wInt big (h.nout 2) ++
  wWord big h.dt ++ wWord big (h.dout 0) ++ wWord big (h.dout 1) ++ wWord big (h.dout 2) ++
  wWord big (h.x0 0) ++ wWord big (h.x0 1) ++ wWord big (h.x0 2) ++ wWord big h.cvac ++ wWord big h.eps0 ++ wWord big 0 ++
  wInt big h.rank ++ wInt big h.nproc ++ wInt big h.sp ++ wWord big h.q_m

/-- `WRITE_ARRAY_HEADER`, /repo/src/vpic/dumpmacros.h:45-49: bytes per element, number of dimensions, dimensions. -/
def arrayHeader (big : Bool) (elem : ℤ) (dim : List ℤ) : List Byte :=
  wInt big elem ++ wInt big dim.length ++ dim.flatMap (wInt big)

/-- The grid as `dump_grid` sees it. -/
structure GridMem where
  n : Fin 3 → ℕ
  bc : List ℤ
  range : List ℤ
  neighbor : List ℤ

/-- `fileIO.write( a, n )` of an array with the elements `a`: reading beyond them is undefined. -/
def wArray (a : List ℤ) (n : ℕ) (w : ℤ → List Byte) : Except Fault (List Byte) :=
  if n ≤ a.length then .ok ((a.take n).flatMap w) else .error .undef

/-- `vpic_simulation::dump_grid`, /repo/src/vpic/dump.cc:138-179. `h` has the members that do not come from the mesh. The product of the
four dimensions is an `int`. -/
def dumpGrid (big : Bool) (h : Head) (g : GridMem) : Except Fault (List Byte) := do
  let h := { h with kind := 0, sp := -1, q_m := 0, nout := fun c => (g.n c : ℤ) }
  let a ← wArray g.bc 27 (wInt big)
  let np := h.nproc.toNat + 1
  let b ← wArray g.range np (wLong big)
  let nv := (g.n 0 + 2) * (g.n 1 + 2) * (g.n 2 + 2)
  if 6 * nv ≥ 2 ^ 31 then .error .undef else
  let c ← wArray g.neighbor (6 * nv) (wLong big)
  pure (header big h ++ arrayHeader big 4 [3, 3, 3] ++ a ++ arrayHeader big 8 [(np : ℤ)] ++ b ++
    arrayHeader big 8 [6, (g.n 0 + 2 : ℕ), (g.n 1 + 2 : ℕ), (g.n 2 + 2 : ℕ)] ++ c)

/-- The bytes of a dump of fields (`field_dump`, `dump_fields`: `kind` 1, no species) or of moments (`hydro_dump`, `dump_hydro`: `kind` 2, with
the species), of which `F` (`fieldDump`, `hydroDump`, `dumpWhole`) has the rest: /repo/src/vpic/dump.cc:203-217, 255-269, 588-700,
773-862. `bits` are the bits of a float. -/
def arrayDump {K : Type} (bits : K → BitVec 32) (big : Bool) (h : Head) (F : File K (BitVec 32)) : List Byte :=
  header big { h with nout := fun c => (F.nout c : ℤ), dout := fun c => bits (F.dout c) } ++
    arrayHeader big F.elem [(F.dim 0 : ℤ), (F.dim 1 : ℤ), (F.dim 2 : ℤ)] ++ F.data.flatMap (wWord big)

/-- The eight words of a particle in memory, /repo/src/species_advance/species_advance_aos.h:21-32 (`particle_t`): offsets, cell, momentum and weight. -/
def record {K : Type} (bits : K → BitVec 32) (p : MoveP.Part K) : List (BitVec 32) :=
  [bits (p.d 0), bits (p.d 1), bits (p.d 2), BitVec.ofInt 32 p.i, bits (p.u 0), bits (p.u 1), bits (p.u 2), bits p.w]

/-- The bytes of a dump of particles, /repo/src/vpic/dump.cc:300-328: the number `np` in the array header, and what the hunks (`DumpParticles`)
wrote. `h` has the mesh in `nout` and `dout`. -/
def particleDump {K : Type} (bits : K → BitVec 32) (big : Bool) (h : Head) (np : ℕ) (out : List (MoveP.Part K)) : List Byte :=
  header big { h with kind := 3 } ++ arrayHeader big 32 [(np : ℤ)] ++ out.flatMap fun p => (record bits p).flatMap (wWord big)

end Verif.Dump
