import Mathlib.Data.Int.Basic
import Mathlib.Data.Nat.Bitwise
import Verif.Common.Mem

/-!
# Utilities

Models of /repo/src/util/util_base.cc (aligned allocation, command line), /repo/src/util/swap.h,
/repo/src/util/bitfield.h and of the buffer sizing of /repo/src/util/mp/DMPPolicy.h.
-/
namespace Verif.Util

/-! ## Aligned allocation -/

/-- Memory, one natural number below 256 per byte. -/
abbrev Bytes := ℕ → ℕ

/-- Store of an 8-byte pointer, little endian. -/
def storePtr (mem : Bytes) (addr v : ℕ) : Bytes := fun x =>
  if addr ≤ x ∧ x < addr + 8 then v / 256 ^ (x - addr) % 256 else mem x

/-- Load of an 8-byte pointer. -/
def loadPtr (mem : Bytes) (addr : ℕ) : ℕ :=
  mem addr + 256 * (mem (addr + 1) + 256 * (mem (addr + 2) + 256 * (mem (addr + 3) +
    256 * (mem (addr + 4) + 256 * (mem (addr + 5) + 256 * (mem (addr + 6) + 256 * mem (addr + 7)))))))

/-- `util_malloc_aligned`, /repo/src/util/util_base.cc:185-232, on a 64-bit machine: all size and
address arithmetic is modulo 2^64, `malloc` is an arbitrary function from sizes to addresses (0 when
it fails).  `none` is the abort of `ERROR`.  (`mem_ref` is assumed valid.) -/
def mallocAligned (malloc : ℕ → ℕ) (mem : Bytes) (n a : ℕ) : Option (ℕ × Bytes) :=
  if a = 0 ∨ a &&& (a - 1) ≠ 0 then none
  else if n = 0 then some (0, mem)
  else
    let a := (if a < 16 then 16 else a) - 1
    let mem_u := malloc ((n + a + 8) % 2 ^ 64)
    if mem_u = 0 then none
    else
      let mem_a := ((mem_u + a + 8) % 2 ^ 64) &&& (2 ^ 64 - 1 - a)
      let mem_p := (mem_a + 2 ^ 64 - 8) % 2 ^ 64
      some (mem_a, storePtr mem mem_p mem_u)

/-- `util_free_aligned`, /repo/src/util/util_base.cc:234-245: the pointer handed to `free`, if any. -/
def freeAligned (mem : Bytes) (mem_a : ℕ) : Option ℕ :=
  if mem_a = 0 then none else some (loadPtr mem ((mem_a + 2 ^ 64 - 8) % 2 ^ 64))

/-- `POW2_CEIL`, /repo/src/util/util_base.h:163, on 64-bit unsigned integers. -/
def pow2Ceil (u a : ℕ) : ℕ := ((u + a + 2 ^ 64 - 1) % 2 ^ 64) &&& (2 ^ 64 - 1 - (a - 1))

/-! ## Command line -/

/-- The loop of `STRIP_CMDLINE`, /repo/src/util/util_base.cc:24-28: `argv` is updated in place;
`none` is a read of a null argument. -/
def stripGo {α β : Type*} [DecidableEq α] (convert : α → β) (key : α) (argc : ℕ)
    (argv : ℕ → Option α) (i n : ℕ) (val : β) : Option ((ℕ → Option α) × ℕ × β) :=
  if i < argc then
    match argv i with
    | none => none
    | some s =>
      if s ≠ key then
        stripGo convert key argc (fun x => if x = n then some s else argv x) (i + 1) (n + 1) val
      else if i + 1 < argc then
        match argv (i + 1) with
        | none => none
        | some v => stripGo convert key argc argv (i + 1 + 1) n (convert v)
      else stripGo convert key argc argv (i + 1 + 1) n val
  else some (fun x => if x = n then none else argv x, n, val)
termination_by argc - i

/-- `strip_cmdline_{int,double,string}`, /repo/src/util/util_base.cc:18-30: new `argv`, new `argc`,
value.  `convert` is `atoi`, `atof` or the identity. -/
def stripCmdlineVal {α β : Type*} [DecidableEq α] (convert : α → β) (argc : ℕ) (argv : ℕ → Option α)
    (key : α) (val : β) : Option ((ℕ → Option α) × ℕ × β) :=
  stripGo convert key argc argv 0 0 val

/-- The loop of `strip_cmdline`, /repo/src/util/util_base.cc:36-41. -/
def stripFlagGo {α : Type*} [DecidableEq α] (key : α) (argc : ℕ)
    (argv : ℕ → Option α) (i n val : ℕ) : Option ((ℕ → Option α) × ℕ × ℕ) :=
  if i < argc then
    match argv i with
    | none => none
    | some s =>
      if s ≠ key then
        stripFlagGo key argc (fun x => if x = n then some s else argv x) (i + 1) (n + 1) val
      else stripFlagGo key argc argv (i + 1) n (val + 1)
  else some (fun x => if x = n then none else argv x, n, val)
termination_by argc - i

/-- `strip_cmdline`, /repo/src/util/util_base.cc:32-42. -/
def stripCmdline {α : Type*} [DecidableEq α] (argc : ℕ) (argv : ℕ → Option α) (key : α) :
    Option ((ℕ → Option α) × ℕ × ℕ) := stripFlagGo key argc argv 0 0 0

/-! ## Byte swapping -/

/-- `bswap_16`, /repo/src/util/swap.h:22-23. -/
def bswap16 (x : BitVec 16) : BitVec 16 := ((x &&& 0xff00#16) >>> 8) ||| ((x &&& 0x00ff#16) <<< 8)

/-- `bswap_32`, /repo/src/util/swap.h:24-27. -/
def bswap32 (x : BitVec 32) : BitVec 32 :=
  ((x &&& 0xff000000#32) >>> 24) ||| ((x &&& 0x00ff0000#32) >>> 8) |||
  ((x &&& 0x0000ff00#32) <<< 8) ||| ((x &&& 0x000000ff#32) <<< 24)

/-- `bswap_64`, /repo/src/util/swap.h:28-35. -/
def bswap64 (x : BitVec 64) : BitVec 64 :=
  ((x &&& 0xff00000000000000#64) >>> 56) ||| ((x &&& 0x00ff000000000000#64) >>> 40) |||
  ((x &&& 0x0000ff0000000000#64) >>> 24) ||| ((x &&& 0x000000ff00000000#64) >>> 8) |||
  ((x &&& 0x00000000ff000000#64) <<< 8) ||| ((x &&& 0x0000000000ff0000#64) <<< 24) |||
  ((x &&& 0x000000000000ff00#64) <<< 40) ||| ((x &&& 0x00000000000000ff#64) <<< 56)

/-- `particle_t` as eight 32-bit words, /repo/src/species_advance/species_advance.h. -/
structure PWord where
  (dx dy dz i ux uy uz w : BitVec 32)
deriving DecidableEq

/-- `swap(particle_t&)`, /repo/src/util/swap.h:185-202. -/
def swapParticle (p : PWord) : PWord :=
  ⟨bswap32 p.dx, bswap32 p.dy, bswap32 p.dz, bswap32 p.i, bswap32 p.ux, bswap32 p.uy, bswap32 p.uz,
    bswap32 p.w⟩

/-- The members of `hydro_t`, /repo/src/sf_interface/sf_interface.h:31-41 (without padding). -/
structure HWord where
  (jx jy jz rho px py pz ke txx tyy tzz tyz tzx txy : BitVec 32)
deriving DecidableEq

/-- `swap(hydro_t&)`, /repo/src/util/swap.h:160-183. -/
def swapHydro (h : HWord) : HWord :=
  ⟨bswap32 h.jx, bswap32 h.jy, bswap32 h.jz, bswap32 h.rho, bswap32 h.px, bswap32 h.py, bswap32 h.pz,
    bswap32 h.ke, bswap32 h.txx, bswap32 h.tyy, bswap32 h.tzz, bswap32 h.tyz, bswap32 h.tzx,
    bswap32 h.txy⟩

/-- The members of `field_t`, /repo/src/field_advance/field_advance.h. -/
structure FWord where
  (ex ey ez div_e_err cbx cby cbz div_b_err tcax tcay tcaz rhob jfx jfy jfz rhof : BitVec 32)
  (ematx ematy ematz nmat fmatx fmaty fmatz cmat : BitVec 16)
deriving DecidableEq

/-- `swap(field_t&)`, /repo/src/util/swap.h:121-158. -/
def swapField (f : FWord) : FWord :=
  ⟨bswap32 f.ex, bswap32 f.ey, bswap32 f.ez, bswap32 f.div_e_err, bswap32 f.cbx, bswap32 f.cby,
    bswap32 f.cbz, bswap32 f.div_b_err, bswap32 f.tcax, bswap32 f.tcay, bswap32 f.tcaz, bswap32 f.rhob,
    bswap32 f.jfx, bswap32 f.jfy, bswap32 f.jfz, bswap32 f.rhof, bswap16 f.ematx, bswap16 f.ematy,
    bswap16 f.ematz, bswap16 f.nmat, bswap16 f.fmatx, bswap16 f.fmaty, bswap16 f.fmatz, bswap16 f.cmat⟩

/-! ## Bit field -/

/-- `1<<bit` on a 32-bit `int` converted to `uint32_t`: undefined for counts above 31. -/
def shl1 (bit : ℕ) : Option (BitVec 32) := if bit < 32 then some (1#32 <<< bit) else none

/-- `BitField::set`, /repo/src/util/bitfield.h:15-17. -/
def bfSet (bits mask : BitVec 32) : BitVec 32 := bits ||| mask
/-- `BitField::setibit`, /repo/src/util/bitfield.h:22-25. -/
def bfSetBit (bits : BitVec 32) (bit : ℕ) : Option (BitVec 32) := (shl1 bit).map (bits ||| ·)
/-- `BitField::clear`, /repo/src/util/bitfield.h:30-32. -/
def bfClear (bits mask : BitVec 32) : BitVec 32 := bits &&& ~~~mask
/-- `BitField::clearbit`, /repo/src/util/bitfield.h:37-40. -/
def bfClearBit (bits : BitVec 32) (bit : ℕ) : Option (BitVec 32) :=
  (shl1 bit).map fun tmp => bits &&& ~~~tmp
/-- `BitField::bitset`, /repo/src/util/bitfield.h:45-48. -/
def bitset (bits : BitVec 32) (bit : ℕ) : Option Bool :=
  (shl1 bit).map fun tmp => decide (tmp &&& bits ≠ 0#32)
/-- `BitField::bitsset`, /repo/src/util/bitfield.h:53-56. -/
def bitsset (bits mask : BitVec 32) : Option Bool :=
  (shl1 mask.toNat).map fun tmp => decide (tmp &&& bits ≠ 0#32)
/-- `BitField::bitclear`, /repo/src/util/bitfield.h:61-64. -/
def bitclear (bits : BitVec 32) (bit : ℕ) : Option Bool :=
  (shl1 bit).map fun tmp => decide (¬ tmp &&& bits ≠ 0#32)
/-- `BitField::bitsum(indeces,size)`, /repo/src/util/bitfield.h:69-77. -/
def bitsumOf (bits : BitVec 32) : List ℕ → ℕ → Option ℕ
  | [], sum => some sum
  | i :: l, sum => (bitset bits i).bind fun b => bitsumOf bits l (if b then sum + 1 else sum)
/-- `BitField::bitsum()`, /repo/src/util/bitfield.h:82-90. -/
def bitsum (bits : BitVec 32) : Option ℕ := bitsumOf bits (List.range 32) 0

/-! ## Message buffers -/

/-- Outcome of a call that can abort (`error`) or access memory it does not own, or convert an
out-of-range double to `int` (`ub`). -/
inductive Res (α : Type*) | ok (a : α) | error | ub
deriving DecidableEq

/-- `mp_size_{recv,send}_buffer`, /repo/src/util/mp/DMPPolicy.h:264-326.  `bufs` holds the contents of
the buffers of all ports (empty when there is none), `junk` the contents of new memory.
`sz*1.3125` is exact in double precision (`21 sz < 2^53`), the conversion truncates. -/
def sizeBuffer (junk : ℕ → ℕ) (bufs : List (List ℕ)) (port sz : ℤ) : Res (List (List ℕ)) :=
  if port < 0 ∨ port > bufs.length ∨ sz < 1 then .error
  else match bufs[port.toNat]? with
    | none => .ub
    | some b =>
      if sz ≤ b.length then .ok bufs
      else if 2 ^ 31 ≤ sz * 21 / 16 then .ub
      else .ok (bufs.set port.toNat
        (b ++ (List.range ((sz * 21 / 16).toNat - b.length)).map fun k => junk (b.length + k)))

/-- `mp_recv_buffer`, `mp_send_buffer`, /repo/src/util/mp/DMPPolicy.h:248-262. -/
def getBuffer (bufs : List (List ℕ)) (port : ℤ) : Res (List ℕ) :=
  if port < 0 ∨ port ≥ bufs.length then .error
  else match bufs[port.toNat]? with
    | none => .ub
    | some b => .ok b

end Verif.Util
