import Verif.Vector.Lane

/-! Operators and functions of /repo/src/util/v4/v4_sse.h that compute; written by `tools/gen_lanes.py`. -/
namespace Verif.Vector.V4Sse

variable {W : Type}

/-- `any`, /repo/src/util/v4/v4_sse.h:150-153. -/
def any (a : Reg 1 Word) : Bool :=
  (((a 0 0 != 0) || (a 0 1 != 0)) || (a 0 2 != 0)) || (a 0 3 != 0)

/-- `all`, /repo/src/util/v4/v4_sse.h:155-158. -/
def all (a : Reg 1 Word) : Bool :=
  (((a 0 0 != 0) && (a 0 1 != 0)) && (a 0 2 != 0)) && (a 0 3 != 0)

/-- `operator +=`, /repo/src/util/v4/v4_sse.h:553-561,563. -/
def iadd_to (a b : Reg 1 Word) : Reg 1 Word :=
  let a_0 := (a 0 0) + (b 0 0)
  let a_1 := (a 0 1) + (b 0 1)
  let a_2 := (a 0 2) + (b 0 2)
  let a_3 := (a 0 3) + (b 0 3)
  let a := one (quad a_0 a_1 a_2 a_3)
  a

/-- `operator -=`, /repo/src/util/v4/v4_sse.h:553-561,564. -/
def isub_to (a b : Reg 1 Word) : Reg 1 Word :=
  let a_0 := (a 0 0) - (b 0 0)
  let a_1 := (a 0 1) - (b 0 1)
  let a_2 := (a 0 2) - (b 0 2)
  let a_3 := (a 0 3) - (b 0 3)
  let a := one (quad a_0 a_1 a_2 a_3)
  a

/-- `operator *=`, /repo/src/util/v4/v4_sse.h:553-561,565. -/
def imul_to (a b : Reg 1 Word) : Reg 1 Word :=
  let a_0 := (a 0 0) * (b 0 0)
  let a_1 := (a 0 1) * (b 0 1)
  let a_2 := (a 0 2) * (b 0 2)
  let a_3 := (a 0 3) * (b 0 3)
  let a := one (quad a_0 a_1 a_2 a_3)
  a

/-- `operator ^=`, /repo/src/util/v4/v4_sse.h:580-585. -/
def ixor_to (a b : Reg 1 Word) : Reg 1 Word :=
  let a := lift2 Word.xor a b
  a

/-- `operator &=`, /repo/src/util/v4/v4_sse.h:587-592. -/
def iand_to (a b : Reg 1 Word) : Reg 1 Word :=
  let a := lift2 Word.and a b
  a

/-- `operator |=`, /repo/src/util/v4/v4_sse.h:594-599. -/
def ior_to (a b : Reg 1 Word) : Reg 1 Word :=
  let a := lift2 Word.or a b
  a

/-- `operator -`, /repo/src/util/v4/v4_sse.h:616-625,636. -/
def ineg (a : Reg 1 Word) : Reg 1 Word :=
  let b_0 := -(a 0 0)
  let b_1 := -(a 0 1)
  let b_2 := -(a 0 2)
  let b_3 := -(a 0 3)
  let b := one (quad b_0 b_1 b_2 b_3)
  b

/-- `operator !`, /repo/src/util/v4/v4_sse.h:638-648. -/
def ilnot (a : Reg 1 Word) : Reg 1 Word :=
  let b_0 := -(Word.bit (!(a 0 0 != 0)))
  let b_1 := -(Word.bit (!(a 0 1 != 0)))
  let b_2 := -(Word.bit (!(a 0 2 != 0)))
  let b_3 := -(Word.bit (!(a 0 3 != 0)))
  let b := one (quad b_0 b_1 b_2 b_3)
  b

/-- `operator ~`, /repo/src/util/v4/v4_sse.h:650-665. -/
def inot (a : Reg 1 Word) : Reg 1 Word :=
  let u := (-1 : Word)
  let b := lift2 Word.xor a (set1 u : Reg 1 _)
  b

/-- `operator +`, /repo/src/util/v4/v4_sse.h:707-716,718. -/
def iadd (a b : Reg 1 Word) : Reg 1 Word :=
  let c_0 := (a 0 0) + (b 0 0)
  let c_1 := (a 0 1) + (b 0 1)
  let c_2 := (a 0 2) + (b 0 2)
  let c_3 := (a 0 3) + (b 0 3)
  let c := one (quad c_0 c_1 c_2 c_3)
  c

/-- `operator -`, /repo/src/util/v4/v4_sse.h:707-716,719. -/
def isub (a b : Reg 1 Word) : Reg 1 Word :=
  let c_0 := (a 0 0) - (b 0 0)
  let c_1 := (a 0 1) - (b 0 1)
  let c_2 := (a 0 2) - (b 0 2)
  let c_3 := (a 0 3) - (b 0 3)
  let c := one (quad c_0 c_1 c_2 c_3)
  c

/-- `operator *`, /repo/src/util/v4/v4_sse.h:707-716,720. -/
def imul (a b : Reg 1 Word) : Reg 1 Word :=
  let c_0 := (a 0 0) * (b 0 0)
  let c_1 := (a 0 1) * (b 0 1)
  let c_2 := (a 0 2) * (b 0 2)
  let c_3 := (a 0 3) * (b 0 3)
  let c := one (quad c_0 c_1 c_2 c_3)
  c

/-- `operator ^`, /repo/src/util/v4/v4_sse.h:728-735. -/
def ixor (a b : Reg 1 Word) : Reg 1 Word :=
  let c := lift2 Word.xor a b
  c

/-- `operator &`, /repo/src/util/v4/v4_sse.h:737-744. -/
def iand (a b : Reg 1 Word) : Reg 1 Word :=
  let c := lift2 Word.and a b
  c

/-- `operator |`, /repo/src/util/v4/v4_sse.h:746-753. -/
def ior (a b : Reg 1 Word) : Reg 1 Word :=
  let c := lift2 Word.or a b
  c

/-- `operator <`, /repo/src/util/v4/v4_sse.h:757-766,768. -/
def ilt (a b : Reg 1 Word) : Reg 1 Word :=
  let c_0 := -(Word.bit (Word.ilt (a 0 0) (b 0 0)))
  let c_1 := -(Word.bit (Word.ilt (a 0 1) (b 0 1)))
  let c_2 := -(Word.bit (Word.ilt (a 0 2) (b 0 2)))
  let c_3 := -(Word.bit (Word.ilt (a 0 3) (b 0 3)))
  let c := one (quad c_0 c_1 c_2 c_3)
  c

/-- `operator >`, /repo/src/util/v4/v4_sse.h:757-766,769. -/
def igt (a b : Reg 1 Word) : Reg 1 Word :=
  let c_0 := -(Word.bit (Word.igt (a 0 0) (b 0 0)))
  let c_1 := -(Word.bit (Word.igt (a 0 1) (b 0 1)))
  let c_2 := -(Word.bit (Word.igt (a 0 2) (b 0 2)))
  let c_3 := -(Word.bit (Word.igt (a 0 3) (b 0 3)))
  let c := one (quad c_0 c_1 c_2 c_3)
  c

/-- `operator ==`, /repo/src/util/v4/v4_sse.h:757-766,770. -/
def ieq (a b : Reg 1 Word) : Reg 1 Word :=
  let c_0 := -(Word.bit (Word.ieq (a 0 0) (b 0 0)))
  let c_1 := -(Word.bit (Word.ieq (a 0 1) (b 0 1)))
  let c_2 := -(Word.bit (Word.ieq (a 0 2) (b 0 2)))
  let c_3 := -(Word.bit (Word.ieq (a 0 3) (b 0 3)))
  let c := one (quad c_0 c_1 c_2 c_3)
  c

/-- `operator !=`, /repo/src/util/v4/v4_sse.h:757-766,771. -/
def ine (a b : Reg 1 Word) : Reg 1 Word :=
  let c_0 := -(Word.bit (Word.ine (a 0 0) (b 0 0)))
  let c_1 := -(Word.bit (Word.ine (a 0 1) (b 0 1)))
  let c_2 := -(Word.bit (Word.ine (a 0 2) (b 0 2)))
  let c_3 := -(Word.bit (Word.ine (a 0 3) (b 0 3)))
  let c := one (quad c_0 c_1 c_2 c_3)
  c

/-- `operator <=`, /repo/src/util/v4/v4_sse.h:757-766,772. -/
def ile (a b : Reg 1 Word) : Reg 1 Word :=
  let c_0 := -(Word.bit (Word.ile (a 0 0) (b 0 0)))
  let c_1 := -(Word.bit (Word.ile (a 0 1) (b 0 1)))
  let c_2 := -(Word.bit (Word.ile (a 0 2) (b 0 2)))
  let c_3 := -(Word.bit (Word.ile (a 0 3) (b 0 3)))
  let c := one (quad c_0 c_1 c_2 c_3)
  c

/-- `operator >=`, /repo/src/util/v4/v4_sse.h:757-766,773. -/
def ige (a b : Reg 1 Word) : Reg 1 Word :=
  let c_0 := -(Word.bit (Word.ige (a 0 0) (b 0 0)))
  let c_1 := -(Word.bit (Word.ige (a 0 1) (b 0 1)))
  let c_2 := -(Word.bit (Word.ige (a 0 2) (b 0 2)))
  let c_3 := -(Word.bit (Word.ige (a 0 3) (b 0 3)))
  let c := one (quad c_0 c_1 c_2 c_3)
  c

/-- `operator &&`, /repo/src/util/v4/v4_sse.h:757-766,774. -/
def iland (a b : Reg 1 Word) : Reg 1 Word :=
  let c_0 := -(Word.bit ((a 0 0 != 0) && (b 0 0 != 0)))
  let c_1 := -(Word.bit ((a 0 1 != 0) && (b 0 1 != 0)))
  let c_2 := -(Word.bit ((a 0 2 != 0) && (b 0 2 != 0)))
  let c_3 := -(Word.bit ((a 0 3 != 0) && (b 0 3 != 0)))
  let c := one (quad c_0 c_1 c_2 c_3)
  c

/-- `operator ||`, /repo/src/util/v4/v4_sse.h:757-766,775. -/
def ilor (a b : Reg 1 Word) : Reg 1 Word :=
  let c_0 := -(Word.bit ((a 0 0 != 0) || (b 0 0 != 0)))
  let c_1 := -(Word.bit ((a 0 1 != 0) || (b 0 1 != 0)))
  let c_2 := -(Word.bit ((a 0 2 != 0) || (b 0 2 != 0)))
  let c_3 := -(Word.bit ((a 0 3 != 0) || (b 0 3 != 0)))
  let c := one (quad c_0 c_1 c_2 c_3)
  c

/-- `abs`, /repo/src/util/v4/v4_sse.h:781-791. -/
def abs (a : Reg 1 Word) : Reg 1 Word :=
  let b_0 := if Word.ige (a 0 0) (0 : Word) then a 0 0 else -(a 0 0)
  let b_1 := if Word.ige (a 0 1) (0 : Word) then a 0 1 else -(a 0 1)
  let b_2 := if Word.ige (a 0 2) (0 : Word) then a 0 2 else -(a 0 2)
  let b_3 := if Word.ige (a 0 3) (0 : Word) then a 0 3 else -(a 0 3)
  let b := one (quad b_0 b_1 b_2 b_3)
  b

/-- `czero`, /repo/src/util/v4/v4_sse.h:793-800. -/
def czero (c a : Reg 1 Word) : Reg 1 Word :=
  let b := lift2 Word.andnot c a
  b

/-- `notczero`, /repo/src/util/v4/v4_sse.h:802-809. -/
def notczero (c a : Reg 1 Word) : Reg 1 Word :=
  let b := lift2 Word.and c a
  b

/-- `merge`, /repo/src/util/v4/v4_sse.h:811-821. -/
def merge (c t f : Reg 1 Word) : Reg 1 Word :=
  let c_v := c
  let tf := lift2 Word.or (lift2 Word.andnot c_v f) (lift2 Word.and c_v t)
  tf

/-- `operator +=`, /repo/src/util/v4/v4_sse.h:925-930,932. -/
def fadd_to (F : Arith W) (a b : Reg 1 W) : Reg 1 W :=
  let a := lift2 F.add a b
  a

/-- `operator -=`, /repo/src/util/v4/v4_sse.h:925-930,933. -/
def fsub_to (F : Arith W) (a b : Reg 1 W) : Reg 1 W :=
  let a := lift2 F.sub a b
  a

/-- `operator *=`, /repo/src/util/v4/v4_sse.h:925-930,934. -/
def fmul_to (F : Arith W) (a b : Reg 1 W) : Reg 1 W :=
  let a := lift2 F.mul a b
  a

/-- `operator /=`, /repo/src/util/v4/v4_sse.h:925-930,935. -/
def fdiv_to (F : Arith W) (a b : Reg 1 W) : Reg 1 W :=
  let a := lift2 F.div a b
  a

/-- `operator -`, /repo/src/util/v4/v4_sse.h:970-977. -/
def fneg (F : Arith W) (a : Reg 1 W) : Reg 1 W :=
  let b := lift2 F.sub (set1 F.zero : Reg 1 _) a
  b

/-- `operator !`, /repo/src/util/v4/v4_sse.h:979-986. -/
def flnot (a : Reg 1 Word) : Reg 1 Word :=
  let b := lift2 (Word.cmp Word.feq) (set1 (0 : Word) : Reg 1 _) a
  b

/-- `operator ++`, /repo/src/util/v4/v4_sse.h:990-1000. -/
def preinc (F : Arith W) (a : Reg 1 W) : Reg 1 W × Reg 1 W :=
  let t := lift2 F.add a (set1 F.one : Reg 1 _)
  let a := t
  let b := t
  (a, b)

/-- `operator --`, /repo/src/util/v4/v4_sse.h:1002-1012. -/
def predec (F : Arith W) (a : Reg 1 W) : Reg 1 W × Reg 1 W :=
  let t := lift2 F.sub a (set1 F.one : Reg 1 _)
  let a := t
  let b := t
  (a, b)

/-- `operator ++`, /repo/src/util/v4/v4_sse.h:1016-1026. -/
def postinc (F : Arith W) (a : Reg 1 W) : Reg 1 W × Reg 1 W :=
  let a_v := a
  let a := lift2 F.add a_v (set1 F.one : Reg 1 _)
  let b := a_v
  (a, b)

/-- `operator --`, /repo/src/util/v4/v4_sse.h:1028-1038. -/
def postdec (F : Arith W) (a : Reg 1 W) : Reg 1 W × Reg 1 W :=
  let a_v := a
  let a := lift2 F.sub a_v (set1 F.one : Reg 1 _)
  let b := a_v
  (a, b)

/-- `operator +`, /repo/src/util/v4/v4_sse.h:1042-1048,1050. -/
def fadd (F : Arith W) (a b : Reg 1 W) : Reg 1 W :=
  let c := lift2 F.add a b
  c

/-- `operator -`, /repo/src/util/v4/v4_sse.h:1042-1048,1051. -/
def fsub (F : Arith W) (a b : Reg 1 W) : Reg 1 W :=
  let c := lift2 F.sub a b
  c

/-- `operator *`, /repo/src/util/v4/v4_sse.h:1042-1048,1052. -/
def fmul (F : Arith W) (a b : Reg 1 W) : Reg 1 W :=
  let c := lift2 F.mul a b
  c

/-- `operator /`, /repo/src/util/v4/v4_sse.h:1042-1048,1053. -/
def fdiv (F : Arith W) (a b : Reg 1 W) : Reg 1 W :=
  let c := lift2 F.div a b
  c

/-- `operator <`, /repo/src/util/v4/v4_sse.h:1059-1065,1067. -/
def flt (a b : Reg 1 Word) : Reg 1 Word :=
  let c := lift2 (Word.cmp Word.flt) a b
  c

/-- `operator >`, /repo/src/util/v4/v4_sse.h:1059-1065,1068. -/
def fgt (a b : Reg 1 Word) : Reg 1 Word :=
  let c := lift2 (Word.cmp Word.fgt) a b
  c

/-- `operator ==`, /repo/src/util/v4/v4_sse.h:1059-1065,1069. -/
def feq (a b : Reg 1 Word) : Reg 1 Word :=
  let c := lift2 (Word.cmp Word.feq) a b
  c

/-- `operator <=`, /repo/src/util/v4/v4_sse.h:1059-1065,1070. -/
def fle (a b : Reg 1 Word) : Reg 1 Word :=
  let c := lift2 (Word.cmp Word.fle) a b
  c

/-- `operator >=`, /repo/src/util/v4/v4_sse.h:1059-1065,1071. -/
def fge (a b : Reg 1 Word) : Reg 1 Word :=
  let c := lift2 (Word.cmp Word.fge) a b
  c

/-- `operator !=`, /repo/src/util/v4/v4_sse.h:1059-1065,1072. -/
def fne (a b : Reg 1 Word) : Reg 1 Word :=
  let c := lift2 (Word.cmp Word.fne) a b
  c

/-- `operator &&`, /repo/src/util/v4/v4_sse.h:1076-1086. -/
def fland (a b : Reg 1 Word) : Reg 1 Word :=
  let vzero := (set1 (0 : Word) : Reg 1 _)
  let c := lift2 Word.and (lift2 (Word.cmp Word.fne) a vzero) (lift2 (Word.cmp Word.fne) b vzero)
  c

/-- `operator ||`, /repo/src/util/v4/v4_sse.h:1088-1098. -/
def flor (a b : Reg 1 Word) : Reg 1 Word :=
  let vzero := (set1 (0 : Word) : Reg 1 _)
  let c := lift2 Word.or (lift2 (Word.cmp Word.fne) a vzero) (lift2 (Word.cmp Word.fne) b vzero)
  c

/-- `fabs`, /repo/src/util/v4/v4_sse.h:1133-1140. -/
def fabs (a : Reg 1 Word) : Reg 1 Word :=
  let b := lift2 Word.andnot (set1 Word.sign : Reg 1 _) a
  b

/-- `sqrt`, /repo/src/util/v4/v4_sse.h:1142-1149. -/
def sqrt (F : Arith W) (a : Reg 1 W) : Reg 1 W :=
  let b := lift1 F.sqrt a
  b

/-- `copysign`, /repo/src/util/v4/v4_sse.h:1151-1161. -/
def copysign (a b : Reg 1 Word) : Reg 1 Word :=
  let t := (set1 Word.sign : Reg 1 _)
  let c := lift2 Word.or (lift2 Word.and t b) (lift2 Word.andnot t a)
  c

/-- `rsqrt`, /repo/src/util/v4/v4_sse.h:1174-1194. -/
def rsqrt (F : Arith W) (a : Reg 1 W) : Reg 1 W :=
  let a_v := a
  let b_v := lift1 F.rsqrtE a_v
  let b := lift2 F.add b_v (lift2 F.mul (set1 F.half : Reg 1 _) (lift2 F.sub b_v (lift2 F.mul a_v (lift2 F.mul b_v (lift2 F.mul b_v b_v)))))
  b

/-- `rcp`, /repo/src/util/v4/v4_sse.h:1219-1234. -/
def rcp (F : Arith W) (a : Reg 1 W) : Reg 1 W :=
  let a_v := a
  let b_v := lift1 F.rcpE a_v
  let b := lift2 F.sub (lift2 F.add b_v b_v) (lift2 F.mul a_v (lift2 F.mul b_v b_v))
  b

/-- `fma`, /repo/src/util/v4/v4_sse.h:1250-1257. -/
def fma (F : Arith W) (a b c : Reg 1 W) : Reg 1 W :=
  let d := lift2 F.add (lift2 F.mul a b) c
  d

/-- `fms`, /repo/src/util/v4/v4_sse.h:1259-1266. -/
def fms (F : Arith W) (a b c : Reg 1 W) : Reg 1 W :=
  let d := lift2 F.sub (lift2 F.mul a b) c
  d

/-- `fnms`, /repo/src/util/v4/v4_sse.h:1268-1275. -/
def fnms (F : Arith W) (a b c : Reg 1 W) : Reg 1 W :=
  let d := lift2 F.sub c (lift2 F.mul a b)
  d

/-- `clear_bits`, /repo/src/util/v4/v4_sse.h:1277-1284. -/
def clear_bits (m a : Reg 1 Word) : Reg 1 Word :=
  let b := lift2 Word.andnot m a
  b

/-- `set_bits`, /repo/src/util/v4/v4_sse.h:1286-1293. -/
def set_bits (m a : Reg 1 Word) : Reg 1 Word :=
  let b := lift2 Word.or m a
  b

/-- `toggle_bits`, /repo/src/util/v4/v4_sse.h:1295-1302. -/
def toggle_bits (m a : Reg 1 Word) : Reg 1 Word :=
  let b := lift2 Word.xor m a
  b

/-- `increment_4x1`, /repo/src/util/v4/v4_sse.h:1304-1308. -/
def increment (F : Arith W) (m : Memory W) (p : ℕ) (a : Reg 1 W) : Option (Memory W) := do
  let m ← store1 m p (lift2 F.add (← load1 m p) a)
  return m

/-- `decrement_4x1`, /repo/src/util/v4/v4_sse.h:1310-1314. -/
def decrement (F : Arith W) (m : Memory W) (p : ℕ) (a : Reg 1 W) : Option (Memory W) := do
  let m ← store1 m p (lift2 F.sub (← load1 m p) a)
  return m

/-- `scale_4x1`, /repo/src/util/v4/v4_sse.h:1316-1320. -/
def scale (F : Arith W) (m : Memory W) (p : ℕ) (a : Reg 1 W) : Option (Memory W) := do
  let m ← store1 m p (lift2 F.mul (← load1 m p) a)
  return m

/-- `trilinear`, /repo/src/util/v4/v4_sse.h:1325-1351. -/
def trilinear (F : Arith Word) (wl : Reg 1 Word) : Reg 1 Word × Reg 1 Word :=
  let l := (set1 F.one : Reg 1 _)
  let s := one (quad Word.sign (0 : Word) Word.sign (0 : Word))
  let z := wl
  let xy := lift2 F.add l (lift2 Word.xor s (shuffle z z (0 + 0 * 4 + 1 * 16 + 1 * 64)))
  let z := lift2 F.add l (lift2 Word.xor s (shuffle z z (2 + 2 * 4 + 2 * 16 + 2 * 64)))
  let xy := lift2 F.mul (shuffle xy xy (0 + 1 * 4 + 0 * 16 + 1 * 64)) (shuffle xy xy (2 + 2 * 4 + 3 * 16 + 3 * 64))
  let wl := lift2 F.mul xy (shuffle z z (0 + 0 * 4 + 0 * 16 + 0 * 64))
  let wh := lift2 F.mul xy (shuffle z z (1 + 1 * 4 + 1 * 16 + 1 * 64))
  (wl, wh)

end Verif.Vector.V4Sse
