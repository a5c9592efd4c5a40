import Verif.Vector.Lane

/-! Operators and functions of /repo/src/util/v4/v4_avx2.h that compute; written by `tools/gen_lanes.py`. -/
namespace Verif.Vector.V4Avx2

variable {W : Type}

/-- `any`, /repo/src/util/v4/v4_avx2.h:150-153. -/
def any (a : Reg 1 Word) : Bool :=
  (((a 0 0 != 0) || (a 0 1 != 0)) || (a 0 2 != 0)) || (a 0 3 != 0)

/-- `all`, /repo/src/util/v4/v4_avx2.h:155-158. -/
def all (a : Reg 1 Word) : Bool :=
  (((a 0 0 != 0) && (a 0 1 != 0)) && (a 0 2 != 0)) && (a 0 3 != 0)

/-- `operator +=`, /repo/src/util/v4/v4_avx2.h:686-694,696. -/
def iadd_to (a b : Reg 1 Word) : Reg 1 Word :=
  let a_0 := (a 0 0) + (b 0 0)
  let a_1 := (a 0 1) + (b 0 1)
  let a_2 := (a 0 2) + (b 0 2)
  let a_3 := (a 0 3) + (b 0 3)
  let a := one (quad a_0 a_1 a_2 a_3)
  a

/-- `operator -=`, /repo/src/util/v4/v4_avx2.h:686-694,697. -/
def isub_to (a b : Reg 1 Word) : Reg 1 Word :=
  let a_0 := (a 0 0) - (b 0 0)
  let a_1 := (a 0 1) - (b 0 1)
  let a_2 := (a 0 2) - (b 0 2)
  let a_3 := (a 0 3) - (b 0 3)
  let a := one (quad a_0 a_1 a_2 a_3)
  a

/-- `operator *=`, /repo/src/util/v4/v4_avx2.h:686-694,698. -/
def imul_to (a b : Reg 1 Word) : Reg 1 Word :=
  let a_0 := (a 0 0) * (b 0 0)
  let a_1 := (a 0 1) * (b 0 1)
  let a_2 := (a 0 2) * (b 0 2)
  let a_3 := (a 0 3) * (b 0 3)
  let a := one (quad a_0 a_1 a_2 a_3)
  a

/-- `operator ^=`, /repo/src/util/v4/v4_avx2.h:713-718. -/
def ixor_to (a b : Reg 1 Word) : Reg 1 Word :=
  let a := lift2 Word.xor a b
  a

/-- `operator &=`, /repo/src/util/v4/v4_avx2.h:720-725. -/
def iand_to (a b : Reg 1 Word) : Reg 1 Word :=
  let a := lift2 Word.and a b
  a

/-- `operator |=`, /repo/src/util/v4/v4_avx2.h:727-732. -/
def ior_to (a b : Reg 1 Word) : Reg 1 Word :=
  let a := lift2 Word.or a b
  a

/-- `operator -`, /repo/src/util/v4/v4_avx2.h:749-758,769. -/
def ineg (a : Reg 1 Word) : Reg 1 Word :=
  let b_0 := -(a 0 0)
  let b_1 := -(a 0 1)
  let b_2 := -(a 0 2)
  let b_3 := -(a 0 3)
  let b := one (quad b_0 b_1 b_2 b_3)
  b

/-- `operator !`, /repo/src/util/v4/v4_avx2.h:771-781. -/
def ilnot (a : Reg 1 Word) : Reg 1 Word :=
  let b_0 := -(Word.bit (!(a 0 0 != 0)))
  let b_1 := -(Word.bit (!(a 0 1 != 0)))
  let b_2 := -(Word.bit (!(a 0 2 != 0)))
  let b_3 := -(Word.bit (!(a 0 3 != 0)))
  let b := one (quad b_0 b_1 b_2 b_3)
  b

/-- `operator ~`, /repo/src/util/v4/v4_avx2.h:783-798. -/
def inot (a : Reg 1 Word) : Reg 1 Word :=
  let u := (-1 : Word)
  let b := lift2 Word.xor a (set1 u : Reg 1 _)
  b

/-- `operator +`, /repo/src/util/v4/v4_avx2.h:840-849,851. -/
def iadd (a b : Reg 1 Word) : Reg 1 Word :=
  let c_0 := (a 0 0) + (b 0 0)
  let c_1 := (a 0 1) + (b 0 1)
  let c_2 := (a 0 2) + (b 0 2)
  let c_3 := (a 0 3) + (b 0 3)
  let c := one (quad c_0 c_1 c_2 c_3)
  c

/-- `operator -`, /repo/src/util/v4/v4_avx2.h:840-849,852. -/
def isub (a b : Reg 1 Word) : Reg 1 Word :=
  let c_0 := (a 0 0) - (b 0 0)
  let c_1 := (a 0 1) - (b 0 1)
  let c_2 := (a 0 2) - (b 0 2)
  let c_3 := (a 0 3) - (b 0 3)
  let c := one (quad c_0 c_1 c_2 c_3)
  c

/-- `operator *`, /repo/src/util/v4/v4_avx2.h:840-849,853. -/
def imul (a b : Reg 1 Word) : Reg 1 Word :=
  let c_0 := (a 0 0) * (b 0 0)
  let c_1 := (a 0 1) * (b 0 1)
  let c_2 := (a 0 2) * (b 0 2)
  let c_3 := (a 0 3) * (b 0 3)
  let c := one (quad c_0 c_1 c_2 c_3)
  c

/-- `operator ^`, /repo/src/util/v4/v4_avx2.h:861-868. -/
def ixor (a b : Reg 1 Word) : Reg 1 Word :=
  let c := lift2 Word.xor a b
  c

/-- `operator &`, /repo/src/util/v4/v4_avx2.h:870-877. -/
def iand (a b : Reg 1 Word) : Reg 1 Word :=
  let c := lift2 Word.and a b
  c

/-- `operator |`, /repo/src/util/v4/v4_avx2.h:879-886. -/
def ior (a b : Reg 1 Word) : Reg 1 Word :=
  let c := lift2 Word.or a b
  c

/-- `operator <`, /repo/src/util/v4/v4_avx2.h:890-899,901. -/
def ilt (a b : Reg 1 Word) : Reg 1 Word :=
  let c_0 := -(Word.bit (Word.ilt (a 0 0) (b 0 0)))
  let c_1 := -(Word.bit (Word.ilt (a 0 1) (b 0 1)))
  let c_2 := -(Word.bit (Word.ilt (a 0 2) (b 0 2)))
  let c_3 := -(Word.bit (Word.ilt (a 0 3) (b 0 3)))
  let c := one (quad c_0 c_1 c_2 c_3)
  c

/-- `operator >`, /repo/src/util/v4/v4_avx2.h:890-899,902. -/
def igt (a b : Reg 1 Word) : Reg 1 Word :=
  let c_0 := -(Word.bit (Word.igt (a 0 0) (b 0 0)))
  let c_1 := -(Word.bit (Word.igt (a 0 1) (b 0 1)))
  let c_2 := -(Word.bit (Word.igt (a 0 2) (b 0 2)))
  let c_3 := -(Word.bit (Word.igt (a 0 3) (b 0 3)))
  let c := one (quad c_0 c_1 c_2 c_3)
  c

/-- `operator ==`, /repo/src/util/v4/v4_avx2.h:890-899,903. -/
def ieq (a b : Reg 1 Word) : Reg 1 Word :=
  let c_0 := -(Word.bit (Word.ieq (a 0 0) (b 0 0)))
  let c_1 := -(Word.bit (Word.ieq (a 0 1) (b 0 1)))
  let c_2 := -(Word.bit (Word.ieq (a 0 2) (b 0 2)))
  let c_3 := -(Word.bit (Word.ieq (a 0 3) (b 0 3)))
  let c := one (quad c_0 c_1 c_2 c_3)
  c

/-- `operator !=`, /repo/src/util/v4/v4_avx2.h:890-899,904. -/
def ine (a b : Reg 1 Word) : Reg 1 Word :=
  let c_0 := -(Word.bit (Word.ine (a 0 0) (b 0 0)))
  let c_1 := -(Word.bit (Word.ine (a 0 1) (b 0 1)))
  let c_2 := -(Word.bit (Word.ine (a 0 2) (b 0 2)))
  let c_3 := -(Word.bit (Word.ine (a 0 3) (b 0 3)))
  let c := one (quad c_0 c_1 c_2 c_3)
  c

/-- `operator <=`, /repo/src/util/v4/v4_avx2.h:890-899,905. -/
def ile (a b : Reg 1 Word) : Reg 1 Word :=
  let c_0 := -(Word.bit (Word.ile (a 0 0) (b 0 0)))
  let c_1 := -(Word.bit (Word.ile (a 0 1) (b 0 1)))
  let c_2 := -(Word.bit (Word.ile (a 0 2) (b 0 2)))
  let c_3 := -(Word.bit (Word.ile (a 0 3) (b 0 3)))
  let c := one (quad c_0 c_1 c_2 c_3)
  c

/-- `operator >=`, /repo/src/util/v4/v4_avx2.h:890-899,906. -/
def ige (a b : Reg 1 Word) : Reg 1 Word :=
  let c_0 := -(Word.bit (Word.ige (a 0 0) (b 0 0)))
  let c_1 := -(Word.bit (Word.ige (a 0 1) (b 0 1)))
  let c_2 := -(Word.bit (Word.ige (a 0 2) (b 0 2)))
  let c_3 := -(Word.bit (Word.ige (a 0 3) (b 0 3)))
  let c := one (quad c_0 c_1 c_2 c_3)
  c

/-- `operator &&`, /repo/src/util/v4/v4_avx2.h:890-899,907. -/
def iland (a b : Reg 1 Word) : Reg 1 Word :=
  let c_0 := -(Word.bit ((a 0 0 != 0) && (b 0 0 != 0)))
  let c_1 := -(Word.bit ((a 0 1 != 0) && (b 0 1 != 0)))
  let c_2 := -(Word.bit ((a 0 2 != 0) && (b 0 2 != 0)))
  let c_3 := -(Word.bit ((a 0 3 != 0) && (b 0 3 != 0)))
  let c := one (quad c_0 c_1 c_2 c_3)
  c

/-- `operator ||`, /repo/src/util/v4/v4_avx2.h:890-899,908. -/
def ilor (a b : Reg 1 Word) : Reg 1 Word :=
  let c_0 := -(Word.bit ((a 0 0 != 0) || (b 0 0 != 0)))
  let c_1 := -(Word.bit ((a 0 1 != 0) || (b 0 1 != 0)))
  let c_2 := -(Word.bit ((a 0 2 != 0) || (b 0 2 != 0)))
  let c_3 := -(Word.bit ((a 0 3 != 0) || (b 0 3 != 0)))
  let c := one (quad c_0 c_1 c_2 c_3)
  c

/-- `abs`, /repo/src/util/v4/v4_avx2.h:914-924. -/
def abs (a : Reg 1 Word) : Reg 1 Word :=
  let b_0 := if Word.ige (a 0 0) (0 : Word) then a 0 0 else -(a 0 0)
  let b_1 := if Word.ige (a 0 1) (0 : Word) then a 0 1 else -(a 0 1)
  let b_2 := if Word.ige (a 0 2) (0 : Word) then a 0 2 else -(a 0 2)
  let b_3 := if Word.ige (a 0 3) (0 : Word) then a 0 3 else -(a 0 3)
  let b := one (quad b_0 b_1 b_2 b_3)
  b

/-- `czero`, /repo/src/util/v4/v4_avx2.h:926-933. -/
def czero (c a : Reg 1 Word) : Reg 1 Word :=
  let b := lift2 Word.andnot c a
  b

/-- `notczero`, /repo/src/util/v4/v4_avx2.h:935-942. -/
def notczero (c a : Reg 1 Word) : Reg 1 Word :=
  let b := lift2 Word.and c a
  b

/-- `merge`, /repo/src/util/v4/v4_avx2.h:944-954. -/
def merge (c t f : Reg 1 Word) : Reg 1 Word :=
  let c_v := c
  let tf := lift2 Word.or (lift2 Word.andnot c_v f) (lift2 Word.and c_v t)
  tf

/-- `operator +=`, /repo/src/util/v4/v4_avx2.h:1058-1063,1065. -/
def fadd_to (F : Arith W) (a b : Reg 1 W) : Reg 1 W :=
  let a := lift2 F.add a b
  a

/-- `operator -=`, /repo/src/util/v4/v4_avx2.h:1058-1063,1066. -/
def fsub_to (F : Arith W) (a b : Reg 1 W) : Reg 1 W :=
  let a := lift2 F.sub a b
  a

/-- `operator *=`, /repo/src/util/v4/v4_avx2.h:1058-1063,1067. -/
def fmul_to (F : Arith W) (a b : Reg 1 W) : Reg 1 W :=
  let a := lift2 F.mul a b
  a

/-- `operator /=`, /repo/src/util/v4/v4_avx2.h:1058-1063,1068. -/
def fdiv_to (F : Arith W) (a b : Reg 1 W) : Reg 1 W :=
  let a := lift2 F.div a b
  a

/-- `operator -`, /repo/src/util/v4/v4_avx2.h:1103-1110. -/
def fneg (F : Arith W) (a : Reg 1 W) : Reg 1 W :=
  let b := lift2 F.sub (set1 F.zero : Reg 1 _) a
  b

/-- `operator !`, /repo/src/util/v4/v4_avx2.h:1112-1119. -/
def flnot (a : Reg 1 Word) : Reg 1 Word :=
  let b := lift2 (Word.cmp Word.feq) (set1 (0 : Word) : Reg 1 _) a
  b

/-- `operator ++`, /repo/src/util/v4/v4_avx2.h:1123-1133. -/
def preinc (F : Arith W) (a : Reg 1 W) : Reg 1 W × Reg 1 W :=
  let t := lift2 F.add a (set1 F.one : Reg 1 _)
  let a := t
  let b := t
  (a, b)

/-- `operator --`, /repo/src/util/v4/v4_avx2.h:1135-1145. -/
def predec (F : Arith W) (a : Reg 1 W) : Reg 1 W × Reg 1 W :=
  let t := lift2 F.sub a (set1 F.one : Reg 1 _)
  let a := t
  let b := t
  (a, b)

/-- `operator ++`, /repo/src/util/v4/v4_avx2.h:1149-1159. -/
def postinc (F : Arith W) (a : Reg 1 W) : Reg 1 W × Reg 1 W :=
  let a_v := a
  let a := lift2 F.add a_v (set1 F.one : Reg 1 _)
  let b := a_v
  (a, b)

/-- `operator --`, /repo/src/util/v4/v4_avx2.h:1161-1171. -/
def postdec (F : Arith W) (a : Reg 1 W) : Reg 1 W × Reg 1 W :=
  let a_v := a
  let a := lift2 F.sub a_v (set1 F.one : Reg 1 _)
  let b := a_v
  (a, b)

/-- `operator +`, /repo/src/util/v4/v4_avx2.h:1175-1181,1183. -/
def fadd (F : Arith W) (a b : Reg 1 W) : Reg 1 W :=
  let c := lift2 F.add a b
  c

/-- `operator -`, /repo/src/util/v4/v4_avx2.h:1175-1181,1184. -/
def fsub (F : Arith W) (a b : Reg 1 W) : Reg 1 W :=
  let c := lift2 F.sub a b
  c

/-- `operator *`, /repo/src/util/v4/v4_avx2.h:1175-1181,1185. -/
def fmul (F : Arith W) (a b : Reg 1 W) : Reg 1 W :=
  let c := lift2 F.mul a b
  c

/-- `operator /`, /repo/src/util/v4/v4_avx2.h:1175-1181,1186. -/
def fdiv (F : Arith W) (a b : Reg 1 W) : Reg 1 W :=
  let c := lift2 F.div a b
  c

/-- `operator <`, /repo/src/util/v4/v4_avx2.h:1192-1198,1200. -/
def flt (a b : Reg 1 Word) : Reg 1 Word :=
  let c := lift2 (Word.cmp Word.flt) a b
  c

/-- `operator >`, /repo/src/util/v4/v4_avx2.h:1192-1198,1201. -/
def fgt (a b : Reg 1 Word) : Reg 1 Word :=
  let c := lift2 (Word.cmp Word.fgt) a b
  c

/-- `operator ==`, /repo/src/util/v4/v4_avx2.h:1192-1198,1202. -/
def feq (a b : Reg 1 Word) : Reg 1 Word :=
  let c := lift2 (Word.cmp Word.feq) a b
  c

/-- `operator <=`, /repo/src/util/v4/v4_avx2.h:1192-1198,1203. -/
def fle (a b : Reg 1 Word) : Reg 1 Word :=
  let c := lift2 (Word.cmp Word.fle) a b
  c

/-- `operator >=`, /repo/src/util/v4/v4_avx2.h:1192-1198,1204. -/
def fge (a b : Reg 1 Word) : Reg 1 Word :=
  let c := lift2 (Word.cmp Word.fge) a b
  c

/-- `operator !=`, /repo/src/util/v4/v4_avx2.h:1192-1198,1205. -/
def fne (a b : Reg 1 Word) : Reg 1 Word :=
  let c := lift2 (Word.cmp Word.fne) a b
  c

/-- `operator &&`, /repo/src/util/v4/v4_avx2.h:1209-1219. -/
def fland (a b : Reg 1 Word) : Reg 1 Word :=
  let vzero := (set1 (0 : Word) : Reg 1 _)
  let c := lift2 Word.and (lift2 (Word.cmp Word.fne) a vzero) (lift2 (Word.cmp Word.fne) b vzero)
  c

/-- `operator ||`, /repo/src/util/v4/v4_avx2.h:1221-1231. -/
def flor (a b : Reg 1 Word) : Reg 1 Word :=
  let vzero := (set1 (0 : Word) : Reg 1 _)
  let c := lift2 Word.or (lift2 (Word.cmp Word.fne) a vzero) (lift2 (Word.cmp Word.fne) b vzero)
  c

/-- `fabs`, /repo/src/util/v4/v4_avx2.h:1266-1273. -/
def fabs (a : Reg 1 Word) : Reg 1 Word :=
  let b := lift2 Word.andnot (set1 Word.sign : Reg 1 _) a
  b

/-- `sqrt`, /repo/src/util/v4/v4_avx2.h:1275-1282. -/
def sqrt (F : Arith W) (a : Reg 1 W) : Reg 1 W :=
  let b := lift1 F.sqrt a
  b

/-- `copysign`, /repo/src/util/v4/v4_avx2.h:1284-1294. -/
def copysign (a b : Reg 1 Word) : Reg 1 Word :=
  let t := (set1 Word.sign : Reg 1 _)
  let c := lift2 Word.or (lift2 Word.and t b) (lift2 Word.andnot t a)
  c

/-- `rsqrt`, /repo/src/util/v4/v4_avx2.h:1307-1323. -/
def rsqrt (F : Arith W) (a : Reg 1 W) : Reg 1 W :=
  let b_v := lift1 F.rsqrtE a
  let b := lift3 F.fmadd (set1 F.half : Reg 1 _) (lift3 F.fnmadd a (lift2 F.mul b_v (lift2 F.mul b_v b_v)) b_v) b_v
  b

/-- `rcp`, /repo/src/util/v4/v4_avx2.h:1378-1391. -/
def rcp (F : Arith W) (a : Reg 1 W) : Reg 1 W :=
  let b_v := lift1 F.rcpE a
  let b := lift3 F.fnmadd a (lift2 F.mul b_v b_v) (lift2 F.add b_v b_v)
  b

/-- `fma`, /repo/src/util/v4/v4_avx2.h:1429-1436. -/
def fma (F : Arith W) (a b c : Reg 1 W) : Reg 1 W :=
  let d := lift3 F.fmadd a b c
  d

/-- `fms`, /repo/src/util/v4/v4_avx2.h:1438-1445. -/
def fms (F : Arith W) (a b c : Reg 1 W) : Reg 1 W :=
  let d := lift3 F.fmsub a b c
  d

/-- `fnms`, /repo/src/util/v4/v4_avx2.h:1447-1454. -/
def fnms (F : Arith W) (a b c : Reg 1 W) : Reg 1 W :=
  let d := lift3 F.fnmadd a b c
  d

/-- `clear_bits`, /repo/src/util/v4/v4_avx2.h:1456-1463. -/
def clear_bits (m a : Reg 1 Word) : Reg 1 Word :=
  let b := lift2 Word.andnot m a
  b

/-- `set_bits`, /repo/src/util/v4/v4_avx2.h:1465-1472. -/
def set_bits (m a : Reg 1 Word) : Reg 1 Word :=
  let b := lift2 Word.or m a
  b

/-- `toggle_bits`, /repo/src/util/v4/v4_avx2.h:1474-1481. -/
def toggle_bits (m a : Reg 1 Word) : Reg 1 Word :=
  let b := lift2 Word.xor m a
  b

/-- `increment_4x1`, /repo/src/util/v4/v4_avx2.h:1483-1487. -/
def increment (F : Arith W) (m : Memory W) (p : ℕ) (a : Reg 1 W) : Option (Memory W) := do
  let m ← store1 m p (lift2 F.add (← load1 m p) a)
  return m

/-- `decrement_4x1`, /repo/src/util/v4/v4_avx2.h:1489-1493. -/
def decrement (F : Arith W) (m : Memory W) (p : ℕ) (a : Reg 1 W) : Option (Memory W) := do
  let m ← store1 m p (lift2 F.sub (← load1 m p) a)
  return m

/-- `scale_4x1`, /repo/src/util/v4/v4_avx2.h:1495-1499. -/
def scale (F : Arith W) (m : Memory W) (p : ℕ) (a : Reg 1 W) : Option (Memory W) := do
  let m ← store1 m p (lift2 F.mul (← load1 m p) a)
  return m

/-- `trilinear`, /repo/src/util/v4/v4_avx2.h:1504-1530. -/
def trilinear (F : Arith Word) (wl : Reg 1 Word) : Reg 1 Word × Reg 1 Word :=
  let l := (set1 F.one : Reg 1 _)
  let s := one (quad Word.sign (0 : Word) Word.sign (0 : Word))
  let z := wl
  let xy := lift2 F.add l (lift2 Word.xor s (shuffle z z (0 + 0 * 4 + 1 * 16 + 1 * 64)))
  let z := lift2 F.add l (lift2 Word.xor s (shuffle z z (2 + 2 * 4 + 2 * 16 + 2 * 64)))
  let xy := lift2 F.mul (shuffle xy xy (0 + 1 * 4 + 0 * 16 + 1 * 64)) (shuffle xy xy (2 + 2 * 4 + 3 * 16 + 3 * 64))
  let wl := lift2 F.mul xy (shuffle z z (0 + 0 * 4 + 0 * 16 + 0 * 64))
  let wh := lift2 F.mul xy (shuffle z z (1 + 1 * 4 + 1 * 16 + 1 * 64))
  (wl, wh)

end Verif.Vector.V4Avx2
