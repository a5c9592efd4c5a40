import Verif.Vector.Lane

/-! Operators and functions of /repo/src/util/v8/v8_avx2.h that compute; written by `tools/gen_lanes.py`. -/
namespace Verif.Vector.V8Avx2

variable {W : Type}

/-- `any`, /repo/src/util/v8/v8_avx2.h:193-197. -/
def any (a : Reg 2 Word) : Bool :=
  (((((((a 0 0 != 0) || (a 0 1 != 0)) || (a 0 2 != 0)) || (a 0 3 != 0)) || (a 1 0 != 0)) || (a 1 1 != 0)) || (a 1 2 != 0)) || (a 1 3 != 0)

/-- `all`, /repo/src/util/v8/v8_avx2.h:199-203. -/
def all (a : Reg 2 Word) : Bool :=
  (((((((a 0 0 != 0) && (a 0 1 != 0)) && (a 0 2 != 0)) && (a 0 3 != 0)) && (a 1 0 != 0)) && (a 1 1 != 0)) && (a 1 2 != 0)) && (a 1 3 != 0)

/-- `operator +=`, /repo/src/util/v8/v8_avx2.h:1041-1053,1061. -/
def iadd_to (a b : Reg 2 Word) : Reg 2 Word :=
  let a_0 := (a 0 0) + (b 0 0)
  let a_1 := (a 0 1) + (b 0 1)
  let a_2 := (a 0 2) + (b 0 2)
  let a_3 := (a 0 3) + (b 0 3)
  let a_4 := (a 1 0) + (b 1 0)
  let a_5 := (a 1 1) + (b 1 1)
  let a_6 := (a 1 2) + (b 1 2)
  let a_7 := (a 1 3) + (b 1 3)
  let a := two (quad a_0 a_1 a_2 a_3) (quad a_4 a_5 a_6 a_7)
  a

/-- `operator -=`, /repo/src/util/v8/v8_avx2.h:1041-1053,1062. -/
def isub_to (a b : Reg 2 Word) : Reg 2 Word :=
  let a_0 := (a 0 0) - (b 0 0)
  let a_1 := (a 0 1) - (b 0 1)
  let a_2 := (a 0 2) - (b 0 2)
  let a_3 := (a 0 3) - (b 0 3)
  let a_4 := (a 1 0) - (b 1 0)
  let a_5 := (a 1 1) - (b 1 1)
  let a_6 := (a 1 2) - (b 1 2)
  let a_7 := (a 1 3) - (b 1 3)
  let a := two (quad a_0 a_1 a_2 a_3) (quad a_4 a_5 a_6 a_7)
  a

/-- `operator *=`, /repo/src/util/v8/v8_avx2.h:1041-1053,1063. -/
def imul_to (a b : Reg 2 Word) : Reg 2 Word :=
  let a_0 := (a 0 0) * (b 0 0)
  let a_1 := (a 0 1) * (b 0 1)
  let a_2 := (a 0 2) * (b 0 2)
  let a_3 := (a 0 3) * (b 0 3)
  let a_4 := (a 1 0) * (b 1 0)
  let a_5 := (a 1 1) * (b 1 1)
  let a_6 := (a 1 2) * (b 1 2)
  let a_7 := (a 1 3) * (b 1 3)
  let a := two (quad a_0 a_1 a_2 a_3) (quad a_4 a_5 a_6 a_7)
  a

/-- `operator ^=`, /repo/src/util/v8/v8_avx2.h:1067-1071. -/
def ixor_to (a b : Reg 2 Word) : Reg 2 Word :=
  let a := lift2 Word.xor a b
  a

/-- `operator &=`, /repo/src/util/v8/v8_avx2.h:1073-1077. -/
def iand_to (a b : Reg 2 Word) : Reg 2 Word :=
  let a := lift2 Word.and a b
  a

/-- `operator |=`, /repo/src/util/v8/v8_avx2.h:1079-1083. -/
def ior_to (a b : Reg 2 Word) : Reg 2 Word :=
  let a := lift2 Word.or a b
  a

/-- `operator -`, /repo/src/util/v8/v8_avx2.h:1105-1118,1129. -/
def ineg (a : Reg 2 Word) : Reg 2 Word :=
  let b_0 := -(a 0 0)
  let b_1 := -(a 0 1)
  let b_2 := -(a 0 2)
  let b_3 := -(a 0 3)
  let b_4 := -(a 1 0)
  let b_5 := -(a 1 1)
  let b_6 := -(a 1 2)
  let b_7 := -(a 1 3)
  let b := two (quad b_0 b_1 b_2 b_3) (quad b_4 b_5 b_6 b_7)
  b

/-- `operator !`, /repo/src/util/v8/v8_avx2.h:1131-1145. -/
def ilnot (a : Reg 2 Word) : Reg 2 Word :=
  let b_0 := -(Word.bit (!(a 0 0 != 0)))
  let b_1 := -(Word.bit (!(a 0 1 != 0)))
  let b_2 := -(Word.bit (!(a 0 2 != 0)))
  let b_3 := -(Word.bit (!(a 0 3 != 0)))
  let b_4 := -(Word.bit (!(a 1 0 != 0)))
  let b_5 := -(Word.bit (!(a 1 1 != 0)))
  let b_6 := -(Word.bit (!(a 1 2 != 0)))
  let b_7 := -(Word.bit (!(a 1 3 != 0)))
  let b := two (quad b_0 b_1 b_2 b_3) (quad b_4 b_5 b_6 b_7)
  b

/-- `operator ~`, /repo/src/util/v8/v8_avx2.h:1147-1162. -/
def inot (a : Reg 2 Word) : Reg 2 Word :=
  let u := (-1 : Word)
  let b := lift2 Word.xor a (set1 u : Reg 2 _)
  b

/-- `operator +`, /repo/src/util/v8/v8_avx2.h:1212-1225,1227. -/
def iadd (a b : Reg 2 Word) : Reg 2 Word :=
  let c_0 := (a 0 0) + (b 0 0)
  let c_1 := (a 0 1) + (b 0 1)
  let c_2 := (a 0 2) + (b 0 2)
  let c_3 := (a 0 3) + (b 0 3)
  let c_4 := (a 1 0) + (b 1 0)
  let c_5 := (a 1 1) + (b 1 1)
  let c_6 := (a 1 2) + (b 1 2)
  let c_7 := (a 1 3) + (b 1 3)
  let c := two (quad c_0 c_1 c_2 c_3) (quad c_4 c_5 c_6 c_7)
  c

/-- `operator -`, /repo/src/util/v8/v8_avx2.h:1212-1225,1228. -/
def isub (a b : Reg 2 Word) : Reg 2 Word :=
  let c_0 := (a 0 0) - (b 0 0)
  let c_1 := (a 0 1) - (b 0 1)
  let c_2 := (a 0 2) - (b 0 2)
  let c_3 := (a 0 3) - (b 0 3)
  let c_4 := (a 1 0) - (b 1 0)
  let c_5 := (a 1 1) - (b 1 1)
  let c_6 := (a 1 2) - (b 1 2)
  let c_7 := (a 1 3) - (b 1 3)
  let c := two (quad c_0 c_1 c_2 c_3) (quad c_4 c_5 c_6 c_7)
  c

/-- `operator *`, /repo/src/util/v8/v8_avx2.h:1212-1225,1229. -/
def imul (a b : Reg 2 Word) : Reg 2 Word :=
  let c_0 := (a 0 0) * (b 0 0)
  let c_1 := (a 0 1) * (b 0 1)
  let c_2 := (a 0 2) * (b 0 2)
  let c_3 := (a 0 3) * (b 0 3)
  let c_4 := (a 1 0) * (b 1 0)
  let c_5 := (a 1 1) * (b 1 1)
  let c_6 := (a 1 2) * (b 1 2)
  let c_7 := (a 1 3) * (b 1 3)
  let c := two (quad c_0 c_1 c_2 c_3) (quad c_4 c_5 c_6 c_7)
  c

/-- `operator ^`, /repo/src/util/v8/v8_avx2.h:1233-1240. -/
def ixor (a b : Reg 2 Word) : Reg 2 Word :=
  let c := lift2 Word.xor a b
  c

/-- `operator &`, /repo/src/util/v8/v8_avx2.h:1242-1249. -/
def iand (a b : Reg 2 Word) : Reg 2 Word :=
  let c := lift2 Word.and a b
  c

/-- `operator |`, /repo/src/util/v8/v8_avx2.h:1251-1258. -/
def ior (a b : Reg 2 Word) : Reg 2 Word :=
  let c := lift2 Word.or a b
  c

/-- `operator <`, /repo/src/util/v8/v8_avx2.h:1267-1280,1282. -/
def ilt (a b : Reg 2 Word) : Reg 2 Word :=
  let c_0 := -(Word.bit (Word.ilt (a 0 0) (b 0 0)))
  let c_1 := -(Word.bit (Word.ilt (a 0 1) (b 0 1)))
  let c_2 := -(Word.bit (Word.ilt (a 0 2) (b 0 2)))
  let c_3 := -(Word.bit (Word.ilt (a 0 3) (b 0 3)))
  let c_4 := -(Word.bit (Word.ilt (a 1 0) (b 1 0)))
  let c_5 := -(Word.bit (Word.ilt (a 1 1) (b 1 1)))
  let c_6 := -(Word.bit (Word.ilt (a 1 2) (b 1 2)))
  let c_7 := -(Word.bit (Word.ilt (a 1 3) (b 1 3)))
  let c := two (quad c_0 c_1 c_2 c_3) (quad c_4 c_5 c_6 c_7)
  c

/-- `operator >`, /repo/src/util/v8/v8_avx2.h:1267-1280,1283. -/
def igt (a b : Reg 2 Word) : Reg 2 Word :=
  let c_0 := -(Word.bit (Word.igt (a 0 0) (b 0 0)))
  let c_1 := -(Word.bit (Word.igt (a 0 1) (b 0 1)))
  let c_2 := -(Word.bit (Word.igt (a 0 2) (b 0 2)))
  let c_3 := -(Word.bit (Word.igt (a 0 3) (b 0 3)))
  let c_4 := -(Word.bit (Word.igt (a 1 0) (b 1 0)))
  let c_5 := -(Word.bit (Word.igt (a 1 1) (b 1 1)))
  let c_6 := -(Word.bit (Word.igt (a 1 2) (b 1 2)))
  let c_7 := -(Word.bit (Word.igt (a 1 3) (b 1 3)))
  let c := two (quad c_0 c_1 c_2 c_3) (quad c_4 c_5 c_6 c_7)
  c

/-- `operator ==`, /repo/src/util/v8/v8_avx2.h:1267-1280,1284. -/
def ieq (a b : Reg 2 Word) : Reg 2 Word :=
  let c_0 := -(Word.bit (Word.ieq (a 0 0) (b 0 0)))
  let c_1 := -(Word.bit (Word.ieq (a 0 1) (b 0 1)))
  let c_2 := -(Word.bit (Word.ieq (a 0 2) (b 0 2)))
  let c_3 := -(Word.bit (Word.ieq (a 0 3) (b 0 3)))
  let c_4 := -(Word.bit (Word.ieq (a 1 0) (b 1 0)))
  let c_5 := -(Word.bit (Word.ieq (a 1 1) (b 1 1)))
  let c_6 := -(Word.bit (Word.ieq (a 1 2) (b 1 2)))
  let c_7 := -(Word.bit (Word.ieq (a 1 3) (b 1 3)))
  let c := two (quad c_0 c_1 c_2 c_3) (quad c_4 c_5 c_6 c_7)
  c

/-- `operator !=`, /repo/src/util/v8/v8_avx2.h:1267-1280,1285. -/
def ine (a b : Reg 2 Word) : Reg 2 Word :=
  let c_0 := -(Word.bit (Word.ine (a 0 0) (b 0 0)))
  let c_1 := -(Word.bit (Word.ine (a 0 1) (b 0 1)))
  let c_2 := -(Word.bit (Word.ine (a 0 2) (b 0 2)))
  let c_3 := -(Word.bit (Word.ine (a 0 3) (b 0 3)))
  let c_4 := -(Word.bit (Word.ine (a 1 0) (b 1 0)))
  let c_5 := -(Word.bit (Word.ine (a 1 1) (b 1 1)))
  let c_6 := -(Word.bit (Word.ine (a 1 2) (b 1 2)))
  let c_7 := -(Word.bit (Word.ine (a 1 3) (b 1 3)))
  let c := two (quad c_0 c_1 c_2 c_3) (quad c_4 c_5 c_6 c_7)
  c

/-- `operator <=`, /repo/src/util/v8/v8_avx2.h:1267-1280,1286. -/
def ile (a b : Reg 2 Word) : Reg 2 Word :=
  let c_0 := -(Word.bit (Word.ile (a 0 0) (b 0 0)))
  let c_1 := -(Word.bit (Word.ile (a 0 1) (b 0 1)))
  let c_2 := -(Word.bit (Word.ile (a 0 2) (b 0 2)))
  let c_3 := -(Word.bit (Word.ile (a 0 3) (b 0 3)))
  let c_4 := -(Word.bit (Word.ile (a 1 0) (b 1 0)))
  let c_5 := -(Word.bit (Word.ile (a 1 1) (b 1 1)))
  let c_6 := -(Word.bit (Word.ile (a 1 2) (b 1 2)))
  let c_7 := -(Word.bit (Word.ile (a 1 3) (b 1 3)))
  let c := two (quad c_0 c_1 c_2 c_3) (quad c_4 c_5 c_6 c_7)
  c

/-- `operator >=`, /repo/src/util/v8/v8_avx2.h:1267-1280,1287. -/
def ige (a b : Reg 2 Word) : Reg 2 Word :=
  let c_0 := -(Word.bit (Word.ige (a 0 0) (b 0 0)))
  let c_1 := -(Word.bit (Word.ige (a 0 1) (b 0 1)))
  let c_2 := -(Word.bit (Word.ige (a 0 2) (b 0 2)))
  let c_3 := -(Word.bit (Word.ige (a 0 3) (b 0 3)))
  let c_4 := -(Word.bit (Word.ige (a 1 0) (b 1 0)))
  let c_5 := -(Word.bit (Word.ige (a 1 1) (b 1 1)))
  let c_6 := -(Word.bit (Word.ige (a 1 2) (b 1 2)))
  let c_7 := -(Word.bit (Word.ige (a 1 3) (b 1 3)))
  let c := two (quad c_0 c_1 c_2 c_3) (quad c_4 c_5 c_6 c_7)
  c

/-- `operator &&`, /repo/src/util/v8/v8_avx2.h:1267-1280,1288. -/
def iland (a b : Reg 2 Word) : Reg 2 Word :=
  let c_0 := -(Word.bit ((a 0 0 != 0) && (b 0 0 != 0)))
  let c_1 := -(Word.bit ((a 0 1 != 0) && (b 0 1 != 0)))
  let c_2 := -(Word.bit ((a 0 2 != 0) && (b 0 2 != 0)))
  let c_3 := -(Word.bit ((a 0 3 != 0) && (b 0 3 != 0)))
  let c_4 := -(Word.bit ((a 1 0 != 0) && (b 1 0 != 0)))
  let c_5 := -(Word.bit ((a 1 1 != 0) && (b 1 1 != 0)))
  let c_6 := -(Word.bit ((a 1 2 != 0) && (b 1 2 != 0)))
  let c_7 := -(Word.bit ((a 1 3 != 0) && (b 1 3 != 0)))
  let c := two (quad c_0 c_1 c_2 c_3) (quad c_4 c_5 c_6 c_7)
  c

/-- `operator ||`, /repo/src/util/v8/v8_avx2.h:1267-1280,1289. -/
def ilor (a b : Reg 2 Word) : Reg 2 Word :=
  let c_0 := -(Word.bit ((a 0 0 != 0) || (b 0 0 != 0)))
  let c_1 := -(Word.bit ((a 0 1 != 0) || (b 0 1 != 0)))
  let c_2 := -(Word.bit ((a 0 2 != 0) || (b 0 2 != 0)))
  let c_3 := -(Word.bit ((a 0 3 != 0) || (b 0 3 != 0)))
  let c_4 := -(Word.bit ((a 1 0 != 0) || (b 1 0 != 0)))
  let c_5 := -(Word.bit ((a 1 1 != 0) || (b 1 1 != 0)))
  let c_6 := -(Word.bit ((a 1 2 != 0) || (b 1 2 != 0)))
  let c_7 := -(Word.bit ((a 1 3 != 0) || (b 1 3 != 0)))
  let c := two (quad c_0 c_1 c_2 c_3) (quad c_4 c_5 c_6 c_7)
  c

/-- `abs`, /repo/src/util/v8/v8_avx2.h:1295-1309. -/
def abs (a : Reg 2 Word) : Reg 2 Word :=
  let b_0 := if Word.ige (a 0 0) (0 : Word) then a 0 0 else -(a 0 0)
  let b_1 := if Word.ige (a 0 1) (0 : Word) then a 0 1 else -(a 0 1)
  let b_2 := if Word.ige (a 0 2) (0 : Word) then a 0 2 else -(a 0 2)
  let b_3 := if Word.ige (a 0 3) (0 : Word) then a 0 3 else -(a 0 3)
  let b_4 := if Word.ige (a 1 0) (0 : Word) then a 1 0 else -(a 1 0)
  let b_5 := if Word.ige (a 1 1) (0 : Word) then a 1 1 else -(a 1 1)
  let b_6 := if Word.ige (a 1 2) (0 : Word) then a 1 2 else -(a 1 2)
  let b_7 := if Word.ige (a 1 3) (0 : Word) then a 1 3 else -(a 1 3)
  let b := two (quad b_0 b_1 b_2 b_3) (quad b_4 b_5 b_6 b_7)
  b

/-- `czero`, /repo/src/util/v8/v8_avx2.h:1311-1318. -/
def czero (c a : Reg 2 Word) : Reg 2 Word :=
  let b := lift2 Word.andnot c a
  b

/-- `notczero`, /repo/src/util/v8/v8_avx2.h:1320-1327. -/
def notczero (c a : Reg 2 Word) : Reg 2 Word :=
  let b := lift2 Word.and c a
  b

/-- `merge`, /repo/src/util/v8/v8_avx2.h:1329-1339. -/
def merge (c t f : Reg 2 Word) : Reg 2 Word :=
  let c_v := c
  let tf := lift2 Word.or (lift2 Word.andnot c_v f) (lift2 Word.and c_v t)
  tf

/-- `operator +=`, /repo/src/util/v8/v8_avx2.h:1443-1448,1456. -/
def fadd_to (F : Arith W) (a b : Reg 2 W) : Reg 2 W :=
  let a := lift2 F.add a b
  a

/-- `operator -=`, /repo/src/util/v8/v8_avx2.h:1443-1448,1457. -/
def fsub_to (F : Arith W) (a b : Reg 2 W) : Reg 2 W :=
  let a := lift2 F.sub a b
  a

/-- `operator *=`, /repo/src/util/v8/v8_avx2.h:1443-1448,1458. -/
def fmul_to (F : Arith W) (a b : Reg 2 W) : Reg 2 W :=
  let a := lift2 F.mul a b
  a

/-- `operator /=`, /repo/src/util/v8/v8_avx2.h:1443-1448,1459. -/
def fdiv_to (F : Arith W) (a b : Reg 2 W) : Reg 2 W :=
  let a := lift2 F.div a b
  a

/-- `operator -`, /repo/src/util/v8/v8_avx2.h:1487-1494. -/
def fneg (F : Arith W) (a : Reg 2 W) : Reg 2 W :=
  let b := lift2 F.sub (set1 F.zero : Reg 2 _) a
  b

/-- `operator !`, /repo/src/util/v8/v8_avx2.h:1496-1503. -/
def flnot (a : Reg 2 Word) : Reg 2 Word :=
  let b := lift2 (Word.cmp Word.feq) (set1 (0 : Word) : Reg 2 _) a
  b

/-- `operator ++`, /repo/src/util/v8/v8_avx2.h:1507-1516. -/
def preinc (F : Arith W) (a : Reg 2 W) : Reg 2 W × Reg 2 W :=
  let t := lift2 F.add a (set1 F.one : Reg 2 _)
  let a := t
  let b := t
  (a, b)

/-- `operator --`, /repo/src/util/v8/v8_avx2.h:1518-1527. -/
def predec (F : Arith W) (a : Reg 2 W) : Reg 2 W × Reg 2 W :=
  let t := lift2 F.sub a (set1 F.one : Reg 2 _)
  let a := t
  let b := t
  (a, b)

/-- `operator ++`, /repo/src/util/v8/v8_avx2.h:1531-1540. -/
def postinc (F : Arith W) (a : Reg 2 W) : Reg 2 W × Reg 2 W :=
  let a_v := a
  let a := lift2 F.add a_v (set1 F.one : Reg 2 _)
  let b := a_v
  (a, b)

/-- `operator --`, /repo/src/util/v8/v8_avx2.h:1542-1551. -/
def postdec (F : Arith W) (a : Reg 2 W) : Reg 2 W × Reg 2 W :=
  let a_v := a
  let a := lift2 F.sub a_v (set1 F.one : Reg 2 _)
  let b := a_v
  (a, b)

/-- `operator +`, /repo/src/util/v8/v8_avx2.h:1555-1561,1563. -/
def fadd (F : Arith W) (a b : Reg 2 W) : Reg 2 W :=
  let c := lift2 F.add a b
  c

/-- `operator -`, /repo/src/util/v8/v8_avx2.h:1555-1561,1564. -/
def fsub (F : Arith W) (a b : Reg 2 W) : Reg 2 W :=
  let c := lift2 F.sub a b
  c

/-- `operator *`, /repo/src/util/v8/v8_avx2.h:1555-1561,1565. -/
def fmul (F : Arith W) (a b : Reg 2 W) : Reg 2 W :=
  let c := lift2 F.mul a b
  c

/-- `operator /`, /repo/src/util/v8/v8_avx2.h:1555-1561,1566. -/
def fdiv (F : Arith W) (a b : Reg 2 W) : Reg 2 W :=
  let c := lift2 F.div a b
  c

/-- `operator <`, /repo/src/util/v8/v8_avx2.h:1572-1578,1580. -/
def flt (a b : Reg 2 Word) : Reg 2 Word :=
  let c := lift2 (Word.cmp Word.flt) a b
  c

/-- `operator >`, /repo/src/util/v8/v8_avx2.h:1572-1578,1581. -/
def fgt (a b : Reg 2 Word) : Reg 2 Word :=
  let c := lift2 (Word.cmp Word.fgt) a b
  c

/-- `operator ==`, /repo/src/util/v8/v8_avx2.h:1572-1578,1582. -/
def feq (a b : Reg 2 Word) : Reg 2 Word :=
  let c := lift2 (Word.cmp Word.feq) a b
  c

/-- `operator !=`, /repo/src/util/v8/v8_avx2.h:1572-1578,1583. -/
def fne (a b : Reg 2 Word) : Reg 2 Word :=
  let c := lift2 (Word.cmp Word.fneO) a b
  c

/-- `operator <=`, /repo/src/util/v8/v8_avx2.h:1572-1578,1584. -/
def fle (a b : Reg 2 Word) : Reg 2 Word :=
  let c := lift2 (Word.cmp Word.fle) a b
  c

/-- `operator >=`, /repo/src/util/v8/v8_avx2.h:1572-1578,1585. -/
def fge (a b : Reg 2 Word) : Reg 2 Word :=
  let c := lift2 (Word.cmp Word.fge) a b
  c

/-- `operator &&`, /repo/src/util/v8/v8_avx2.h:1587-1596. -/
def fland (a b : Reg 2 Word) : Reg 2 Word :=
  let vzero := (set1 (0 : Word) : Reg 2 _)
  let c := lift2 Word.and (lift2 (Word.cmp Word.fneO) a vzero) (lift2 (Word.cmp Word.fneO) b vzero)
  c

/-- `operator ||`, /repo/src/util/v8/v8_avx2.h:1598-1607. -/
def flor (a b : Reg 2 Word) : Reg 2 Word :=
  let vzero := (set1 (0 : Word) : Reg 2 _)
  let c := lift2 Word.or (lift2 (Word.cmp Word.fneO) a vzero) (lift2 (Word.cmp Word.fneO) b vzero)
  c

/-- `fabs`, /repo/src/util/v8/v8_avx2.h:1649-1656. -/
def fabs (a : Reg 2 Word) : Reg 2 Word :=
  let b := lift2 Word.andnot (set1 Word.sign : Reg 2 _) a
  b

/-- `sqrt`, /repo/src/util/v8/v8_avx2.h:1658-1665. -/
def sqrt (F : Arith W) (a : Reg 2 W) : Reg 2 W :=
  let b := lift1 F.sqrt a
  b

/-- `copysign`, /repo/src/util/v8/v8_avx2.h:1667-1676. -/
def copysign (a b : Reg 2 Word) : Reg 2 Word :=
  let t := (set1 Word.sign : Reg 2 _)
  let c := lift2 Word.or (lift2 Word.and t b) (lift2 Word.andnot t a)
  c

/-- `rsqrt`, /repo/src/util/v8/v8_avx2.h:1710-1726. -/
def rsqrt (F : Arith W) (a : Reg 2 W) : Reg 2 W :=
  let a_v := a
  let b_v := lift1 F.rsqrtE a_v
  let b := lift2 F.add b_v (lift2 F.mul (set1 F.half : Reg 2 _) (lift2 F.sub b_v (lift2 F.mul a_v (lift2 F.mul b_v (lift2 F.mul b_v b_v)))))
  b

/-- `rcp`, /repo/src/util/v8/v8_avx2.h:1778-1788. -/
def rcp (F : Arith W) (a : Reg 2 W) : Reg 2 W :=
  let a_v := a
  let b_v := lift1 F.rcpE a_v
  let b := lift2 F.sub (lift2 F.add b_v b_v) (lift2 F.mul a_v (lift2 F.mul b_v b_v))
  b

/-- `fma`, /repo/src/util/v8/v8_avx2.h:1801-1808. -/
def fma (F : Arith W) (a b c : Reg 2 W) : Reg 2 W :=
  let d := lift3 F.fmadd a b c
  d

/-- `fms`, /repo/src/util/v8/v8_avx2.h:1810-1817. -/
def fms (F : Arith W) (a b c : Reg 2 W) : Reg 2 W :=
  let d := lift3 F.fmsub a b c
  d

/-- `fnms`, /repo/src/util/v8/v8_avx2.h:1819-1826. -/
def fnms (F : Arith W) (a b c : Reg 2 W) : Reg 2 W :=
  let d := lift3 F.fnmadd a b c
  d

/-- `clear_bits`, /repo/src/util/v8/v8_avx2.h:1828-1835. -/
def clear_bits (m a : Reg 2 Word) : Reg 2 Word :=
  let b := lift2 Word.andnot m a
  b

/-- `set_bits`, /repo/src/util/v8/v8_avx2.h:1837-1844. -/
def set_bits (m a : Reg 2 Word) : Reg 2 Word :=
  let b := lift2 Word.or m a
  b

/-- `toggle_bits`, /repo/src/util/v8/v8_avx2.h:1846-1853. -/
def toggle_bits (m a : Reg 2 Word) : Reg 2 Word :=
  let b := lift2 Word.xor m a
  b

/-- `increment_8x1`, /repo/src/util/v8/v8_avx2.h:1855-1858. -/
def increment (F : Arith W) (m : Memory W) (p : ℕ) (a : Reg 2 W) : Option (Memory W) := do
  let m ← store2 m p (lift2 F.add (← load2 m p) a)
  return m

/-- `decrement_8x1`, /repo/src/util/v8/v8_avx2.h:1860-1863. -/
def decrement (F : Arith W) (m : Memory W) (p : ℕ) (a : Reg 2 W) : Option (Memory W) := do
  let m ← store2 m p (lift2 F.sub (← load2 m p) a)
  return m

/-- `scale_8x1`, /repo/src/util/v8/v8_avx2.h:1865-1868. -/
def scale (F : Arith W) (m : Memory W) (p : ℕ) (a : Reg 2 W) : Option (Memory W) := do
  let m ← store2 m p (lift2 F.mul (← load2 m p) a)
  return m

end Verif.Vector.V8Avx2
