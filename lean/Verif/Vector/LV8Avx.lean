import Verif.Vector.Lane

/-! Operators and functions of /repo/src/util/v8/v8_avx.h that compute; written by `tools/gen_lanes.py`. -/
namespace Verif.Vector.V8Avx

variable {W : Type}

/-- `any`, /repo/src/util/v8/v8_avx.h:193-197. -/
def any (a : Reg 2 Word) : Bool :=
  (((((((a 0 0 != 0) || (a 0 1 != 0)) || (a 0 2 != 0)) || (a 0 3 != 0)) || (a 1 0 != 0)) || (a 1 1 != 0)) || (a 1 2 != 0)) || (a 1 3 != 0)

/-- `all`, /repo/src/util/v8/v8_avx.h:199-203. -/
def all (a : Reg 2 Word) : Bool :=
  (((((((a 0 0 != 0) && (a 0 1 != 0)) && (a 0 2 != 0)) && (a 0 3 != 0)) && (a 1 0 != 0)) && (a 1 1 != 0)) && (a 1 2 != 0)) && (a 1 3 != 0)

/-- `operator +=`, /repo/src/util/v8/v8_avx.h:845-857,865. -/
def iadd_to (a b : Reg 2 Word) : Reg 2 Word :=
  let a_0 := (a 0 0) + (b 0 0)
  let a_1 := (a 0 1) + (b 0 1)
  let a_2 := (a 0 2) + (b 0 2)
  let a_3 := (a 0 3) + (b 0 3)
  let a_4 := (a 1 0) + (b 1 0)
  let a_5 := (a 1 1) + (b 1 1)
  let a_6 := (a 1 2) + (b 1 2)
  let a_7 := (a 1 3) + (b 1 3)
  let a := two (quad a_0 a_1 a_2 a_3) (quad a_4 a_5 a_6 a_7)
  a

/-- `operator -=`, /repo/src/util/v8/v8_avx.h:845-857,866. -/
def isub_to (a b : Reg 2 Word) : Reg 2 Word :=
  let a_0 := (a 0 0) - (b 0 0)
  let a_1 := (a 0 1) - (b 0 1)
  let a_2 := (a 0 2) - (b 0 2)
  let a_3 := (a 0 3) - (b 0 3)
  let a_4 := (a 1 0) - (b 1 0)
  let a_5 := (a 1 1) - (b 1 1)
  let a_6 := (a 1 2) - (b 1 2)
  let a_7 := (a 1 3) - (b 1 3)
  let a := two (quad a_0 a_1 a_2 a_3) (quad a_4 a_5 a_6 a_7)
  a

/-- `operator *=`, /repo/src/util/v8/v8_avx.h:845-857,867. -/
def imul_to (a b : Reg 2 Word) : Reg 2 Word :=
  let a_0 := (a 0 0) * (b 0 0)
  let a_1 := (a 0 1) * (b 0 1)
  let a_2 := (a 0 2) * (b 0 2)
  let a_3 := (a 0 3) * (b 0 3)
  let a_4 := (a 1 0) * (b 1 0)
  let a_5 := (a 1 1) * (b 1 1)
  let a_6 := (a 1 2) * (b 1 2)
  let a_7 := (a 1 3) * (b 1 3)
  let a := two (quad a_0 a_1 a_2 a_3) (quad a_4 a_5 a_6 a_7)
  a

/-- `operator ^=`, /repo/src/util/v8/v8_avx.h:871-875. -/
def ixor_to (a b : Reg 2 Word) : Reg 2 Word :=
  let a := lift2 Word.xor a b
  a

/-- `operator &=`, /repo/src/util/v8/v8_avx.h:877-881. -/
def iand_to (a b : Reg 2 Word) : Reg 2 Word :=
  let a := lift2 Word.and a b
  a

/-- `operator |=`, /repo/src/util/v8/v8_avx.h:883-887. -/
def ior_to (a b : Reg 2 Word) : Reg 2 Word :=
  let a := lift2 Word.or a b
  a

/-- `operator -`, /repo/src/util/v8/v8_avx.h:909-922,933. -/
def ineg (a : Reg 2 Word) : Reg 2 Word :=
  let b_0 := -(a 0 0)
  let b_1 := -(a 0 1)
  let b_2 := -(a 0 2)
  let b_3 := -(a 0 3)
  let b_4 := -(a 1 0)
  let b_5 := -(a 1 1)
  let b_6 := -(a 1 2)
  let b_7 := -(a 1 3)
  let b := two (quad b_0 b_1 b_2 b_3) (quad b_4 b_5 b_6 b_7)
  b

/-- `operator !`, /repo/src/util/v8/v8_avx.h:935-949. -/
def ilnot (a : Reg 2 Word) : Reg 2 Word :=
  let b_0 := -(Word.bit (!(a 0 0 != 0)))
  let b_1 := -(Word.bit (!(a 0 1 != 0)))
  let b_2 := -(Word.bit (!(a 0 2 != 0)))
  let b_3 := -(Word.bit (!(a 0 3 != 0)))
  let b_4 := -(Word.bit (!(a 1 0 != 0)))
  let b_5 := -(Word.bit (!(a 1 1 != 0)))
  let b_6 := -(Word.bit (!(a 1 2 != 0)))
  let b_7 := -(Word.bit (!(a 1 3 != 0)))
  let b := two (quad b_0 b_1 b_2 b_3) (quad b_4 b_5 b_6 b_7)
  b

/-- `operator ~`, /repo/src/util/v8/v8_avx.h:951-966. -/
def inot (a : Reg 2 Word) : Reg 2 Word :=
  let u := (-1 : Word)
  let b := lift2 Word.xor a (set1 u : Reg 2 _)
  b

/-- `operator +`, /repo/src/util/v8/v8_avx.h:1016-1029,1031. -/
def iadd (a b : Reg 2 Word) : Reg 2 Word :=
  let c_0 := (a 0 0) + (b 0 0)
  let c_1 := (a 0 1) + (b 0 1)
  let c_2 := (a 0 2) + (b 0 2)
  let c_3 := (a 0 3) + (b 0 3)
  let c_4 := (a 1 0) + (b 1 0)
  let c_5 := (a 1 1) + (b 1 1)
  let c_6 := (a 1 2) + (b 1 2)
  let c_7 := (a 1 3) + (b 1 3)
  let c := two (quad c_0 c_1 c_2 c_3) (quad c_4 c_5 c_6 c_7)
  c

/-- `operator -`, /repo/src/util/v8/v8_avx.h:1016-1029,1032. -/
def isub (a b : Reg 2 Word) : Reg 2 Word :=
  let c_0 := (a 0 0) - (b 0 0)
  let c_1 := (a 0 1) - (b 0 1)
  let c_2 := (a 0 2) - (b 0 2)
  let c_3 := (a 0 3) - (b 0 3)
  let c_4 := (a 1 0) - (b 1 0)
  let c_5 := (a 1 1) - (b 1 1)
  let c_6 := (a 1 2) - (b 1 2)
  let c_7 := (a 1 3) - (b 1 3)
  let c := two (quad c_0 c_1 c_2 c_3) (quad c_4 c_5 c_6 c_7)
  c

/-- `operator *`, /repo/src/util/v8/v8_avx.h:1016-1029,1033. -/
def imul (a b : Reg 2 Word) : Reg 2 Word :=
  let c_0 := (a 0 0) * (b 0 0)
  let c_1 := (a 0 1) * (b 0 1)
  let c_2 := (a 0 2) * (b 0 2)
  let c_3 := (a 0 3) * (b 0 3)
  let c_4 := (a 1 0) * (b 1 0)
  let c_5 := (a 1 1) * (b 1 1)
  let c_6 := (a 1 2) * (b 1 2)
  let c_7 := (a 1 3) * (b 1 3)
  let c := two (quad c_0 c_1 c_2 c_3) (quad c_4 c_5 c_6 c_7)
  c

/-- `operator ^`, /repo/src/util/v8/v8_avx.h:1037-1044. -/
def ixor (a b : Reg 2 Word) : Reg 2 Word :=
  let c := lift2 Word.xor a b
  c

/-- `operator &`, /repo/src/util/v8/v8_avx.h:1046-1053. -/
def iand (a b : Reg 2 Word) : Reg 2 Word :=
  let c := lift2 Word.and a b
  c

/-- `operator |`, /repo/src/util/v8/v8_avx.h:1055-1062. -/
def ior (a b : Reg 2 Word) : Reg 2 Word :=
  let c := lift2 Word.or a b
  c

/-- `operator <`, /repo/src/util/v8/v8_avx.h:1071-1084,1086. -/
def ilt (a b : Reg 2 Word) : Reg 2 Word :=
  let c_0 := -(Word.bit (Word.ilt (a 0 0) (b 0 0)))
  let c_1 := -(Word.bit (Word.ilt (a 0 1) (b 0 1)))
  let c_2 := -(Word.bit (Word.ilt (a 0 2) (b 0 2)))
  let c_3 := -(Word.bit (Word.ilt (a 0 3) (b 0 3)))
  let c_4 := -(Word.bit (Word.ilt (a 1 0) (b 1 0)))
  let c_5 := -(Word.bit (Word.ilt (a 1 1) (b 1 1)))
  let c_6 := -(Word.bit (Word.ilt (a 1 2) (b 1 2)))
  let c_7 := -(Word.bit (Word.ilt (a 1 3) (b 1 3)))
  let c := two (quad c_0 c_1 c_2 c_3) (quad c_4 c_5 c_6 c_7)
  c

/-- `operator >`, /repo/src/util/v8/v8_avx.h:1071-1084,1087. -/
def igt (a b : Reg 2 Word) : Reg 2 Word :=
  let c_0 := -(Word.bit (Word.igt (a 0 0) (b 0 0)))
  let c_1 := -(Word.bit (Word.igt (a 0 1) (b 0 1)))
  let c_2 := -(Word.bit (Word.igt (a 0 2) (b 0 2)))
  let c_3 := -(Word.bit (Word.igt (a 0 3) (b 0 3)))
  let c_4 := -(Word.bit (Word.igt (a 1 0) (b 1 0)))
  let c_5 := -(Word.bit (Word.igt (a 1 1) (b 1 1)))
  let c_6 := -(Word.bit (Word.igt (a 1 2) (b 1 2)))
  let c_7 := -(Word.bit (Word.igt (a 1 3) (b 1 3)))
  let c := two (quad c_0 c_1 c_2 c_3) (quad c_4 c_5 c_6 c_7)
  c

/-- `operator ==`, /repo/src/util/v8/v8_avx.h:1071-1084,1088. -/
def ieq (a b : Reg 2 Word) : Reg 2 Word :=
  let c_0 := -(Word.bit (Word.ieq (a 0 0) (b 0 0)))
  let c_1 := -(Word.bit (Word.ieq (a 0 1) (b 0 1)))
  let c_2 := -(Word.bit (Word.ieq (a 0 2) (b 0 2)))
  let c_3 := -(Word.bit (Word.ieq (a 0 3) (b 0 3)))
  let c_4 := -(Word.bit (Word.ieq (a 1 0) (b 1 0)))
  let c_5 := -(Word.bit (Word.ieq (a 1 1) (b 1 1)))
  let c_6 := -(Word.bit (Word.ieq (a 1 2) (b 1 2)))
  let c_7 := -(Word.bit (Word.ieq (a 1 3) (b 1 3)))
  let c := two (quad c_0 c_1 c_2 c_3) (quad c_4 c_5 c_6 c_7)
  c

/-- `operator !=`, /repo/src/util/v8/v8_avx.h:1071-1084,1089. -/
def ine (a b : Reg 2 Word) : Reg 2 Word :=
  let c_0 := -(Word.bit (Word.ine (a 0 0) (b 0 0)))
  let c_1 := -(Word.bit (Word.ine (a 0 1) (b 0 1)))
  let c_2 := -(Word.bit (Word.ine (a 0 2) (b 0 2)))
  let c_3 := -(Word.bit (Word.ine (a 0 3) (b 0 3)))
  let c_4 := -(Word.bit (Word.ine (a 1 0) (b 1 0)))
  let c_5 := -(Word.bit (Word.ine (a 1 1) (b 1 1)))
  let c_6 := -(Word.bit (Word.ine (a 1 2) (b 1 2)))
  let c_7 := -(Word.bit (Word.ine (a 1 3) (b 1 3)))
  let c := two (quad c_0 c_1 c_2 c_3) (quad c_4 c_5 c_6 c_7)
  c

/-- `operator <=`, /repo/src/util/v8/v8_avx.h:1071-1084,1090. -/
def ile (a b : Reg 2 Word) : Reg 2 Word :=
  let c_0 := -(Word.bit (Word.ile (a 0 0) (b 0 0)))
  let c_1 := -(Word.bit (Word.ile (a 0 1) (b 0 1)))
  let c_2 := -(Word.bit (Word.ile (a 0 2) (b 0 2)))
  let c_3 := -(Word.bit (Word.ile (a 0 3) (b 0 3)))
  let c_4 := -(Word.bit (Word.ile (a 1 0) (b 1 0)))
  let c_5 := -(Word.bit (Word.ile (a 1 1) (b 1 1)))
  let c_6 := -(Word.bit (Word.ile (a 1 2) (b 1 2)))
  let c_7 := -(Word.bit (Word.ile (a 1 3) (b 1 3)))
  let c := two (quad c_0 c_1 c_2 c_3) (quad c_4 c_5 c_6 c_7)
  c

/-- `operator >=`, /repo/src/util/v8/v8_avx.h:1071-1084,1091. -/
def ige (a b : Reg 2 Word) : Reg 2 Word :=
  let c_0 := -(Word.bit (Word.ige (a 0 0) (b 0 0)))
  let c_1 := -(Word.bit (Word.ige (a 0 1) (b 0 1)))
  let c_2 := -(Word.bit (Word.ige (a 0 2) (b 0 2)))
  let c_3 := -(Word.bit (Word.ige (a 0 3) (b 0 3)))
  let c_4 := -(Word.bit (Word.ige (a 1 0) (b 1 0)))
  let c_5 := -(Word.bit (Word.ige (a 1 1) (b 1 1)))
  let c_6 := -(Word.bit (Word.ige (a 1 2) (b 1 2)))
  let c_7 := -(Word.bit (Word.ige (a 1 3) (b 1 3)))
  let c := two (quad c_0 c_1 c_2 c_3) (quad c_4 c_5 c_6 c_7)
  c

/-- `operator &&`, /repo/src/util/v8/v8_avx.h:1071-1084,1092. -/
def iland (a b : Reg 2 Word) : Reg 2 Word :=
  let c_0 := -(Word.bit ((a 0 0 != 0) && (b 0 0 != 0)))
  let c_1 := -(Word.bit ((a 0 1 != 0) && (b 0 1 != 0)))
  let c_2 := -(Word.bit ((a 0 2 != 0) && (b 0 2 != 0)))
  let c_3 := -(Word.bit ((a 0 3 != 0) && (b 0 3 != 0)))
  let c_4 := -(Word.bit ((a 1 0 != 0) && (b 1 0 != 0)))
  let c_5 := -(Word.bit ((a 1 1 != 0) && (b 1 1 != 0)))
  let c_6 := -(Word.bit ((a 1 2 != 0) && (b 1 2 != 0)))
  let c_7 := -(Word.bit ((a 1 3 != 0) && (b 1 3 != 0)))
  let c := two (quad c_0 c_1 c_2 c_3) (quad c_4 c_5 c_6 c_7)
  c

/-- `operator ||`, /repo/src/util/v8/v8_avx.h:1071-1084,1093. -/
def ilor (a b : Reg 2 Word) : Reg 2 Word :=
  let c_0 := -(Word.bit ((a 0 0 != 0) || (b 0 0 != 0)))
  let c_1 := -(Word.bit ((a 0 1 != 0) || (b 0 1 != 0)))
  let c_2 := -(Word.bit ((a 0 2 != 0) || (b 0 2 != 0)))
  let c_3 := -(Word.bit ((a 0 3 != 0) || (b 0 3 != 0)))
  let c_4 := -(Word.bit ((a 1 0 != 0) || (b 1 0 != 0)))
  let c_5 := -(Word.bit ((a 1 1 != 0) || (b 1 1 != 0)))
  let c_6 := -(Word.bit ((a 1 2 != 0) || (b 1 2 != 0)))
  let c_7 := -(Word.bit ((a 1 3 != 0) || (b 1 3 != 0)))
  let c := two (quad c_0 c_1 c_2 c_3) (quad c_4 c_5 c_6 c_7)
  c

/-- `abs`, /repo/src/util/v8/v8_avx.h:1099-1113. -/
def abs (a : Reg 2 Word) : Reg 2 Word :=
  let b_0 := if Word.ige (a 0 0) (0 : Word) then a 0 0 else -(a 0 0)
  let b_1 := if Word.ige (a 0 1) (0 : Word) then a 0 1 else -(a 0 1)
  let b_2 := if Word.ige (a 0 2) (0 : Word) then a 0 2 else -(a 0 2)
  let b_3 := if Word.ige (a 0 3) (0 : Word) then a 0 3 else -(a 0 3)
  let b_4 := if Word.ige (a 1 0) (0 : Word) then a 1 0 else -(a 1 0)
  let b_5 := if Word.ige (a 1 1) (0 : Word) then a 1 1 else -(a 1 1)
  let b_6 := if Word.ige (a 1 2) (0 : Word) then a 1 2 else -(a 1 2)
  let b_7 := if Word.ige (a 1 3) (0 : Word) then a 1 3 else -(a 1 3)
  let b := two (quad b_0 b_1 b_2 b_3) (quad b_4 b_5 b_6 b_7)
  b

/-- `czero`, /repo/src/util/v8/v8_avx.h:1115-1122. -/
def czero (c a : Reg 2 Word) : Reg 2 Word :=
  let b := lift2 Word.andnot c a
  b

/-- `notczero`, /repo/src/util/v8/v8_avx.h:1124-1131. -/
def notczero (c a : Reg 2 Word) : Reg 2 Word :=
  let b := lift2 Word.and c a
  b

/-- `merge`, /repo/src/util/v8/v8_avx.h:1133-1143. -/
def merge (c t f : Reg 2 Word) : Reg 2 Word :=
  let c_v := c
  let tf := lift2 Word.or (lift2 Word.andnot c_v f) (lift2 Word.and c_v t)
  tf

/-- `operator +=`, /repo/src/util/v8/v8_avx.h:1247-1252,1260. -/
def fadd_to (F : Arith W) (a b : Reg 2 W) : Reg 2 W :=
  let a := lift2 F.add a b
  a

/-- `operator -=`, /repo/src/util/v8/v8_avx.h:1247-1252,1261. -/
def fsub_to (F : Arith W) (a b : Reg 2 W) : Reg 2 W :=
  let a := lift2 F.sub a b
  a

/-- `operator *=`, /repo/src/util/v8/v8_avx.h:1247-1252,1262. -/
def fmul_to (F : Arith W) (a b : Reg 2 W) : Reg 2 W :=
  let a := lift2 F.mul a b
  a

/-- `operator /=`, /repo/src/util/v8/v8_avx.h:1247-1252,1263. -/
def fdiv_to (F : Arith W) (a b : Reg 2 W) : Reg 2 W :=
  let a := lift2 F.div a b
  a

/-- `operator -`, /repo/src/util/v8/v8_avx.h:1291-1298. -/
def fneg (F : Arith W) (a : Reg 2 W) : Reg 2 W :=
  let b := lift2 F.sub (set1 F.zero : Reg 2 _) a
  b

/-- `operator !`, /repo/src/util/v8/v8_avx.h:1300-1307. -/
def flnot (a : Reg 2 Word) : Reg 2 Word :=
  let b := lift2 (Word.cmp Word.feq) (set1 (0 : Word) : Reg 2 _) a
  b

/-- `operator ++`, /repo/src/util/v8/v8_avx.h:1311-1320. -/
def preinc (F : Arith W) (a : Reg 2 W) : Reg 2 W × Reg 2 W :=
  let t := lift2 F.add a (set1 F.one : Reg 2 _)
  let a := t
  let b := t
  (a, b)

/-- `operator --`, /repo/src/util/v8/v8_avx.h:1322-1331. -/
def predec (F : Arith W) (a : Reg 2 W) : Reg 2 W × Reg 2 W :=
  let t := lift2 F.sub a (set1 F.one : Reg 2 _)
  let a := t
  let b := t
  (a, b)

/-- `operator ++`, /repo/src/util/v8/v8_avx.h:1335-1344. -/
def postinc (F : Arith W) (a : Reg 2 W) : Reg 2 W × Reg 2 W :=
  let a_v := a
  let a := lift2 F.add a_v (set1 F.one : Reg 2 _)
  let b := a_v
  (a, b)

/-- `operator --`, /repo/src/util/v8/v8_avx.h:1346-1355. -/
def postdec (F : Arith W) (a : Reg 2 W) : Reg 2 W × Reg 2 W :=
  let a_v := a
  let a := lift2 F.sub a_v (set1 F.one : Reg 2 _)
  let b := a_v
  (a, b)

/-- `operator +`, /repo/src/util/v8/v8_avx.h:1359-1365,1367. -/
def fadd (F : Arith W) (a b : Reg 2 W) : Reg 2 W :=
  let c := lift2 F.add a b
  c

/-- `operator -`, /repo/src/util/v8/v8_avx.h:1359-1365,1368. -/
def fsub (F : Arith W) (a b : Reg 2 W) : Reg 2 W :=
  let c := lift2 F.sub a b
  c

/-- `operator *`, /repo/src/util/v8/v8_avx.h:1359-1365,1369. -/
def fmul (F : Arith W) (a b : Reg 2 W) : Reg 2 W :=
  let c := lift2 F.mul a b
  c

/-- `operator /`, /repo/src/util/v8/v8_avx.h:1359-1365,1370. -/
def fdiv (F : Arith W) (a b : Reg 2 W) : Reg 2 W :=
  let c := lift2 F.div a b
  c

/-- `operator <`, /repo/src/util/v8/v8_avx.h:1376-1382,1384. -/
def flt (a b : Reg 2 Word) : Reg 2 Word :=
  let c := lift2 (Word.cmp Word.flt) a b
  c

/-- `operator >`, /repo/src/util/v8/v8_avx.h:1376-1382,1385. -/
def fgt (a b : Reg 2 Word) : Reg 2 Word :=
  let c := lift2 (Word.cmp Word.fgt) a b
  c

/-- `operator ==`, /repo/src/util/v8/v8_avx.h:1376-1382,1386. -/
def feq (a b : Reg 2 Word) : Reg 2 Word :=
  let c := lift2 (Word.cmp Word.feq) a b
  c

/-- `operator !=`, /repo/src/util/v8/v8_avx.h:1376-1382,1387. -/
def fne (a b : Reg 2 Word) : Reg 2 Word :=
  let c := lift2 (Word.cmp Word.fneO) a b
  c

/-- `operator <=`, /repo/src/util/v8/v8_avx.h:1376-1382,1388. -/
def fle (a b : Reg 2 Word) : Reg 2 Word :=
  let c := lift2 (Word.cmp Word.fle) a b
  c

/-- `operator >=`, /repo/src/util/v8/v8_avx.h:1376-1382,1389. -/
def fge (a b : Reg 2 Word) : Reg 2 Word :=
  let c := lift2 (Word.cmp Word.fge) a b
  c

/-- `operator &&`, /repo/src/util/v8/v8_avx.h:1391-1400. -/
def fland (a b : Reg 2 Word) : Reg 2 Word :=
  let vzero := (set1 (0 : Word) : Reg 2 _)
  let c := lift2 Word.and (lift2 (Word.cmp Word.fneO) a vzero) (lift2 (Word.cmp Word.fneO) b vzero)
  c

/-- `operator ||`, /repo/src/util/v8/v8_avx.h:1402-1411. -/
def flor (a b : Reg 2 Word) : Reg 2 Word :=
  let vzero := (set1 (0 : Word) : Reg 2 _)
  let c := lift2 Word.or (lift2 (Word.cmp Word.fneO) a vzero) (lift2 (Word.cmp Word.fneO) b vzero)
  c

/-- `fabs`, /repo/src/util/v8/v8_avx.h:1453-1460. -/
def fabs (a : Reg 2 Word) : Reg 2 Word :=
  let b := lift2 Word.andnot (set1 Word.sign : Reg 2 _) a
  b

/-- `sqrt`, /repo/src/util/v8/v8_avx.h:1462-1469. -/
def sqrt (F : Arith W) (a : Reg 2 W) : Reg 2 W :=
  let b := lift1 F.sqrt a
  b

/-- `copysign`, /repo/src/util/v8/v8_avx.h:1471-1480. -/
def copysign (a b : Reg 2 Word) : Reg 2 Word :=
  let t := (set1 Word.sign : Reg 2 _)
  let c := lift2 Word.or (lift2 Word.and t b) (lift2 Word.andnot t a)
  c

/-- `rsqrt`, /repo/src/util/v8/v8_avx.h:1514-1530. -/
def rsqrt (F : Arith W) (a : Reg 2 W) : Reg 2 W :=
  let a_v := a
  let b_v := lift1 F.rsqrtE a_v
  let b := lift2 F.add b_v (lift2 F.mul (set1 F.half : Reg 2 _) (lift2 F.sub b_v (lift2 F.mul a_v (lift2 F.mul b_v (lift2 F.mul b_v b_v)))))
  b

/-- `rcp`, /repo/src/util/v8/v8_avx.h:1582-1592. -/
def rcp (F : Arith W) (a : Reg 2 W) : Reg 2 W :=
  let a_v := a
  let b_v := lift1 F.rcpE a_v
  let b := lift2 F.sub (lift2 F.add b_v b_v) (lift2 F.mul a_v (lift2 F.mul b_v b_v))
  b

/-- `fma`, /repo/src/util/v8/v8_avx.h:1605-1614. -/
def fma (F : Arith W) (a b c : Reg 2 W) : Reg 2 W :=
  let d := lift2 F.add (lift2 F.mul a b) c
  d

/-- `fms`, /repo/src/util/v8/v8_avx.h:1616-1625. -/
def fms (F : Arith W) (a b c : Reg 2 W) : Reg 2 W :=
  let d := lift2 F.sub (lift2 F.mul a b) c
  d

/-- `fnms`, /repo/src/util/v8/v8_avx.h:1627-1636. -/
def fnms (F : Arith W) (a b c : Reg 2 W) : Reg 2 W :=
  let d := lift2 F.sub c (lift2 F.mul a b)
  d

/-- `clear_bits`, /repo/src/util/v8/v8_avx.h:1638-1645. -/
def clear_bits (m a : Reg 2 Word) : Reg 2 Word :=
  let b := lift2 Word.andnot m a
  b

/-- `set_bits`, /repo/src/util/v8/v8_avx.h:1647-1654. -/
def set_bits (m a : Reg 2 Word) : Reg 2 Word :=
  let b := lift2 Word.or m a
  b

/-- `toggle_bits`, /repo/src/util/v8/v8_avx.h:1656-1663. -/
def toggle_bits (m a : Reg 2 Word) : Reg 2 Word :=
  let b := lift2 Word.xor m a
  b

/-- `increment_8x1`, /repo/src/util/v8/v8_avx.h:1665-1668. -/
def increment (F : Arith W) (m : Memory W) (p : ℕ) (a : Reg 2 W) : Option (Memory W) := do
  let m ← store2 m p (lift2 F.add (← load2 m p) a)
  return m

/-- `decrement_8x1`, /repo/src/util/v8/v8_avx.h:1670-1673. -/
def decrement (F : Arith W) (m : Memory W) (p : ℕ) (a : Reg 2 W) : Option (Memory W) := do
  let m ← store2 m p (lift2 F.sub (← load2 m p) a)
  return m

/-- `scale_8x1`, /repo/src/util/v8/v8_avx.h:1675-1678. -/
def scale (F : Arith W) (m : Memory W) (p : ℕ) (a : Reg 2 W) : Option (Memory W) := do
  let m ← store2 m p (lift2 F.mul (← load2 m p) a)
  return m

end Verif.Vector.V8Avx
