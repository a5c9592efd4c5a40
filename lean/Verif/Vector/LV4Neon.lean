import Verif.Vector.Lane

/-! Operators and functions of /repo/src/util/v4/v4_neon.h that compute; written by `tools/gen_lanes.py`. -/
namespace Verif.Vector.V4Neon

variable {W : Type}

/-- `any`, /repo/src/util/v4/v4_neon.h:187-190. -/
def any (a : Reg 1 Word) : Bool :=
  (((a 0 0 != 0) || (a 0 1 != 0)) || (a 0 2 != 0)) || (a 0 3 != 0)

/-- `all`, /repo/src/util/v4/v4_neon.h:192-195. -/
def all (a : Reg 1 Word) : Bool :=
  (((a 0 0 != 0) && (a 0 1 != 0)) && (a 0 2 != 0)) && (a 0 3 != 0)

/-- `operator +=`, /repo/src/util/v4/v4_neon.h:783-790,792. -/
def iadd_to (a b : Reg 1 Word) : Reg 1 Word :=
  let a_0 := (a 0 0) + (b 0 0)
  let a_1 := (a 0 1) + (b 0 1)
  let a_2 := (a 0 2) + (b 0 2)
  let a_3 := (a 0 3) + (b 0 3)
  let a := one (quad a_0 a_1 a_2 a_3)
  a

/-- `operator -=`, /repo/src/util/v4/v4_neon.h:783-790,793. -/
def isub_to (a b : Reg 1 Word) : Reg 1 Word :=
  let a_0 := (a 0 0) - (b 0 0)
  let a_1 := (a 0 1) - (b 0 1)
  let a_2 := (a 0 2) - (b 0 2)
  let a_3 := (a 0 3) - (b 0 3)
  let a := one (quad a_0 a_1 a_2 a_3)
  a

/-- `operator *=`, /repo/src/util/v4/v4_neon.h:783-790,794. -/
def imul_to (a b : Reg 1 Word) : Reg 1 Word :=
  let a_0 := (a 0 0) * (b 0 0)
  let a_1 := (a 0 1) * (b 0 1)
  let a_2 := (a 0 2) * (b 0 2)
  let a_3 := (a 0 3) * (b 0 3)
  let a := one (quad a_0 a_1 a_2 a_3)
  a

/-- `operator ^=`, /repo/src/util/v4/v4_neon.h:809-814. -/
def ixor_to (a b : Reg 1 Word) : Reg 1 Word :=
  let a := lift2 Word.xor a b
  a

/-- `operator &=`, /repo/src/util/v4/v4_neon.h:816-821. -/
def iand_to (a b : Reg 1 Word) : Reg 1 Word :=
  let a := lift2 Word.and a b
  a

/-- `operator |=`, /repo/src/util/v4/v4_neon.h:823-828. -/
def ior_to (a b : Reg 1 Word) : Reg 1 Word :=
  let a := lift2 Word.or a b
  a

/-- `operator -`, /repo/src/util/v4/v4_neon.h:845-853,856. -/
def ineg (a : Reg 1 Word) : Reg 1 Word :=
  let b_0 := -(a 0 0)
  let b_1 := -(a 0 1)
  let b_2 := -(a 0 2)
  let b_3 := -(a 0 3)
  let b := one (quad b_0 b_1 b_2 b_3)
  b

/-- `operator !`, /repo/src/util/v4/v4_neon.h:858-867. -/
def ilnot (a : Reg 1 Word) : Reg 1 Word :=
  let b_0 := -(Word.bit (!(a 0 0 != 0)))
  let b_1 := -(Word.bit (!(a 0 1 != 0)))
  let b_2 := -(Word.bit (!(a 0 2 != 0)))
  let b_3 := -(Word.bit (!(a 0 3 != 0)))
  let b := one (quad b_0 b_1 b_2 b_3)
  b

/-- `operator ~`, /repo/src/util/v4/v4_neon.h:845-853,869. -/
def inot (a : Reg 1 Word) : Reg 1 Word :=
  let b_0 := ~~~(a 0 0)
  let b_1 := ~~~(a 0 1)
  let b_2 := ~~~(a 0 2)
  let b_3 := ~~~(a 0 3)
  let b := one (quad b_0 b_1 b_2 b_3)
  b

/-- `operator +`, /repo/src/util/v4/v4_neon.h:909-917,919. -/
def iadd (a b : Reg 1 Word) : Reg 1 Word :=
  let c_0 := (a 0 0) + (b 0 0)
  let c_1 := (a 0 1) + (b 0 1)
  let c_2 := (a 0 2) + (b 0 2)
  let c_3 := (a 0 3) + (b 0 3)
  let c := one (quad c_0 c_1 c_2 c_3)
  c

/-- `operator -`, /repo/src/util/v4/v4_neon.h:909-917,920. -/
def isub (a b : Reg 1 Word) : Reg 1 Word :=
  let c_0 := (a 0 0) - (b 0 0)
  let c_1 := (a 0 1) - (b 0 1)
  let c_2 := (a 0 2) - (b 0 2)
  let c_3 := (a 0 3) - (b 0 3)
  let c := one (quad c_0 c_1 c_2 c_3)
  c

/-- `operator *`, /repo/src/util/v4/v4_neon.h:909-917,921. -/
def imul (a b : Reg 1 Word) : Reg 1 Word :=
  let c_0 := (a 0 0) * (b 0 0)
  let c_1 := (a 0 1) * (b 0 1)
  let c_2 := (a 0 2) * (b 0 2)
  let c_3 := (a 0 3) * (b 0 3)
  let c := one (quad c_0 c_1 c_2 c_3)
  c

/-- `operator ^`, /repo/src/util/v4/v4_neon.h:929-936. -/
def ixor (a b : Reg 1 Word) : Reg 1 Word :=
  let c := lift2 Word.xor a b
  c

/-- `operator &`, /repo/src/util/v4/v4_neon.h:938-945. -/
def iand (a b : Reg 1 Word) : Reg 1 Word :=
  let c := lift2 Word.and a b
  c

/-- `operator |`, /repo/src/util/v4/v4_neon.h:947-954. -/
def ior (a b : Reg 1 Word) : Reg 1 Word :=
  let c := lift2 Word.or a b
  c

/-- `operator <`, /repo/src/util/v4/v4_neon.h:958-966,968. -/
def ilt (a b : Reg 1 Word) : Reg 1 Word :=
  let c_0 := -(Word.bit (Word.ilt (a 0 0) (b 0 0)))
  let c_1 := -(Word.bit (Word.ilt (a 0 1) (b 0 1)))
  let c_2 := -(Word.bit (Word.ilt (a 0 2) (b 0 2)))
  let c_3 := -(Word.bit (Word.ilt (a 0 3) (b 0 3)))
  let c := one (quad c_0 c_1 c_2 c_3)
  c

/-- `operator >`, /repo/src/util/v4/v4_neon.h:958-966,969. -/
def igt (a b : Reg 1 Word) : Reg 1 Word :=
  let c_0 := -(Word.bit (Word.igt (a 0 0) (b 0 0)))
  let c_1 := -(Word.bit (Word.igt (a 0 1) (b 0 1)))
  let c_2 := -(Word.bit (Word.igt (a 0 2) (b 0 2)))
  let c_3 := -(Word.bit (Word.igt (a 0 3) (b 0 3)))
  let c := one (quad c_0 c_1 c_2 c_3)
  c

/-- `operator ==`, /repo/src/util/v4/v4_neon.h:958-966,970. -/
def ieq (a b : Reg 1 Word) : Reg 1 Word :=
  let c_0 := -(Word.bit (Word.ieq (a 0 0) (b 0 0)))
  let c_1 := -(Word.bit (Word.ieq (a 0 1) (b 0 1)))
  let c_2 := -(Word.bit (Word.ieq (a 0 2) (b 0 2)))
  let c_3 := -(Word.bit (Word.ieq (a 0 3) (b 0 3)))
  let c := one (quad c_0 c_1 c_2 c_3)
  c

/-- `operator !=`, /repo/src/util/v4/v4_neon.h:958-966,971. -/
def ine (a b : Reg 1 Word) : Reg 1 Word :=
  let c_0 := -(Word.bit (Word.ine (a 0 0) (b 0 0)))
  let c_1 := -(Word.bit (Word.ine (a 0 1) (b 0 1)))
  let c_2 := -(Word.bit (Word.ine (a 0 2) (b 0 2)))
  let c_3 := -(Word.bit (Word.ine (a 0 3) (b 0 3)))
  let c := one (quad c_0 c_1 c_2 c_3)
  c

/-- `operator <=`, /repo/src/util/v4/v4_neon.h:958-966,972. -/
def ile (a b : Reg 1 Word) : Reg 1 Word :=
  let c_0 := -(Word.bit (Word.ile (a 0 0) (b 0 0)))
  let c_1 := -(Word.bit (Word.ile (a 0 1) (b 0 1)))
  let c_2 := -(Word.bit (Word.ile (a 0 2) (b 0 2)))
  let c_3 := -(Word.bit (Word.ile (a 0 3) (b 0 3)))
  let c := one (quad c_0 c_1 c_2 c_3)
  c

/-- `operator >=`, /repo/src/util/v4/v4_neon.h:958-966,973. -/
def ige (a b : Reg 1 Word) : Reg 1 Word :=
  let c_0 := -(Word.bit (Word.ige (a 0 0) (b 0 0)))
  let c_1 := -(Word.bit (Word.ige (a 0 1) (b 0 1)))
  let c_2 := -(Word.bit (Word.ige (a 0 2) (b 0 2)))
  let c_3 := -(Word.bit (Word.ige (a 0 3) (b 0 3)))
  let c := one (quad c_0 c_1 c_2 c_3)
  c

/-- `operator &&`, /repo/src/util/v4/v4_neon.h:958-966,974. -/
def iland (a b : Reg 1 Word) : Reg 1 Word :=
  let c_0 := -(Word.bit ((a 0 0 != 0) && (b 0 0 != 0)))
  let c_1 := -(Word.bit ((a 0 1 != 0) && (b 0 1 != 0)))
  let c_2 := -(Word.bit ((a 0 2 != 0) && (b 0 2 != 0)))
  let c_3 := -(Word.bit ((a 0 3 != 0) && (b 0 3 != 0)))
  let c := one (quad c_0 c_1 c_2 c_3)
  c

/-- `operator ||`, /repo/src/util/v4/v4_neon.h:958-966,975. -/
def ilor (a b : Reg 1 Word) : Reg 1 Word :=
  let c_0 := -(Word.bit ((a 0 0 != 0) || (b 0 0 != 0)))
  let c_1 := -(Word.bit ((a 0 1 != 0) || (b 0 1 != 0)))
  let c_2 := -(Word.bit ((a 0 2 != 0) || (b 0 2 != 0)))
  let c_3 := -(Word.bit ((a 0 3 != 0) || (b 0 3 != 0)))
  let c := one (quad c_0 c_1 c_2 c_3)
  c

/-- `abs`, /repo/src/util/v4/v4_neon.h:981-990. -/
def abs (a : Reg 1 Word) : Reg 1 Word :=
  let b_0 := if Word.ige (a 0 0) (0 : Word) then a 0 0 else -(a 0 0)
  let b_1 := if Word.ige (a 0 1) (0 : Word) then a 0 1 else -(a 0 1)
  let b_2 := if Word.ige (a 0 2) (0 : Word) then a 0 2 else -(a 0 2)
  let b_3 := if Word.ige (a 0 3) (0 : Word) then a 0 3 else -(a 0 3)
  let b := one (quad b_0 b_1 b_2 b_3)
  b

/-- `czero`, /repo/src/util/v4/v4_neon.h:992-1006. -/
def czero (c a : Reg 1 Word) : Reg 1 Word :=
  let b_0 := (a 0 0) &&& (~~~(c 0 0))
  let b_1 := (a 0 1) &&& (~~~(c 0 1))
  let b_2 := (a 0 2) &&& (~~~(c 0 2))
  let b_3 := (a 0 3) &&& (~~~(c 0 3))
  let b := one (quad b_0 b_1 b_2 b_3)
  b

/-- `notczero`, /repo/src/util/v4/v4_neon.h:1008-1021. -/
def notczero (c a : Reg 1 Word) : Reg 1 Word :=
  let b := lift2 Word.and c a
  b

/-- `merge`, /repo/src/util/v4/v4_neon.h:1023-1042. -/
def merge (c t f : Reg 1 Word) : Reg 1 Word :=
  let tf_0 := ((f 0 0) &&& (~~~(c 0 0))) ||| ((t 0 0) &&& (c 0 0))
  let tf_1 := ((f 0 1) &&& (~~~(c 0 1))) ||| ((t 0 1) &&& (c 0 1))
  let tf_2 := ((f 0 2) &&& (~~~(c 0 2))) ||| ((t 0 2) &&& (c 0 2))
  let tf_3 := ((f 0 3) &&& (~~~(c 0 3))) ||| ((t 0 3) &&& (c 0 3))
  let tf := one (quad tf_0 tf_1 tf_2 tf_3)
  tf

/-- `operator +=`, /repo/src/util/v4/v4_neon.h:1151-1156,1158. -/
def fadd_to (F : Arith W) (a b : Reg 1 W) : Reg 1 W :=
  let a := lift2 F.add a b
  a

/-- `operator -=`, /repo/src/util/v4/v4_neon.h:1151-1156,1159. -/
def fsub_to (F : Arith W) (a b : Reg 1 W) : Reg 1 W :=
  let a := lift2 F.sub a b
  a

/-- `operator *=`, /repo/src/util/v4/v4_neon.h:1151-1156,1160. -/
def fmul_to (F : Arith W) (a b : Reg 1 W) : Reg 1 W :=
  let a := lift2 F.mul a b
  a

/-- `operator /=`, /repo/src/util/v4/v4_neon.h:1151-1156,1161. -/
def fdiv_to (F : Arith W) (a b : Reg 1 W) : Reg 1 W :=
  let a := lift2 F.div a b
  a

/-- `operator -`, /repo/src/util/v4/v4_neon.h:1196-1207. -/
def fneg (a : Reg 1 Word) : Reg 1 Word :=
  let b_0 := Word.fneg (a 0 0)
  let b_1 := Word.fneg (a 0 1)
  let b_2 := Word.fneg (a 0 2)
  let b_3 := Word.fneg (a 0 3)
  let b := one (quad b_0 b_1 b_2 b_3)
  b

/-- `operator !`, /repo/src/util/v4/v4_neon.h:1209-1220. -/
def flnot (a : Reg 1 Word) : Reg 1 Word :=
  let b_0 := if (a 0 0 != 0) then (0 : Word) else (-1 : Word)
  let b_1 := if (a 0 1 != 0) then (0 : Word) else (-1 : Word)
  let b_2 := if (a 0 2 != 0) then (0 : Word) else (-1 : Word)
  let b_3 := if (a 0 3 != 0) then (0 : Word) else (-1 : Word)
  let b := one (quad b_0 b_1 b_2 b_3)
  b

/-- `operator ++`, /repo/src/util/v4/v4_neon.h:1224-1238. -/
def preinc (F : Arith W) (a : Reg 1 W) : Reg 1 W × Reg 1 W :=
  let a_0 := F.add (a 0 0) F.one
  let b_0 := a_0
  let a_1 := F.add (a 0 1) F.one
  let b_1 := a_1
  let a_2 := F.add (a 0 2) F.one
  let b_2 := a_2
  let a_3 := F.add (a 0 3) F.one
  let b_3 := a_3
  let a := one (quad a_0 a_1 a_2 a_3)
  let b := one (quad b_0 b_1 b_2 b_3)
  (a, b)

/-- `operator --`, /repo/src/util/v4/v4_neon.h:1240-1254. -/
def predec (F : Arith W) (a : Reg 1 W) : Reg 1 W × Reg 1 W :=
  let a_0 := F.sub (a 0 0) F.one
  let b_0 := a_0
  let a_1 := F.sub (a 0 1) F.one
  let b_1 := a_1
  let a_2 := F.sub (a 0 2) F.one
  let b_2 := a_2
  let a_3 := F.sub (a 0 3) F.one
  let b_3 := a_3
  let a := one (quad a_0 a_1 a_2 a_3)
  let b := one (quad b_0 b_1 b_2 b_3)
  (a, b)

/-- `operator ++`, /repo/src/util/v4/v4_neon.h:1258-1272. -/
def postinc (F : Arith W) (a : Reg 1 W) : Reg 1 W × Reg 1 W :=
  let a_0_old := a 0 0
  let a_0 := F.add a_0_old F.one
  let b_0 := a_0_old
  let a_1_old := a 0 1
  let a_1 := F.add a_1_old F.one
  let b_1 := a_1_old
  let a_2_old := a 0 2
  let a_2 := F.add a_2_old F.one
  let b_2 := a_2_old
  let a_3_old := a 0 3
  let a_3 := F.add a_3_old F.one
  let b_3 := a_3_old
  let a := one (quad a_0 a_1 a_2 a_3)
  let b := one (quad b_0 b_1 b_2 b_3)
  (a, b)

/-- `operator --`, /repo/src/util/v4/v4_neon.h:1274-1288. -/
def postdec (F : Arith W) (a : Reg 1 W) : Reg 1 W × Reg 1 W :=
  let a_0_old := a 0 0
  let a_0 := F.sub a_0_old F.one
  let b_0 := a_0_old
  let a_1_old := a 0 1
  let a_1 := F.sub a_1_old F.one
  let b_1 := a_1_old
  let a_2_old := a 0 2
  let a_2 := F.sub a_2_old F.one
  let b_2 := a_2_old
  let a_3_old := a 0 3
  let a_3 := F.sub a_3_old F.one
  let b_3 := a_3_old
  let a := one (quad a_0 a_1 a_2 a_3)
  let b := one (quad b_0 b_1 b_2 b_3)
  (a, b)

/-- `operator +`, /repo/src/util/v4/v4_neon.h:1292-1298,1300. -/
def fadd (F : Arith W) (a b : Reg 1 W) : Reg 1 W :=
  let c := lift2 F.add a b
  c

/-- `operator -`, /repo/src/util/v4/v4_neon.h:1292-1298,1301. -/
def fsub (F : Arith W) (a b : Reg 1 W) : Reg 1 W :=
  let c := lift2 F.sub a b
  c

/-- `operator *`, /repo/src/util/v4/v4_neon.h:1292-1298,1302. -/
def fmul (F : Arith W) (a b : Reg 1 W) : Reg 1 W :=
  let c := lift2 F.mul a b
  c

/-- `operator /`, /repo/src/util/v4/v4_neon.h:1292-1298,1303. -/
def fdiv (F : Arith W) (a b : Reg 1 W) : Reg 1 W :=
  let c := lift2 F.div a b
  c

/-- `operator <`, /repo/src/util/v4/v4_neon.h:1309-1315,1317. -/
def flt (a b : Reg 1 Word) : Reg 1 Word :=
  let c := lift2 (Word.cmp Word.flt) a b
  c

/-- `operator >`, /repo/src/util/v4/v4_neon.h:1309-1315,1318. -/
def fgt (a b : Reg 1 Word) : Reg 1 Word :=
  let c := lift2 (Word.cmp Word.fgt) a b
  c

/-- `operator ==`, /repo/src/util/v4/v4_neon.h:1309-1315,1319. -/
def feq (a b : Reg 1 Word) : Reg 1 Word :=
  let c := lift2 (Word.cmp Word.feq) a b
  c

/-- `operator <=`, /repo/src/util/v4/v4_neon.h:1309-1315,1320. -/
def fle (a b : Reg 1 Word) : Reg 1 Word :=
  let c := lift2 (Word.cmp Word.fle) a b
  c

/-- `operator >=`, /repo/src/util/v4/v4_neon.h:1309-1315,1321. -/
def fge (a b : Reg 1 Word) : Reg 1 Word :=
  let c := lift2 (Word.cmp Word.fge) a b
  c

/-- `operator !=`, /repo/src/util/v4/v4_neon.h:1325-1336. -/
def fne (a b : Reg 1 Word) : Reg 1 Word :=
  let c := lift1 (~~~ ·) (lift2 (Word.cmp Word.feq) a b)
  c

/-- `operator &&`, /repo/src/util/v4/v4_neon.h:1338-1356. -/
def fland (a b : Reg 1 Word) : Reg 1 Word :=
  let vzero := (set1 (0 : Word) : Reg 1 _)
  let c := lift2 Word.and (lift1 (~~~ ·) (lift2 (Word.cmp Word.feq) a vzero)) (lift1 (~~~ ·) (lift2 (Word.cmp Word.feq) b vzero))
  c

/-- `operator ||`, /repo/src/util/v4/v4_neon.h:1358-1376. -/
def flor (a b : Reg 1 Word) : Reg 1 Word :=
  let vzero := (set1 (0 : Word) : Reg 1 _)
  let c := lift2 Word.or (lift1 (~~~ ·) (lift2 (Word.cmp Word.feq) a vzero)) (lift1 (~~~ ·) (lift2 (Word.cmp Word.feq) b vzero))
  c

/-- `fabs`, /repo/src/util/v4/v4_neon.h:1380-1388,1402. -/
def fabs (a : Reg 1 Word) : Reg 1 Word :=
  let b_0 := Word.fabs (a 0 0)
  let b_1 := Word.fabs (a 0 1)
  let b_2 := Word.fabs (a 0 2)
  let b_3 := Word.fabs (a 0 3)
  let b := one (quad b_0 b_1 b_2 b_3)
  b

/-- `sqrt`, /repo/src/util/v4/v4_neon.h:1380-1388,1404. -/
def sqrt (F : Arith W) (a : Reg 1 W) : Reg 1 W :=
  let b_0 := F.sqrt (a 0 0)
  let b_1 := F.sqrt (a 0 1)
  let b_2 := F.sqrt (a 0 2)
  let b_3 := F.sqrt (a 0 3)
  let b := one (quad b_0 b_1 b_2 b_3)
  b

/-- `copysign`, /repo/src/util/v4/v4_neon.h:1409-1423. -/
def copysign (a b : Reg 1 Word) : Reg 1 Word :=
  let t := Word.fabs (a 0 0)
  let t := if Word.flt (b 0 0) (0 : Word) then Word.fneg t else t
  let c_0 := t
  let t := Word.fabs (a 0 1)
  let t := if Word.flt (b 0 1) (0 : Word) then Word.fneg t else t
  let c_1 := t
  let t := Word.fabs (a 0 2)
  let t := if Word.flt (b 0 2) (0 : Word) then Word.fneg t else t
  let c_2 := t
  let t := Word.fabs (a 0 3)
  let t := if Word.flt (b 0 3) (0 : Word) then Word.fneg t else t
  let c_3 := t
  let c := one (quad c_0 c_1 c_2 c_3)
  c

/-- `rsqrt`, /repo/src/util/v4/v4_neon.h:1436-1460. -/
def rsqrt (F : Arith W) (a : Reg 1 W) : Reg 1 W :=
  let a_v := a
  let b_v := lift1 F.rsqrtE a_v
  let b := lift2 F.add b_v (lift2 F.mul (set1 F.half : Reg 1 _) (lift2 F.sub b_v (lift2 F.mul a_v (lift2 F.mul b_v (lift2 F.mul b_v b_v)))))
  b

/-- `rcp`, /repo/src/util/v4/v4_neon.h:1471-1490. -/
def rcp (F : Arith W) (a : Reg 1 W) : Reg 1 W :=
  let a_v := a
  let b_v := lift1 F.rcpE a_v
  let b := lift2 F.sub (lift2 F.add b_v b_v) (lift2 F.mul a_v (lift2 F.mul b_v b_v))
  b

/-- `fma`, /repo/src/util/v4/v4_neon.h:1492-1503. -/
def fma (F : Arith W) (a b c : Reg 1 W) : Reg 1 W :=
  let d := lift2 F.add (lift2 F.mul a b) c
  d

/-- `fms`, /repo/src/util/v4/v4_neon.h:1505-1514. -/
def fms (F : Arith W) (a b c : Reg 1 W) : Reg 1 W :=
  let d := lift2 F.sub (lift2 F.mul a b) c
  d

/-- `fnms`, /repo/src/util/v4/v4_neon.h:1516-1528. -/
def fnms (F : Arith W) (a b c : Reg 1 W) : Reg 1 W :=
  let d := lift2 F.sub c (lift2 F.mul a b)
  d

/-- `clear_bits`, /repo/src/util/v4/v4_neon.h:1530-1543. -/
def clear_bits (m a : Reg 1 Word) : Reg 1 Word :=
  let b := lift2 Word.bic m a
  b

/-- `set_bits`, /repo/src/util/v4/v4_neon.h:1545-1558. -/
def set_bits (m a : Reg 1 Word) : Reg 1 Word :=
  let b := lift2 Word.or m a
  b

/-- `toggle_bits`, /repo/src/util/v4/v4_neon.h:1560-1573. -/
def toggle_bits (m a : Reg 1 Word) : Reg 1 Word :=
  let b := lift2 Word.xor m a
  b

/-- `increment_4x1`, /repo/src/util/v4/v4_neon.h:1575-1579. -/
def increment (F : Arith W) (m : Memory W) (p : ℕ) (a : Reg 1 W) : Memory W :=
  let m := stq m p (lift2 F.add (ldq m p) a)
  m

/-- `decrement_4x1`, /repo/src/util/v4/v4_neon.h:1581-1585. -/
def decrement (F : Arith W) (m : Memory W) (p : ℕ) (a : Reg 1 W) : Memory W :=
  let m := stq m p (lift2 F.sub (ldq m p) a)
  m

/-- `scale_4x1`, /repo/src/util/v4/v4_neon.h:1587-1591. -/
def scale (F : Arith W) (m : Memory W) (p : ℕ) (a : Reg 1 W) : Memory W :=
  let m := stq m p (lift2 F.mul (ldq m p) a)
  m

/-- `trilinear`, /repo/src/util/v4/v4_neon.h:1596-1609. -/
def trilinear (F : Arith W) (wl : Reg 1 W) : Reg 1 W × Reg 1 W :=
  let x := wl 0 0
  let y := wl 0 1
  let z := wl 0 2
  let wl_0 := F.mul (F.mul (F.sub F.one x) (F.sub F.one y)) (F.sub F.one z)
  let wl_1 := F.mul (F.mul (F.add F.one x) (F.sub F.one y)) (F.sub F.one z)
  let wl_2 := F.mul (F.mul (F.sub F.one x) (F.add F.one y)) (F.sub F.one z)
  let wl_3 := F.mul (F.mul (F.add F.one x) (F.add F.one y)) (F.sub F.one z)
  let wh_0 := F.mul (F.mul (F.sub F.one x) (F.sub F.one y)) (F.add F.one z)
  let wh_1 := F.mul (F.mul (F.add F.one x) (F.sub F.one y)) (F.add F.one z)
  let wh_2 := F.mul (F.mul (F.sub F.one x) (F.add F.one y)) (F.add F.one z)
  let wh_3 := F.mul (F.mul (F.add F.one x) (F.add F.one y)) (F.add F.one z)
  let wh := one (quad wh_0 wh_1 wh_2 wh_3)
  let wl := one (quad wl_0 wl_1 wl_2 wl_3)
  (wl, wh)

end Verif.Vector.V4Neon
