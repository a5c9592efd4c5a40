import Verif.Vector.Lane

/-! Operators and functions of /repo/src/util/v4/v4_portable.h that compute; written by `tools/gen_lanes.py`. -/
namespace Verif.Vector.V4Portable

variable {W : Type}

/-- `any`, /repo/src/util/v4/v4_portable.h:143-146. -/
def any (a : Reg 1 Word) : Bool :=
  (((a 0 0 != 0) || (a 0 1 != 0)) || (a 0 2 != 0)) || (a 0 3 != 0)

/-- `all`, /repo/src/util/v4/v4_portable.h:148-151. -/
def all (a : Reg 1 Word) : Bool :=
  (((a 0 0 != 0) && (a 0 1 != 0)) && (a 0 2 != 0)) && (a 0 3 != 0)

/-- `operator +=`, /repo/src/util/v4/v4_portable.h:558-566,568. -/
def iadd_to (a b : Reg 1 Word) : Reg 1 Word :=
  let a_0 := (a 0 0) + (b 0 0)
  let a_1 := (a 0 1) + (b 0 1)
  let a_2 := (a 0 2) + (b 0 2)
  let a_3 := (a 0 3) + (b 0 3)
  let a := one (quad a_0 a_1 a_2 a_3)
  a

/-- `operator -=`, /repo/src/util/v4/v4_portable.h:558-566,569. -/
def isub_to (a b : Reg 1 Word) : Reg 1 Word :=
  let a_0 := (a 0 0) - (b 0 0)
  let a_1 := (a 0 1) - (b 0 1)
  let a_2 := (a 0 2) - (b 0 2)
  let a_3 := (a 0 3) - (b 0 3)
  let a := one (quad a_0 a_1 a_2 a_3)
  a

/-- `operator *=`, /repo/src/util/v4/v4_portable.h:558-566,570. -/
def imul_to (a b : Reg 1 Word) : Reg 1 Word :=
  let a_0 := (a 0 0) * (b 0 0)
  let a_1 := (a 0 1) * (b 0 1)
  let a_2 := (a 0 2) * (b 0 2)
  let a_3 := (a 0 3) * (b 0 3)
  let a := one (quad a_0 a_1 a_2 a_3)
  a

/-- `operator ^=`, /repo/src/util/v4/v4_portable.h:558-566,576. -/
def ixor_to (a b : Reg 1 Word) : Reg 1 Word :=
  let a_0 := (a 0 0) ^^^ (b 0 0)
  let a_1 := (a 0 1) ^^^ (b 0 1)
  let a_2 := (a 0 2) ^^^ (b 0 2)
  let a_3 := (a 0 3) ^^^ (b 0 3)
  let a := one (quad a_0 a_1 a_2 a_3)
  a

/-- `operator &=`, /repo/src/util/v4/v4_portable.h:558-566,577. -/
def iand_to (a b : Reg 1 Word) : Reg 1 Word :=
  let a_0 := (a 0 0) &&& (b 0 0)
  let a_1 := (a 0 1) &&& (b 0 1)
  let a_2 := (a 0 2) &&& (b 0 2)
  let a_3 := (a 0 3) &&& (b 0 3)
  let a := one (quad a_0 a_1 a_2 a_3)
  a

/-- `operator |=`, /repo/src/util/v4/v4_portable.h:558-566,578. -/
def ior_to (a b : Reg 1 Word) : Reg 1 Word :=
  let a_0 := (a 0 0) ||| (b 0 0)
  let a_1 := (a 0 1) ||| (b 0 1)
  let a_2 := (a 0 2) ||| (b 0 2)
  let a_3 := (a 0 3) ||| (b 0 3)
  let a := one (quad a_0 a_1 a_2 a_3)
  a

/-- `operator -`, /repo/src/util/v4/v4_portable.h:597-606,609. -/
def ineg (a : Reg 1 Word) : Reg 1 Word :=
  let b_0 := -(a 0 0)
  let b_1 := -(a 0 1)
  let b_2 := -(a 0 2)
  let b_3 := -(a 0 3)
  let b := one (quad b_0 b_1 b_2 b_3)
  b

/-- `operator !`, /repo/src/util/v4/v4_portable.h:611-621. -/
def ilnot (a : Reg 1 Word) : Reg 1 Word :=
  let b_0 := -(Word.bit (!(a 0 0 != 0)))
  let b_1 := -(Word.bit (!(a 0 1 != 0)))
  let b_2 := -(Word.bit (!(a 0 2 != 0)))
  let b_3 := -(Word.bit (!(a 0 3 != 0)))
  let b := one (quad b_0 b_1 b_2 b_3)
  b

/-- `operator ~`, /repo/src/util/v4/v4_portable.h:597-606,623. -/
def inot (a : Reg 1 Word) : Reg 1 Word :=
  let b_0 := ~~~(a 0 0)
  let b_1 := ~~~(a 0 1)
  let b_2 := ~~~(a 0 2)
  let b_3 := ~~~(a 0 3)
  let b := one (quad b_0 b_1 b_2 b_3)
  b

/-- `operator +`, /repo/src/util/v4/v4_portable.h:665-674,676. -/
def iadd (a b : Reg 1 Word) : Reg 1 Word :=
  let c_0 := (a 0 0) + (b 0 0)
  let c_1 := (a 0 1) + (b 0 1)
  let c_2 := (a 0 2) + (b 0 2)
  let c_3 := (a 0 3) + (b 0 3)
  let c := one (quad c_0 c_1 c_2 c_3)
  c

/-- `operator -`, /repo/src/util/v4/v4_portable.h:665-674,677. -/
def isub (a b : Reg 1 Word) : Reg 1 Word :=
  let c_0 := (a 0 0) - (b 0 0)
  let c_1 := (a 0 1) - (b 0 1)
  let c_2 := (a 0 2) - (b 0 2)
  let c_3 := (a 0 3) - (b 0 3)
  let c := one (quad c_0 c_1 c_2 c_3)
  c

/-- `operator *`, /repo/src/util/v4/v4_portable.h:665-674,678. -/
def imul (a b : Reg 1 Word) : Reg 1 Word :=
  let c_0 := (a 0 0) * (b 0 0)
  let c_1 := (a 0 1) * (b 0 1)
  let c_2 := (a 0 2) * (b 0 2)
  let c_3 := (a 0 3) * (b 0 3)
  let c := one (quad c_0 c_1 c_2 c_3)
  c

/-- `operator ^`, /repo/src/util/v4/v4_portable.h:665-674,683. -/
def ixor (a b : Reg 1 Word) : Reg 1 Word :=
  let c_0 := (a 0 0) ^^^ (b 0 0)
  let c_1 := (a 0 1) ^^^ (b 0 1)
  let c_2 := (a 0 2) ^^^ (b 0 2)
  let c_3 := (a 0 3) ^^^ (b 0 3)
  let c := one (quad c_0 c_1 c_2 c_3)
  c

/-- `operator &`, /repo/src/util/v4/v4_portable.h:665-674,684. -/
def iand (a b : Reg 1 Word) : Reg 1 Word :=
  let c_0 := (a 0 0) &&& (b 0 0)
  let c_1 := (a 0 1) &&& (b 0 1)
  let c_2 := (a 0 2) &&& (b 0 2)
  let c_3 := (a 0 3) &&& (b 0 3)
  let c := one (quad c_0 c_1 c_2 c_3)
  c

/-- `operator |`, /repo/src/util/v4/v4_portable.h:665-674,685. -/
def ior (a b : Reg 1 Word) : Reg 1 Word :=
  let c_0 := (a 0 0) ||| (b 0 0)
  let c_1 := (a 0 1) ||| (b 0 1)
  let c_2 := (a 0 2) ||| (b 0 2)
  let c_3 := (a 0 3) ||| (b 0 3)
  let c := one (quad c_0 c_1 c_2 c_3)
  c

/-- `operator <`, /repo/src/util/v4/v4_portable.h:691-700,702. -/
def ilt (a b : Reg 1 Word) : Reg 1 Word :=
  let c_0 := -(Word.bit (Word.ilt (a 0 0) (b 0 0)))
  let c_1 := -(Word.bit (Word.ilt (a 0 1) (b 0 1)))
  let c_2 := -(Word.bit (Word.ilt (a 0 2) (b 0 2)))
  let c_3 := -(Word.bit (Word.ilt (a 0 3) (b 0 3)))
  let c := one (quad c_0 c_1 c_2 c_3)
  c

/-- `operator >`, /repo/src/util/v4/v4_portable.h:691-700,703. -/
def igt (a b : Reg 1 Word) : Reg 1 Word :=
  let c_0 := -(Word.bit (Word.igt (a 0 0) (b 0 0)))
  let c_1 := -(Word.bit (Word.igt (a 0 1) (b 0 1)))
  let c_2 := -(Word.bit (Word.igt (a 0 2) (b 0 2)))
  let c_3 := -(Word.bit (Word.igt (a 0 3) (b 0 3)))
  let c := one (quad c_0 c_1 c_2 c_3)
  c

/-- `operator ==`, /repo/src/util/v4/v4_portable.h:691-700,704. -/
def ieq (a b : Reg 1 Word) : Reg 1 Word :=
  let c_0 := -(Word.bit (Word.ieq (a 0 0) (b 0 0)))
  let c_1 := -(Word.bit (Word.ieq (a 0 1) (b 0 1)))
  let c_2 := -(Word.bit (Word.ieq (a 0 2) (b 0 2)))
  let c_3 := -(Word.bit (Word.ieq (a 0 3) (b 0 3)))
  let c := one (quad c_0 c_1 c_2 c_3)
  c

/-- `operator !=`, /repo/src/util/v4/v4_portable.h:691-700,705. -/
def ine (a b : Reg 1 Word) : Reg 1 Word :=
  let c_0 := -(Word.bit (Word.ine (a 0 0) (b 0 0)))
  let c_1 := -(Word.bit (Word.ine (a 0 1) (b 0 1)))
  let c_2 := -(Word.bit (Word.ine (a 0 2) (b 0 2)))
  let c_3 := -(Word.bit (Word.ine (a 0 3) (b 0 3)))
  let c := one (quad c_0 c_1 c_2 c_3)
  c

/-- `operator <=`, /repo/src/util/v4/v4_portable.h:691-700,706. -/
def ile (a b : Reg 1 Word) : Reg 1 Word :=
  let c_0 := -(Word.bit (Word.ile (a 0 0) (b 0 0)))
  let c_1 := -(Word.bit (Word.ile (a 0 1) (b 0 1)))
  let c_2 := -(Word.bit (Word.ile (a 0 2) (b 0 2)))
  let c_3 := -(Word.bit (Word.ile (a 0 3) (b 0 3)))
  let c := one (quad c_0 c_1 c_2 c_3)
  c

/-- `operator >=`, /repo/src/util/v4/v4_portable.h:691-700,707. -/
def ige (a b : Reg 1 Word) : Reg 1 Word :=
  let c_0 := -(Word.bit (Word.ige (a 0 0) (b 0 0)))
  let c_1 := -(Word.bit (Word.ige (a 0 1) (b 0 1)))
  let c_2 := -(Word.bit (Word.ige (a 0 2) (b 0 2)))
  let c_3 := -(Word.bit (Word.ige (a 0 3) (b 0 3)))
  let c := one (quad c_0 c_1 c_2 c_3)
  c

/-- `operator &&`, /repo/src/util/v4/v4_portable.h:691-700,708. -/
def iland (a b : Reg 1 Word) : Reg 1 Word :=
  let c_0 := -(Word.bit ((a 0 0 != 0) && (b 0 0 != 0)))
  let c_1 := -(Word.bit ((a 0 1 != 0) && (b 0 1 != 0)))
  let c_2 := -(Word.bit ((a 0 2 != 0) && (b 0 2 != 0)))
  let c_3 := -(Word.bit ((a 0 3 != 0) && (b 0 3 != 0)))
  let c := one (quad c_0 c_1 c_2 c_3)
  c

/-- `operator ||`, /repo/src/util/v4/v4_portable.h:691-700,709. -/
def ilor (a b : Reg 1 Word) : Reg 1 Word :=
  let c_0 := -(Word.bit ((a 0 0 != 0) || (b 0 0 != 0)))
  let c_1 := -(Word.bit ((a 0 1 != 0) || (b 0 1 != 0)))
  let c_2 := -(Word.bit ((a 0 2 != 0) || (b 0 2 != 0)))
  let c_3 := -(Word.bit ((a 0 3 != 0) || (b 0 3 != 0)))
  let c := one (quad c_0 c_1 c_2 c_3)
  c

/-- `abs`, /repo/src/util/v4/v4_portable.h:715-725. -/
def abs (a : Reg 1 Word) : Reg 1 Word :=
  let b_0 := if Word.ige (a 0 0) (0 : Word) then a 0 0 else -(a 0 0)
  let b_1 := if Word.ige (a 0 1) (0 : Word) then a 0 1 else -(a 0 1)
  let b_2 := if Word.ige (a 0 2) (0 : Word) then a 0 2 else -(a 0 2)
  let b_3 := if Word.ige (a 0 3) (0 : Word) then a 0 3 else -(a 0 3)
  let b := one (quad b_0 b_1 b_2 b_3)
  b

/-- `czero`, /repo/src/util/v4/v4_portable.h:727-737. -/
def czero (c a : Reg 1 Word) : Reg 1 Word :=
  let b_0 := (a 0 0) &&& (~~~(c 0 0))
  let b_1 := (a 0 1) &&& (~~~(c 0 1))
  let b_2 := (a 0 2) &&& (~~~(c 0 2))
  let b_3 := (a 0 3) &&& (~~~(c 0 3))
  let b := one (quad b_0 b_1 b_2 b_3)
  b

/-- `notczero`, /repo/src/util/v4/v4_portable.h:739-749. -/
def notczero (c a : Reg 1 Word) : Reg 1 Word :=
  let b_0 := (a 0 0) &&& (c 0 0)
  let b_1 := (a 0 1) &&& (c 0 1)
  let b_2 := (a 0 2) &&& (c 0 2)
  let b_3 := (a 0 3) &&& (c 0 3)
  let b := one (quad b_0 b_1 b_2 b_3)
  b

/-- `merge`, /repo/src/util/v4/v4_portable.h:751-761. -/
def merge (c t f : Reg 1 Word) : Reg 1 Word :=
  let tf_0 := ((f 0 0) &&& (~~~(c 0 0))) ||| ((t 0 0) &&& (c 0 0))
  let tf_1 := ((f 0 1) &&& (~~~(c 0 1))) ||| ((t 0 1) &&& (c 0 1))
  let tf_2 := ((f 0 2) &&& (~~~(c 0 2))) ||| ((t 0 2) &&& (c 0 2))
  let tf_3 := ((f 0 3) &&& (~~~(c 0 3))) ||| ((t 0 3) &&& (c 0 3))
  let tf := one (quad tf_0 tf_1 tf_2 tf_3)
  tf

/-- `operator +=`, /repo/src/util/v4/v4_portable.h:880-888,891. -/
def fadd_to (F : Arith W) (a b : Reg 1 W) : Reg 1 W :=
  let a_0 := F.add (a 0 0) (b 0 0)
  let a_1 := F.add (a 0 1) (b 0 1)
  let a_2 := F.add (a 0 2) (b 0 2)
  let a_3 := F.add (a 0 3) (b 0 3)
  let a := one (quad a_0 a_1 a_2 a_3)
  a

/-- `operator -=`, /repo/src/util/v4/v4_portable.h:880-888,892. -/
def fsub_to (F : Arith W) (a b : Reg 1 W) : Reg 1 W :=
  let a_0 := F.sub (a 0 0) (b 0 0)
  let a_1 := F.sub (a 0 1) (b 0 1)
  let a_2 := F.sub (a 0 2) (b 0 2)
  let a_3 := F.sub (a 0 3) (b 0 3)
  let a := one (quad a_0 a_1 a_2 a_3)
  a

/-- `operator *=`, /repo/src/util/v4/v4_portable.h:880-888,893. -/
def fmul_to (F : Arith W) (a b : Reg 1 W) : Reg 1 W :=
  let a_0 := F.mul (a 0 0) (b 0 0)
  let a_1 := F.mul (a 0 1) (b 0 1)
  let a_2 := F.mul (a 0 2) (b 0 2)
  let a_3 := F.mul (a 0 3) (b 0 3)
  let a := one (quad a_0 a_1 a_2 a_3)
  a

/-- `operator /=`, /repo/src/util/v4/v4_portable.h:880-888,894. -/
def fdiv_to (F : Arith W) (a b : Reg 1 W) : Reg 1 W :=
  let a_0 := F.div (a 0 0) (b 0 0)
  let a_1 := F.div (a 0 1) (b 0 1)
  let a_2 := F.div (a 0 2) (b 0 2)
  let a_3 := F.div (a 0 3) (b 0 3)
  let a := one (quad a_0 a_1 a_2 a_3)
  a

/-- `operator -`, /repo/src/util/v4/v4_portable.h:925-935. -/
def fneg (a : Reg 1 Word) : Reg 1 Word :=
  let b_0 := Word.fneg (a 0 0)
  let b_1 := Word.fneg (a 0 1)
  let b_2 := Word.fneg (a 0 2)
  let b_3 := Word.fneg (a 0 3)
  let b := one (quad b_0 b_1 b_2 b_3)
  b

/-- `operator !`, /repo/src/util/v4/v4_portable.h:937-947. -/
def flnot (a : Reg 1 Word) : Reg 1 Word :=
  let b_0 := if (a 0 0 != 0) then (0 : Word) else (-1 : Word)
  let b_1 := if (a 0 1 != 0) then (0 : Word) else (-1 : Word)
  let b_2 := if (a 0 2 != 0) then (0 : Word) else (-1 : Word)
  let b_3 := if (a 0 3 != 0) then (0 : Word) else (-1 : Word)
  let b := one (quad b_0 b_1 b_2 b_3)
  b

/-- `operator ++`, /repo/src/util/v4/v4_portable.h:951-961. -/
def preinc (F : Arith W) (a : Reg 1 W) : Reg 1 W × Reg 1 W :=
  let a_0 := F.add (a 0 0) F.one
  let b_0 := a_0
  let a_1 := F.add (a 0 1) F.one
  let b_1 := a_1
  let a_2 := F.add (a 0 2) F.one
  let b_2 := a_2
  let a_3 := F.add (a 0 3) F.one
  let b_3 := a_3
  let a := one (quad a_0 a_1 a_2 a_3)
  let b := one (quad b_0 b_1 b_2 b_3)
  (a, b)

/-- `operator --`, /repo/src/util/v4/v4_portable.h:963-973. -/
def predec (F : Arith W) (a : Reg 1 W) : Reg 1 W × Reg 1 W :=
  let a_0 := F.sub (a 0 0) F.one
  let b_0 := a_0
  let a_1 := F.sub (a 0 1) F.one
  let b_1 := a_1
  let a_2 := F.sub (a 0 2) F.one
  let b_2 := a_2
  let a_3 := F.sub (a 0 3) F.one
  let b_3 := a_3
  let a := one (quad a_0 a_1 a_2 a_3)
  let b := one (quad b_0 b_1 b_2 b_3)
  (a, b)

/-- `operator ++`, /repo/src/util/v4/v4_portable.h:977-987. -/
def postinc (F : Arith W) (a : Reg 1 W) : Reg 1 W × Reg 1 W :=
  let a_0_old := a 0 0
  let a_0 := F.add a_0_old F.one
  let b_0 := a_0_old
  let a_1_old := a 0 1
  let a_1 := F.add a_1_old F.one
  let b_1 := a_1_old
  let a_2_old := a 0 2
  let a_2 := F.add a_2_old F.one
  let b_2 := a_2_old
  let a_3_old := a 0 3
  let a_3 := F.add a_3_old F.one
  let b_3 := a_3_old
  let a := one (quad a_0 a_1 a_2 a_3)
  let b := one (quad b_0 b_1 b_2 b_3)
  (a, b)

/-- `operator --`, /repo/src/util/v4/v4_portable.h:989-999. -/
def postdec (F : Arith W) (a : Reg 1 W) : Reg 1 W × Reg 1 W :=
  let a_0_old := a 0 0
  let a_0 := F.sub a_0_old F.one
  let b_0 := a_0_old
  let a_1_old := a 0 1
  let a_1 := F.sub a_1_old F.one
  let b_1 := a_1_old
  let a_2_old := a 0 2
  let a_2 := F.sub a_2_old F.one
  let b_2 := a_2_old
  let a_3_old := a 0 3
  let a_3 := F.sub a_3_old F.one
  let b_3 := a_3_old
  let a := one (quad a_0 a_1 a_2 a_3)
  let b := one (quad b_0 b_1 b_2 b_3)
  (a, b)

/-- `operator +`, /repo/src/util/v4/v4_portable.h:1003-1012,1014. -/
def fadd (F : Arith W) (a b : Reg 1 W) : Reg 1 W :=
  let c_0 := F.add (a 0 0) (b 0 0)
  let c_1 := F.add (a 0 1) (b 0 1)
  let c_2 := F.add (a 0 2) (b 0 2)
  let c_3 := F.add (a 0 3) (b 0 3)
  let c := one (quad c_0 c_1 c_2 c_3)
  c

/-- `operator -`, /repo/src/util/v4/v4_portable.h:1003-1012,1015. -/
def fsub (F : Arith W) (a b : Reg 1 W) : Reg 1 W :=
  let c_0 := F.sub (a 0 0) (b 0 0)
  let c_1 := F.sub (a 0 1) (b 0 1)
  let c_2 := F.sub (a 0 2) (b 0 2)
  let c_3 := F.sub (a 0 3) (b 0 3)
  let c := one (quad c_0 c_1 c_2 c_3)
  c

/-- `operator *`, /repo/src/util/v4/v4_portable.h:1003-1012,1016. -/
def fmul (F : Arith W) (a b : Reg 1 W) : Reg 1 W :=
  let c_0 := F.mul (a 0 0) (b 0 0)
  let c_1 := F.mul (a 0 1) (b 0 1)
  let c_2 := F.mul (a 0 2) (b 0 2)
  let c_3 := F.mul (a 0 3) (b 0 3)
  let c := one (quad c_0 c_1 c_2 c_3)
  c

/-- `operator /`, /repo/src/util/v4/v4_portable.h:1003-1012,1017. -/
def fdiv (F : Arith W) (a b : Reg 1 W) : Reg 1 W :=
  let c_0 := F.div (a 0 0) (b 0 0)
  let c_1 := F.div (a 0 1) (b 0 1)
  let c_2 := F.div (a 0 2) (b 0 2)
  let c_3 := F.div (a 0 3) (b 0 3)
  let c := one (quad c_0 c_1 c_2 c_3)
  c

/-- `operator <`, /repo/src/util/v4/v4_portable.h:1023-1032,1034. -/
def flt (a b : Reg 1 Word) : Reg 1 Word :=
  let c_0 := -(Word.bit (Word.flt (a 0 0) (b 0 0)))
  let c_1 := -(Word.bit (Word.flt (a 0 1) (b 0 1)))
  let c_2 := -(Word.bit (Word.flt (a 0 2) (b 0 2)))
  let c_3 := -(Word.bit (Word.flt (a 0 3) (b 0 3)))
  let c := one (quad c_0 c_1 c_2 c_3)
  c

/-- `operator >`, /repo/src/util/v4/v4_portable.h:1023-1032,1035. -/
def fgt (a b : Reg 1 Word) : Reg 1 Word :=
  let c_0 := -(Word.bit (Word.fgt (a 0 0) (b 0 0)))
  let c_1 := -(Word.bit (Word.fgt (a 0 1) (b 0 1)))
  let c_2 := -(Word.bit (Word.fgt (a 0 2) (b 0 2)))
  let c_3 := -(Word.bit (Word.fgt (a 0 3) (b 0 3)))
  let c := one (quad c_0 c_1 c_2 c_3)
  c

/-- `operator ==`, /repo/src/util/v4/v4_portable.h:1023-1032,1036. -/
def feq (a b : Reg 1 Word) : Reg 1 Word :=
  let c_0 := -(Word.bit (Word.feq (a 0 0) (b 0 0)))
  let c_1 := -(Word.bit (Word.feq (a 0 1) (b 0 1)))
  let c_2 := -(Word.bit (Word.feq (a 0 2) (b 0 2)))
  let c_3 := -(Word.bit (Word.feq (a 0 3) (b 0 3)))
  let c := one (quad c_0 c_1 c_2 c_3)
  c

/-- `operator <=`, /repo/src/util/v4/v4_portable.h:1023-1032,1037. -/
def fle (a b : Reg 1 Word) : Reg 1 Word :=
  let c_0 := -(Word.bit (Word.fle (a 0 0) (b 0 0)))
  let c_1 := -(Word.bit (Word.fle (a 0 1) (b 0 1)))
  let c_2 := -(Word.bit (Word.fle (a 0 2) (b 0 2)))
  let c_3 := -(Word.bit (Word.fle (a 0 3) (b 0 3)))
  let c := one (quad c_0 c_1 c_2 c_3)
  c

/-- `operator >=`, /repo/src/util/v4/v4_portable.h:1023-1032,1038. -/
def fge (a b : Reg 1 Word) : Reg 1 Word :=
  let c_0 := -(Word.bit (Word.fge (a 0 0) (b 0 0)))
  let c_1 := -(Word.bit (Word.fge (a 0 1) (b 0 1)))
  let c_2 := -(Word.bit (Word.fge (a 0 2) (b 0 2)))
  let c_3 := -(Word.bit (Word.fge (a 0 3) (b 0 3)))
  let c := one (quad c_0 c_1 c_2 c_3)
  c

/-- `operator !=`, /repo/src/util/v4/v4_portable.h:1023-1032,1039. -/
def fne (a b : Reg 1 Word) : Reg 1 Word :=
  let c_0 := -(Word.bit (Word.fne (a 0 0) (b 0 0)))
  let c_1 := -(Word.bit (Word.fne (a 0 1) (b 0 1)))
  let c_2 := -(Word.bit (Word.fne (a 0 2) (b 0 2)))
  let c_3 := -(Word.bit (Word.fne (a 0 3) (b 0 3)))
  let c := one (quad c_0 c_1 c_2 c_3)
  c

/-- `operator &&`, /repo/src/util/v4/v4_portable.h:1023-1032,1040. -/
def fland (a b : Reg 1 Word) : Reg 1 Word :=
  let c_0 := -(Word.bit ((Word.fne (a 0 0) 0) && (Word.fne (b 0 0) 0)))
  let c_1 := -(Word.bit ((Word.fne (a 0 1) 0) && (Word.fne (b 0 1) 0)))
  let c_2 := -(Word.bit ((Word.fne (a 0 2) 0) && (Word.fne (b 0 2) 0)))
  let c_3 := -(Word.bit ((Word.fne (a 0 3) 0) && (Word.fne (b 0 3) 0)))
  let c := one (quad c_0 c_1 c_2 c_3)
  c

/-- `operator ||`, /repo/src/util/v4/v4_portable.h:1023-1032,1041. -/
def flor (a b : Reg 1 Word) : Reg 1 Word :=
  let c_0 := -(Word.bit ((Word.fne (a 0 0) 0) || (Word.fne (b 0 0) 0)))
  let c_1 := -(Word.bit ((Word.fne (a 0 1) 0) || (Word.fne (b 0 1) 0)))
  let c_2 := -(Word.bit ((Word.fne (a 0 2) 0) || (Word.fne (b 0 2) 0)))
  let c_3 := -(Word.bit ((Word.fne (a 0 3) 0) || (Word.fne (b 0 3) 0)))
  let c := one (quad c_0 c_1 c_2 c_3)
  c

/-- `fabs`, /repo/src/util/v4/v4_portable.h:1047-1056,1071. -/
def fabs (a : Reg 1 Word) : Reg 1 Word :=
  let b_0 := Word.fabs (a 0 0)
  let b_1 := Word.fabs (a 0 1)
  let b_2 := Word.fabs (a 0 2)
  let b_3 := Word.fabs (a 0 3)
  let b := one (quad b_0 b_1 b_2 b_3)
  b

/-- `sqrt`, /repo/src/util/v4/v4_portable.h:1047-1056,1073. -/
def sqrt (F : Arith W) (a : Reg 1 W) : Reg 1 W :=
  let b_0 := F.sqrt (a 0 0)
  let b_1 := F.sqrt (a 0 1)
  let b_2 := F.sqrt (a 0 2)
  let b_3 := F.sqrt (a 0 3)
  let b := one (quad b_0 b_1 b_2 b_3)
  b

/-- `copysign`, /repo/src/util/v4/v4_portable.h:1078-1100. -/
def copysign (a b : Reg 1 Word) : Reg 1 Word :=
  let t := Word.fabs (a 0 0)
  let t := if Word.flt (b 0 0) (0 : Word) then Word.fneg t else t
  let c_0 := t
  let t := Word.fabs (a 0 1)
  let t := if Word.flt (b 0 1) (0 : Word) then Word.fneg t else t
  let c_1 := t
  let t := Word.fabs (a 0 2)
  let t := if Word.flt (b 0 2) (0 : Word) then Word.fneg t else t
  let c_2 := t
  let t := Word.fabs (a 0 3)
  let t := if Word.flt (b 0 3) (0 : Word) then Word.fneg t else t
  let c_3 := t
  let c := one (quad c_0 c_1 c_2 c_3)
  c

/-- `rsqrt`, /repo/src/util/v4/v4_portable.h:1116-1126. -/
def rsqrt (F : Arith W) (a : Reg 1 W) : Reg 1 W :=
  let b_0 := F.sqrt (F.div F.one (a 0 0))
  let b_1 := F.sqrt (F.div F.one (a 0 1))
  let b_2 := F.sqrt (F.div F.one (a 0 2))
  let b_3 := F.sqrt (F.div F.one (a 0 3))
  let b := one (quad b_0 b_1 b_2 b_3)
  b

/-- `rcp`, /repo/src/util/v4/v4_portable.h:1140-1150. -/
def rcp (F : Arith W) (a : Reg 1 W) : Reg 1 W :=
  let b_0 := F.div F.one (a 0 0)
  let b_1 := F.div F.one (a 0 1)
  let b_2 := F.div F.one (a 0 2)
  let b_3 := F.div F.one (a 0 3)
  let b := one (quad b_0 b_1 b_2 b_3)
  b

/-- `fma`, /repo/src/util/v4/v4_portable.h:1152-1162. -/
def fma (F : Arith W) (a b c : Reg 1 W) : Reg 1 W :=
  let d_0 := F.add (F.mul (a 0 0) (b 0 0)) (c 0 0)
  let d_1 := F.add (F.mul (a 0 1) (b 0 1)) (c 0 1)
  let d_2 := F.add (F.mul (a 0 2) (b 0 2)) (c 0 2)
  let d_3 := F.add (F.mul (a 0 3) (b 0 3)) (c 0 3)
  let d := one (quad d_0 d_1 d_2 d_3)
  d

/-- `fms`, /repo/src/util/v4/v4_portable.h:1164-1174. -/
def fms (F : Arith W) (a b c : Reg 1 W) : Reg 1 W :=
  let d_0 := F.sub (F.mul (a 0 0) (b 0 0)) (c 0 0)
  let d_1 := F.sub (F.mul (a 0 1) (b 0 1)) (c 0 1)
  let d_2 := F.sub (F.mul (a 0 2) (b 0 2)) (c 0 2)
  let d_3 := F.sub (F.mul (a 0 3) (b 0 3)) (c 0 3)
  let d := one (quad d_0 d_1 d_2 d_3)
  d

/-- `fnms`, /repo/src/util/v4/v4_portable.h:1176-1186. -/
def fnms (F : Arith W) (a b c : Reg 1 W) : Reg 1 W :=
  let d_0 := F.sub (c 0 0) (F.mul (a 0 0) (b 0 0))
  let d_1 := F.sub (c 0 1) (F.mul (a 0 1) (b 0 1))
  let d_2 := F.sub (c 0 2) (F.mul (a 0 2) (b 0 2))
  let d_3 := F.sub (c 0 3) (F.mul (a 0 3) (b 0 3))
  let d := one (quad d_0 d_1 d_2 d_3)
  d

/-- `clear_bits`, /repo/src/util/v4/v4_portable.h:1188-1198. -/
def clear_bits (m a : Reg 1 Word) : Reg 1 Word :=
  let b_0 := (~~~(m 0 0)) &&& (a 0 0)
  let b_1 := (~~~(m 0 1)) &&& (a 0 1)
  let b_2 := (~~~(m 0 2)) &&& (a 0 2)
  let b_3 := (~~~(m 0 3)) &&& (a 0 3)
  let b := one (quad b_0 b_1 b_2 b_3)
  b

/-- `set_bits`, /repo/src/util/v4/v4_portable.h:1200-1210. -/
def set_bits (m a : Reg 1 Word) : Reg 1 Word :=
  let b_0 := (m 0 0) ||| (a 0 0)
  let b_1 := (m 0 1) ||| (a 0 1)
  let b_2 := (m 0 2) ||| (a 0 2)
  let b_3 := (m 0 3) ||| (a 0 3)
  let b := one (quad b_0 b_1 b_2 b_3)
  b

/-- `toggle_bits`, /repo/src/util/v4/v4_portable.h:1212-1222. -/
def toggle_bits (m a : Reg 1 Word) : Reg 1 Word :=
  let b_0 := (m 0 0) ^^^ (a 0 0)
  let b_1 := (m 0 1) ^^^ (a 0 1)
  let b_2 := (m 0 2) ^^^ (a 0 2)
  let b_3 := (m 0 3) ^^^ (a 0 3)
  let b := one (quad b_0 b_1 b_2 b_3)
  b

/-- `increment_4x1`, /repo/src/util/v4/v4_portable.h:1224-1231. -/
def increment (F : Arith W) (m : Memory W) (p : ℕ) (a : Reg 1 W) : Memory W :=
  let m := put m (p + 0) (F.add (m (p + 0)) (a 0 0))
  let m := put m (p + 1) (F.add (m (p + 1)) (a 0 1))
  let m := put m (p + 2) (F.add (m (p + 2)) (a 0 2))
  let m := put m (p + 3) (F.add (m (p + 3)) (a 0 3))
  m

/-- `decrement_4x1`, /repo/src/util/v4/v4_portable.h:1233-1240. -/
def decrement (F : Arith W) (m : Memory W) (p : ℕ) (a : Reg 1 W) : Memory W :=
  let m := put m (p + 0) (F.sub (m (p + 0)) (a 0 0))
  let m := put m (p + 1) (F.sub (m (p + 1)) (a 0 1))
  let m := put m (p + 2) (F.sub (m (p + 2)) (a 0 2))
  let m := put m (p + 3) (F.sub (m (p + 3)) (a 0 3))
  m

/-- `scale_4x1`, /repo/src/util/v4/v4_portable.h:1242-1249. -/
def scale (F : Arith W) (m : Memory W) (p : ℕ) (a : Reg 1 W) : Memory W :=
  let m := put m (p + 0) (F.mul (m (p + 0)) (a 0 0))
  let m := put m (p + 1) (F.mul (m (p + 1)) (a 0 1))
  let m := put m (p + 2) (F.mul (m (p + 2)) (a 0 2))
  let m := put m (p + 3) (F.mul (m (p + 3)) (a 0 3))
  m

/-- `trilinear`, /repo/src/util/v4/v4_portable.h:1254-1267. -/
def trilinear (F : Arith W) (wl : Reg 1 W) : Reg 1 W × Reg 1 W :=
  let x := wl 0 0
  let y := wl 0 1
  let z := wl 0 2
  let wl_0 := F.mul (F.mul (F.sub F.one x) (F.sub F.one y)) (F.sub F.one z)
  let wl_1 := F.mul (F.mul (F.add F.one x) (F.sub F.one y)) (F.sub F.one z)
  let wl_2 := F.mul (F.mul (F.sub F.one x) (F.add F.one y)) (F.sub F.one z)
  let wl_3 := F.mul (F.mul (F.add F.one x) (F.add F.one y)) (F.sub F.one z)
  let wh_0 := F.mul (F.mul (F.sub F.one x) (F.sub F.one y)) (F.add F.one z)
  let wh_1 := F.mul (F.mul (F.add F.one x) (F.sub F.one y)) (F.add F.one z)
  let wh_2 := F.mul (F.mul (F.sub F.one x) (F.add F.one y)) (F.add F.one z)
  let wh_3 := F.mul (F.mul (F.add F.one x) (F.add F.one y)) (F.add F.one z)
  let wh := one (quad wh_0 wh_1 wh_2 wh_3)
  let wl := one (quad wl_0 wl_1 wl_2 wl_3)
  (wl, wh)

end Verif.Vector.V4Portable
