import Verif.Vector.Lane

/-! Operators and functions of /repo/src/util/v8/v8_portable.h that compute; written by `tools/gen_lanes.py`. -/
namespace Verif.Vector.V8Portable

variable {W : Type}

/-- `any`, /repo/src/util/v8/v8_portable.h:185-189. -/
def any (a : Reg 2 Word) : Bool :=
  (((((((a 0 0 != 0) || (a 0 1 != 0)) || (a 0 2 != 0)) || (a 0 3 != 0)) || (a 1 0 != 0)) || (a 1 1 != 0)) || (a 1 2 != 0)) || (a 1 3 != 0)

/-- `all`, /repo/src/util/v8/v8_portable.h:191-195. -/
def all (a : Reg 2 Word) : Bool :=
  (((((((a 0 0 != 0) && (a 0 1 != 0)) && (a 0 2 != 0)) && (a 0 3 != 0)) && (a 1 0 != 0)) && (a 1 1 != 0)) && (a 1 2 != 0)) && (a 1 3 != 0)

/-- `operator +=`, /repo/src/util/v8/v8_portable.h:913-925,928. -/
def iadd_to (a b : Reg 2 Word) : Reg 2 Word :=
  let a_0 := (a 0 0) + (b 0 0)
  let a_1 := (a 0 1) + (b 0 1)
  let a_2 := (a 0 2) + (b 0 2)
  let a_3 := (a 0 3) + (b 0 3)
  let a_4 := (a 1 0) + (b 1 0)
  let a_5 := (a 1 1) + (b 1 1)
  let a_6 := (a 1 2) + (b 1 2)
  let a_7 := (a 1 3) + (b 1 3)
  let a := two (quad a_0 a_1 a_2 a_3) (quad a_4 a_5 a_6 a_7)
  a

/-- `operator -=`, /repo/src/util/v8/v8_portable.h:913-925,929. -/
def isub_to (a b : Reg 2 Word) : Reg 2 Word :=
  let a_0 := (a 0 0) - (b 0 0)
  let a_1 := (a 0 1) - (b 0 1)
  let a_2 := (a 0 2) - (b 0 2)
  let a_3 := (a 0 3) - (b 0 3)
  let a_4 := (a 1 0) - (b 1 0)
  let a_5 := (a 1 1) - (b 1 1)
  let a_6 := (a 1 2) - (b 1 2)
  let a_7 := (a 1 3) - (b 1 3)
  let a := two (quad a_0 a_1 a_2 a_3) (quad a_4 a_5 a_6 a_7)
  a

/-- `operator *=`, /repo/src/util/v8/v8_portable.h:913-925,930. -/
def imul_to (a b : Reg 2 Word) : Reg 2 Word :=
  let a_0 := (a 0 0) * (b 0 0)
  let a_1 := (a 0 1) * (b 0 1)
  let a_2 := (a 0 2) * (b 0 2)
  let a_3 := (a 0 3) * (b 0 3)
  let a_4 := (a 1 0) * (b 1 0)
  let a_5 := (a 1 1) * (b 1 1)
  let a_6 := (a 1 2) * (b 1 2)
  let a_7 := (a 1 3) * (b 1 3)
  let a := two (quad a_0 a_1 a_2 a_3) (quad a_4 a_5 a_6 a_7)
  a

/-- `operator ^=`, /repo/src/util/v8/v8_portable.h:913-925,933. -/
def ixor_to (a b : Reg 2 Word) : Reg 2 Word :=
  let a_0 := (a 0 0) ^^^ (b 0 0)
  let a_1 := (a 0 1) ^^^ (b 0 1)
  let a_2 := (a 0 2) ^^^ (b 0 2)
  let a_3 := (a 0 3) ^^^ (b 0 3)
  let a_4 := (a 1 0) ^^^ (b 1 0)
  let a_5 := (a 1 1) ^^^ (b 1 1)
  let a_6 := (a 1 2) ^^^ (b 1 2)
  let a_7 := (a 1 3) ^^^ (b 1 3)
  let a := two (quad a_0 a_1 a_2 a_3) (quad a_4 a_5 a_6 a_7)
  a

/-- `operator &=`, /repo/src/util/v8/v8_portable.h:913-925,934. -/
def iand_to (a b : Reg 2 Word) : Reg 2 Word :=
  let a_0 := (a 0 0) &&& (b 0 0)
  let a_1 := (a 0 1) &&& (b 0 1)
  let a_2 := (a 0 2) &&& (b 0 2)
  let a_3 := (a 0 3) &&& (b 0 3)
  let a_4 := (a 1 0) &&& (b 1 0)
  let a_5 := (a 1 1) &&& (b 1 1)
  let a_6 := (a 1 2) &&& (b 1 2)
  let a_7 := (a 1 3) &&& (b 1 3)
  let a := two (quad a_0 a_1 a_2 a_3) (quad a_4 a_5 a_6 a_7)
  a

/-- `operator |=`, /repo/src/util/v8/v8_portable.h:913-925,935. -/
def ior_to (a b : Reg 2 Word) : Reg 2 Word :=
  let a_0 := (a 0 0) ||| (b 0 0)
  let a_1 := (a 0 1) ||| (b 0 1)
  let a_2 := (a 0 2) ||| (b 0 2)
  let a_3 := (a 0 3) ||| (b 0 3)
  let a_4 := (a 1 0) ||| (b 1 0)
  let a_5 := (a 1 1) ||| (b 1 1)
  let a_6 := (a 1 2) ||| (b 1 2)
  let a_7 := (a 1 3) ||| (b 1 3)
  let a := two (quad a_0 a_1 a_2 a_3) (quad a_4 a_5 a_6 a_7)
  a

/-- `operator -`, /repo/src/util/v8/v8_portable.h:956-969,972. -/
def ineg (a : Reg 2 Word) : Reg 2 Word :=
  let b_0 := -(a 0 0)
  let b_1 := -(a 0 1)
  let b_2 := -(a 0 2)
  let b_3 := -(a 0 3)
  let b_4 := -(a 1 0)
  let b_5 := -(a 1 1)
  let b_6 := -(a 1 2)
  let b_7 := -(a 1 3)
  let b := two (quad b_0 b_1 b_2 b_3) (quad b_4 b_5 b_6 b_7)
  b

/-- `operator !`, /repo/src/util/v8/v8_portable.h:974-988. -/
def ilnot (a : Reg 2 Word) : Reg 2 Word :=
  let b_0 := -(Word.bit (!(a 0 0 != 0)))
  let b_1 := -(Word.bit (!(a 0 1 != 0)))
  let b_2 := -(Word.bit (!(a 0 2 != 0)))
  let b_3 := -(Word.bit (!(a 0 3 != 0)))
  let b_4 := -(Word.bit (!(a 1 0 != 0)))
  let b_5 := -(Word.bit (!(a 1 1 != 0)))
  let b_6 := -(Word.bit (!(a 1 2 != 0)))
  let b_7 := -(Word.bit (!(a 1 3 != 0)))
  let b := two (quad b_0 b_1 b_2 b_3) (quad b_4 b_5 b_6 b_7)
  b

/-- `operator ~`, /repo/src/util/v8/v8_portable.h:956-969,990. -/
def inot (a : Reg 2 Word) : Reg 2 Word :=
  let b_0 := ~~~(a 0 0)
  let b_1 := ~~~(a 0 1)
  let b_2 := ~~~(a 0 2)
  let b_3 := ~~~(a 0 3)
  let b_4 := ~~~(a 1 0)
  let b_5 := ~~~(a 1 1)
  let b_6 := ~~~(a 1 2)
  let b_7 := ~~~(a 1 3)
  let b := two (quad b_0 b_1 b_2 b_3) (quad b_4 b_5 b_6 b_7)
  b

/-- `operator +`, /repo/src/util/v8/v8_portable.h:1040-1053,1055. -/
def iadd (a b : Reg 2 Word) : Reg 2 Word :=
  let c_0 := (a 0 0) + (b 0 0)
  let c_1 := (a 0 1) + (b 0 1)
  let c_2 := (a 0 2) + (b 0 2)
  let c_3 := (a 0 3) + (b 0 3)
  let c_4 := (a 1 0) + (b 1 0)
  let c_5 := (a 1 1) + (b 1 1)
  let c_6 := (a 1 2) + (b 1 2)
  let c_7 := (a 1 3) + (b 1 3)
  let c := two (quad c_0 c_1 c_2 c_3) (quad c_4 c_5 c_6 c_7)
  c

/-- `operator -`, /repo/src/util/v8/v8_portable.h:1040-1053,1056. -/
def isub (a b : Reg 2 Word) : Reg 2 Word :=
  let c_0 := (a 0 0) - (b 0 0)
  let c_1 := (a 0 1) - (b 0 1)
  let c_2 := (a 0 2) - (b 0 2)
  let c_3 := (a 0 3) - (b 0 3)
  let c_4 := (a 1 0) - (b 1 0)
  let c_5 := (a 1 1) - (b 1 1)
  let c_6 := (a 1 2) - (b 1 2)
  let c_7 := (a 1 3) - (b 1 3)
  let c := two (quad c_0 c_1 c_2 c_3) (quad c_4 c_5 c_6 c_7)
  c

/-- `operator *`, /repo/src/util/v8/v8_portable.h:1040-1053,1057. -/
def imul (a b : Reg 2 Word) : Reg 2 Word :=
  let c_0 := (a 0 0) * (b 0 0)
  let c_1 := (a 0 1) * (b 0 1)
  let c_2 := (a 0 2) * (b 0 2)
  let c_3 := (a 0 3) * (b 0 3)
  let c_4 := (a 1 0) * (b 1 0)
  let c_5 := (a 1 1) * (b 1 1)
  let c_6 := (a 1 2) * (b 1 2)
  let c_7 := (a 1 3) * (b 1 3)
  let c := two (quad c_0 c_1 c_2 c_3) (quad c_4 c_5 c_6 c_7)
  c

/-- `operator ^`, /repo/src/util/v8/v8_portable.h:1040-1053,1060. -/
def ixor (a b : Reg 2 Word) : Reg 2 Word :=
  let c_0 := (a 0 0) ^^^ (b 0 0)
  let c_1 := (a 0 1) ^^^ (b 0 1)
  let c_2 := (a 0 2) ^^^ (b 0 2)
  let c_3 := (a 0 3) ^^^ (b 0 3)
  let c_4 := (a 1 0) ^^^ (b 1 0)
  let c_5 := (a 1 1) ^^^ (b 1 1)
  let c_6 := (a 1 2) ^^^ (b 1 2)
  let c_7 := (a 1 3) ^^^ (b 1 3)
  let c := two (quad c_0 c_1 c_2 c_3) (quad c_4 c_5 c_6 c_7)
  c

/-- `operator &`, /repo/src/util/v8/v8_portable.h:1040-1053,1061. -/
def iand (a b : Reg 2 Word) : Reg 2 Word :=
  let c_0 := (a 0 0) &&& (b 0 0)
  let c_1 := (a 0 1) &&& (b 0 1)
  let c_2 := (a 0 2) &&& (b 0 2)
  let c_3 := (a 0 3) &&& (b 0 3)
  let c_4 := (a 1 0) &&& (b 1 0)
  let c_5 := (a 1 1) &&& (b 1 1)
  let c_6 := (a 1 2) &&& (b 1 2)
  let c_7 := (a 1 3) &&& (b 1 3)
  let c := two (quad c_0 c_1 c_2 c_3) (quad c_4 c_5 c_6 c_7)
  c

/-- `operator |`, /repo/src/util/v8/v8_portable.h:1040-1053,1062. -/
def ior (a b : Reg 2 Word) : Reg 2 Word :=
  let c_0 := (a 0 0) ||| (b 0 0)
  let c_1 := (a 0 1) ||| (b 0 1)
  let c_2 := (a 0 2) ||| (b 0 2)
  let c_3 := (a 0 3) ||| (b 0 3)
  let c_4 := (a 1 0) ||| (b 1 0)
  let c_5 := (a 1 1) ||| (b 1 1)
  let c_6 := (a 1 2) ||| (b 1 2)
  let c_7 := (a 1 3) ||| (b 1 3)
  let c := two (quad c_0 c_1 c_2 c_3) (quad c_4 c_5 c_6 c_7)
  c

/-- `operator <`, /repo/src/util/v8/v8_portable.h:1070-1083,1085. -/
def ilt (a b : Reg 2 Word) : Reg 2 Word :=
  let c_0 := -(Word.bit (Word.ilt (a 0 0) (b 0 0)))
  let c_1 := -(Word.bit (Word.ilt (a 0 1) (b 0 1)))
  let c_2 := -(Word.bit (Word.ilt (a 0 2) (b 0 2)))
  let c_3 := -(Word.bit (Word.ilt (a 0 3) (b 0 3)))
  let c_4 := -(Word.bit (Word.ilt (a 1 0) (b 1 0)))
  let c_5 := -(Word.bit (Word.ilt (a 1 1) (b 1 1)))
  let c_6 := -(Word.bit (Word.ilt (a 1 2) (b 1 2)))
  let c_7 := -(Word.bit (Word.ilt (a 1 3) (b 1 3)))
  let c := two (quad c_0 c_1 c_2 c_3) (quad c_4 c_5 c_6 c_7)
  c

/-- `operator >`, /repo/src/util/v8/v8_portable.h:1070-1083,1086. -/
def igt (a b : Reg 2 Word) : Reg 2 Word :=
  let c_0 := -(Word.bit (Word.igt (a 0 0) (b 0 0)))
  let c_1 := -(Word.bit (Word.igt (a 0 1) (b 0 1)))
  let c_2 := -(Word.bit (Word.igt (a 0 2) (b 0 2)))
  let c_3 := -(Word.bit (Word.igt (a 0 3) (b 0 3)))
  let c_4 := -(Word.bit (Word.igt (a 1 0) (b 1 0)))
  let c_5 := -(Word.bit (Word.igt (a 1 1) (b 1 1)))
  let c_6 := -(Word.bit (Word.igt (a 1 2) (b 1 2)))
  let c_7 := -(Word.bit (Word.igt (a 1 3) (b 1 3)))
  let c := two (quad c_0 c_1 c_2 c_3) (quad c_4 c_5 c_6 c_7)
  c

/-- `operator ==`, /repo/src/util/v8/v8_portable.h:1070-1083,1087. -/
def ieq (a b : Reg 2 Word) : Reg 2 Word :=
  let c_0 := -(Word.bit (Word.ieq (a 0 0) (b 0 0)))
  let c_1 := -(Word.bit (Word.ieq (a 0 1) (b 0 1)))
  let c_2 := -(Word.bit (Word.ieq (a 0 2) (b 0 2)))
  let c_3 := -(Word.bit (Word.ieq (a 0 3) (b 0 3)))
  let c_4 := -(Word.bit (Word.ieq (a 1 0) (b 1 0)))
  let c_5 := -(Word.bit (Word.ieq (a 1 1) (b 1 1)))
  let c_6 := -(Word.bit (Word.ieq (a 1 2) (b 1 2)))
  let c_7 := -(Word.bit (Word.ieq (a 1 3) (b 1 3)))
  let c := two (quad c_0 c_1 c_2 c_3) (quad c_4 c_5 c_6 c_7)
  c

/-- `operator !=`, /repo/src/util/v8/v8_portable.h:1070-1083,1088. -/
def ine (a b : Reg 2 Word) : Reg 2 Word :=
  let c_0 := -(Word.bit (Word.ine (a 0 0) (b 0 0)))
  let c_1 := -(Word.bit (Word.ine (a 0 1) (b 0 1)))
  let c_2 := -(Word.bit (Word.ine (a 0 2) (b 0 2)))
  let c_3 := -(Word.bit (Word.ine (a 0 3) (b 0 3)))
  let c_4 := -(Word.bit (Word.ine (a 1 0) (b 1 0)))
  let c_5 := -(Word.bit (Word.ine (a 1 1) (b 1 1)))
  let c_6 := -(Word.bit (Word.ine (a 1 2) (b 1 2)))
  let c_7 := -(Word.bit (Word.ine (a 1 3) (b 1 3)))
  let c := two (quad c_0 c_1 c_2 c_3) (quad c_4 c_5 c_6 c_7)
  c

/-- `operator <=`, /repo/src/util/v8/v8_portable.h:1070-1083,1089. -/
def ile (a b : Reg 2 Word) : Reg 2 Word :=
  let c_0 := -(Word.bit (Word.ile (a 0 0) (b 0 0)))
  let c_1 := -(Word.bit (Word.ile (a 0 1) (b 0 1)))
  let c_2 := -(Word.bit (Word.ile (a 0 2) (b 0 2)))
  let c_3 := -(Word.bit (Word.ile (a 0 3) (b 0 3)))
  let c_4 := -(Word.bit (Word.ile (a 1 0) (b 1 0)))
  let c_5 := -(Word.bit (Word.ile (a 1 1) (b 1 1)))
  let c_6 := -(Word.bit (Word.ile (a 1 2) (b 1 2)))
  let c_7 := -(Word.bit (Word.ile (a 1 3) (b 1 3)))
  let c := two (quad c_0 c_1 c_2 c_3) (quad c_4 c_5 c_6 c_7)
  c

/-- `operator >=`, /repo/src/util/v8/v8_portable.h:1070-1083,1090. -/
def ige (a b : Reg 2 Word) : Reg 2 Word :=
  let c_0 := -(Word.bit (Word.ige (a 0 0) (b 0 0)))
  let c_1 := -(Word.bit (Word.ige (a 0 1) (b 0 1)))
  let c_2 := -(Word.bit (Word.ige (a 0 2) (b 0 2)))
  let c_3 := -(Word.bit (Word.ige (a 0 3) (b 0 3)))
  let c_4 := -(Word.bit (Word.ige (a 1 0) (b 1 0)))
  let c_5 := -(Word.bit (Word.ige (a 1 1) (b 1 1)))
  let c_6 := -(Word.bit (Word.ige (a 1 2) (b 1 2)))
  let c_7 := -(Word.bit (Word.ige (a 1 3) (b 1 3)))
  let c := two (quad c_0 c_1 c_2 c_3) (quad c_4 c_5 c_6 c_7)
  c

/-- `operator &&`, /repo/src/util/v8/v8_portable.h:1070-1083,1091. -/
def iland (a b : Reg 2 Word) : Reg 2 Word :=
  let c_0 := -(Word.bit ((a 0 0 != 0) && (b 0 0 != 0)))
  let c_1 := -(Word.bit ((a 0 1 != 0) && (b 0 1 != 0)))
  let c_2 := -(Word.bit ((a 0 2 != 0) && (b 0 2 != 0)))
  let c_3 := -(Word.bit ((a 0 3 != 0) && (b 0 3 != 0)))
  let c_4 := -(Word.bit ((a 1 0 != 0) && (b 1 0 != 0)))
  let c_5 := -(Word.bit ((a 1 1 != 0) && (b 1 1 != 0)))
  let c_6 := -(Word.bit ((a 1 2 != 0) && (b 1 2 != 0)))
  let c_7 := -(Word.bit ((a 1 3 != 0) && (b 1 3 != 0)))
  let c := two (quad c_0 c_1 c_2 c_3) (quad c_4 c_5 c_6 c_7)
  c

/-- `operator ||`, /repo/src/util/v8/v8_portable.h:1070-1083,1092. -/
def ilor (a b : Reg 2 Word) : Reg 2 Word :=
  let c_0 := -(Word.bit ((a 0 0 != 0) || (b 0 0 != 0)))
  let c_1 := -(Word.bit ((a 0 1 != 0) || (b 0 1 != 0)))
  let c_2 := -(Word.bit ((a 0 2 != 0) || (b 0 2 != 0)))
  let c_3 := -(Word.bit ((a 0 3 != 0) || (b 0 3 != 0)))
  let c_4 := -(Word.bit ((a 1 0 != 0) || (b 1 0 != 0)))
  let c_5 := -(Word.bit ((a 1 1 != 0) || (b 1 1 != 0)))
  let c_6 := -(Word.bit ((a 1 2 != 0) || (b 1 2 != 0)))
  let c_7 := -(Word.bit ((a 1 3 != 0) || (b 1 3 != 0)))
  let c := two (quad c_0 c_1 c_2 c_3) (quad c_4 c_5 c_6 c_7)
  c

/-- `abs`, /repo/src/util/v8/v8_portable.h:1098-1112. -/
def abs (a : Reg 2 Word) : Reg 2 Word :=
  let b_0 := if Word.ige (a 0 0) (0 : Word) then a 0 0 else -(a 0 0)
  let b_1 := if Word.ige (a 0 1) (0 : Word) then a 0 1 else -(a 0 1)
  let b_2 := if Word.ige (a 0 2) (0 : Word) then a 0 2 else -(a 0 2)
  let b_3 := if Word.ige (a 0 3) (0 : Word) then a 0 3 else -(a 0 3)
  let b_4 := if Word.ige (a 1 0) (0 : Word) then a 1 0 else -(a 1 0)
  let b_5 := if Word.ige (a 1 1) (0 : Word) then a 1 1 else -(a 1 1)
  let b_6 := if Word.ige (a 1 2) (0 : Word) then a 1 2 else -(a 1 2)
  let b_7 := if Word.ige (a 1 3) (0 : Word) then a 1 3 else -(a 1 3)
  let b := two (quad b_0 b_1 b_2 b_3) (quad b_4 b_5 b_6 b_7)
  b

/-- `czero`, /repo/src/util/v8/v8_portable.h:1114-1128. -/
def czero (c a : Reg 2 Word) : Reg 2 Word :=
  let b_0 := (a 0 0) &&& (~~~(c 0 0))
  let b_1 := (a 0 1) &&& (~~~(c 0 1))
  let b_2 := (a 0 2) &&& (~~~(c 0 2))
  let b_3 := (a 0 3) &&& (~~~(c 0 3))
  let b_4 := (a 1 0) &&& (~~~(c 1 0))
  let b_5 := (a 1 1) &&& (~~~(c 1 1))
  let b_6 := (a 1 2) &&& (~~~(c 1 2))
  let b_7 := (a 1 3) &&& (~~~(c 1 3))
  let b := two (quad b_0 b_1 b_2 b_3) (quad b_4 b_5 b_6 b_7)
  b

/-- `notczero`, /repo/src/util/v8/v8_portable.h:1130-1144. -/
def notczero (c a : Reg 2 Word) : Reg 2 Word :=
  let b_0 := (a 0 0) &&& (c 0 0)
  let b_1 := (a 0 1) &&& (c 0 1)
  let b_2 := (a 0 2) &&& (c 0 2)
  let b_3 := (a 0 3) &&& (c 0 3)
  let b_4 := (a 1 0) &&& (c 1 0)
  let b_5 := (a 1 1) &&& (c 1 1)
  let b_6 := (a 1 2) &&& (c 1 2)
  let b_7 := (a 1 3) &&& (c 1 3)
  let b := two (quad b_0 b_1 b_2 b_3) (quad b_4 b_5 b_6 b_7)
  b

/-- `merge`, /repo/src/util/v8/v8_portable.h:1146-1160. -/
def merge (c t f : Reg 2 Word) : Reg 2 Word :=
  let m_0 := ((f 0 0) &&& (~~~(c 0 0))) ||| ((t 0 0) &&& (c 0 0))
  let m_1 := ((f 0 1) &&& (~~~(c 0 1))) ||| ((t 0 1) &&& (c 0 1))
  let m_2 := ((f 0 2) &&& (~~~(c 0 2))) ||| ((t 0 2) &&& (c 0 2))
  let m_3 := ((f 0 3) &&& (~~~(c 0 3))) ||| ((t 0 3) &&& (c 0 3))
  let m_4 := ((f 1 0) &&& (~~~(c 1 0))) ||| ((t 1 0) &&& (c 1 0))
  let m_5 := ((f 1 1) &&& (~~~(c 1 1))) ||| ((t 1 1) &&& (c 1 1))
  let m_6 := ((f 1 2) &&& (~~~(c 1 2))) ||| ((t 1 2) &&& (c 1 2))
  let m_7 := ((f 1 3) &&& (~~~(c 1 3))) ||| ((t 1 3) &&& (c 1 3))
  let m := two (quad m_0 m_1 m_2 m_3) (quad m_4 m_5 m_6 m_7)
  m

/-- `operator +=`, /repo/src/util/v8/v8_portable.h:1295-1307,1310. -/
def fadd_to (F : Arith W) (a b : Reg 2 W) : Reg 2 W :=
  let a_0 := F.add (a 0 0) (b 0 0)
  let a_1 := F.add (a 0 1) (b 0 1)
  let a_2 := F.add (a 0 2) (b 0 2)
  let a_3 := F.add (a 0 3) (b 0 3)
  let a_4 := F.add (a 1 0) (b 1 0)
  let a_5 := F.add (a 1 1) (b 1 1)
  let a_6 := F.add (a 1 2) (b 1 2)
  let a_7 := F.add (a 1 3) (b 1 3)
  let a := two (quad a_0 a_1 a_2 a_3) (quad a_4 a_5 a_6 a_7)
  a

/-- `operator -=`, /repo/src/util/v8/v8_portable.h:1295-1307,1311. -/
def fsub_to (F : Arith W) (a b : Reg 2 W) : Reg 2 W :=
  let a_0 := F.sub (a 0 0) (b 0 0)
  let a_1 := F.sub (a 0 1) (b 0 1)
  let a_2 := F.sub (a 0 2) (b 0 2)
  let a_3 := F.sub (a 0 3) (b 0 3)
  let a_4 := F.sub (a 1 0) (b 1 0)
  let a_5 := F.sub (a 1 1) (b 1 1)
  let a_6 := F.sub (a 1 2) (b 1 2)
  let a_7 := F.sub (a 1 3) (b 1 3)
  let a := two (quad a_0 a_1 a_2 a_3) (quad a_4 a_5 a_6 a_7)
  a

/-- `operator *=`, /repo/src/util/v8/v8_portable.h:1295-1307,1312. -/
def fmul_to (F : Arith W) (a b : Reg 2 W) : Reg 2 W :=
  let a_0 := F.mul (a 0 0) (b 0 0)
  let a_1 := F.mul (a 0 1) (b 0 1)
  let a_2 := F.mul (a 0 2) (b 0 2)
  let a_3 := F.mul (a 0 3) (b 0 3)
  let a_4 := F.mul (a 1 0) (b 1 0)
  let a_5 := F.mul (a 1 1) (b 1 1)
  let a_6 := F.mul (a 1 2) (b 1 2)
  let a_7 := F.mul (a 1 3) (b 1 3)
  let a := two (quad a_0 a_1 a_2 a_3) (quad a_4 a_5 a_6 a_7)
  a

/-- `operator /=`, /repo/src/util/v8/v8_portable.h:1295-1307,1313. -/
def fdiv_to (F : Arith W) (a b : Reg 2 W) : Reg 2 W :=
  let a_0 := F.div (a 0 0) (b 0 0)
  let a_1 := F.div (a 0 1) (b 0 1)
  let a_2 := F.div (a 0 2) (b 0 2)
  let a_3 := F.div (a 0 3) (b 0 3)
  let a_4 := F.div (a 1 0) (b 1 0)
  let a_5 := F.div (a 1 1) (b 1 1)
  let a_6 := F.div (a 1 2) (b 1 2)
  let a_7 := F.div (a 1 3) (b 1 3)
  let a := two (quad a_0 a_1 a_2 a_3) (quad a_4 a_5 a_6 a_7)
  a

/-- `operator -`, /repo/src/util/v8/v8_portable.h:1348-1362. -/
def fneg (a : Reg 2 Word) : Reg 2 Word :=
  let b_0 := Word.fneg (a 0 0)
  let b_1 := Word.fneg (a 0 1)
  let b_2 := Word.fneg (a 0 2)
  let b_3 := Word.fneg (a 0 3)
  let b_4 := Word.fneg (a 1 0)
  let b_5 := Word.fneg (a 1 1)
  let b_6 := Word.fneg (a 1 2)
  let b_7 := Word.fneg (a 1 3)
  let b := two (quad b_0 b_1 b_2 b_3) (quad b_4 b_5 b_6 b_7)
  b

/-- `operator !`, /repo/src/util/v8/v8_portable.h:1364-1378. -/
def flnot (a : Reg 2 Word) : Reg 2 Word :=
  let b_0 := if (a 0 0 != 0) then (0 : Word) else (-1 : Word)
  let b_1 := if (a 0 1 != 0) then (0 : Word) else (-1 : Word)
  let b_2 := if (a 0 2 != 0) then (0 : Word) else (-1 : Word)
  let b_3 := if (a 0 3 != 0) then (0 : Word) else (-1 : Word)
  let b_4 := if (a 1 0 != 0) then (0 : Word) else (-1 : Word)
  let b_5 := if (a 1 1 != 0) then (0 : Word) else (-1 : Word)
  let b_6 := if (a 1 2 != 0) then (0 : Word) else (-1 : Word)
  let b_7 := if (a 1 3 != 0) then (0 : Word) else (-1 : Word)
  let b := two (quad b_0 b_1 b_2 b_3) (quad b_4 b_5 b_6 b_7)
  b

/-- `operator ++`, /repo/src/util/v8/v8_portable.h:1382-1396. -/
def preinc (F : Arith W) (a : Reg 2 W) : Reg 2 W × Reg 2 W :=
  let a_0 := F.add (a 0 0) F.one
  let b_0 := a_0
  let a_1 := F.add (a 0 1) F.one
  let b_1 := a_1
  let a_2 := F.add (a 0 2) F.one
  let b_2 := a_2
  let a_3 := F.add (a 0 3) F.one
  let b_3 := a_3
  let a_4 := F.add (a 1 0) F.one
  let b_4 := a_4
  let a_5 := F.add (a 1 1) F.one
  let b_5 := a_5
  let a_6 := F.add (a 1 2) F.one
  let b_6 := a_6
  let a_7 := F.add (a 1 3) F.one
  let b_7 := a_7
  let a := two (quad a_0 a_1 a_2 a_3) (quad a_4 a_5 a_6 a_7)
  let b := two (quad b_0 b_1 b_2 b_3) (quad b_4 b_5 b_6 b_7)
  (a, b)

/-- `operator --`, /repo/src/util/v8/v8_portable.h:1398-1412. -/
def predec (F : Arith W) (a : Reg 2 W) : Reg 2 W × Reg 2 W :=
  let a_0 := F.sub (a 0 0) F.one
  let b_0 := a_0
  let a_1 := F.sub (a 0 1) F.one
  let b_1 := a_1
  let a_2 := F.sub (a 0 2) F.one
  let b_2 := a_2
  let a_3 := F.sub (a 0 3) F.one
  let b_3 := a_3
  let a_4 := F.sub (a 1 0) F.one
  let b_4 := a_4
  let a_5 := F.sub (a 1 1) F.one
  let b_5 := a_5
  let a_6 := F.sub (a 1 2) F.one
  let b_6 := a_6
  let a_7 := F.sub (a 1 3) F.one
  let b_7 := a_7
  let a := two (quad a_0 a_1 a_2 a_3) (quad a_4 a_5 a_6 a_7)
  let b := two (quad b_0 b_1 b_2 b_3) (quad b_4 b_5 b_6 b_7)
  (a, b)

/-- `operator ++`, /repo/src/util/v8/v8_portable.h:1416-1430. -/
def postinc (F : Arith W) (a : Reg 2 W) : Reg 2 W × Reg 2 W :=
  let a_0_old := a 0 0
  let a_0 := F.add a_0_old F.one
  let b_0 := a_0_old
  let a_1_old := a 0 1
  let a_1 := F.add a_1_old F.one
  let b_1 := a_1_old
  let a_2_old := a 0 2
  let a_2 := F.add a_2_old F.one
  let b_2 := a_2_old
  let a_3_old := a 0 3
  let a_3 := F.add a_3_old F.one
  let b_3 := a_3_old
  let a_4_old := a 1 0
  let a_4 := F.add a_4_old F.one
  let b_4 := a_4_old
  let a_5_old := a 1 1
  let a_5 := F.add a_5_old F.one
  let b_5 := a_5_old
  let a_6_old := a 1 2
  let a_6 := F.add a_6_old F.one
  let b_6 := a_6_old
  let a_7_old := a 1 3
  let a_7 := F.add a_7_old F.one
  let b_7 := a_7_old
  let a := two (quad a_0 a_1 a_2 a_3) (quad a_4 a_5 a_6 a_7)
  let b := two (quad b_0 b_1 b_2 b_3) (quad b_4 b_5 b_6 b_7)
  (a, b)

/-- `operator --`, /repo/src/util/v8/v8_portable.h:1432-1446. -/
def postdec (F : Arith W) (a : Reg 2 W) : Reg 2 W × Reg 2 W :=
  let a_0_old := a 0 0
  let a_0 := F.sub a_0_old F.one
  let b_0 := a_0_old
  let a_1_old := a 0 1
  let a_1 := F.sub a_1_old F.one
  let b_1 := a_1_old
  let a_2_old := a 0 2
  let a_2 := F.sub a_2_old F.one
  let b_2 := a_2_old
  let a_3_old := a 0 3
  let a_3 := F.sub a_3_old F.one
  let b_3 := a_3_old
  let a_4_old := a 1 0
  let a_4 := F.sub a_4_old F.one
  let b_4 := a_4_old
  let a_5_old := a 1 1
  let a_5 := F.sub a_5_old F.one
  let b_5 := a_5_old
  let a_6_old := a 1 2
  let a_6 := F.sub a_6_old F.one
  let b_6 := a_6_old
  let a_7_old := a 1 3
  let a_7 := F.sub a_7_old F.one
  let b_7 := a_7_old
  let a := two (quad a_0 a_1 a_2 a_3) (quad a_4 a_5 a_6 a_7)
  let b := two (quad b_0 b_1 b_2 b_3) (quad b_4 b_5 b_6 b_7)
  (a, b)

/-- `operator +`, /repo/src/util/v8/v8_portable.h:1450-1463,1465. -/
def fadd (F : Arith W) (a b : Reg 2 W) : Reg 2 W :=
  let c_0 := F.add (a 0 0) (b 0 0)
  let c_1 := F.add (a 0 1) (b 0 1)
  let c_2 := F.add (a 0 2) (b 0 2)
  let c_3 := F.add (a 0 3) (b 0 3)
  let c_4 := F.add (a 1 0) (b 1 0)
  let c_5 := F.add (a 1 1) (b 1 1)
  let c_6 := F.add (a 1 2) (b 1 2)
  let c_7 := F.add (a 1 3) (b 1 3)
  let c := two (quad c_0 c_1 c_2 c_3) (quad c_4 c_5 c_6 c_7)
  c

/-- `operator -`, /repo/src/util/v8/v8_portable.h:1450-1463,1466. -/
def fsub (F : Arith W) (a b : Reg 2 W) : Reg 2 W :=
  let c_0 := F.sub (a 0 0) (b 0 0)
  let c_1 := F.sub (a 0 1) (b 0 1)
  let c_2 := F.sub (a 0 2) (b 0 2)
  let c_3 := F.sub (a 0 3) (b 0 3)
  let c_4 := F.sub (a 1 0) (b 1 0)
  let c_5 := F.sub (a 1 1) (b 1 1)
  let c_6 := F.sub (a 1 2) (b 1 2)
  let c_7 := F.sub (a 1 3) (b 1 3)
  let c := two (quad c_0 c_1 c_2 c_3) (quad c_4 c_5 c_6 c_7)
  c

/-- `operator *`, /repo/src/util/v8/v8_portable.h:1450-1463,1467. -/
def fmul (F : Arith W) (a b : Reg 2 W) : Reg 2 W :=
  let c_0 := F.mul (a 0 0) (b 0 0)
  let c_1 := F.mul (a 0 1) (b 0 1)
  let c_2 := F.mul (a 0 2) (b 0 2)
  let c_3 := F.mul (a 0 3) (b 0 3)
  let c_4 := F.mul (a 1 0) (b 1 0)
  let c_5 := F.mul (a 1 1) (b 1 1)
  let c_6 := F.mul (a 1 2) (b 1 2)
  let c_7 := F.mul (a 1 3) (b 1 3)
  let c := two (quad c_0 c_1 c_2 c_3) (quad c_4 c_5 c_6 c_7)
  c

/-- `operator /`, /repo/src/util/v8/v8_portable.h:1450-1463,1468. -/
def fdiv (F : Arith W) (a b : Reg 2 W) : Reg 2 W :=
  let c_0 := F.div (a 0 0) (b 0 0)
  let c_1 := F.div (a 0 1) (b 0 1)
  let c_2 := F.div (a 0 2) (b 0 2)
  let c_3 := F.div (a 0 3) (b 0 3)
  let c_4 := F.div (a 1 0) (b 1 0)
  let c_5 := F.div (a 1 1) (b 1 1)
  let c_6 := F.div (a 1 2) (b 1 2)
  let c_7 := F.div (a 1 3) (b 1 3)
  let c := two (quad c_0 c_1 c_2 c_3) (quad c_4 c_5 c_6 c_7)
  c

/-- `operator <`, /repo/src/util/v8/v8_portable.h:1474-1487,1489. -/
def flt (a b : Reg 2 Word) : Reg 2 Word :=
  let c_0 := -(Word.bit (Word.flt (a 0 0) (b 0 0)))
  let c_1 := -(Word.bit (Word.flt (a 0 1) (b 0 1)))
  let c_2 := -(Word.bit (Word.flt (a 0 2) (b 0 2)))
  let c_3 := -(Word.bit (Word.flt (a 0 3) (b 0 3)))
  let c_4 := -(Word.bit (Word.flt (a 1 0) (b 1 0)))
  let c_5 := -(Word.bit (Word.flt (a 1 1) (b 1 1)))
  let c_6 := -(Word.bit (Word.flt (a 1 2) (b 1 2)))
  let c_7 := -(Word.bit (Word.flt (a 1 3) (b 1 3)))
  let c := two (quad c_0 c_1 c_2 c_3) (quad c_4 c_5 c_6 c_7)
  c

/-- `operator >`, /repo/src/util/v8/v8_portable.h:1474-1487,1490. -/
def fgt (a b : Reg 2 Word) : Reg 2 Word :=
  let c_0 := -(Word.bit (Word.fgt (a 0 0) (b 0 0)))
  let c_1 := -(Word.bit (Word.fgt (a 0 1) (b 0 1)))
  let c_2 := -(Word.bit (Word.fgt (a 0 2) (b 0 2)))
  let c_3 := -(Word.bit (Word.fgt (a 0 3) (b 0 3)))
  let c_4 := -(Word.bit (Word.fgt (a 1 0) (b 1 0)))
  let c_5 := -(Word.bit (Word.fgt (a 1 1) (b 1 1)))
  let c_6 := -(Word.bit (Word.fgt (a 1 2) (b 1 2)))
  let c_7 := -(Word.bit (Word.fgt (a 1 3) (b 1 3)))
  let c := two (quad c_0 c_1 c_2 c_3) (quad c_4 c_5 c_6 c_7)
  c

/-- `operator ==`, /repo/src/util/v8/v8_portable.h:1474-1487,1491. -/
def feq (a b : Reg 2 Word) : Reg 2 Word :=
  let c_0 := -(Word.bit (Word.feq (a 0 0) (b 0 0)))
  let c_1 := -(Word.bit (Word.feq (a 0 1) (b 0 1)))
  let c_2 := -(Word.bit (Word.feq (a 0 2) (b 0 2)))
  let c_3 := -(Word.bit (Word.feq (a 0 3) (b 0 3)))
  let c_4 := -(Word.bit (Word.feq (a 1 0) (b 1 0)))
  let c_5 := -(Word.bit (Word.feq (a 1 1) (b 1 1)))
  let c_6 := -(Word.bit (Word.feq (a 1 2) (b 1 2)))
  let c_7 := -(Word.bit (Word.feq (a 1 3) (b 1 3)))
  let c := two (quad c_0 c_1 c_2 c_3) (quad c_4 c_5 c_6 c_7)
  c

/-- `operator !=`, /repo/src/util/v8/v8_portable.h:1474-1487,1492. -/
def fne (a b : Reg 2 Word) : Reg 2 Word :=
  let c_0 := -(Word.bit (Word.fne (a 0 0) (b 0 0)))
  let c_1 := -(Word.bit (Word.fne (a 0 1) (b 0 1)))
  let c_2 := -(Word.bit (Word.fne (a 0 2) (b 0 2)))
  let c_3 := -(Word.bit (Word.fne (a 0 3) (b 0 3)))
  let c_4 := -(Word.bit (Word.fne (a 1 0) (b 1 0)))
  let c_5 := -(Word.bit (Word.fne (a 1 1) (b 1 1)))
  let c_6 := -(Word.bit (Word.fne (a 1 2) (b 1 2)))
  let c_7 := -(Word.bit (Word.fne (a 1 3) (b 1 3)))
  let c := two (quad c_0 c_1 c_2 c_3) (quad c_4 c_5 c_6 c_7)
  c

/-- `operator <=`, /repo/src/util/v8/v8_portable.h:1474-1487,1493. -/
def fle (a b : Reg 2 Word) : Reg 2 Word :=
  let c_0 := -(Word.bit (Word.fle (a 0 0) (b 0 0)))
  let c_1 := -(Word.bit (Word.fle (a 0 1) (b 0 1)))
  let c_2 := -(Word.bit (Word.fle (a 0 2) (b 0 2)))
  let c_3 := -(Word.bit (Word.fle (a 0 3) (b 0 3)))
  let c_4 := -(Word.bit (Word.fle (a 1 0) (b 1 0)))
  let c_5 := -(Word.bit (Word.fle (a 1 1) (b 1 1)))
  let c_6 := -(Word.bit (Word.fle (a 1 2) (b 1 2)))
  let c_7 := -(Word.bit (Word.fle (a 1 3) (b 1 3)))
  let c := two (quad c_0 c_1 c_2 c_3) (quad c_4 c_5 c_6 c_7)
  c

/-- `operator >=`, /repo/src/util/v8/v8_portable.h:1474-1487,1494. -/
def fge (a b : Reg 2 Word) : Reg 2 Word :=
  let c_0 := -(Word.bit (Word.fge (a 0 0) (b 0 0)))
  let c_1 := -(Word.bit (Word.fge (a 0 1) (b 0 1)))
  let c_2 := -(Word.bit (Word.fge (a 0 2) (b 0 2)))
  let c_3 := -(Word.bit (Word.fge (a 0 3) (b 0 3)))
  let c_4 := -(Word.bit (Word.fge (a 1 0) (b 1 0)))
  let c_5 := -(Word.bit (Word.fge (a 1 1) (b 1 1)))
  let c_6 := -(Word.bit (Word.fge (a 1 2) (b 1 2)))
  let c_7 := -(Word.bit (Word.fge (a 1 3) (b 1 3)))
  let c := two (quad c_0 c_1 c_2 c_3) (quad c_4 c_5 c_6 c_7)
  c

/-- `operator &&`, /repo/src/util/v8/v8_portable.h:1474-1487,1495. -/
def fland (a b : Reg 2 Word) : Reg 2 Word :=
  let c_0 := -(Word.bit ((Word.fne (a 0 0) 0) && (Word.fne (b 0 0) 0)))
  let c_1 := -(Word.bit ((Word.fne (a 0 1) 0) && (Word.fne (b 0 1) 0)))
  let c_2 := -(Word.bit ((Word.fne (a 0 2) 0) && (Word.fne (b 0 2) 0)))
  let c_3 := -(Word.bit ((Word.fne (a 0 3) 0) && (Word.fne (b 0 3) 0)))
  let c_4 := -(Word.bit ((Word.fne (a 1 0) 0) && (Word.fne (b 1 0) 0)))
  let c_5 := -(Word.bit ((Word.fne (a 1 1) 0) && (Word.fne (b 1 1) 0)))
  let c_6 := -(Word.bit ((Word.fne (a 1 2) 0) && (Word.fne (b 1 2) 0)))
  let c_7 := -(Word.bit ((Word.fne (a 1 3) 0) && (Word.fne (b 1 3) 0)))
  let c := two (quad c_0 c_1 c_2 c_3) (quad c_4 c_5 c_6 c_7)
  c

/-- `operator ||`, /repo/src/util/v8/v8_portable.h:1474-1487,1496. -/
def flor (a b : Reg 2 Word) : Reg 2 Word :=
  let c_0 := -(Word.bit ((Word.fne (a 0 0) 0) || (Word.fne (b 0 0) 0)))
  let c_1 := -(Word.bit ((Word.fne (a 0 1) 0) || (Word.fne (b 0 1) 0)))
  let c_2 := -(Word.bit ((Word.fne (a 0 2) 0) || (Word.fne (b 0 2) 0)))
  let c_3 := -(Word.bit ((Word.fne (a 0 3) 0) || (Word.fne (b 0 3) 0)))
  let c_4 := -(Word.bit ((Word.fne (a 1 0) 0) || (Word.fne (b 1 0) 0)))
  let c_5 := -(Word.bit ((Word.fne (a 1 1) 0) || (Word.fne (b 1 1) 0)))
  let c_6 := -(Word.bit ((Word.fne (a 1 2) 0) || (Word.fne (b 1 2) 0)))
  let c_7 := -(Word.bit ((Word.fne (a 1 3) 0) || (Word.fne (b 1 3) 0)))
  let c := two (quad c_0 c_1 c_2 c_3) (quad c_4 c_5 c_6 c_7)
  c

/-- `fabs`, /repo/src/util/v8/v8_portable.h:1502-1515,1534. -/
def fabs (a : Reg 2 Word) : Reg 2 Word :=
  let b_0 := Word.fabs (a 0 0)
  let b_1 := Word.fabs (a 0 1)
  let b_2 := Word.fabs (a 0 2)
  let b_3 := Word.fabs (a 0 3)
  let b_4 := Word.fabs (a 1 0)
  let b_5 := Word.fabs (a 1 1)
  let b_6 := Word.fabs (a 1 2)
  let b_7 := Word.fabs (a 1 3)
  let b := two (quad b_0 b_1 b_2 b_3) (quad b_4 b_5 b_6 b_7)
  b

/-- `sqrt`, /repo/src/util/v8/v8_portable.h:1502-1515,1536. -/
def sqrt (F : Arith W) (a : Reg 2 W) : Reg 2 W :=
  let b_0 := F.sqrt (a 0 0)
  let b_1 := F.sqrt (a 0 1)
  let b_2 := F.sqrt (a 0 2)
  let b_3 := F.sqrt (a 0 3)
  let b_4 := F.sqrt (a 1 0)
  let b_5 := F.sqrt (a 1 1)
  let b_6 := F.sqrt (a 1 2)
  let b_7 := F.sqrt (a 1 3)
  let b := two (quad b_0 b_1 b_2 b_3) (quad b_4 b_5 b_6 b_7)
  b

/-- `copysign`, /repo/src/util/v8/v8_portable.h:1538-1576. -/
def copysign (a b : Reg 2 Word) : Reg 2 Word :=
  let t := Word.fabs (a 0 0)
  let t := if Word.flt (b 0 0) (0 : Word) then Word.fneg t else t
  let c_0 := t
  let t := Word.fabs (a 0 1)
  let t := if Word.flt (b 0 1) (0 : Word) then Word.fneg t else t
  let c_1 := t
  let t := Word.fabs (a 0 2)
  let t := if Word.flt (b 0 2) (0 : Word) then Word.fneg t else t
  let c_2 := t
  let t := Word.fabs (a 0 3)
  let t := if Word.flt (b 0 3) (0 : Word) then Word.fneg t else t
  let c_3 := t
  let t := Word.fabs (a 1 0)
  let t := if Word.flt (b 1 0) (0 : Word) then Word.fneg t else t
  let c_4 := t
  let t := Word.fabs (a 1 1)
  let t := if Word.flt (b 1 1) (0 : Word) then Word.fneg t else t
  let c_5 := t
  let t := Word.fabs (a 1 2)
  let t := if Word.flt (b 1 2) (0 : Word) then Word.fneg t else t
  let c_6 := t
  let t := Word.fabs (a 1 3)
  let t := if Word.flt (b 1 3) (0 : Word) then Word.fneg t else t
  let c_7 := t
  let c := two (quad c_0 c_1 c_2 c_3) (quad c_4 c_5 c_6 c_7)
  c

/-- `rsqrt`, /repo/src/util/v8/v8_portable.h:1599-1613. -/
def rsqrt (F : Arith W) (a : Reg 2 W) : Reg 2 W :=
  let b_0 := F.sqrt (F.div F.one (a 0 0))
  let b_1 := F.sqrt (F.div F.one (a 0 1))
  let b_2 := F.sqrt (F.div F.one (a 0 2))
  let b_3 := F.sqrt (F.div F.one (a 0 3))
  let b_4 := F.sqrt (F.div F.one (a 1 0))
  let b_5 := F.sqrt (F.div F.one (a 1 1))
  let b_6 := F.sqrt (F.div F.one (a 1 2))
  let b_7 := F.sqrt (F.div F.one (a 1 3))
  let b := two (quad b_0 b_1 b_2 b_3) (quad b_4 b_5 b_6 b_7)
  b

/-- `rcp`, /repo/src/util/v8/v8_portable.h:1631-1645. -/
def rcp (F : Arith W) (a : Reg 2 W) : Reg 2 W :=
  let b_0 := F.div F.one (a 0 0)
  let b_1 := F.div F.one (a 0 1)
  let b_2 := F.div F.one (a 0 2)
  let b_3 := F.div F.one (a 0 3)
  let b_4 := F.div F.one (a 1 0)
  let b_5 := F.div F.one (a 1 1)
  let b_6 := F.div F.one (a 1 2)
  let b_7 := F.div F.one (a 1 3)
  let b := two (quad b_0 b_1 b_2 b_3) (quad b_4 b_5 b_6 b_7)
  b

/-- `fma`, /repo/src/util/v8/v8_portable.h:1647-1661. -/
def fma (F : Arith W) (a b c : Reg 2 W) : Reg 2 W :=
  let d_0 := F.add (F.mul (a 0 0) (b 0 0)) (c 0 0)
  let d_1 := F.add (F.mul (a 0 1) (b 0 1)) (c 0 1)
  let d_2 := F.add (F.mul (a 0 2) (b 0 2)) (c 0 2)
  let d_3 := F.add (F.mul (a 0 3) (b 0 3)) (c 0 3)
  let d_4 := F.add (F.mul (a 1 0) (b 1 0)) (c 1 0)
  let d_5 := F.add (F.mul (a 1 1) (b 1 1)) (c 1 1)
  let d_6 := F.add (F.mul (a 1 2) (b 1 2)) (c 1 2)
  let d_7 := F.add (F.mul (a 1 3) (b 1 3)) (c 1 3)
  let d := two (quad d_0 d_1 d_2 d_3) (quad d_4 d_5 d_6 d_7)
  d

/-- `fms`, /repo/src/util/v8/v8_portable.h:1663-1677. -/
def fms (F : Arith W) (a b c : Reg 2 W) : Reg 2 W :=
  let d_0 := F.sub (F.mul (a 0 0) (b 0 0)) (c 0 0)
  let d_1 := F.sub (F.mul (a 0 1) (b 0 1)) (c 0 1)
  let d_2 := F.sub (F.mul (a 0 2) (b 0 2)) (c 0 2)
  let d_3 := F.sub (F.mul (a 0 3) (b 0 3)) (c 0 3)
  let d_4 := F.sub (F.mul (a 1 0) (b 1 0)) (c 1 0)
  let d_5 := F.sub (F.mul (a 1 1) (b 1 1)) (c 1 1)
  let d_6 := F.sub (F.mul (a 1 2) (b 1 2)) (c 1 2)
  let d_7 := F.sub (F.mul (a 1 3) (b 1 3)) (c 1 3)
  let d := two (quad d_0 d_1 d_2 d_3) (quad d_4 d_5 d_6 d_7)
  d

/-- `fnms`, /repo/src/util/v8/v8_portable.h:1679-1693. -/
def fnms (F : Arith W) (a b c : Reg 2 W) : Reg 2 W :=
  let d_0 := F.sub (c 0 0) (F.mul (a 0 0) (b 0 0))
  let d_1 := F.sub (c 0 1) (F.mul (a 0 1) (b 0 1))
  let d_2 := F.sub (c 0 2) (F.mul (a 0 2) (b 0 2))
  let d_3 := F.sub (c 0 3) (F.mul (a 0 3) (b 0 3))
  let d_4 := F.sub (c 1 0) (F.mul (a 1 0) (b 1 0))
  let d_5 := F.sub (c 1 1) (F.mul (a 1 1) (b 1 1))
  let d_6 := F.sub (c 1 2) (F.mul (a 1 2) (b 1 2))
  let d_7 := F.sub (c 1 3) (F.mul (a 1 3) (b 1 3))
  let d := two (quad d_0 d_1 d_2 d_3) (quad d_4 d_5 d_6 d_7)
  d

/-- `clear_bits`, /repo/src/util/v8/v8_portable.h:1695-1709. -/
def clear_bits (m a : Reg 2 Word) : Reg 2 Word :=
  let b_0 := (~~~(m 0 0)) &&& (a 0 0)
  let b_1 := (~~~(m 0 1)) &&& (a 0 1)
  let b_2 := (~~~(m 0 2)) &&& (a 0 2)
  let b_3 := (~~~(m 0 3)) &&& (a 0 3)
  let b_4 := (~~~(m 1 0)) &&& (a 1 0)
  let b_5 := (~~~(m 1 1)) &&& (a 1 1)
  let b_6 := (~~~(m 1 2)) &&& (a 1 2)
  let b_7 := (~~~(m 1 3)) &&& (a 1 3)
  let b := two (quad b_0 b_1 b_2 b_3) (quad b_4 b_5 b_6 b_7)
  b

/-- `set_bits`, /repo/src/util/v8/v8_portable.h:1711-1725. -/
def set_bits (m a : Reg 2 Word) : Reg 2 Word :=
  let b_0 := (m 0 0) ||| (a 0 0)
  let b_1 := (m 0 1) ||| (a 0 1)
  let b_2 := (m 0 2) ||| (a 0 2)
  let b_3 := (m 0 3) ||| (a 0 3)
  let b_4 := (m 1 0) ||| (a 1 0)
  let b_5 := (m 1 1) ||| (a 1 1)
  let b_6 := (m 1 2) ||| (a 1 2)
  let b_7 := (m 1 3) ||| (a 1 3)
  let b := two (quad b_0 b_1 b_2 b_3) (quad b_4 b_5 b_6 b_7)
  b

/-- `toggle_bits`, /repo/src/util/v8/v8_portable.h:1727-1741. -/
def toggle_bits (m a : Reg 2 Word) : Reg 2 Word :=
  let b_0 := (m 0 0) ^^^ (a 0 0)
  let b_1 := (m 0 1) ^^^ (a 0 1)
  let b_2 := (m 0 2) ^^^ (a 0 2)
  let b_3 := (m 0 3) ^^^ (a 0 3)
  let b_4 := (m 1 0) ^^^ (a 1 0)
  let b_5 := (m 1 1) ^^^ (a 1 1)
  let b_6 := (m 1 2) ^^^ (a 1 2)
  let b_7 := (m 1 3) ^^^ (a 1 3)
  let b := two (quad b_0 b_1 b_2 b_3) (quad b_4 b_5 b_6 b_7)
  b

/-- `increment_8x1`, /repo/src/util/v8/v8_portable.h:1743-1753. -/
def increment (F : Arith W) (m : Memory W) (p : ℕ) (a : Reg 2 W) : Memory W :=
  let m := put m (p + 0) (F.add (m (p + 0)) (a 0 0))
  let m := put m (p + 1) (F.add (m (p + 1)) (a 0 1))
  let m := put m (p + 2) (F.add (m (p + 2)) (a 0 2))
  let m := put m (p + 3) (F.add (m (p + 3)) (a 0 3))
  let m := put m (p + 4) (F.add (m (p + 4)) (a 1 0))
  let m := put m (p + 5) (F.add (m (p + 5)) (a 1 1))
  let m := put m (p + 6) (F.add (m (p + 6)) (a 1 2))
  let m := put m (p + 7) (F.add (m (p + 7)) (a 1 3))
  m

/-- `decrement_8x1`, /repo/src/util/v8/v8_portable.h:1755-1765. -/
def decrement (F : Arith W) (m : Memory W) (p : ℕ) (a : Reg 2 W) : Memory W :=
  let m := put m (p + 0) (F.sub (m (p + 0)) (a 0 0))
  let m := put m (p + 1) (F.sub (m (p + 1)) (a 0 1))
  let m := put m (p + 2) (F.sub (m (p + 2)) (a 0 2))
  let m := put m (p + 3) (F.sub (m (p + 3)) (a 0 3))
  let m := put m (p + 4) (F.sub (m (p + 4)) (a 1 0))
  let m := put m (p + 5) (F.sub (m (p + 5)) (a 1 1))
  let m := put m (p + 6) (F.sub (m (p + 6)) (a 1 2))
  let m := put m (p + 7) (F.sub (m (p + 7)) (a 1 3))
  m

/-- `scale_8x1`, /repo/src/util/v8/v8_portable.h:1767-1777. -/
def scale (F : Arith W) (m : Memory W) (p : ℕ) (a : Reg 2 W) : Memory W :=
  let m := put m (p + 0) (F.mul (m (p + 0)) (a 0 0))
  let m := put m (p + 1) (F.mul (m (p + 1)) (a 0 1))
  let m := put m (p + 2) (F.mul (m (p + 2)) (a 0 2))
  let m := put m (p + 3) (F.mul (m (p + 3)) (a 0 3))
  let m := put m (p + 4) (F.mul (m (p + 4)) (a 1 0))
  let m := put m (p + 5) (F.mul (m (p + 5)) (a 1 1))
  let m := put m (p + 6) (F.mul (m (p + 6)) (a 1 2))
  let m := put m (p + 7) (F.mul (m (p + 7)) (a 1 3))
  m

end Verif.Vector.V8Portable
