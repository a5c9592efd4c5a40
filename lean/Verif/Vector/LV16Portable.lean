import Verif.Vector.Lane

/-! Operators and functions of /repo/src/util/v16/v16_portable.h that compute; written by `tools/gen_lanes.py`. -/
namespace Verif.Vector.V16Portable

variable {W : Type}

/-- `any`, /repo/src/util/v16/v16_portable.h:361-367. -/
def any (a : Reg 4 Word) : Bool :=
  (((((((((((((((a 0 0 != 0) || (a 0 1 != 0)) || (a 0 2 != 0)) || (a 0 3 != 0)) || (a 1 0 != 0)) || (a 1 1 != 0)) || (a 1 2 != 0)) || (a 1 3 != 0)) || (a 2 0 != 0)) || (a 2 1 != 0)) || (a 2 2 != 0)) || (a 2 3 != 0)) || (a 3 0 != 0)) || (a 3 1 != 0)) || (a 3 2 != 0)) || (a 3 3 != 0)

/-- `all`, /repo/src/util/v16/v16_portable.h:369-375. -/
def all (a : Reg 4 Word) : Bool :=
  (((((((((((((((a 0 0 != 0) && (a 0 1 != 0)) && (a 0 2 != 0)) && (a 0 3 != 0)) && (a 1 0 != 0)) && (a 1 1 != 0)) && (a 1 2 != 0)) && (a 1 3 != 0)) && (a 2 0 != 0)) && (a 2 1 != 0)) && (a 2 2 != 0)) && (a 2 3 != 0)) && (a 3 0 != 0)) && (a 3 1 != 0)) && (a 3 2 != 0)) && (a 3 3 != 0)

/-- `operator +=`, /repo/src/util/v16/v16_portable.h:3075-3095,3098. -/
def iadd_to (a b : Reg 4 Word) : Reg 4 Word :=
  let a_0 := (a 0 0) + (b 0 0)
  let a_1 := (a 0 1) + (b 0 1)
  let a_2 := (a 0 2) + (b 0 2)
  let a_3 := (a 0 3) + (b 0 3)
  let a_4 := (a 1 0) + (b 1 0)
  let a_5 := (a 1 1) + (b 1 1)
  let a_6 := (a 1 2) + (b 1 2)
  let a_7 := (a 1 3) + (b 1 3)
  let a_8 := (a 2 0) + (b 2 0)
  let a_9 := (a 2 1) + (b 2 1)
  let a_10 := (a 2 2) + (b 2 2)
  let a_11 := (a 2 3) + (b 2 3)
  let a_12 := (a 3 0) + (b 3 0)
  let a_13 := (a 3 1) + (b 3 1)
  let a_14 := (a 3 2) + (b 3 2)
  let a_15 := (a 3 3) + (b 3 3)
  let a := four (quad a_0 a_1 a_2 a_3) (quad a_4 a_5 a_6 a_7) (quad a_8 a_9 a_10 a_11) (quad a_12 a_13 a_14 a_15)
  a

/-- `operator -=`, /repo/src/util/v16/v16_portable.h:3075-3095,3099. -/
def isub_to (a b : Reg 4 Word) : Reg 4 Word :=
  let a_0 := (a 0 0) - (b 0 0)
  let a_1 := (a 0 1) - (b 0 1)
  let a_2 := (a 0 2) - (b 0 2)
  let a_3 := (a 0 3) - (b 0 3)
  let a_4 := (a 1 0) - (b 1 0)
  let a_5 := (a 1 1) - (b 1 1)
  let a_6 := (a 1 2) - (b 1 2)
  let a_7 := (a 1 3) - (b 1 3)
  let a_8 := (a 2 0) - (b 2 0)
  let a_9 := (a 2 1) - (b 2 1)
  let a_10 := (a 2 2) - (b 2 2)
  let a_11 := (a 2 3) - (b 2 3)
  let a_12 := (a 3 0) - (b 3 0)
  let a_13 := (a 3 1) - (b 3 1)
  let a_14 := (a 3 2) - (b 3 2)
  let a_15 := (a 3 3) - (b 3 3)
  let a := four (quad a_0 a_1 a_2 a_3) (quad a_4 a_5 a_6 a_7) (quad a_8 a_9 a_10 a_11) (quad a_12 a_13 a_14 a_15)
  a

/-- `operator *=`, /repo/src/util/v16/v16_portable.h:3075-3095,3100. -/
def imul_to (a b : Reg 4 Word) : Reg 4 Word :=
  let a_0 := (a 0 0) * (b 0 0)
  let a_1 := (a 0 1) * (b 0 1)
  let a_2 := (a 0 2) * (b 0 2)
  let a_3 := (a 0 3) * (b 0 3)
  let a_4 := (a 1 0) * (b 1 0)
  let a_5 := (a 1 1) * (b 1 1)
  let a_6 := (a 1 2) * (b 1 2)
  let a_7 := (a 1 3) * (b 1 3)
  let a_8 := (a 2 0) * (b 2 0)
  let a_9 := (a 2 1) * (b 2 1)
  let a_10 := (a 2 2) * (b 2 2)
  let a_11 := (a 2 3) * (b 2 3)
  let a_12 := (a 3 0) * (b 3 0)
  let a_13 := (a 3 1) * (b 3 1)
  let a_14 := (a 3 2) * (b 3 2)
  let a_15 := (a 3 3) * (b 3 3)
  let a := four (quad a_0 a_1 a_2 a_3) (quad a_4 a_5 a_6 a_7) (quad a_8 a_9 a_10 a_11) (quad a_12 a_13 a_14 a_15)
  a

/-- `operator ^=`, /repo/src/util/v16/v16_portable.h:3075-3095,3103. -/
def ixor_to (a b : Reg 4 Word) : Reg 4 Word :=
  let a_0 := (a 0 0) ^^^ (b 0 0)
  let a_1 := (a 0 1) ^^^ (b 0 1)
  let a_2 := (a 0 2) ^^^ (b 0 2)
  let a_3 := (a 0 3) ^^^ (b 0 3)
  let a_4 := (a 1 0) ^^^ (b 1 0)
  let a_5 := (a 1 1) ^^^ (b 1 1)
  let a_6 := (a 1 2) ^^^ (b 1 2)
  let a_7 := (a 1 3) ^^^ (b 1 3)
  let a_8 := (a 2 0) ^^^ (b 2 0)
  let a_9 := (a 2 1) ^^^ (b 2 1)
  let a_10 := (a 2 2) ^^^ (b 2 2)
  let a_11 := (a 2 3) ^^^ (b 2 3)
  let a_12 := (a 3 0) ^^^ (b 3 0)
  let a_13 := (a 3 1) ^^^ (b 3 1)
  let a_14 := (a 3 2) ^^^ (b 3 2)
  let a_15 := (a 3 3) ^^^ (b 3 3)
  let a := four (quad a_0 a_1 a_2 a_3) (quad a_4 a_5 a_6 a_7) (quad a_8 a_9 a_10 a_11) (quad a_12 a_13 a_14 a_15)
  a

/-- `operator &=`, /repo/src/util/v16/v16_portable.h:3075-3095,3104. -/
def iand_to (a b : Reg 4 Word) : Reg 4 Word :=
  let a_0 := (a 0 0) &&& (b 0 0)
  let a_1 := (a 0 1) &&& (b 0 1)
  let a_2 := (a 0 2) &&& (b 0 2)
  let a_3 := (a 0 3) &&& (b 0 3)
  let a_4 := (a 1 0) &&& (b 1 0)
  let a_5 := (a 1 1) &&& (b 1 1)
  let a_6 := (a 1 2) &&& (b 1 2)
  let a_7 := (a 1 3) &&& (b 1 3)
  let a_8 := (a 2 0) &&& (b 2 0)
  let a_9 := (a 2 1) &&& (b 2 1)
  let a_10 := (a 2 2) &&& (b 2 2)
  let a_11 := (a 2 3) &&& (b 2 3)
  let a_12 := (a 3 0) &&& (b 3 0)
  let a_13 := (a 3 1) &&& (b 3 1)
  let a_14 := (a 3 2) &&& (b 3 2)
  let a_15 := (a 3 3) &&& (b 3 3)
  let a := four (quad a_0 a_1 a_2 a_3) (quad a_4 a_5 a_6 a_7) (quad a_8 a_9 a_10 a_11) (quad a_12 a_13 a_14 a_15)
  a

/-- `operator |=`, /repo/src/util/v16/v16_portable.h:3075-3095,3105. -/
def ior_to (a b : Reg 4 Word) : Reg 4 Word :=
  let a_0 := (a 0 0) ||| (b 0 0)
  let a_1 := (a 0 1) ||| (b 0 1)
  let a_2 := (a 0 2) ||| (b 0 2)
  let a_3 := (a 0 3) ||| (b 0 3)
  let a_4 := (a 1 0) ||| (b 1 0)
  let a_5 := (a 1 1) ||| (b 1 1)
  let a_6 := (a 1 2) ||| (b 1 2)
  let a_7 := (a 1 3) ||| (b 1 3)
  let a_8 := (a 2 0) ||| (b 2 0)
  let a_9 := (a 2 1) ||| (b 2 1)
  let a_10 := (a 2 2) ||| (b 2 2)
  let a_11 := (a 2 3) ||| (b 2 3)
  let a_12 := (a 3 0) ||| (b 3 0)
  let a_13 := (a 3 1) ||| (b 3 1)
  let a_14 := (a 3 2) ||| (b 3 2)
  let a_15 := (a 3 3) ||| (b 3 3)
  let a := four (quad a_0 a_1 a_2 a_3) (quad a_4 a_5 a_6 a_7) (quad a_8 a_9 a_10 a_11) (quad a_12 a_13 a_14 a_15)
  a

/-- `operator -`, /repo/src/util/v16/v16_portable.h:3126-3147,3150. -/
def ineg (a : Reg 4 Word) : Reg 4 Word :=
  let b_0 := -(a 0 0)
  let b_1 := -(a 0 1)
  let b_2 := -(a 0 2)
  let b_3 := -(a 0 3)
  let b_4 := -(a 1 0)
  let b_5 := -(a 1 1)
  let b_6 := -(a 1 2)
  let b_7 := -(a 1 3)
  let b_8 := -(a 2 0)
  let b_9 := -(a 2 1)
  let b_10 := -(a 2 2)
  let b_11 := -(a 2 3)
  let b_12 := -(a 3 0)
  let b_13 := -(a 3 1)
  let b_14 := -(a 3 2)
  let b_15 := -(a 3 3)
  let b := four (quad b_0 b_1 b_2 b_3) (quad b_4 b_5 b_6 b_7) (quad b_8 b_9 b_10 b_11) (quad b_12 b_13 b_14 b_15)
  b

/-- `operator !`, /repo/src/util/v16/v16_portable.h:3152-3172. -/
def ilnot (a : Reg 4 Word) : Reg 4 Word :=
  let b_0 := -(Word.bit (!(a 0 0 != 0)))
  let b_1 := -(Word.bit (!(a 0 1 != 0)))
  let b_2 := -(Word.bit (!(a 0 2 != 0)))
  let b_3 := -(Word.bit (!(a 0 3 != 0)))
  let b_4 := -(Word.bit (!(a 1 0 != 0)))
  let b_5 := -(Word.bit (!(a 1 1 != 0)))
  let b_6 := -(Word.bit (!(a 1 2 != 0)))
  let b_7 := -(Word.bit (!(a 1 3 != 0)))
  let b_8 := -(Word.bit (!(a 2 0 != 0)))
  let b_9 := -(Word.bit (!(a 2 1 != 0)))
  let b_10 := -(Word.bit (!(a 2 2 != 0)))
  let b_11 := -(Word.bit (!(a 2 3 != 0)))
  let b_12 := -(Word.bit (!(a 3 0 != 0)))
  let b_13 := -(Word.bit (!(a 3 1 != 0)))
  let b_14 := -(Word.bit (!(a 3 2 != 0)))
  let b_15 := -(Word.bit (!(a 3 3 != 0)))
  let b := four (quad b_0 b_1 b_2 b_3) (quad b_4 b_5 b_6 b_7) (quad b_8 b_9 b_10 b_11) (quad b_12 b_13 b_14 b_15)
  b

/-- `operator ~`, /repo/src/util/v16/v16_portable.h:3126-3147,3174. -/
def inot (a : Reg 4 Word) : Reg 4 Word :=
  let b_0 := ~~~(a 0 0)
  let b_1 := ~~~(a 0 1)
  let b_2 := ~~~(a 0 2)
  let b_3 := ~~~(a 0 3)
  let b_4 := ~~~(a 1 0)
  let b_5 := ~~~(a 1 1)
  let b_6 := ~~~(a 1 2)
  let b_7 := ~~~(a 1 3)
  let b_8 := ~~~(a 2 0)
  let b_9 := ~~~(a 2 1)
  let b_10 := ~~~(a 2 2)
  let b_11 := ~~~(a 2 3)
  let b_12 := ~~~(a 3 0)
  let b_13 := ~~~(a 3 1)
  let b_14 := ~~~(a 3 2)
  let b_15 := ~~~(a 3 3)
  let b := four (quad b_0 b_1 b_2 b_3) (quad b_4 b_5 b_6 b_7) (quad b_8 b_9 b_10 b_11) (quad b_12 b_13 b_14 b_15)
  b

/-- `operator +`, /repo/src/util/v16/v16_portable.h:3240-3261,3263. -/
def iadd (a b : Reg 4 Word) : Reg 4 Word :=
  let c_0 := (a 0 0) + (b 0 0)
  let c_1 := (a 0 1) + (b 0 1)
  let c_2 := (a 0 2) + (b 0 2)
  let c_3 := (a 0 3) + (b 0 3)
  let c_4 := (a 1 0) + (b 1 0)
  let c_5 := (a 1 1) + (b 1 1)
  let c_6 := (a 1 2) + (b 1 2)
  let c_7 := (a 1 3) + (b 1 3)
  let c_8 := (a 2 0) + (b 2 0)
  let c_9 := (a 2 1) + (b 2 1)
  let c_10 := (a 2 2) + (b 2 2)
  let c_11 := (a 2 3) + (b 2 3)
  let c_12 := (a 3 0) + (b 3 0)
  let c_13 := (a 3 1) + (b 3 1)
  let c_14 := (a 3 2) + (b 3 2)
  let c_15 := (a 3 3) + (b 3 3)
  let c := four (quad c_0 c_1 c_2 c_3) (quad c_4 c_5 c_6 c_7) (quad c_8 c_9 c_10 c_11) (quad c_12 c_13 c_14 c_15)
  c

/-- `operator -`, /repo/src/util/v16/v16_portable.h:3240-3261,3264. -/
def isub (a b : Reg 4 Word) : Reg 4 Word :=
  let c_0 := (a 0 0) - (b 0 0)
  let c_1 := (a 0 1) - (b 0 1)
  let c_2 := (a 0 2) - (b 0 2)
  let c_3 := (a 0 3) - (b 0 3)
  let c_4 := (a 1 0) - (b 1 0)
  let c_5 := (a 1 1) - (b 1 1)
  let c_6 := (a 1 2) - (b 1 2)
  let c_7 := (a 1 3) - (b 1 3)
  let c_8 := (a 2 0) - (b 2 0)
  let c_9 := (a 2 1) - (b 2 1)
  let c_10 := (a 2 2) - (b 2 2)
  let c_11 := (a 2 3) - (b 2 3)
  let c_12 := (a 3 0) - (b 3 0)
  let c_13 := (a 3 1) - (b 3 1)
  let c_14 := (a 3 2) - (b 3 2)
  let c_15 := (a 3 3) - (b 3 3)
  let c := four (quad c_0 c_1 c_2 c_3) (quad c_4 c_5 c_6 c_7) (quad c_8 c_9 c_10 c_11) (quad c_12 c_13 c_14 c_15)
  c

/-- `operator *`, /repo/src/util/v16/v16_portable.h:3240-3261,3265. -/
def imul (a b : Reg 4 Word) : Reg 4 Word :=
  let c_0 := (a 0 0) * (b 0 0)
  let c_1 := (a 0 1) * (b 0 1)
  let c_2 := (a 0 2) * (b 0 2)
  let c_3 := (a 0 3) * (b 0 3)
  let c_4 := (a 1 0) * (b 1 0)
  let c_5 := (a 1 1) * (b 1 1)
  let c_6 := (a 1 2) * (b 1 2)
  let c_7 := (a 1 3) * (b 1 3)
  let c_8 := (a 2 0) * (b 2 0)
  let c_9 := (a 2 1) * (b 2 1)
  let c_10 := (a 2 2) * (b 2 2)
  let c_11 := (a 2 3) * (b 2 3)
  let c_12 := (a 3 0) * (b 3 0)
  let c_13 := (a 3 1) * (b 3 1)
  let c_14 := (a 3 2) * (b 3 2)
  let c_15 := (a 3 3) * (b 3 3)
  let c := four (quad c_0 c_1 c_2 c_3) (quad c_4 c_5 c_6 c_7) (quad c_8 c_9 c_10 c_11) (quad c_12 c_13 c_14 c_15)
  c

/-- `operator ^`, /repo/src/util/v16/v16_portable.h:3240-3261,3268. -/
def ixor (a b : Reg 4 Word) : Reg 4 Word :=
  let c_0 := (a 0 0) ^^^ (b 0 0)
  let c_1 := (a 0 1) ^^^ (b 0 1)
  let c_2 := (a 0 2) ^^^ (b 0 2)
  let c_3 := (a 0 3) ^^^ (b 0 3)
  let c_4 := (a 1 0) ^^^ (b 1 0)
  let c_5 := (a 1 1) ^^^ (b 1 1)
  let c_6 := (a 1 2) ^^^ (b 1 2)
  let c_7 := (a 1 3) ^^^ (b 1 3)
  let c_8 := (a 2 0) ^^^ (b 2 0)
  let c_9 := (a 2 1) ^^^ (b 2 1)
  let c_10 := (a 2 2) ^^^ (b 2 2)
  let c_11 := (a 2 3) ^^^ (b 2 3)
  let c_12 := (a 3 0) ^^^ (b 3 0)
  let c_13 := (a 3 1) ^^^ (b 3 1)
  let c_14 := (a 3 2) ^^^ (b 3 2)
  let c_15 := (a 3 3) ^^^ (b 3 3)
  let c := four (quad c_0 c_1 c_2 c_3) (quad c_4 c_5 c_6 c_7) (quad c_8 c_9 c_10 c_11) (quad c_12 c_13 c_14 c_15)
  c

/-- `operator &`, /repo/src/util/v16/v16_portable.h:3240-3261,3269. -/
def iand (a b : Reg 4 Word) : Reg 4 Word :=
  let c_0 := (a 0 0) &&& (b 0 0)
  let c_1 := (a 0 1) &&& (b 0 1)
  let c_2 := (a 0 2) &&& (b 0 2)
  let c_3 := (a 0 3) &&& (b 0 3)
  let c_4 := (a 1 0) &&& (b 1 0)
  let c_5 := (a 1 1) &&& (b 1 1)
  let c_6 := (a 1 2) &&& (b 1 2)
  let c_7 := (a 1 3) &&& (b 1 3)
  let c_8 := (a 2 0) &&& (b 2 0)
  let c_9 := (a 2 1) &&& (b 2 1)
  let c_10 := (a 2 2) &&& (b 2 2)
  let c_11 := (a 2 3) &&& (b 2 3)
  let c_12 := (a 3 0) &&& (b 3 0)
  let c_13 := (a 3 1) &&& (b 3 1)
  let c_14 := (a 3 2) &&& (b 3 2)
  let c_15 := (a 3 3) &&& (b 3 3)
  let c := four (quad c_0 c_1 c_2 c_3) (quad c_4 c_5 c_6 c_7) (quad c_8 c_9 c_10 c_11) (quad c_12 c_13 c_14 c_15)
  c

/-- `operator |`, /repo/src/util/v16/v16_portable.h:3240-3261,3270. -/
def ior (a b : Reg 4 Word) : Reg 4 Word :=
  let c_0 := (a 0 0) ||| (b 0 0)
  let c_1 := (a 0 1) ||| (b 0 1)
  let c_2 := (a 0 2) ||| (b 0 2)
  let c_3 := (a 0 3) ||| (b 0 3)
  let c_4 := (a 1 0) ||| (b 1 0)
  let c_5 := (a 1 1) ||| (b 1 1)
  let c_6 := (a 1 2) ||| (b 1 2)
  let c_7 := (a 1 3) ||| (b 1 3)
  let c_8 := (a 2 0) ||| (b 2 0)
  let c_9 := (a 2 1) ||| (b 2 1)
  let c_10 := (a 2 2) ||| (b 2 2)
  let c_11 := (a 2 3) ||| (b 2 3)
  let c_12 := (a 3 0) ||| (b 3 0)
  let c_13 := (a 3 1) ||| (b 3 1)
  let c_14 := (a 3 2) ||| (b 3 2)
  let c_15 := (a 3 3) ||| (b 3 3)
  let c := four (quad c_0 c_1 c_2 c_3) (quad c_4 c_5 c_6 c_7) (quad c_8 c_9 c_10 c_11) (quad c_12 c_13 c_14 c_15)
  c

/-- `operator <`, /repo/src/util/v16/v16_portable.h:3278-3299,3301. -/
def ilt (a b : Reg 4 Word) : Reg 4 Word :=
  let c_0 := -(Word.bit (Word.ilt (a 0 0) (b 0 0)))
  let c_1 := -(Word.bit (Word.ilt (a 0 1) (b 0 1)))
  let c_2 := -(Word.bit (Word.ilt (a 0 2) (b 0 2)))
  let c_3 := -(Word.bit (Word.ilt (a 0 3) (b 0 3)))
  let c_4 := -(Word.bit (Word.ilt (a 1 0) (b 1 0)))
  let c_5 := -(Word.bit (Word.ilt (a 1 1) (b 1 1)))
  let c_6 := -(Word.bit (Word.ilt (a 1 2) (b 1 2)))
  let c_7 := -(Word.bit (Word.ilt (a 1 3) (b 1 3)))
  let c_8 := -(Word.bit (Word.ilt (a 2 0) (b 2 0)))
  let c_9 := -(Word.bit (Word.ilt (a 2 1) (b 2 1)))
  let c_10 := -(Word.bit (Word.ilt (a 2 2) (b 2 2)))
  let c_11 := -(Word.bit (Word.ilt (a 2 3) (b 2 3)))
  let c_12 := -(Word.bit (Word.ilt (a 3 0) (b 3 0)))
  let c_13 := -(Word.bit (Word.ilt (a 3 1) (b 3 1)))
  let c_14 := -(Word.bit (Word.ilt (a 3 2) (b 3 2)))
  let c_15 := -(Word.bit (Word.ilt (a 3 3) (b 3 3)))
  let c := four (quad c_0 c_1 c_2 c_3) (quad c_4 c_5 c_6 c_7) (quad c_8 c_9 c_10 c_11) (quad c_12 c_13 c_14 c_15)
  c

/-- `operator >`, /repo/src/util/v16/v16_portable.h:3278-3299,3302. -/
def igt (a b : Reg 4 Word) : Reg 4 Word :=
  let c_0 := -(Word.bit (Word.igt (a 0 0) (b 0 0)))
  let c_1 := -(Word.bit (Word.igt (a 0 1) (b 0 1)))
  let c_2 := -(Word.bit (Word.igt (a 0 2) (b 0 2)))
  let c_3 := -(Word.bit (Word.igt (a 0 3) (b 0 3)))
  let c_4 := -(Word.bit (Word.igt (a 1 0) (b 1 0)))
  let c_5 := -(Word.bit (Word.igt (a 1 1) (b 1 1)))
  let c_6 := -(Word.bit (Word.igt (a 1 2) (b 1 2)))
  let c_7 := -(Word.bit (Word.igt (a 1 3) (b 1 3)))
  let c_8 := -(Word.bit (Word.igt (a 2 0) (b 2 0)))
  let c_9 := -(Word.bit (Word.igt (a 2 1) (b 2 1)))
  let c_10 := -(Word.bit (Word.igt (a 2 2) (b 2 2)))
  let c_11 := -(Word.bit (Word.igt (a 2 3) (b 2 3)))
  let c_12 := -(Word.bit (Word.igt (a 3 0) (b 3 0)))
  let c_13 := -(Word.bit (Word.igt (a 3 1) (b 3 1)))
  let c_14 := -(Word.bit (Word.igt (a 3 2) (b 3 2)))
  let c_15 := -(Word.bit (Word.igt (a 3 3) (b 3 3)))
  let c := four (quad c_0 c_1 c_2 c_3) (quad c_4 c_5 c_6 c_7) (quad c_8 c_9 c_10 c_11) (quad c_12 c_13 c_14 c_15)
  c

/-- `operator ==`, /repo/src/util/v16/v16_portable.h:3278-3299,3303. -/
def ieq (a b : Reg 4 Word) : Reg 4 Word :=
  let c_0 := -(Word.bit (Word.ieq (a 0 0) (b 0 0)))
  let c_1 := -(Word.bit (Word.ieq (a 0 1) (b 0 1)))
  let c_2 := -(Word.bit (Word.ieq (a 0 2) (b 0 2)))
  let c_3 := -(Word.bit (Word.ieq (a 0 3) (b 0 3)))
  let c_4 := -(Word.bit (Word.ieq (a 1 0) (b 1 0)))
  let c_5 := -(Word.bit (Word.ieq (a 1 1) (b 1 1)))
  let c_6 := -(Word.bit (Word.ieq (a 1 2) (b 1 2)))
  let c_7 := -(Word.bit (Word.ieq (a 1 3) (b 1 3)))
  let c_8 := -(Word.bit (Word.ieq (a 2 0) (b 2 0)))
  let c_9 := -(Word.bit (Word.ieq (a 2 1) (b 2 1)))
  let c_10 := -(Word.bit (Word.ieq (a 2 2) (b 2 2)))
  let c_11 := -(Word.bit (Word.ieq (a 2 3) (b 2 3)))
  let c_12 := -(Word.bit (Word.ieq (a 3 0) (b 3 0)))
  let c_13 := -(Word.bit (Word.ieq (a 3 1) (b 3 1)))
  let c_14 := -(Word.bit (Word.ieq (a 3 2) (b 3 2)))
  let c_15 := -(Word.bit (Word.ieq (a 3 3) (b 3 3)))
  let c := four (quad c_0 c_1 c_2 c_3) (quad c_4 c_5 c_6 c_7) (quad c_8 c_9 c_10 c_11) (quad c_12 c_13 c_14 c_15)
  c

/-- `operator !=`, /repo/src/util/v16/v16_portable.h:3278-3299,3304. -/
def ine (a b : Reg 4 Word) : Reg 4 Word :=
  let c_0 := -(Word.bit (Word.ine (a 0 0) (b 0 0)))
  let c_1 := -(Word.bit (Word.ine (a 0 1) (b 0 1)))
  let c_2 := -(Word.bit (Word.ine (a 0 2) (b 0 2)))
  let c_3 := -(Word.bit (Word.ine (a 0 3) (b 0 3)))
  let c_4 := -(Word.bit (Word.ine (a 1 0) (b 1 0)))
  let c_5 := -(Word.bit (Word.ine (a 1 1) (b 1 1)))
  let c_6 := -(Word.bit (Word.ine (a 1 2) (b 1 2)))
  let c_7 := -(Word.bit (Word.ine (a 1 3) (b 1 3)))
  let c_8 := -(Word.bit (Word.ine (a 2 0) (b 2 0)))
  let c_9 := -(Word.bit (Word.ine (a 2 1) (b 2 1)))
  let c_10 := -(Word.bit (Word.ine (a 2 2) (b 2 2)))
  let c_11 := -(Word.bit (Word.ine (a 2 3) (b 2 3)))
  let c_12 := -(Word.bit (Word.ine (a 3 0) (b 3 0)))
  let c_13 := -(Word.bit (Word.ine (a 3 1) (b 3 1)))
  let c_14 := -(Word.bit (Word.ine (a 3 2) (b 3 2)))
  let c_15 := -(Word.bit (Word.ine (a 3 3) (b 3 3)))
  let c := four (quad c_0 c_1 c_2 c_3) (quad c_4 c_5 c_6 c_7) (quad c_8 c_9 c_10 c_11) (quad c_12 c_13 c_14 c_15)
  c

/-- `operator <=`, /repo/src/util/v16/v16_portable.h:3278-3299,3305. -/
def ile (a b : Reg 4 Word) : Reg 4 Word :=
  let c_0 := -(Word.bit (Word.ile (a 0 0) (b 0 0)))
  let c_1 := -(Word.bit (Word.ile (a 0 1) (b 0 1)))
  let c_2 := -(Word.bit (Word.ile (a 0 2) (b 0 2)))
  let c_3 := -(Word.bit (Word.ile (a 0 3) (b 0 3)))
  let c_4 := -(Word.bit (Word.ile (a 1 0) (b 1 0)))
  let c_5 := -(Word.bit (Word.ile (a 1 1) (b 1 1)))
  let c_6 := -(Word.bit (Word.ile (a 1 2) (b 1 2)))
  let c_7 := -(Word.bit (Word.ile (a 1 3) (b 1 3)))
  let c_8 := -(Word.bit (Word.ile (a 2 0) (b 2 0)))
  let c_9 := -(Word.bit (Word.ile (a 2 1) (b 2 1)))
  let c_10 := -(Word.bit (Word.ile (a 2 2) (b 2 2)))
  let c_11 := -(Word.bit (Word.ile (a 2 3) (b 2 3)))
  let c_12 := -(Word.bit (Word.ile (a 3 0) (b 3 0)))
  let c_13 := -(Word.bit (Word.ile (a 3 1) (b 3 1)))
  let c_14 := -(Word.bit (Word.ile (a 3 2) (b 3 2)))
  let c_15 := -(Word.bit (Word.ile (a 3 3) (b 3 3)))
  let c := four (quad c_0 c_1 c_2 c_3) (quad c_4 c_5 c_6 c_7) (quad c_8 c_9 c_10 c_11) (quad c_12 c_13 c_14 c_15)
  c

/-- `operator >=`, /repo/src/util/v16/v16_portable.h:3278-3299,3306. -/
def ige (a b : Reg 4 Word) : Reg 4 Word :=
  let c_0 := -(Word.bit (Word.ige (a 0 0) (b 0 0)))
  let c_1 := -(Word.bit (Word.ige (a 0 1) (b 0 1)))
  let c_2 := -(Word.bit (Word.ige (a 0 2) (b 0 2)))
  let c_3 := -(Word.bit (Word.ige (a 0 3) (b 0 3)))
  let c_4 := -(Word.bit (Word.ige (a 1 0) (b 1 0)))
  let c_5 := -(Word.bit (Word.ige (a 1 1) (b 1 1)))
  let c_6 := -(Word.bit (Word.ige (a 1 2) (b 1 2)))
  let c_7 := -(Word.bit (Word.ige (a 1 3) (b 1 3)))
  let c_8 := -(Word.bit (Word.ige (a 2 0) (b 2 0)))
  let c_9 := -(Word.bit (Word.ige (a 2 1) (b 2 1)))
  let c_10 := -(Word.bit (Word.ige (a 2 2) (b 2 2)))
  let c_11 := -(Word.bit (Word.ige (a 2 3) (b 2 3)))
  let c_12 := -(Word.bit (Word.ige (a 3 0) (b 3 0)))
  let c_13 := -(Word.bit (Word.ige (a 3 1) (b 3 1)))
  let c_14 := -(Word.bit (Word.ige (a 3 2) (b 3 2)))
  let c_15 := -(Word.bit (Word.ige (a 3 3) (b 3 3)))
  let c := four (quad c_0 c_1 c_2 c_3) (quad c_4 c_5 c_6 c_7) (quad c_8 c_9 c_10 c_11) (quad c_12 c_13 c_14 c_15)
  c

/-- `operator &&`, /repo/src/util/v16/v16_portable.h:3278-3299,3307. -/
def iland (a b : Reg 4 Word) : Reg 4 Word :=
  let c_0 := -(Word.bit ((a 0 0 != 0) && (b 0 0 != 0)))
  let c_1 := -(Word.bit ((a 0 1 != 0) && (b 0 1 != 0)))
  let c_2 := -(Word.bit ((a 0 2 != 0) && (b 0 2 != 0)))
  let c_3 := -(Word.bit ((a 0 3 != 0) && (b 0 3 != 0)))
  let c_4 := -(Word.bit ((a 1 0 != 0) && (b 1 0 != 0)))
  let c_5 := -(Word.bit ((a 1 1 != 0) && (b 1 1 != 0)))
  let c_6 := -(Word.bit ((a 1 2 != 0) && (b 1 2 != 0)))
  let c_7 := -(Word.bit ((a 1 3 != 0) && (b 1 3 != 0)))
  let c_8 := -(Word.bit ((a 2 0 != 0) && (b 2 0 != 0)))
  let c_9 := -(Word.bit ((a 2 1 != 0) && (b 2 1 != 0)))
  let c_10 := -(Word.bit ((a 2 2 != 0) && (b 2 2 != 0)))
  let c_11 := -(Word.bit ((a 2 3 != 0) && (b 2 3 != 0)))
  let c_12 := -(Word.bit ((a 3 0 != 0) && (b 3 0 != 0)))
  let c_13 := -(Word.bit ((a 3 1 != 0) && (b 3 1 != 0)))
  let c_14 := -(Word.bit ((a 3 2 != 0) && (b 3 2 != 0)))
  let c_15 := -(Word.bit ((a 3 3 != 0) && (b 3 3 != 0)))
  let c := four (quad c_0 c_1 c_2 c_3) (quad c_4 c_5 c_6 c_7) (quad c_8 c_9 c_10 c_11) (quad c_12 c_13 c_14 c_15)
  c

/-- `operator ||`, /repo/src/util/v16/v16_portable.h:3278-3299,3308. -/
def ilor (a b : Reg 4 Word) : Reg 4 Word :=
  let c_0 := -(Word.bit ((a 0 0 != 0) || (b 0 0 != 0)))
  let c_1 := -(Word.bit ((a 0 1 != 0) || (b 0 1 != 0)))
  let c_2 := -(Word.bit ((a 0 2 != 0) || (b 0 2 != 0)))
  let c_3 := -(Word.bit ((a 0 3 != 0) || (b 0 3 != 0)))
  let c_4 := -(Word.bit ((a 1 0 != 0) || (b 1 0 != 0)))
  let c_5 := -(Word.bit ((a 1 1 != 0) || (b 1 1 != 0)))
  let c_6 := -(Word.bit ((a 1 2 != 0) || (b 1 2 != 0)))
  let c_7 := -(Word.bit ((a 1 3 != 0) || (b 1 3 != 0)))
  let c_8 := -(Word.bit ((a 2 0 != 0) || (b 2 0 != 0)))
  let c_9 := -(Word.bit ((a 2 1 != 0) || (b 2 1 != 0)))
  let c_10 := -(Word.bit ((a 2 2 != 0) || (b 2 2 != 0)))
  let c_11 := -(Word.bit ((a 2 3 != 0) || (b 2 3 != 0)))
  let c_12 := -(Word.bit ((a 3 0 != 0) || (b 3 0 != 0)))
  let c_13 := -(Word.bit ((a 3 1 != 0) || (b 3 1 != 0)))
  let c_14 := -(Word.bit ((a 3 2 != 0) || (b 3 2 != 0)))
  let c_15 := -(Word.bit ((a 3 3 != 0) || (b 3 3 != 0)))
  let c := four (quad c_0 c_1 c_2 c_3) (quad c_4 c_5 c_6 c_7) (quad c_8 c_9 c_10 c_11) (quad c_12 c_13 c_14 c_15)
  c

/-- `abs`, /repo/src/util/v16/v16_portable.h:3314-3336. -/
def abs (a : Reg 4 Word) : Reg 4 Word :=
  let b_0 := if Word.ige (a 0 0) (0 : Word) then a 0 0 else -(a 0 0)
  let b_1 := if Word.ige (a 0 1) (0 : Word) then a 0 1 else -(a 0 1)
  let b_2 := if Word.ige (a 0 2) (0 : Word) then a 0 2 else -(a 0 2)
  let b_3 := if Word.ige (a 0 3) (0 : Word) then a 0 3 else -(a 0 3)
  let b_4 := if Word.ige (a 1 0) (0 : Word) then a 1 0 else -(a 1 0)
  let b_5 := if Word.ige (a 1 1) (0 : Word) then a 1 1 else -(a 1 1)
  let b_6 := if Word.ige (a 1 2) (0 : Word) then a 1 2 else -(a 1 2)
  let b_7 := if Word.ige (a 1 3) (0 : Word) then a 1 3 else -(a 1 3)
  let b_8 := if Word.ige (a 2 0) (0 : Word) then a 2 0 else -(a 2 0)
  let b_9 := if Word.ige (a 2 1) (0 : Word) then a 2 1 else -(a 2 1)
  let b_10 := if Word.ige (a 2 2) (0 : Word) then a 2 2 else -(a 2 2)
  let b_11 := if Word.ige (a 2 3) (0 : Word) then a 2 3 else -(a 2 3)
  let b_12 := if Word.ige (a 3 0) (0 : Word) then a 3 0 else -(a 3 0)
  let b_13 := if Word.ige (a 3 1) (0 : Word) then a 3 1 else -(a 3 1)
  let b_14 := if Word.ige (a 3 2) (0 : Word) then a 3 2 else -(a 3 2)
  let b_15 := if Word.ige (a 3 3) (0 : Word) then a 3 3 else -(a 3 3)
  let b := four (quad b_0 b_1 b_2 b_3) (quad b_4 b_5 b_6 b_7) (quad b_8 b_9 b_10 b_11) (quad b_12 b_13 b_14 b_15)
  b

/-- `czero`, /repo/src/util/v16/v16_portable.h:3338-3360. -/
def czero (c a : Reg 4 Word) : Reg 4 Word :=
  let b_0 := (a 0 0) &&& (~~~(c 0 0))
  let b_1 := (a 0 1) &&& (~~~(c 0 1))
  let b_2 := (a 0 2) &&& (~~~(c 0 2))
  let b_3 := (a 0 3) &&& (~~~(c 0 3))
  let b_4 := (a 1 0) &&& (~~~(c 1 0))
  let b_5 := (a 1 1) &&& (~~~(c 1 1))
  let b_6 := (a 1 2) &&& (~~~(c 1 2))
  let b_7 := (a 1 3) &&& (~~~(c 1 3))
  let b_8 := (a 2 0) &&& (~~~(c 2 0))
  let b_9 := (a 2 1) &&& (~~~(c 2 1))
  let b_10 := (a 2 2) &&& (~~~(c 2 2))
  let b_11 := (a 2 3) &&& (~~~(c 2 3))
  let b_12 := (a 3 0) &&& (~~~(c 3 0))
  let b_13 := (a 3 1) &&& (~~~(c 3 1))
  let b_14 := (a 3 2) &&& (~~~(c 3 2))
  let b_15 := (a 3 3) &&& (~~~(c 3 3))
  let b := four (quad b_0 b_1 b_2 b_3) (quad b_4 b_5 b_6 b_7) (quad b_8 b_9 b_10 b_11) (quad b_12 b_13 b_14 b_15)
  b

/-- `notczero`, /repo/src/util/v16/v16_portable.h:3362-3384. -/
def notczero (c a : Reg 4 Word) : Reg 4 Word :=
  let b_0 := (a 0 0) &&& (c 0 0)
  let b_1 := (a 0 1) &&& (c 0 1)
  let b_2 := (a 0 2) &&& (c 0 2)
  let b_3 := (a 0 3) &&& (c 0 3)
  let b_4 := (a 1 0) &&& (c 1 0)
  let b_5 := (a 1 1) &&& (c 1 1)
  let b_6 := (a 1 2) &&& (c 1 2)
  let b_7 := (a 1 3) &&& (c 1 3)
  let b_8 := (a 2 0) &&& (c 2 0)
  let b_9 := (a 2 1) &&& (c 2 1)
  let b_10 := (a 2 2) &&& (c 2 2)
  let b_11 := (a 2 3) &&& (c 2 3)
  let b_12 := (a 3 0) &&& (c 3 0)
  let b_13 := (a 3 1) &&& (c 3 1)
  let b_14 := (a 3 2) &&& (c 3 2)
  let b_15 := (a 3 3) &&& (c 3 3)
  let b := four (quad b_0 b_1 b_2 b_3) (quad b_4 b_5 b_6 b_7) (quad b_8 b_9 b_10 b_11) (quad b_12 b_13 b_14 b_15)
  b

/-- `merge`, /repo/src/util/v16/v16_portable.h:3386-3408. -/
def merge (c t f : Reg 4 Word) : Reg 4 Word :=
  let m_0 := ((f 0 0) &&& (~~~(c 0 0))) ||| ((t 0 0) &&& (c 0 0))
  let m_1 := ((f 0 1) &&& (~~~(c 0 1))) ||| ((t 0 1) &&& (c 0 1))
  let m_2 := ((f 0 2) &&& (~~~(c 0 2))) ||| ((t 0 2) &&& (c 0 2))
  let m_3 := ((f 0 3) &&& (~~~(c 0 3))) ||| ((t 0 3) &&& (c 0 3))
  let m_4 := ((f 1 0) &&& (~~~(c 1 0))) ||| ((t 1 0) &&& (c 1 0))
  let m_5 := ((f 1 1) &&& (~~~(c 1 1))) ||| ((t 1 1) &&& (c 1 1))
  let m_6 := ((f 1 2) &&& (~~~(c 1 2))) ||| ((t 1 2) &&& (c 1 2))
  let m_7 := ((f 1 3) &&& (~~~(c 1 3))) ||| ((t 1 3) &&& (c 1 3))
  let m_8 := ((f 2 0) &&& (~~~(c 2 0))) ||| ((t 2 0) &&& (c 2 0))
  let m_9 := ((f 2 1) &&& (~~~(c 2 1))) ||| ((t 2 1) &&& (c 2 1))
  let m_10 := ((f 2 2) &&& (~~~(c 2 2))) ||| ((t 2 2) &&& (c 2 2))
  let m_11 := ((f 2 3) &&& (~~~(c 2 3))) ||| ((t 2 3) &&& (c 2 3))
  let m_12 := ((f 3 0) &&& (~~~(c 3 0))) ||| ((t 3 0) &&& (c 3 0))
  let m_13 := ((f 3 1) &&& (~~~(c 3 1))) ||| ((t 3 1) &&& (c 3 1))
  let m_14 := ((f 3 2) &&& (~~~(c 3 2))) ||| ((t 3 2) &&& (c 3 2))
  let m_15 := ((f 3 3) &&& (~~~(c 3 3))) ||| ((t 3 3) &&& (c 3 3))
  let m := four (quad m_0 m_1 m_2 m_3) (quad m_4 m_5 m_6 m_7) (quad m_8 m_9 m_10 m_11) (quad m_12 m_13 m_14 m_15)
  m

/-- `operator +=`, /repo/src/util/v16/v16_portable.h:3529-3549,3552. -/
def fadd_to (F : Arith W) (a b : Reg 4 W) : Reg 4 W :=
  let a_0 := F.add (a 0 0) (b 0 0)
  let a_1 := F.add (a 0 1) (b 0 1)
  let a_2 := F.add (a 0 2) (b 0 2)
  let a_3 := F.add (a 0 3) (b 0 3)
  let a_4 := F.add (a 1 0) (b 1 0)
  let a_5 := F.add (a 1 1) (b 1 1)
  let a_6 := F.add (a 1 2) (b 1 2)
  let a_7 := F.add (a 1 3) (b 1 3)
  let a_8 := F.add (a 2 0) (b 2 0)
  let a_9 := F.add (a 2 1) (b 2 1)
  let a_10 := F.add (a 2 2) (b 2 2)
  let a_11 := F.add (a 2 3) (b 2 3)
  let a_12 := F.add (a 3 0) (b 3 0)
  let a_13 := F.add (a 3 1) (b 3 1)
  let a_14 := F.add (a 3 2) (b 3 2)
  let a_15 := F.add (a 3 3) (b 3 3)
  let a := four (quad a_0 a_1 a_2 a_3) (quad a_4 a_5 a_6 a_7) (quad a_8 a_9 a_10 a_11) (quad a_12 a_13 a_14 a_15)
  a

/-- `operator -=`, /repo/src/util/v16/v16_portable.h:3529-3549,3553. -/
def fsub_to (F : Arith W) (a b : Reg 4 W) : Reg 4 W :=
  let a_0 := F.sub (a 0 0) (b 0 0)
  let a_1 := F.sub (a 0 1) (b 0 1)
  let a_2 := F.sub (a 0 2) (b 0 2)
  let a_3 := F.sub (a 0 3) (b 0 3)
  let a_4 := F.sub (a 1 0) (b 1 0)
  let a_5 := F.sub (a 1 1) (b 1 1)
  let a_6 := F.sub (a 1 2) (b 1 2)
  let a_7 := F.sub (a 1 3) (b 1 3)
  let a_8 := F.sub (a 2 0) (b 2 0)
  let a_9 := F.sub (a 2 1) (b 2 1)
  let a_10 := F.sub (a 2 2) (b 2 2)
  let a_11 := F.sub (a 2 3) (b 2 3)
  let a_12 := F.sub (a 3 0) (b 3 0)
  let a_13 := F.sub (a 3 1) (b 3 1)
  let a_14 := F.sub (a 3 2) (b 3 2)
  let a_15 := F.sub (a 3 3) (b 3 3)
  let a := four (quad a_0 a_1 a_2 a_3) (quad a_4 a_5 a_6 a_7) (quad a_8 a_9 a_10 a_11) (quad a_12 a_13 a_14 a_15)
  a

/-- `operator *=`, /repo/src/util/v16/v16_portable.h:3529-3549,3554. -/
def fmul_to (F : Arith W) (a b : Reg 4 W) : Reg 4 W :=
  let a_0 := F.mul (a 0 0) (b 0 0)
  let a_1 := F.mul (a 0 1) (b 0 1)
  let a_2 := F.mul (a 0 2) (b 0 2)
  let a_3 := F.mul (a 0 3) (b 0 3)
  let a_4 := F.mul (a 1 0) (b 1 0)
  let a_5 := F.mul (a 1 1) (b 1 1)
  let a_6 := F.mul (a 1 2) (b 1 2)
  let a_7 := F.mul (a 1 3) (b 1 3)
  let a_8 := F.mul (a 2 0) (b 2 0)
  let a_9 := F.mul (a 2 1) (b 2 1)
  let a_10 := F.mul (a 2 2) (b 2 2)
  let a_11 := F.mul (a 2 3) (b 2 3)
  let a_12 := F.mul (a 3 0) (b 3 0)
  let a_13 := F.mul (a 3 1) (b 3 1)
  let a_14 := F.mul (a 3 2) (b 3 2)
  let a_15 := F.mul (a 3 3) (b 3 3)
  let a := four (quad a_0 a_1 a_2 a_3) (quad a_4 a_5 a_6 a_7) (quad a_8 a_9 a_10 a_11) (quad a_12 a_13 a_14 a_15)
  a

/-- `operator /=`, /repo/src/util/v16/v16_portable.h:3529-3549,3555. -/
def fdiv_to (F : Arith W) (a b : Reg 4 W) : Reg 4 W :=
  let a_0 := F.div (a 0 0) (b 0 0)
  let a_1 := F.div (a 0 1) (b 0 1)
  let a_2 := F.div (a 0 2) (b 0 2)
  let a_3 := F.div (a 0 3) (b 0 3)
  let a_4 := F.div (a 1 0) (b 1 0)
  let a_5 := F.div (a 1 1) (b 1 1)
  let a_6 := F.div (a 1 2) (b 1 2)
  let a_7 := F.div (a 1 3) (b 1 3)
  let a_8 := F.div (a 2 0) (b 2 0)
  let a_9 := F.div (a 2 1) (b 2 1)
  let a_10 := F.div (a 2 2) (b 2 2)
  let a_11 := F.div (a 2 3) (b 2 3)
  let a_12 := F.div (a 3 0) (b 3 0)
  let a_13 := F.div (a 3 1) (b 3 1)
  let a_14 := F.div (a 3 2) (b 3 2)
  let a_15 := F.div (a 3 3) (b 3 3)
  let a := four (quad a_0 a_1 a_2 a_3) (quad a_4 a_5 a_6 a_7) (quad a_8 a_9 a_10 a_11) (quad a_12 a_13 a_14 a_15)
  a

/-- `operator -`, /repo/src/util/v16/v16_portable.h:3598-3620. -/
def fneg (a : Reg 4 Word) : Reg 4 Word :=
  let b_0 := Word.fneg (a 0 0)
  let b_1 := Word.fneg (a 0 1)
  let b_2 := Word.fneg (a 0 2)
  let b_3 := Word.fneg (a 0 3)
  let b_4 := Word.fneg (a 1 0)
  let b_5 := Word.fneg (a 1 1)
  let b_6 := Word.fneg (a 1 2)
  let b_7 := Word.fneg (a 1 3)
  let b_8 := Word.fneg (a 2 0)
  let b_9 := Word.fneg (a 2 1)
  let b_10 := Word.fneg (a 2 2)
  let b_11 := Word.fneg (a 2 3)
  let b_12 := Word.fneg (a 3 0)
  let b_13 := Word.fneg (a 3 1)
  let b_14 := Word.fneg (a 3 2)
  let b_15 := Word.fneg (a 3 3)
  let b := four (quad b_0 b_1 b_2 b_3) (quad b_4 b_5 b_6 b_7) (quad b_8 b_9 b_10 b_11) (quad b_12 b_13 b_14 b_15)
  b

/-- `operator !`, /repo/src/util/v16/v16_portable.h:3622-3644. -/
def flnot (a : Reg 4 Word) : Reg 4 Word :=
  let b_0 := if (a 0 0 != 0) then (0 : Word) else (-1 : Word)
  let b_1 := if (a 0 1 != 0) then (0 : Word) else (-1 : Word)
  let b_2 := if (a 0 2 != 0) then (0 : Word) else (-1 : Word)
  let b_3 := if (a 0 3 != 0) then (0 : Word) else (-1 : Word)
  let b_4 := if (a 1 0 != 0) then (0 : Word) else (-1 : Word)
  let b_5 := if (a 1 1 != 0) then (0 : Word) else (-1 : Word)
  let b_6 := if (a 1 2 != 0) then (0 : Word) else (-1 : Word)
  let b_7 := if (a 1 3 != 0) then (0 : Word) else (-1 : Word)
  let b_8 := if (a 2 0 != 0) then (0 : Word) else (-1 : Word)
  let b_9 := if (a 2 1 != 0) then (0 : Word) else (-1 : Word)
  let b_10 := if (a 2 2 != 0) then (0 : Word) else (-1 : Word)
  let b_11 := if (a 2 3 != 0) then (0 : Word) else (-1 : Word)
  let b_12 := if (a 3 0 != 0) then (0 : Word) else (-1 : Word)
  let b_13 := if (a 3 1 != 0) then (0 : Word) else (-1 : Word)
  let b_14 := if (a 3 2 != 0) then (0 : Word) else (-1 : Word)
  let b_15 := if (a 3 3 != 0) then (0 : Word) else (-1 : Word)
  let b := four (quad b_0 b_1 b_2 b_3) (quad b_4 b_5 b_6 b_7) (quad b_8 b_9 b_10 b_11) (quad b_12 b_13 b_14 b_15)
  b

/-- `operator ++`, /repo/src/util/v16/v16_portable.h:3648-3670. -/
def preinc (F : Arith W) (a : Reg 4 W) : Reg 4 W × Reg 4 W :=
  let a_0 := F.add (a 0 0) F.one
  let b_0 := a_0
  let a_1 := F.add (a 0 1) F.one
  let b_1 := a_1
  let a_2 := F.add (a 0 2) F.one
  let b_2 := a_2
  let a_3 := F.add (a 0 3) F.one
  let b_3 := a_3
  let a_4 := F.add (a 1 0) F.one
  let b_4 := a_4
  let a_5 := F.add (a 1 1) F.one
  let b_5 := a_5
  let a_6 := F.add (a 1 2) F.one
  let b_6 := a_6
  let a_7 := F.add (a 1 3) F.one
  let b_7 := a_7
  let a_8 := F.add (a 2 0) F.one
  let b_8 := a_8
  let a_9 := F.add (a 2 1) F.one
  let b_9 := a_9
  let a_10 := F.add (a 2 2) F.one
  let b_10 := a_10
  let a_11 := F.add (a 2 3) F.one
  let b_11 := a_11
  let a_12 := F.add (a 3 0) F.one
  let b_12 := a_12
  let a_13 := F.add (a 3 1) F.one
  let b_13 := a_13
  let a_14 := F.add (a 3 2) F.one
  let b_14 := a_14
  let a_15 := F.add (a 3 3) F.one
  let b_15 := a_15
  let a := four (quad a_0 a_1 a_2 a_3) (quad a_4 a_5 a_6 a_7) (quad a_8 a_9 a_10 a_11) (quad a_12 a_13 a_14 a_15)
  let b := four (quad b_0 b_1 b_2 b_3) (quad b_4 b_5 b_6 b_7) (quad b_8 b_9 b_10 b_11) (quad b_12 b_13 b_14 b_15)
  (a, b)

/-- `operator --`, /repo/src/util/v16/v16_portable.h:3672-3694. -/
def predec (F : Arith W) (a : Reg 4 W) : Reg 4 W × Reg 4 W :=
  let a_0 := F.sub (a 0 0) F.one
  let b_0 := a_0
  let a_1 := F.sub (a 0 1) F.one
  let b_1 := a_1
  let a_2 := F.sub (a 0 2) F.one
  let b_2 := a_2
  let a_3 := F.sub (a 0 3) F.one
  let b_3 := a_3
  let a_4 := F.sub (a 1 0) F.one
  let b_4 := a_4
  let a_5 := F.sub (a 1 1) F.one
  let b_5 := a_5
  let a_6 := F.sub (a 1 2) F.one
  let b_6 := a_6
  let a_7 := F.sub (a 1 3) F.one
  let b_7 := a_7
  let a_8 := F.sub (a 2 0) F.one
  let b_8 := a_8
  let a_9 := F.sub (a 2 1) F.one
  let b_9 := a_9
  let a_10 := F.sub (a 2 2) F.one
  let b_10 := a_10
  let a_11 := F.sub (a 2 3) F.one
  let b_11 := a_11
  let a_12 := F.sub (a 3 0) F.one
  let b_12 := a_12
  let a_13 := F.sub (a 3 1) F.one
  let b_13 := a_13
  let a_14 := F.sub (a 3 2) F.one
  let b_14 := a_14
  let a_15 := F.sub (a 3 3) F.one
  let b_15 := a_15
  let a := four (quad a_0 a_1 a_2 a_3) (quad a_4 a_5 a_6 a_7) (quad a_8 a_9 a_10 a_11) (quad a_12 a_13 a_14 a_15)
  let b := four (quad b_0 b_1 b_2 b_3) (quad b_4 b_5 b_6 b_7) (quad b_8 b_9 b_10 b_11) (quad b_12 b_13 b_14 b_15)
  (a, b)

/-- `operator ++`, /repo/src/util/v16/v16_portable.h:3698-3720. -/
def postinc (F : Arith W) (a : Reg 4 W) : Reg 4 W × Reg 4 W :=
  let a_0_old := a 0 0
  let a_0 := F.add a_0_old F.one
  let b_0 := a_0_old
  let a_1_old := a 0 1
  let a_1 := F.add a_1_old F.one
  let b_1 := a_1_old
  let a_2_old := a 0 2
  let a_2 := F.add a_2_old F.one
  let b_2 := a_2_old
  let a_3_old := a 0 3
  let a_3 := F.add a_3_old F.one
  let b_3 := a_3_old
  let a_4_old := a 1 0
  let a_4 := F.add a_4_old F.one
  let b_4 := a_4_old
  let a_5_old := a 1 1
  let a_5 := F.add a_5_old F.one
  let b_5 := a_5_old
  let a_6_old := a 1 2
  let a_6 := F.add a_6_old F.one
  let b_6 := a_6_old
  let a_7_old := a 1 3
  let a_7 := F.add a_7_old F.one
  let b_7 := a_7_old
  let a_8_old := a 2 0
  let a_8 := F.add a_8_old F.one
  let b_8 := a_8_old
  let a_9_old := a 2 1
  let a_9 := F.add a_9_old F.one
  let b_9 := a_9_old
  let a_10_old := a 2 2
  let a_10 := F.add a_10_old F.one
  let b_10 := a_10_old
  let a_11_old := a 2 3
  let a_11 := F.add a_11_old F.one
  let b_11 := a_11_old
  let a_12_old := a 3 0
  let a_12 := F.add a_12_old F.one
  let b_12 := a_12_old
  let a_13_old := a 3 1
  let a_13 := F.add a_13_old F.one
  let b_13 := a_13_old
  let a_14_old := a 3 2
  let a_14 := F.add a_14_old F.one
  let b_14 := a_14_old
  let a_15_old := a 3 3
  let a_15 := F.add a_15_old F.one
  let b_15 := a_15_old
  let a := four (quad a_0 a_1 a_2 a_3) (quad a_4 a_5 a_6 a_7) (quad a_8 a_9 a_10 a_11) (quad a_12 a_13 a_14 a_15)
  let b := four (quad b_0 b_1 b_2 b_3) (quad b_4 b_5 b_6 b_7) (quad b_8 b_9 b_10 b_11) (quad b_12 b_13 b_14 b_15)
  (a, b)

/-- `operator --`, /repo/src/util/v16/v16_portable.h:3722-3744. -/
def postdec (F : Arith W) (a : Reg 4 W) : Reg 4 W × Reg 4 W :=
  let a_0_old := a 0 0
  let a_0 := F.sub a_0_old F.one
  let b_0 := a_0_old
  let a_1_old := a 0 1
  let a_1 := F.sub a_1_old F.one
  let b_1 := a_1_old
  let a_2_old := a 0 2
  let a_2 := F.sub a_2_old F.one
  let b_2 := a_2_old
  let a_3_old := a 0 3
  let a_3 := F.sub a_3_old F.one
  let b_3 := a_3_old
  let a_4_old := a 1 0
  let a_4 := F.sub a_4_old F.one
  let b_4 := a_4_old
  let a_5_old := a 1 1
  let a_5 := F.sub a_5_old F.one
  let b_5 := a_5_old
  let a_6_old := a 1 2
  let a_6 := F.sub a_6_old F.one
  let b_6 := a_6_old
  let a_7_old := a 1 3
  let a_7 := F.sub a_7_old F.one
  let b_7 := a_7_old
  let a_8_old := a 2 0
  let a_8 := F.sub a_8_old F.one
  let b_8 := a_8_old
  let a_9_old := a 2 1
  let a_9 := F.sub a_9_old F.one
  let b_9 := a_9_old
  let a_10_old := a 2 2
  let a_10 := F.sub a_10_old F.one
  let b_10 := a_10_old
  let a_11_old := a 2 3
  let a_11 := F.sub a_11_old F.one
  let b_11 := a_11_old
  let a_12_old := a 3 0
  let a_12 := F.sub a_12_old F.one
  let b_12 := a_12_old
  let a_13_old := a 3 1
  let a_13 := F.sub a_13_old F.one
  let b_13 := a_13_old
  let a_14_old := a 3 2
  let a_14 := F.sub a_14_old F.one
  let b_14 := a_14_old
  let a_15_old := a 3 3
  let a_15 := F.sub a_15_old F.one
  let b_15 := a_15_old
  let a := four (quad a_0 a_1 a_2 a_3) (quad a_4 a_5 a_6 a_7) (quad a_8 a_9 a_10 a_11) (quad a_12 a_13 a_14 a_15)
  let b := four (quad b_0 b_1 b_2 b_3) (quad b_4 b_5 b_6 b_7) (quad b_8 b_9 b_10 b_11) (quad b_12 b_13 b_14 b_15)
  (a, b)

/-- `operator +`, /repo/src/util/v16/v16_portable.h:3748-3769,3771. -/
def fadd (F : Arith W) (a b : Reg 4 W) : Reg 4 W :=
  let c_0 := F.add (a 0 0) (b 0 0)
  let c_1 := F.add (a 0 1) (b 0 1)
  let c_2 := F.add (a 0 2) (b 0 2)
  let c_3 := F.add (a 0 3) (b 0 3)
  let c_4 := F.add (a 1 0) (b 1 0)
  let c_5 := F.add (a 1 1) (b 1 1)
  let c_6 := F.add (a 1 2) (b 1 2)
  let c_7 := F.add (a 1 3) (b 1 3)
  let c_8 := F.add (a 2 0) (b 2 0)
  let c_9 := F.add (a 2 1) (b 2 1)
  let c_10 := F.add (a 2 2) (b 2 2)
  let c_11 := F.add (a 2 3) (b 2 3)
  let c_12 := F.add (a 3 0) (b 3 0)
  let c_13 := F.add (a 3 1) (b 3 1)
  let c_14 := F.add (a 3 2) (b 3 2)
  let c_15 := F.add (a 3 3) (b 3 3)
  let c := four (quad c_0 c_1 c_2 c_3) (quad c_4 c_5 c_6 c_7) (quad c_8 c_9 c_10 c_11) (quad c_12 c_13 c_14 c_15)
  c

/-- `operator -`, /repo/src/util/v16/v16_portable.h:3748-3769,3772. -/
def fsub (F : Arith W) (a b : Reg 4 W) : Reg 4 W :=
  let c_0 := F.sub (a 0 0) (b 0 0)
  let c_1 := F.sub (a 0 1) (b 0 1)
  let c_2 := F.sub (a 0 2) (b 0 2)
  let c_3 := F.sub (a 0 3) (b 0 3)
  let c_4 := F.sub (a 1 0) (b 1 0)
  let c_5 := F.sub (a 1 1) (b 1 1)
  let c_6 := F.sub (a 1 2) (b 1 2)
  let c_7 := F.sub (a 1 3) (b 1 3)
  let c_8 := F.sub (a 2 0) (b 2 0)
  let c_9 := F.sub (a 2 1) (b 2 1)
  let c_10 := F.sub (a 2 2) (b 2 2)
  let c_11 := F.sub (a 2 3) (b 2 3)
  let c_12 := F.sub (a 3 0) (b 3 0)
  let c_13 := F.sub (a 3 1) (b 3 1)
  let c_14 := F.sub (a 3 2) (b 3 2)
  let c_15 := F.sub (a 3 3) (b 3 3)
  let c := four (quad c_0 c_1 c_2 c_3) (quad c_4 c_5 c_6 c_7) (quad c_8 c_9 c_10 c_11) (quad c_12 c_13 c_14 c_15)
  c

/-- `operator *`, /repo/src/util/v16/v16_portable.h:3748-3769,3773. -/
def fmul (F : Arith W) (a b : Reg 4 W) : Reg 4 W :=
  let c_0 := F.mul (a 0 0) (b 0 0)
  let c_1 := F.mul (a 0 1) (b 0 1)
  let c_2 := F.mul (a 0 2) (b 0 2)
  let c_3 := F.mul (a 0 3) (b 0 3)
  let c_4 := F.mul (a 1 0) (b 1 0)
  let c_5 := F.mul (a 1 1) (b 1 1)
  let c_6 := F.mul (a 1 2) (b 1 2)
  let c_7 := F.mul (a 1 3) (b 1 3)
  let c_8 := F.mul (a 2 0) (b 2 0)
  let c_9 := F.mul (a 2 1) (b 2 1)
  let c_10 := F.mul (a 2 2) (b 2 2)
  let c_11 := F.mul (a 2 3) (b 2 3)
  let c_12 := F.mul (a 3 0) (b 3 0)
  let c_13 := F.mul (a 3 1) (b 3 1)
  let c_14 := F.mul (a 3 2) (b 3 2)
  let c_15 := F.mul (a 3 3) (b 3 3)
  let c := four (quad c_0 c_1 c_2 c_3) (quad c_4 c_5 c_6 c_7) (quad c_8 c_9 c_10 c_11) (quad c_12 c_13 c_14 c_15)
  c

/-- `operator /`, /repo/src/util/v16/v16_portable.h:3748-3769,3774. -/
def fdiv (F : Arith W) (a b : Reg 4 W) : Reg 4 W :=
  let c_0 := F.div (a 0 0) (b 0 0)
  let c_1 := F.div (a 0 1) (b 0 1)
  let c_2 := F.div (a 0 2) (b 0 2)
  let c_3 := F.div (a 0 3) (b 0 3)
  let c_4 := F.div (a 1 0) (b 1 0)
  let c_5 := F.div (a 1 1) (b 1 1)
  let c_6 := F.div (a 1 2) (b 1 2)
  let c_7 := F.div (a 1 3) (b 1 3)
  let c_8 := F.div (a 2 0) (b 2 0)
  let c_9 := F.div (a 2 1) (b 2 1)
  let c_10 := F.div (a 2 2) (b 2 2)
  let c_11 := F.div (a 2 3) (b 2 3)
  let c_12 := F.div (a 3 0) (b 3 0)
  let c_13 := F.div (a 3 1) (b 3 1)
  let c_14 := F.div (a 3 2) (b 3 2)
  let c_15 := F.div (a 3 3) (b 3 3)
  let c := four (quad c_0 c_1 c_2 c_3) (quad c_4 c_5 c_6 c_7) (quad c_8 c_9 c_10 c_11) (quad c_12 c_13 c_14 c_15)
  c

/-- `operator <`, /repo/src/util/v16/v16_portable.h:3780-3801,3803. -/
def flt (a b : Reg 4 Word) : Reg 4 Word :=
  let c_0 := -(Word.bit (Word.flt (a 0 0) (b 0 0)))
  let c_1 := -(Word.bit (Word.flt (a 0 1) (b 0 1)))
  let c_2 := -(Word.bit (Word.flt (a 0 2) (b 0 2)))
  let c_3 := -(Word.bit (Word.flt (a 0 3) (b 0 3)))
  let c_4 := -(Word.bit (Word.flt (a 1 0) (b 1 0)))
  let c_5 := -(Word.bit (Word.flt (a 1 1) (b 1 1)))
  let c_6 := -(Word.bit (Word.flt (a 1 2) (b 1 2)))
  let c_7 := -(Word.bit (Word.flt (a 1 3) (b 1 3)))
  let c_8 := -(Word.bit (Word.flt (a 2 0) (b 2 0)))
  let c_9 := -(Word.bit (Word.flt (a 2 1) (b 2 1)))
  let c_10 := -(Word.bit (Word.flt (a 2 2) (b 2 2)))
  let c_11 := -(Word.bit (Word.flt (a 2 3) (b 2 3)))
  let c_12 := -(Word.bit (Word.flt (a 3 0) (b 3 0)))
  let c_13 := -(Word.bit (Word.flt (a 3 1) (b 3 1)))
  let c_14 := -(Word.bit (Word.flt (a 3 2) (b 3 2)))
  let c_15 := -(Word.bit (Word.flt (a 3 3) (b 3 3)))
  let c := four (quad c_0 c_1 c_2 c_3) (quad c_4 c_5 c_6 c_7) (quad c_8 c_9 c_10 c_11) (quad c_12 c_13 c_14 c_15)
  c

/-- `operator >`, /repo/src/util/v16/v16_portable.h:3780-3801,3804. -/
def fgt (a b : Reg 4 Word) : Reg 4 Word :=
  let c_0 := -(Word.bit (Word.fgt (a 0 0) (b 0 0)))
  let c_1 := -(Word.bit (Word.fgt (a 0 1) (b 0 1)))
  let c_2 := -(Word.bit (Word.fgt (a 0 2) (b 0 2)))
  let c_3 := -(Word.bit (Word.fgt (a 0 3) (b 0 3)))
  let c_4 := -(Word.bit (Word.fgt (a 1 0) (b 1 0)))
  let c_5 := -(Word.bit (Word.fgt (a 1 1) (b 1 1)))
  let c_6 := -(Word.bit (Word.fgt (a 1 2) (b 1 2)))
  let c_7 := -(Word.bit (Word.fgt (a 1 3) (b 1 3)))
  let c_8 := -(Word.bit (Word.fgt (a 2 0) (b 2 0)))
  let c_9 := -(Word.bit (Word.fgt (a 2 1) (b 2 1)))
  let c_10 := -(Word.bit (Word.fgt (a 2 2) (b 2 2)))
  let c_11 := -(Word.bit (Word.fgt (a 2 3) (b 2 3)))
  let c_12 := -(Word.bit (Word.fgt (a 3 0) (b 3 0)))
  let c_13 := -(Word.bit (Word.fgt (a 3 1) (b 3 1)))
  let c_14 := -(Word.bit (Word.fgt (a 3 2) (b 3 2)))
  let c_15 := -(Word.bit (Word.fgt (a 3 3) (b 3 3)))
  let c := four (quad c_0 c_1 c_2 c_3) (quad c_4 c_5 c_6 c_7) (quad c_8 c_9 c_10 c_11) (quad c_12 c_13 c_14 c_15)
  c

/-- `operator ==`, /repo/src/util/v16/v16_portable.h:3780-3801,3805. -/
def feq (a b : Reg 4 Word) : Reg 4 Word :=
  let c_0 := -(Word.bit (Word.feq (a 0 0) (b 0 0)))
  let c_1 := -(Word.bit (Word.feq (a 0 1) (b 0 1)))
  let c_2 := -(Word.bit (Word.feq (a 0 2) (b 0 2)))
  let c_3 := -(Word.bit (Word.feq (a 0 3) (b 0 3)))
  let c_4 := -(Word.bit (Word.feq (a 1 0) (b 1 0)))
  let c_5 := -(Word.bit (Word.feq (a 1 1) (b 1 1)))
  let c_6 := -(Word.bit (Word.feq (a 1 2) (b 1 2)))
  let c_7 := -(Word.bit (Word.feq (a 1 3) (b 1 3)))
  let c_8 := -(Word.bit (Word.feq (a 2 0) (b 2 0)))
  let c_9 := -(Word.bit (Word.feq (a 2 1) (b 2 1)))
  let c_10 := -(Word.bit (Word.feq (a 2 2) (b 2 2)))
  let c_11 := -(Word.bit (Word.feq (a 2 3) (b 2 3)))
  let c_12 := -(Word.bit (Word.feq (a 3 0) (b 3 0)))
  let c_13 := -(Word.bit (Word.feq (a 3 1) (b 3 1)))
  let c_14 := -(Word.bit (Word.feq (a 3 2) (b 3 2)))
  let c_15 := -(Word.bit (Word.feq (a 3 3) (b 3 3)))
  let c := four (quad c_0 c_1 c_2 c_3) (quad c_4 c_5 c_6 c_7) (quad c_8 c_9 c_10 c_11) (quad c_12 c_13 c_14 c_15)
  c

/-- `operator !=`, /repo/src/util/v16/v16_portable.h:3780-3801,3806. -/
def fne (a b : Reg 4 Word) : Reg 4 Word :=
  let c_0 := -(Word.bit (Word.fne (a 0 0) (b 0 0)))
  let c_1 := -(Word.bit (Word.fne (a 0 1) (b 0 1)))
  let c_2 := -(Word.bit (Word.fne (a 0 2) (b 0 2)))
  let c_3 := -(Word.bit (Word.fne (a 0 3) (b 0 3)))
  let c_4 := -(Word.bit (Word.fne (a 1 0) (b 1 0)))
  let c_5 := -(Word.bit (Word.fne (a 1 1) (b 1 1)))
  let c_6 := -(Word.bit (Word.fne (a 1 2) (b 1 2)))
  let c_7 := -(Word.bit (Word.fne (a 1 3) (b 1 3)))
  let c_8 := -(Word.bit (Word.fne (a 2 0) (b 2 0)))
  let c_9 := -(Word.bit (Word.fne (a 2 1) (b 2 1)))
  let c_10 := -(Word.bit (Word.fne (a 2 2) (b 2 2)))
  let c_11 := -(Word.bit (Word.fne (a 2 3) (b 2 3)))
  let c_12 := -(Word.bit (Word.fne (a 3 0) (b 3 0)))
  let c_13 := -(Word.bit (Word.fne (a 3 1) (b 3 1)))
  let c_14 := -(Word.bit (Word.fne (a 3 2) (b 3 2)))
  let c_15 := -(Word.bit (Word.fne (a 3 3) (b 3 3)))
  let c := four (quad c_0 c_1 c_2 c_3) (quad c_4 c_5 c_6 c_7) (quad c_8 c_9 c_10 c_11) (quad c_12 c_13 c_14 c_15)
  c

/-- `operator <=`, /repo/src/util/v16/v16_portable.h:3780-3801,3807. -/
def fle (a b : Reg 4 Word) : Reg 4 Word :=
  let c_0 := -(Word.bit (Word.fle (a 0 0) (b 0 0)))
  let c_1 := -(Word.bit (Word.fle (a 0 1) (b 0 1)))
  let c_2 := -(Word.bit (Word.fle (a 0 2) (b 0 2)))
  let c_3 := -(Word.bit (Word.fle (a 0 3) (b 0 3)))
  let c_4 := -(Word.bit (Word.fle (a 1 0) (b 1 0)))
  let c_5 := -(Word.bit (Word.fle (a 1 1) (b 1 1)))
  let c_6 := -(Word.bit (Word.fle (a 1 2) (b 1 2)))
  let c_7 := -(Word.bit (Word.fle (a 1 3) (b 1 3)))
  let c_8 := -(Word.bit (Word.fle (a 2 0) (b 2 0)))
  let c_9 := -(Word.bit (Word.fle (a 2 1) (b 2 1)))
  let c_10 := -(Word.bit (Word.fle (a 2 2) (b 2 2)))
  let c_11 := -(Word.bit (Word.fle (a 2 3) (b 2 3)))
  let c_12 := -(Word.bit (Word.fle (a 3 0) (b 3 0)))
  let c_13 := -(Word.bit (Word.fle (a 3 1) (b 3 1)))
  let c_14 := -(Word.bit (Word.fle (a 3 2) (b 3 2)))
  let c_15 := -(Word.bit (Word.fle (a 3 3) (b 3 3)))
  let c := four (quad c_0 c_1 c_2 c_3) (quad c_4 c_5 c_6 c_7) (quad c_8 c_9 c_10 c_11) (quad c_12 c_13 c_14 c_15)
  c

/-- `operator >=`, /repo/src/util/v16/v16_portable.h:3780-3801,3808. -/
def fge (a b : Reg 4 Word) : Reg 4 Word :=
  let c_0 := -(Word.bit (Word.fge (a 0 0) (b 0 0)))
  let c_1 := -(Word.bit (Word.fge (a 0 1) (b 0 1)))
  let c_2 := -(Word.bit (Word.fge (a 0 2) (b 0 2)))
  let c_3 := -(Word.bit (Word.fge (a 0 3) (b 0 3)))
  let c_4 := -(Word.bit (Word.fge (a 1 0) (b 1 0)))
  let c_5 := -(Word.bit (Word.fge (a 1 1) (b 1 1)))
  let c_6 := -(Word.bit (Word.fge (a 1 2) (b 1 2)))
  let c_7 := -(Word.bit (Word.fge (a 1 3) (b 1 3)))
  let c_8 := -(Word.bit (Word.fge (a 2 0) (b 2 0)))
  let c_9 := -(Word.bit (Word.fge (a 2 1) (b 2 1)))
  let c_10 := -(Word.bit (Word.fge (a 2 2) (b 2 2)))
  let c_11 := -(Word.bit (Word.fge (a 2 3) (b 2 3)))
  let c_12 := -(Word.bit (Word.fge (a 3 0) (b 3 0)))
  let c_13 := -(Word.bit (Word.fge (a 3 1) (b 3 1)))
  let c_14 := -(Word.bit (Word.fge (a 3 2) (b 3 2)))
  let c_15 := -(Word.bit (Word.fge (a 3 3) (b 3 3)))
  let c := four (quad c_0 c_1 c_2 c_3) (quad c_4 c_5 c_6 c_7) (quad c_8 c_9 c_10 c_11) (quad c_12 c_13 c_14 c_15)
  c

/-- `operator &&`, /repo/src/util/v16/v16_portable.h:3780-3801,3809. -/
def fland (a b : Reg 4 Word) : Reg 4 Word :=
  let c_0 := -(Word.bit ((Word.fne (a 0 0) 0) && (Word.fne (b 0 0) 0)))
  let c_1 := -(Word.bit ((Word.fne (a 0 1) 0) && (Word.fne (b 0 1) 0)))
  let c_2 := -(Word.bit ((Word.fne (a 0 2) 0) && (Word.fne (b 0 2) 0)))
  let c_3 := -(Word.bit ((Word.fne (a 0 3) 0) && (Word.fne (b 0 3) 0)))
  let c_4 := -(Word.bit ((Word.fne (a 1 0) 0) && (Word.fne (b 1 0) 0)))
  let c_5 := -(Word.bit ((Word.fne (a 1 1) 0) && (Word.fne (b 1 1) 0)))
  let c_6 := -(Word.bit ((Word.fne (a 1 2) 0) && (Word.fne (b 1 2) 0)))
  let c_7 := -(Word.bit ((Word.fne (a 1 3) 0) && (Word.fne (b 1 3) 0)))
  let c_8 := -(Word.bit ((Word.fne (a 2 0) 0) && (Word.fne (b 2 0) 0)))
  let c_9 := -(Word.bit ((Word.fne (a 2 1) 0) && (Word.fne (b 2 1) 0)))
  let c_10 := -(Word.bit ((Word.fne (a 2 2) 0) && (Word.fne (b 2 2) 0)))
  let c_11 := -(Word.bit ((Word.fne (a 2 3) 0) && (Word.fne (b 2 3) 0)))
  let c_12 := -(Word.bit ((Word.fne (a 3 0) 0) && (Word.fne (b 3 0) 0)))
  let c_13 := -(Word.bit ((Word.fne (a 3 1) 0) && (Word.fne (b 3 1) 0)))
  let c_14 := -(Word.bit ((Word.fne (a 3 2) 0) && (Word.fne (b 3 2) 0)))
  let c_15 := -(Word.bit ((Word.fne (a 3 3) 0) && (Word.fne (b 3 3) 0)))
  let c := four (quad c_0 c_1 c_2 c_3) (quad c_4 c_5 c_6 c_7) (quad c_8 c_9 c_10 c_11) (quad c_12 c_13 c_14 c_15)
  c

/-- `operator ||`, /repo/src/util/v16/v16_portable.h:3780-3801,3810. -/
def flor (a b : Reg 4 Word) : Reg 4 Word :=
  let c_0 := -(Word.bit ((Word.fne (a 0 0) 0) || (Word.fne (b 0 0) 0)))
  let c_1 := -(Word.bit ((Word.fne (a 0 1) 0) || (Word.fne (b 0 1) 0)))
  let c_2 := -(Word.bit ((Word.fne (a 0 2) 0) || (Word.fne (b 0 2) 0)))
  let c_3 := -(Word.bit ((Word.fne (a 0 3) 0) || (Word.fne (b 0 3) 0)))
  let c_4 := -(Word.bit ((Word.fne (a 1 0) 0) || (Word.fne (b 1 0) 0)))
  let c_5 := -(Word.bit ((Word.fne (a 1 1) 0) || (Word.fne (b 1 1) 0)))
  let c_6 := -(Word.bit ((Word.fne (a 1 2) 0) || (Word.fne (b 1 2) 0)))
  let c_7 := -(Word.bit ((Word.fne (a 1 3) 0) || (Word.fne (b 1 3) 0)))
  let c_8 := -(Word.bit ((Word.fne (a 2 0) 0) || (Word.fne (b 2 0) 0)))
  let c_9 := -(Word.bit ((Word.fne (a 2 1) 0) || (Word.fne (b 2 1) 0)))
  let c_10 := -(Word.bit ((Word.fne (a 2 2) 0) || (Word.fne (b 2 2) 0)))
  let c_11 := -(Word.bit ((Word.fne (a 2 3) 0) || (Word.fne (b 2 3) 0)))
  let c_12 := -(Word.bit ((Word.fne (a 3 0) 0) || (Word.fne (b 3 0) 0)))
  let c_13 := -(Word.bit ((Word.fne (a 3 1) 0) || (Word.fne (b 3 1) 0)))
  let c_14 := -(Word.bit ((Word.fne (a 3 2) 0) || (Word.fne (b 3 2) 0)))
  let c_15 := -(Word.bit ((Word.fne (a 3 3) 0) || (Word.fne (b 3 3) 0)))
  let c := four (quad c_0 c_1 c_2 c_3) (quad c_4 c_5 c_6 c_7) (quad c_8 c_9 c_10 c_11) (quad c_12 c_13 c_14 c_15)
  c

/-- `fabs`, /repo/src/util/v16/v16_portable.h:3816-3837,3864. -/
def fabs (a : Reg 4 Word) : Reg 4 Word :=
  let b_0 := Word.fabs (a 0 0)
  let b_1 := Word.fabs (a 0 1)
  let b_2 := Word.fabs (a 0 2)
  let b_3 := Word.fabs (a 0 3)
  let b_4 := Word.fabs (a 1 0)
  let b_5 := Word.fabs (a 1 1)
  let b_6 := Word.fabs (a 1 2)
  let b_7 := Word.fabs (a 1 3)
  let b_8 := Word.fabs (a 2 0)
  let b_9 := Word.fabs (a 2 1)
  let b_10 := Word.fabs (a 2 2)
  let b_11 := Word.fabs (a 2 3)
  let b_12 := Word.fabs (a 3 0)
  let b_13 := Word.fabs (a 3 1)
  let b_14 := Word.fabs (a 3 2)
  let b_15 := Word.fabs (a 3 3)
  let b := four (quad b_0 b_1 b_2 b_3) (quad b_4 b_5 b_6 b_7) (quad b_8 b_9 b_10 b_11) (quad b_12 b_13 b_14 b_15)
  b

/-- `sqrt`, /repo/src/util/v16/v16_portable.h:3816-3837,3866. -/
def sqrt (F : Arith W) (a : Reg 4 W) : Reg 4 W :=
  let b_0 := F.sqrt (a 0 0)
  let b_1 := F.sqrt (a 0 1)
  let b_2 := F.sqrt (a 0 2)
  let b_3 := F.sqrt (a 0 3)
  let b_4 := F.sqrt (a 1 0)
  let b_5 := F.sqrt (a 1 1)
  let b_6 := F.sqrt (a 1 2)
  let b_7 := F.sqrt (a 1 3)
  let b_8 := F.sqrt (a 2 0)
  let b_9 := F.sqrt (a 2 1)
  let b_10 := F.sqrt (a 2 2)
  let b_11 := F.sqrt (a 2 3)
  let b_12 := F.sqrt (a 3 0)
  let b_13 := F.sqrt (a 3 1)
  let b_14 := F.sqrt (a 3 2)
  let b_15 := F.sqrt (a 3 3)
  let b := four (quad b_0 b_1 b_2 b_3) (quad b_4 b_5 b_6 b_7) (quad b_8 b_9 b_10 b_11) (quad b_12 b_13 b_14 b_15)
  b

/-- `copysign`, /repo/src/util/v16/v16_portable.h:3868-3938. -/
def copysign (a b : Reg 4 Word) : Reg 4 Word :=
  let t := Word.fabs (a 0 0)
  let t := if Word.flt (b 0 0) (0 : Word) then Word.fneg t else t
  let c_0 := t
  let t := Word.fabs (a 0 1)
  let t := if Word.flt (b 0 1) (0 : Word) then Word.fneg t else t
  let c_1 := t
  let t := Word.fabs (a 0 2)
  let t := if Word.flt (b 0 2) (0 : Word) then Word.fneg t else t
  let c_2 := t
  let t := Word.fabs (a 0 3)
  let t := if Word.flt (b 0 3) (0 : Word) then Word.fneg t else t
  let c_3 := t
  let t := Word.fabs (a 1 0)
  let t := if Word.flt (b 1 0) (0 : Word) then Word.fneg t else t
  let c_4 := t
  let t := Word.fabs (a 1 1)
  let t := if Word.flt (b 1 1) (0 : Word) then Word.fneg t else t
  let c_5 := t
  let t := Word.fabs (a 1 2)
  let t := if Word.flt (b 1 2) (0 : Word) then Word.fneg t else t
  let c_6 := t
  let t := Word.fabs (a 1 3)
  let t := if Word.flt (b 1 3) (0 : Word) then Word.fneg t else t
  let c_7 := t
  let t := Word.fabs (a 2 0)
  let t := if Word.flt (b 2 0) (0 : Word) then Word.fneg t else t
  let c_8 := t
  let t := Word.fabs (a 2 1)
  let t := if Word.flt (b 2 1) (0 : Word) then Word.fneg t else t
  let c_9 := t
  let t := Word.fabs (a 2 2)
  let t := if Word.flt (b 2 2) (0 : Word) then Word.fneg t else t
  let c_10 := t
  let t := Word.fabs (a 2 3)
  let t := if Word.flt (b 2 3) (0 : Word) then Word.fneg t else t
  let c_11 := t
  let t := Word.fabs (a 3 0)
  let t := if Word.flt (b 3 0) (0 : Word) then Word.fneg t else t
  let c_12 := t
  let t := Word.fabs (a 3 1)
  let t := if Word.flt (b 3 1) (0 : Word) then Word.fneg t else t
  let c_13 := t
  let t := Word.fabs (a 3 2)
  let t := if Word.flt (b 3 2) (0 : Word) then Word.fneg t else t
  let c_14 := t
  let t := Word.fabs (a 3 3)
  let t := if Word.flt (b 3 3) (0 : Word) then Word.fneg t else t
  let c_15 := t
  let c := four (quad c_0 c_1 c_2 c_3) (quad c_4 c_5 c_6 c_7) (quad c_8 c_9 c_10 c_11) (quad c_12 c_13 c_14 c_15)
  c

/-- `rsqrt`, /repo/src/util/v16/v16_portable.h:3969-3991. -/
def rsqrt (F : Arith W) (a : Reg 4 W) : Reg 4 W :=
  let b_0 := F.sqrt (F.div F.one (a 0 0))
  let b_1 := F.sqrt (F.div F.one (a 0 1))
  let b_2 := F.sqrt (F.div F.one (a 0 2))
  let b_3 := F.sqrt (F.div F.one (a 0 3))
  let b_4 := F.sqrt (F.div F.one (a 1 0))
  let b_5 := F.sqrt (F.div F.one (a 1 1))
  let b_6 := F.sqrt (F.div F.one (a 1 2))
  let b_7 := F.sqrt (F.div F.one (a 1 3))
  let b_8 := F.sqrt (F.div F.one (a 2 0))
  let b_9 := F.sqrt (F.div F.one (a 2 1))
  let b_10 := F.sqrt (F.div F.one (a 2 2))
  let b_11 := F.sqrt (F.div F.one (a 2 3))
  let b_12 := F.sqrt (F.div F.one (a 3 0))
  let b_13 := F.sqrt (F.div F.one (a 3 1))
  let b_14 := F.sqrt (F.div F.one (a 3 2))
  let b_15 := F.sqrt (F.div F.one (a 3 3))
  let b := four (quad b_0 b_1 b_2 b_3) (quad b_4 b_5 b_6 b_7) (quad b_8 b_9 b_10 b_11) (quad b_12 b_13 b_14 b_15)
  b

/-- `rcp`, /repo/src/util/v16/v16_portable.h:4017-4039. -/
def rcp (F : Arith W) (a : Reg 4 W) : Reg 4 W :=
  let b_0 := F.div F.one (a 0 0)
  let b_1 := F.div F.one (a 0 1)
  let b_2 := F.div F.one (a 0 2)
  let b_3 := F.div F.one (a 0 3)
  let b_4 := F.div F.one (a 1 0)
  let b_5 := F.div F.one (a 1 1)
  let b_6 := F.div F.one (a 1 2)
  let b_7 := F.div F.one (a 1 3)
  let b_8 := F.div F.one (a 2 0)
  let b_9 := F.div F.one (a 2 1)
  let b_10 := F.div F.one (a 2 2)
  let b_11 := F.div F.one (a 2 3)
  let b_12 := F.div F.one (a 3 0)
  let b_13 := F.div F.one (a 3 1)
  let b_14 := F.div F.one (a 3 2)
  let b_15 := F.div F.one (a 3 3)
  let b := four (quad b_0 b_1 b_2 b_3) (quad b_4 b_5 b_6 b_7) (quad b_8 b_9 b_10 b_11) (quad b_12 b_13 b_14 b_15)
  b

/-- `fma`, /repo/src/util/v16/v16_portable.h:4041-4063. -/
def fma (F : Arith W) (a b c : Reg 4 W) : Reg 4 W :=
  let d_0 := F.add (F.mul (a 0 0) (b 0 0)) (c 0 0)
  let d_1 := F.add (F.mul (a 0 1) (b 0 1)) (c 0 1)
  let d_2 := F.add (F.mul (a 0 2) (b 0 2)) (c 0 2)
  let d_3 := F.add (F.mul (a 0 3) (b 0 3)) (c 0 3)
  let d_4 := F.add (F.mul (a 1 0) (b 1 0)) (c 1 0)
  let d_5 := F.add (F.mul (a 1 1) (b 1 1)) (c 1 1)
  let d_6 := F.add (F.mul (a 1 2) (b 1 2)) (c 1 2)
  let d_7 := F.add (F.mul (a 1 3) (b 1 3)) (c 1 3)
  let d_8 := F.add (F.mul (a 2 0) (b 2 0)) (c 2 0)
  let d_9 := F.add (F.mul (a 2 1) (b 2 1)) (c 2 1)
  let d_10 := F.add (F.mul (a 2 2) (b 2 2)) (c 2 2)
  let d_11 := F.add (F.mul (a 2 3) (b 2 3)) (c 2 3)
  let d_12 := F.add (F.mul (a 3 0) (b 3 0)) (c 3 0)
  let d_13 := F.add (F.mul (a 3 1) (b 3 1)) (c 3 1)
  let d_14 := F.add (F.mul (a 3 2) (b 3 2)) (c 3 2)
  let d_15 := F.add (F.mul (a 3 3) (b 3 3)) (c 3 3)
  let d := four (quad d_0 d_1 d_2 d_3) (quad d_4 d_5 d_6 d_7) (quad d_8 d_9 d_10 d_11) (quad d_12 d_13 d_14 d_15)
  d

/-- `fms`, /repo/src/util/v16/v16_portable.h:4065-4087. -/
def fms (F : Arith W) (a b c : Reg 4 W) : Reg 4 W :=
  let d_0 := F.sub (F.mul (a 0 0) (b 0 0)) (c 0 0)
  let d_1 := F.sub (F.mul (a 0 1) (b 0 1)) (c 0 1)
  let d_2 := F.sub (F.mul (a 0 2) (b 0 2)) (c 0 2)
  let d_3 := F.sub (F.mul (a 0 3) (b 0 3)) (c 0 3)
  let d_4 := F.sub (F.mul (a 1 0) (b 1 0)) (c 1 0)
  let d_5 := F.sub (F.mul (a 1 1) (b 1 1)) (c 1 1)
  let d_6 := F.sub (F.mul (a 1 2) (b 1 2)) (c 1 2)
  let d_7 := F.sub (F.mul (a 1 3) (b 1 3)) (c 1 3)
  let d_8 := F.sub (F.mul (a 2 0) (b 2 0)) (c 2 0)
  let d_9 := F.sub (F.mul (a 2 1) (b 2 1)) (c 2 1)
  let d_10 := F.sub (F.mul (a 2 2) (b 2 2)) (c 2 2)
  let d_11 := F.sub (F.mul (a 2 3) (b 2 3)) (c 2 3)
  let d_12 := F.sub (F.mul (a 3 0) (b 3 0)) (c 3 0)
  let d_13 := F.sub (F.mul (a 3 1) (b 3 1)) (c 3 1)
  let d_14 := F.sub (F.mul (a 3 2) (b 3 2)) (c 3 2)
  let d_15 := F.sub (F.mul (a 3 3) (b 3 3)) (c 3 3)
  let d := four (quad d_0 d_1 d_2 d_3) (quad d_4 d_5 d_6 d_7) (quad d_8 d_9 d_10 d_11) (quad d_12 d_13 d_14 d_15)
  d

/-- `fnms`, /repo/src/util/v16/v16_portable.h:4089-4111. -/
def fnms (F : Arith W) (a b c : Reg 4 W) : Reg 4 W :=
  let d_0 := F.sub (c 0 0) (F.mul (a 0 0) (b 0 0))
  let d_1 := F.sub (c 0 1) (F.mul (a 0 1) (b 0 1))
  let d_2 := F.sub (c 0 2) (F.mul (a 0 2) (b 0 2))
  let d_3 := F.sub (c 0 3) (F.mul (a 0 3) (b 0 3))
  let d_4 := F.sub (c 1 0) (F.mul (a 1 0) (b 1 0))
  let d_5 := F.sub (c 1 1) (F.mul (a 1 1) (b 1 1))
  let d_6 := F.sub (c 1 2) (F.mul (a 1 2) (b 1 2))
  let d_7 := F.sub (c 1 3) (F.mul (a 1 3) (b 1 3))
  let d_8 := F.sub (c 2 0) (F.mul (a 2 0) (b 2 0))
  let d_9 := F.sub (c 2 1) (F.mul (a 2 1) (b 2 1))
  let d_10 := F.sub (c 2 2) (F.mul (a 2 2) (b 2 2))
  let d_11 := F.sub (c 2 3) (F.mul (a 2 3) (b 2 3))
  let d_12 := F.sub (c 3 0) (F.mul (a 3 0) (b 3 0))
  let d_13 := F.sub (c 3 1) (F.mul (a 3 1) (b 3 1))
  let d_14 := F.sub (c 3 2) (F.mul (a 3 2) (b 3 2))
  let d_15 := F.sub (c 3 3) (F.mul (a 3 3) (b 3 3))
  let d := four (quad d_0 d_1 d_2 d_3) (quad d_4 d_5 d_6 d_7) (quad d_8 d_9 d_10 d_11) (quad d_12 d_13 d_14 d_15)
  d

/-- `clear_bits`, /repo/src/util/v16/v16_portable.h:4113-4135. -/
def clear_bits (m a : Reg 4 Word) : Reg 4 Word :=
  let b_0 := (~~~(m 0 0)) &&& (a 0 0)
  let b_1 := (~~~(m 0 1)) &&& (a 0 1)
  let b_2 := (~~~(m 0 2)) &&& (a 0 2)
  let b_3 := (~~~(m 0 3)) &&& (a 0 3)
  let b_4 := (~~~(m 1 0)) &&& (a 1 0)
  let b_5 := (~~~(m 1 1)) &&& (a 1 1)
  let b_6 := (~~~(m 1 2)) &&& (a 1 2)
  let b_7 := (~~~(m 1 3)) &&& (a 1 3)
  let b_8 := (~~~(m 2 0)) &&& (a 2 0)
  let b_9 := (~~~(m 2 1)) &&& (a 2 1)
  let b_10 := (~~~(m 2 2)) &&& (a 2 2)
  let b_11 := (~~~(m 2 3)) &&& (a 2 3)
  let b_12 := (~~~(m 3 0)) &&& (a 3 0)
  let b_13 := (~~~(m 3 1)) &&& (a 3 1)
  let b_14 := (~~~(m 3 2)) &&& (a 3 2)
  let b_15 := (~~~(m 3 3)) &&& (a 3 3)
  let b := four (quad b_0 b_1 b_2 b_3) (quad b_4 b_5 b_6 b_7) (quad b_8 b_9 b_10 b_11) (quad b_12 b_13 b_14 b_15)
  b

/-- `set_bits`, /repo/src/util/v16/v16_portable.h:4137-4159. -/
def set_bits (m a : Reg 4 Word) : Reg 4 Word :=
  let b_0 := (m 0 0) ||| (a 0 0)
  let b_1 := (m 0 1) ||| (a 0 1)
  let b_2 := (m 0 2) ||| (a 0 2)
  let b_3 := (m 0 3) ||| (a 0 3)
  let b_4 := (m 1 0) ||| (a 1 0)
  let b_5 := (m 1 1) ||| (a 1 1)
  let b_6 := (m 1 2) ||| (a 1 2)
  let b_7 := (m 1 3) ||| (a 1 3)
  let b_8 := (m 2 0) ||| (a 2 0)
  let b_9 := (m 2 1) ||| (a 2 1)
  let b_10 := (m 2 2) ||| (a 2 2)
  let b_11 := (m 2 3) ||| (a 2 3)
  let b_12 := (m 3 0) ||| (a 3 0)
  let b_13 := (m 3 1) ||| (a 3 1)
  let b_14 := (m 3 2) ||| (a 3 2)
  let b_15 := (m 3 3) ||| (a 3 3)
  let b := four (quad b_0 b_1 b_2 b_3) (quad b_4 b_5 b_6 b_7) (quad b_8 b_9 b_10 b_11) (quad b_12 b_13 b_14 b_15)
  b

/-- `toggle_bits`, /repo/src/util/v16/v16_portable.h:4161-4183. -/
def toggle_bits (m a : Reg 4 Word) : Reg 4 Word :=
  let b_0 := (m 0 0) ^^^ (a 0 0)
  let b_1 := (m 0 1) ^^^ (a 0 1)
  let b_2 := (m 0 2) ^^^ (a 0 2)
  let b_3 := (m 0 3) ^^^ (a 0 3)
  let b_4 := (m 1 0) ^^^ (a 1 0)
  let b_5 := (m 1 1) ^^^ (a 1 1)
  let b_6 := (m 1 2) ^^^ (a 1 2)
  let b_7 := (m 1 3) ^^^ (a 1 3)
  let b_8 := (m 2 0) ^^^ (a 2 0)
  let b_9 := (m 2 1) ^^^ (a 2 1)
  let b_10 := (m 2 2) ^^^ (a 2 2)
  let b_11 := (m 2 3) ^^^ (a 2 3)
  let b_12 := (m 3 0) ^^^ (a 3 0)
  let b_13 := (m 3 1) ^^^ (a 3 1)
  let b_14 := (m 3 2) ^^^ (a 3 2)
  let b_15 := (m 3 3) ^^^ (a 3 3)
  let b := four (quad b_0 b_1 b_2 b_3) (quad b_4 b_5 b_6 b_7) (quad b_8 b_9 b_10 b_11) (quad b_12 b_13 b_14 b_15)
  b

/-- `increment_16x1`, /repo/src/util/v16/v16_portable.h:4185-4203. -/
def increment (F : Arith W) (m : Memory W) (p : ℕ) (a : Reg 4 W) : Memory W :=
  let m := put m (p + 0) (F.add (m (p + 0)) (a 0 0))
  let m := put m (p + 1) (F.add (m (p + 1)) (a 0 1))
  let m := put m (p + 2) (F.add (m (p + 2)) (a 0 2))
  let m := put m (p + 3) (F.add (m (p + 3)) (a 0 3))
  let m := put m (p + 4) (F.add (m (p + 4)) (a 1 0))
  let m := put m (p + 5) (F.add (m (p + 5)) (a 1 1))
  let m := put m (p + 6) (F.add (m (p + 6)) (a 1 2))
  let m := put m (p + 7) (F.add (m (p + 7)) (a 1 3))
  let m := put m (p + 8) (F.add (m (p + 8)) (a 2 0))
  let m := put m (p + 9) (F.add (m (p + 9)) (a 2 1))
  let m := put m (p + 10) (F.add (m (p + 10)) (a 2 2))
  let m := put m (p + 11) (F.add (m (p + 11)) (a 2 3))
  let m := put m (p + 12) (F.add (m (p + 12)) (a 3 0))
  let m := put m (p + 13) (F.add (m (p + 13)) (a 3 1))
  let m := put m (p + 14) (F.add (m (p + 14)) (a 3 2))
  let m := put m (p + 15) (F.add (m (p + 15)) (a 3 3))
  m

/-- `decrement_16x1`, /repo/src/util/v16/v16_portable.h:4205-4223. -/
def decrement (F : Arith W) (m : Memory W) (p : ℕ) (a : Reg 4 W) : Memory W :=
  let m := put m (p + 0) (F.sub (m (p + 0)) (a 0 0))
  let m := put m (p + 1) (F.sub (m (p + 1)) (a 0 1))
  let m := put m (p + 2) (F.sub (m (p + 2)) (a 0 2))
  let m := put m (p + 3) (F.sub (m (p + 3)) (a 0 3))
  let m := put m (p + 4) (F.sub (m (p + 4)) (a 1 0))
  let m := put m (p + 5) (F.sub (m (p + 5)) (a 1 1))
  let m := put m (p + 6) (F.sub (m (p + 6)) (a 1 2))
  let m := put m (p + 7) (F.sub (m (p + 7)) (a 1 3))
  let m := put m (p + 8) (F.sub (m (p + 8)) (a 2 0))
  let m := put m (p + 9) (F.sub (m (p + 9)) (a 2 1))
  let m := put m (p + 10) (F.sub (m (p + 10)) (a 2 2))
  let m := put m (p + 11) (F.sub (m (p + 11)) (a 2 3))
  let m := put m (p + 12) (F.sub (m (p + 12)) (a 3 0))
  let m := put m (p + 13) (F.sub (m (p + 13)) (a 3 1))
  let m := put m (p + 14) (F.sub (m (p + 14)) (a 3 2))
  let m := put m (p + 15) (F.sub (m (p + 15)) (a 3 3))
  m

/-- `scale_16x1`, /repo/src/util/v16/v16_portable.h:4225-4243. -/
def scale (F : Arith W) (m : Memory W) (p : ℕ) (a : Reg 4 W) : Memory W :=
  let m := put m (p + 0) (F.mul (m (p + 0)) (a 0 0))
  let m := put m (p + 1) (F.mul (m (p + 1)) (a 0 1))
  let m := put m (p + 2) (F.mul (m (p + 2)) (a 0 2))
  let m := put m (p + 3) (F.mul (m (p + 3)) (a 0 3))
  let m := put m (p + 4) (F.mul (m (p + 4)) (a 1 0))
  let m := put m (p + 5) (F.mul (m (p + 5)) (a 1 1))
  let m := put m (p + 6) (F.mul (m (p + 6)) (a 1 2))
  let m := put m (p + 7) (F.mul (m (p + 7)) (a 1 3))
  let m := put m (p + 8) (F.mul (m (p + 8)) (a 2 0))
  let m := put m (p + 9) (F.mul (m (p + 9)) (a 2 1))
  let m := put m (p + 10) (F.mul (m (p + 10)) (a 2 2))
  let m := put m (p + 11) (F.mul (m (p + 11)) (a 2 3))
  let m := put m (p + 12) (F.mul (m (p + 12)) (a 3 0))
  let m := put m (p + 13) (F.mul (m (p + 13)) (a 3 1))
  let m := put m (p + 14) (F.mul (m (p + 14)) (a 3 2))
  let m := put m (p + 15) (F.mul (m (p + 15)) (a 3 3))
  m

end Verif.Vector.V16Portable
