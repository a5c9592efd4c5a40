import Verif.Vector.Lane

/-! Operators and functions of /repo/src/util/v16/v16_avx512.h that compute; written by `tools/gen_lanes.py`. -/
namespace Verif.Vector.V16Avx512

variable {W : Type}

/-- `any`, /repo/src/util/v16/v16_avx512.h:367-373. -/
def any (a : Reg 4 Word) : Bool :=
  (((((((((((((((a 0 0 != 0) || (a 0 1 != 0)) || (a 0 2 != 0)) || (a 0 3 != 0)) || (a 1 0 != 0)) || (a 1 1 != 0)) || (a 1 2 != 0)) || (a 1 3 != 0)) || (a 2 0 != 0)) || (a 2 1 != 0)) || (a 2 2 != 0)) || (a 2 3 != 0)) || (a 3 0 != 0)) || (a 3 1 != 0)) || (a 3 2 != 0)) || (a 3 3 != 0)

/-- `all`, /repo/src/util/v16/v16_avx512.h:375-381. -/
def all (a : Reg 4 Word) : Bool :=
  (((((((((((((((a 0 0 != 0) && (a 0 1 != 0)) && (a 0 2 != 0)) && (a 0 3 != 0)) && (a 1 0 != 0)) && (a 1 1 != 0)) && (a 1 2 != 0)) && (a 1 3 != 0)) && (a 2 0 != 0)) && (a 2 1 != 0)) && (a 2 2 != 0)) && (a 2 3 != 0)) && (a 3 0 != 0)) && (a 3 1 != 0)) && (a 3 2 != 0)) && (a 3 3 != 0)

/-- `operator +=`, /repo/src/util/v16/v16_avx512.h:2094-2100,2108. -/
def iadd_to (a b : Reg 4 Word) : Reg 4 Word :=
  let a_0 := (a 0 0) + (b 0 0)
  let a_1 := (a 0 1) + (b 0 1)
  let a_2 := (a 0 2) + (b 0 2)
  let a_3 := (a 0 3) + (b 0 3)
  let a_4 := (a 1 0) + (b 1 0)
  let a_5 := (a 1 1) + (b 1 1)
  let a_6 := (a 1 2) + (b 1 2)
  let a_7 := (a 1 3) + (b 1 3)
  let a_8 := (a 2 0) + (b 2 0)
  let a_9 := (a 2 1) + (b 2 1)
  let a_10 := (a 2 2) + (b 2 2)
  let a_11 := (a 2 3) + (b 2 3)
  let a_12 := (a 3 0) + (b 3 0)
  let a_13 := (a 3 1) + (b 3 1)
  let a_14 := (a 3 2) + (b 3 2)
  let a_15 := (a 3 3) + (b 3 3)
  let a := four (quad a_0 a_1 a_2 a_3) (quad a_4 a_5 a_6 a_7) (quad a_8 a_9 a_10 a_11) (quad a_12 a_13 a_14 a_15)
  a

/-- `operator -=`, /repo/src/util/v16/v16_avx512.h:2094-2100,2109. -/
def isub_to (a b : Reg 4 Word) : Reg 4 Word :=
  let a_0 := (a 0 0) - (b 0 0)
  let a_1 := (a 0 1) - (b 0 1)
  let a_2 := (a 0 2) - (b 0 2)
  let a_3 := (a 0 3) - (b 0 3)
  let a_4 := (a 1 0) - (b 1 0)
  let a_5 := (a 1 1) - (b 1 1)
  let a_6 := (a 1 2) - (b 1 2)
  let a_7 := (a 1 3) - (b 1 3)
  let a_8 := (a 2 0) - (b 2 0)
  let a_9 := (a 2 1) - (b 2 1)
  let a_10 := (a 2 2) - (b 2 2)
  let a_11 := (a 2 3) - (b 2 3)
  let a_12 := (a 3 0) - (b 3 0)
  let a_13 := (a 3 1) - (b 3 1)
  let a_14 := (a 3 2) - (b 3 2)
  let a_15 := (a 3 3) - (b 3 3)
  let a := four (quad a_0 a_1 a_2 a_3) (quad a_4 a_5 a_6 a_7) (quad a_8 a_9 a_10 a_11) (quad a_12 a_13 a_14 a_15)
  a

/-- `operator *=`, /repo/src/util/v16/v16_avx512.h:2094-2100,2110. -/
def imul_to (a b : Reg 4 Word) : Reg 4 Word :=
  let a_0 := (a 0 0) * (b 0 0)
  let a_1 := (a 0 1) * (b 0 1)
  let a_2 := (a 0 2) * (b 0 2)
  let a_3 := (a 0 3) * (b 0 3)
  let a_4 := (a 1 0) * (b 1 0)
  let a_5 := (a 1 1) * (b 1 1)
  let a_6 := (a 1 2) * (b 1 2)
  let a_7 := (a 1 3) * (b 1 3)
  let a_8 := (a 2 0) * (b 2 0)
  let a_9 := (a 2 1) * (b 2 1)
  let a_10 := (a 2 2) * (b 2 2)
  let a_11 := (a 2 3) * (b 2 3)
  let a_12 := (a 3 0) * (b 3 0)
  let a_13 := (a 3 1) * (b 3 1)
  let a_14 := (a 3 2) * (b 3 2)
  let a_15 := (a 3 3) * (b 3 3)
  let a := four (quad a_0 a_1 a_2 a_3) (quad a_4 a_5 a_6 a_7) (quad a_8 a_9 a_10 a_11) (quad a_12 a_13 a_14 a_15)
  a

/-- `operator ^=`, /repo/src/util/v16/v16_avx512.h:2114-2118. -/
def ixor_to (a b : Reg 4 Word) : Reg 4 Word :=
  let a := lift2 Word.xor a b
  a

/-- `operator &=`, /repo/src/util/v16/v16_avx512.h:2120-2124. -/
def iand_to (a b : Reg 4 Word) : Reg 4 Word :=
  let a := lift2 Word.and a b
  a

/-- `operator |=`, /repo/src/util/v16/v16_avx512.h:2126-2130. -/
def ior_to (a b : Reg 4 Word) : Reg 4 Word :=
  let a := lift2 Word.or a b
  a

/-- `operator -`, /repo/src/util/v16/v16_avx512.h:2152-2159,2170. -/
def ineg (a : Reg 4 Word) : Reg 4 Word :=
  let b_0 := -(a 0 0)
  let b_1 := -(a 0 1)
  let b_2 := -(a 0 2)
  let b_3 := -(a 0 3)
  let b_4 := -(a 1 0)
  let b_5 := -(a 1 1)
  let b_6 := -(a 1 2)
  let b_7 := -(a 1 3)
  let b_8 := -(a 2 0)
  let b_9 := -(a 2 1)
  let b_10 := -(a 2 2)
  let b_11 := -(a 2 3)
  let b_12 := -(a 3 0)
  let b_13 := -(a 3 1)
  let b_14 := -(a 3 2)
  let b_15 := -(a 3 3)
  let b := four (quad b_0 b_1 b_2 b_3) (quad b_4 b_5 b_6 b_7) (quad b_8 b_9 b_10 b_11) (quad b_12 b_13 b_14 b_15)
  b

/-- `operator !`, /repo/src/util/v16/v16_avx512.h:2172-2180. -/
def ilnot (a : Reg 4 Word) : Reg 4 Word :=
  let b_0 := -(Word.bit (!(a 0 0 != 0)))
  let b_1 := -(Word.bit (!(a 0 1 != 0)))
  let b_2 := -(Word.bit (!(a 0 2 != 0)))
  let b_3 := -(Word.bit (!(a 0 3 != 0)))
  let b_4 := -(Word.bit (!(a 1 0 != 0)))
  let b_5 := -(Word.bit (!(a 1 1 != 0)))
  let b_6 := -(Word.bit (!(a 1 2 != 0)))
  let b_7 := -(Word.bit (!(a 1 3 != 0)))
  let b_8 := -(Word.bit (!(a 2 0 != 0)))
  let b_9 := -(Word.bit (!(a 2 1 != 0)))
  let b_10 := -(Word.bit (!(a 2 2 != 0)))
  let b_11 := -(Word.bit (!(a 2 3 != 0)))
  let b_12 := -(Word.bit (!(a 3 0 != 0)))
  let b_13 := -(Word.bit (!(a 3 1 != 0)))
  let b_14 := -(Word.bit (!(a 3 2 != 0)))
  let b_15 := -(Word.bit (!(a 3 3 != 0)))
  let b := four (quad b_0 b_1 b_2 b_3) (quad b_4 b_5 b_6 b_7) (quad b_8 b_9 b_10 b_11) (quad b_12 b_13 b_14 b_15)
  b

/-- `operator ~`, /repo/src/util/v16/v16_avx512.h:2182-2193. -/
def inot (a : Reg 4 Word) : Reg 4 Word :=
  let u := (-1 : Word)
  let b := lift2 Word.xor a (set1 u : Reg 4 _)
  b

/-- `operator +`, /repo/src/util/v16/v16_avx512.h:2231-2238,2240. -/
def iadd (a b : Reg 4 Word) : Reg 4 Word :=
  let c_0 := (a 0 0) + (b 0 0)
  let c_1 := (a 0 1) + (b 0 1)
  let c_2 := (a 0 2) + (b 0 2)
  let c_3 := (a 0 3) + (b 0 3)
  let c_4 := (a 1 0) + (b 1 0)
  let c_5 := (a 1 1) + (b 1 1)
  let c_6 := (a 1 2) + (b 1 2)
  let c_7 := (a 1 3) + (b 1 3)
  let c_8 := (a 2 0) + (b 2 0)
  let c_9 := (a 2 1) + (b 2 1)
  let c_10 := (a 2 2) + (b 2 2)
  let c_11 := (a 2 3) + (b 2 3)
  let c_12 := (a 3 0) + (b 3 0)
  let c_13 := (a 3 1) + (b 3 1)
  let c_14 := (a 3 2) + (b 3 2)
  let c_15 := (a 3 3) + (b 3 3)
  let c := four (quad c_0 c_1 c_2 c_3) (quad c_4 c_5 c_6 c_7) (quad c_8 c_9 c_10 c_11) (quad c_12 c_13 c_14 c_15)
  c

/-- `operator -`, /repo/src/util/v16/v16_avx512.h:2231-2238,2241. -/
def isub (a b : Reg 4 Word) : Reg 4 Word :=
  let c_0 := (a 0 0) - (b 0 0)
  let c_1 := (a 0 1) - (b 0 1)
  let c_2 := (a 0 2) - (b 0 2)
  let c_3 := (a 0 3) - (b 0 3)
  let c_4 := (a 1 0) - (b 1 0)
  let c_5 := (a 1 1) - (b 1 1)
  let c_6 := (a 1 2) - (b 1 2)
  let c_7 := (a 1 3) - (b 1 3)
  let c_8 := (a 2 0) - (b 2 0)
  let c_9 := (a 2 1) - (b 2 1)
  let c_10 := (a 2 2) - (b 2 2)
  let c_11 := (a 2 3) - (b 2 3)
  let c_12 := (a 3 0) - (b 3 0)
  let c_13 := (a 3 1) - (b 3 1)
  let c_14 := (a 3 2) - (b 3 2)
  let c_15 := (a 3 3) - (b 3 3)
  let c := four (quad c_0 c_1 c_2 c_3) (quad c_4 c_5 c_6 c_7) (quad c_8 c_9 c_10 c_11) (quad c_12 c_13 c_14 c_15)
  c

/-- `operator *`, /repo/src/util/v16/v16_avx512.h:2231-2238,2242. -/
def imul (a b : Reg 4 Word) : Reg 4 Word :=
  let c_0 := (a 0 0) * (b 0 0)
  let c_1 := (a 0 1) * (b 0 1)
  let c_2 := (a 0 2) * (b 0 2)
  let c_3 := (a 0 3) * (b 0 3)
  let c_4 := (a 1 0) * (b 1 0)
  let c_5 := (a 1 1) * (b 1 1)
  let c_6 := (a 1 2) * (b 1 2)
  let c_7 := (a 1 3) * (b 1 3)
  let c_8 := (a 2 0) * (b 2 0)
  let c_9 := (a 2 1) * (b 2 1)
  let c_10 := (a 2 2) * (b 2 2)
  let c_11 := (a 2 3) * (b 2 3)
  let c_12 := (a 3 0) * (b 3 0)
  let c_13 := (a 3 1) * (b 3 1)
  let c_14 := (a 3 2) * (b 3 2)
  let c_15 := (a 3 3) * (b 3 3)
  let c := four (quad c_0 c_1 c_2 c_3) (quad c_4 c_5 c_6 c_7) (quad c_8 c_9 c_10 c_11) (quad c_12 c_13 c_14 c_15)
  c

/-- `operator ^`, /repo/src/util/v16/v16_avx512.h:2246-2253. -/
def ixor (a b : Reg 4 Word) : Reg 4 Word :=
  let c := lift2 Word.xor a b
  c

/-- `operator &`, /repo/src/util/v16/v16_avx512.h:2255-2262. -/
def iand (a b : Reg 4 Word) : Reg 4 Word :=
  let c := lift2 Word.and a b
  c

/-- `operator |`, /repo/src/util/v16/v16_avx512.h:2231-2238,2275. -/
def ior (a b : Reg 4 Word) : Reg 4 Word :=
  let c_0 := (a 0 0) ||| (b 0 0)
  let c_1 := (a 0 1) ||| (b 0 1)
  let c_2 := (a 0 2) ||| (b 0 2)
  let c_3 := (a 0 3) ||| (b 0 3)
  let c_4 := (a 1 0) ||| (b 1 0)
  let c_5 := (a 1 1) ||| (b 1 1)
  let c_6 := (a 1 2) ||| (b 1 2)
  let c_7 := (a 1 3) ||| (b 1 3)
  let c_8 := (a 2 0) ||| (b 2 0)
  let c_9 := (a 2 1) ||| (b 2 1)
  let c_10 := (a 2 2) ||| (b 2 2)
  let c_11 := (a 2 3) ||| (b 2 3)
  let c_12 := (a 3 0) ||| (b 3 0)
  let c_13 := (a 3 1) ||| (b 3 1)
  let c_14 := (a 3 2) ||| (b 3 2)
  let c_15 := (a 3 3) ||| (b 3 3)
  let c := four (quad c_0 c_1 c_2 c_3) (quad c_4 c_5 c_6 c_7) (quad c_8 c_9 c_10 c_11) (quad c_12 c_13 c_14 c_15)
  c

/-- `operator <`, /repo/src/util/v16/v16_avx512.h:2283-2290,2292. -/
def ilt (a b : Reg 4 Word) : Reg 4 Word :=
  let c_0 := -(Word.bit (Word.ilt (a 0 0) (b 0 0)))
  let c_1 := -(Word.bit (Word.ilt (a 0 1) (b 0 1)))
  let c_2 := -(Word.bit (Word.ilt (a 0 2) (b 0 2)))
  let c_3 := -(Word.bit (Word.ilt (a 0 3) (b 0 3)))
  let c_4 := -(Word.bit (Word.ilt (a 1 0) (b 1 0)))
  let c_5 := -(Word.bit (Word.ilt (a 1 1) (b 1 1)))
  let c_6 := -(Word.bit (Word.ilt (a 1 2) (b 1 2)))
  let c_7 := -(Word.bit (Word.ilt (a 1 3) (b 1 3)))
  let c_8 := -(Word.bit (Word.ilt (a 2 0) (b 2 0)))
  let c_9 := -(Word.bit (Word.ilt (a 2 1) (b 2 1)))
  let c_10 := -(Word.bit (Word.ilt (a 2 2) (b 2 2)))
  let c_11 := -(Word.bit (Word.ilt (a 2 3) (b 2 3)))
  let c_12 := -(Word.bit (Word.ilt (a 3 0) (b 3 0)))
  let c_13 := -(Word.bit (Word.ilt (a 3 1) (b 3 1)))
  let c_14 := -(Word.bit (Word.ilt (a 3 2) (b 3 2)))
  let c_15 := -(Word.bit (Word.ilt (a 3 3) (b 3 3)))
  let c := four (quad c_0 c_1 c_2 c_3) (quad c_4 c_5 c_6 c_7) (quad c_8 c_9 c_10 c_11) (quad c_12 c_13 c_14 c_15)
  c

/-- `operator >`, /repo/src/util/v16/v16_avx512.h:2283-2290,2293. -/
def igt (a b : Reg 4 Word) : Reg 4 Word :=
  let c_0 := -(Word.bit (Word.igt (a 0 0) (b 0 0)))
  let c_1 := -(Word.bit (Word.igt (a 0 1) (b 0 1)))
  let c_2 := -(Word.bit (Word.igt (a 0 2) (b 0 2)))
  let c_3 := -(Word.bit (Word.igt (a 0 3) (b 0 3)))
  let c_4 := -(Word.bit (Word.igt (a 1 0) (b 1 0)))
  let c_5 := -(Word.bit (Word.igt (a 1 1) (b 1 1)))
  let c_6 := -(Word.bit (Word.igt (a 1 2) (b 1 2)))
  let c_7 := -(Word.bit (Word.igt (a 1 3) (b 1 3)))
  let c_8 := -(Word.bit (Word.igt (a 2 0) (b 2 0)))
  let c_9 := -(Word.bit (Word.igt (a 2 1) (b 2 1)))
  let c_10 := -(Word.bit (Word.igt (a 2 2) (b 2 2)))
  let c_11 := -(Word.bit (Word.igt (a 2 3) (b 2 3)))
  let c_12 := -(Word.bit (Word.igt (a 3 0) (b 3 0)))
  let c_13 := -(Word.bit (Word.igt (a 3 1) (b 3 1)))
  let c_14 := -(Word.bit (Word.igt (a 3 2) (b 3 2)))
  let c_15 := -(Word.bit (Word.igt (a 3 3) (b 3 3)))
  let c := four (quad c_0 c_1 c_2 c_3) (quad c_4 c_5 c_6 c_7) (quad c_8 c_9 c_10 c_11) (quad c_12 c_13 c_14 c_15)
  c

/-- `operator ==`, /repo/src/util/v16/v16_avx512.h:2283-2290,2294. -/
def ieq (a b : Reg 4 Word) : Reg 4 Word :=
  let c_0 := -(Word.bit (Word.ieq (a 0 0) (b 0 0)))
  let c_1 := -(Word.bit (Word.ieq (a 0 1) (b 0 1)))
  let c_2 := -(Word.bit (Word.ieq (a 0 2) (b 0 2)))
  let c_3 := -(Word.bit (Word.ieq (a 0 3) (b 0 3)))
  let c_4 := -(Word.bit (Word.ieq (a 1 0) (b 1 0)))
  let c_5 := -(Word.bit (Word.ieq (a 1 1) (b 1 1)))
  let c_6 := -(Word.bit (Word.ieq (a 1 2) (b 1 2)))
  let c_7 := -(Word.bit (Word.ieq (a 1 3) (b 1 3)))
  let c_8 := -(Word.bit (Word.ieq (a 2 0) (b 2 0)))
  let c_9 := -(Word.bit (Word.ieq (a 2 1) (b 2 1)))
  let c_10 := -(Word.bit (Word.ieq (a 2 2) (b 2 2)))
  let c_11 := -(Word.bit (Word.ieq (a 2 3) (b 2 3)))
  let c_12 := -(Word.bit (Word.ieq (a 3 0) (b 3 0)))
  let c_13 := -(Word.bit (Word.ieq (a 3 1) (b 3 1)))
  let c_14 := -(Word.bit (Word.ieq (a 3 2) (b 3 2)))
  let c_15 := -(Word.bit (Word.ieq (a 3 3) (b 3 3)))
  let c := four (quad c_0 c_1 c_2 c_3) (quad c_4 c_5 c_6 c_7) (quad c_8 c_9 c_10 c_11) (quad c_12 c_13 c_14 c_15)
  c

/-- `operator !=`, /repo/src/util/v16/v16_avx512.h:2283-2290,2295. -/
def ine (a b : Reg 4 Word) : Reg 4 Word :=
  let c_0 := -(Word.bit (Word.ine (a 0 0) (b 0 0)))
  let c_1 := -(Word.bit (Word.ine (a 0 1) (b 0 1)))
  let c_2 := -(Word.bit (Word.ine (a 0 2) (b 0 2)))
  let c_3 := -(Word.bit (Word.ine (a 0 3) (b 0 3)))
  let c_4 := -(Word.bit (Word.ine (a 1 0) (b 1 0)))
  let c_5 := -(Word.bit (Word.ine (a 1 1) (b 1 1)))
  let c_6 := -(Word.bit (Word.ine (a 1 2) (b 1 2)))
  let c_7 := -(Word.bit (Word.ine (a 1 3) (b 1 3)))
  let c_8 := -(Word.bit (Word.ine (a 2 0) (b 2 0)))
  let c_9 := -(Word.bit (Word.ine (a 2 1) (b 2 1)))
  let c_10 := -(Word.bit (Word.ine (a 2 2) (b 2 2)))
  let c_11 := -(Word.bit (Word.ine (a 2 3) (b 2 3)))
  let c_12 := -(Word.bit (Word.ine (a 3 0) (b 3 0)))
  let c_13 := -(Word.bit (Word.ine (a 3 1) (b 3 1)))
  let c_14 := -(Word.bit (Word.ine (a 3 2) (b 3 2)))
  let c_15 := -(Word.bit (Word.ine (a 3 3) (b 3 3)))
  let c := four (quad c_0 c_1 c_2 c_3) (quad c_4 c_5 c_6 c_7) (quad c_8 c_9 c_10 c_11) (quad c_12 c_13 c_14 c_15)
  c

/-- `operator <=`, /repo/src/util/v16/v16_avx512.h:2283-2290,2296. -/
def ile (a b : Reg 4 Word) : Reg 4 Word :=
  let c_0 := -(Word.bit (Word.ile (a 0 0) (b 0 0)))
  let c_1 := -(Word.bit (Word.ile (a 0 1) (b 0 1)))
  let c_2 := -(Word.bit (Word.ile (a 0 2) (b 0 2)))
  let c_3 := -(Word.bit (Word.ile (a 0 3) (b 0 3)))
  let c_4 := -(Word.bit (Word.ile (a 1 0) (b 1 0)))
  let c_5 := -(Word.bit (Word.ile (a 1 1) (b 1 1)))
  let c_6 := -(Word.bit (Word.ile (a 1 2) (b 1 2)))
  let c_7 := -(Word.bit (Word.ile (a 1 3) (b 1 3)))
  let c_8 := -(Word.bit (Word.ile (a 2 0) (b 2 0)))
  let c_9 := -(Word.bit (Word.ile (a 2 1) (b 2 1)))
  let c_10 := -(Word.bit (Word.ile (a 2 2) (b 2 2)))
  let c_11 := -(Word.bit (Word.ile (a 2 3) (b 2 3)))
  let c_12 := -(Word.bit (Word.ile (a 3 0) (b 3 0)))
  let c_13 := -(Word.bit (Word.ile (a 3 1) (b 3 1)))
  let c_14 := -(Word.bit (Word.ile (a 3 2) (b 3 2)))
  let c_15 := -(Word.bit (Word.ile (a 3 3) (b 3 3)))
  let c := four (quad c_0 c_1 c_2 c_3) (quad c_4 c_5 c_6 c_7) (quad c_8 c_9 c_10 c_11) (quad c_12 c_13 c_14 c_15)
  c

/-- `operator >=`, /repo/src/util/v16/v16_avx512.h:2283-2290,2297. -/
def ige (a b : Reg 4 Word) : Reg 4 Word :=
  let c_0 := -(Word.bit (Word.ige (a 0 0) (b 0 0)))
  let c_1 := -(Word.bit (Word.ige (a 0 1) (b 0 1)))
  let c_2 := -(Word.bit (Word.ige (a 0 2) (b 0 2)))
  let c_3 := -(Word.bit (Word.ige (a 0 3) (b 0 3)))
  let c_4 := -(Word.bit (Word.ige (a 1 0) (b 1 0)))
  let c_5 := -(Word.bit (Word.ige (a 1 1) (b 1 1)))
  let c_6 := -(Word.bit (Word.ige (a 1 2) (b 1 2)))
  let c_7 := -(Word.bit (Word.ige (a 1 3) (b 1 3)))
  let c_8 := -(Word.bit (Word.ige (a 2 0) (b 2 0)))
  let c_9 := -(Word.bit (Word.ige (a 2 1) (b 2 1)))
  let c_10 := -(Word.bit (Word.ige (a 2 2) (b 2 2)))
  let c_11 := -(Word.bit (Word.ige (a 2 3) (b 2 3)))
  let c_12 := -(Word.bit (Word.ige (a 3 0) (b 3 0)))
  let c_13 := -(Word.bit (Word.ige (a 3 1) (b 3 1)))
  let c_14 := -(Word.bit (Word.ige (a 3 2) (b 3 2)))
  let c_15 := -(Word.bit (Word.ige (a 3 3) (b 3 3)))
  let c := four (quad c_0 c_1 c_2 c_3) (quad c_4 c_5 c_6 c_7) (quad c_8 c_9 c_10 c_11) (quad c_12 c_13 c_14 c_15)
  c

/-- `operator &&`, /repo/src/util/v16/v16_avx512.h:2283-2290,2298. -/
def iland (a b : Reg 4 Word) : Reg 4 Word :=
  let c_0 := -(Word.bit ((a 0 0 != 0) && (b 0 0 != 0)))
  let c_1 := -(Word.bit ((a 0 1 != 0) && (b 0 1 != 0)))
  let c_2 := -(Word.bit ((a 0 2 != 0) && (b 0 2 != 0)))
  let c_3 := -(Word.bit ((a 0 3 != 0) && (b 0 3 != 0)))
  let c_4 := -(Word.bit ((a 1 0 != 0) && (b 1 0 != 0)))
  let c_5 := -(Word.bit ((a 1 1 != 0) && (b 1 1 != 0)))
  let c_6 := -(Word.bit ((a 1 2 != 0) && (b 1 2 != 0)))
  let c_7 := -(Word.bit ((a 1 3 != 0) && (b 1 3 != 0)))
  let c_8 := -(Word.bit ((a 2 0 != 0) && (b 2 0 != 0)))
  let c_9 := -(Word.bit ((a 2 1 != 0) && (b 2 1 != 0)))
  let c_10 := -(Word.bit ((a 2 2 != 0) && (b 2 2 != 0)))
  let c_11 := -(Word.bit ((a 2 3 != 0) && (b 2 3 != 0)))
  let c_12 := -(Word.bit ((a 3 0 != 0) && (b 3 0 != 0)))
  let c_13 := -(Word.bit ((a 3 1 != 0) && (b 3 1 != 0)))
  let c_14 := -(Word.bit ((a 3 2 != 0) && (b 3 2 != 0)))
  let c_15 := -(Word.bit ((a 3 3 != 0) && (b 3 3 != 0)))
  let c := four (quad c_0 c_1 c_2 c_3) (quad c_4 c_5 c_6 c_7) (quad c_8 c_9 c_10 c_11) (quad c_12 c_13 c_14 c_15)
  c

/-- `operator ||`, /repo/src/util/v16/v16_avx512.h:2283-2290,2299. -/
def ilor (a b : Reg 4 Word) : Reg 4 Word :=
  let c_0 := -(Word.bit ((a 0 0 != 0) || (b 0 0 != 0)))
  let c_1 := -(Word.bit ((a 0 1 != 0) || (b 0 1 != 0)))
  let c_2 := -(Word.bit ((a 0 2 != 0) || (b 0 2 != 0)))
  let c_3 := -(Word.bit ((a 0 3 != 0) || (b 0 3 != 0)))
  let c_4 := -(Word.bit ((a 1 0 != 0) || (b 1 0 != 0)))
  let c_5 := -(Word.bit ((a 1 1 != 0) || (b 1 1 != 0)))
  let c_6 := -(Word.bit ((a 1 2 != 0) || (b 1 2 != 0)))
  let c_7 := -(Word.bit ((a 1 3 != 0) || (b 1 3 != 0)))
  let c_8 := -(Word.bit ((a 2 0 != 0) || (b 2 0 != 0)))
  let c_9 := -(Word.bit ((a 2 1 != 0) || (b 2 1 != 0)))
  let c_10 := -(Word.bit ((a 2 2 != 0) || (b 2 2 != 0)))
  let c_11 := -(Word.bit ((a 2 3 != 0) || (b 2 3 != 0)))
  let c_12 := -(Word.bit ((a 3 0 != 0) || (b 3 0 != 0)))
  let c_13 := -(Word.bit ((a 3 1 != 0) || (b 3 1 != 0)))
  let c_14 := -(Word.bit ((a 3 2 != 0) || (b 3 2 != 0)))
  let c_15 := -(Word.bit ((a 3 3 != 0) || (b 3 3 != 0)))
  let c := four (quad c_0 c_1 c_2 c_3) (quad c_4 c_5 c_6 c_7) (quad c_8 c_9 c_10 c_11) (quad c_12 c_13 c_14 c_15)
  c

/-- `abs`, /repo/src/util/v16/v16_avx512.h:2305-2313. -/
def abs (a : Reg 4 Word) : Reg 4 Word :=
  let b_0 := if Word.ige (a 0 0) (0 : Word) then a 0 0 else -(a 0 0)
  let b_1 := if Word.ige (a 0 1) (0 : Word) then a 0 1 else -(a 0 1)
  let b_2 := if Word.ige (a 0 2) (0 : Word) then a 0 2 else -(a 0 2)
  let b_3 := if Word.ige (a 0 3) (0 : Word) then a 0 3 else -(a 0 3)
  let b_4 := if Word.ige (a 1 0) (0 : Word) then a 1 0 else -(a 1 0)
  let b_5 := if Word.ige (a 1 1) (0 : Word) then a 1 1 else -(a 1 1)
  let b_6 := if Word.ige (a 1 2) (0 : Word) then a 1 2 else -(a 1 2)
  let b_7 := if Word.ige (a 1 3) (0 : Word) then a 1 3 else -(a 1 3)
  let b_8 := if Word.ige (a 2 0) (0 : Word) then a 2 0 else -(a 2 0)
  let b_9 := if Word.ige (a 2 1) (0 : Word) then a 2 1 else -(a 2 1)
  let b_10 := if Word.ige (a 2 2) (0 : Word) then a 2 2 else -(a 2 2)
  let b_11 := if Word.ige (a 2 3) (0 : Word) then a 2 3 else -(a 2 3)
  let b_12 := if Word.ige (a 3 0) (0 : Word) then a 3 0 else -(a 3 0)
  let b_13 := if Word.ige (a 3 1) (0 : Word) then a 3 1 else -(a 3 1)
  let b_14 := if Word.ige (a 3 2) (0 : Word) then a 3 2 else -(a 3 2)
  let b_15 := if Word.ige (a 3 3) (0 : Word) then a 3 3 else -(a 3 3)
  let b := four (quad b_0 b_1 b_2 b_3) (quad b_4 b_5 b_6 b_7) (quad b_8 b_9 b_10 b_11) (quad b_12 b_13 b_14 b_15)
  b

/-- `czero`, /repo/src/util/v16/v16_avx512.h:2315-2323. -/
def czero (c a : Reg 4 Word) : Reg 4 Word :=
  let b_0 := (a 0 0) &&& (~~~(c 0 0))
  let b_1 := (a 0 1) &&& (~~~(c 0 1))
  let b_2 := (a 0 2) &&& (~~~(c 0 2))
  let b_3 := (a 0 3) &&& (~~~(c 0 3))
  let b_4 := (a 1 0) &&& (~~~(c 1 0))
  let b_5 := (a 1 1) &&& (~~~(c 1 1))
  let b_6 := (a 1 2) &&& (~~~(c 1 2))
  let b_7 := (a 1 3) &&& (~~~(c 1 3))
  let b_8 := (a 2 0) &&& (~~~(c 2 0))
  let b_9 := (a 2 1) &&& (~~~(c 2 1))
  let b_10 := (a 2 2) &&& (~~~(c 2 2))
  let b_11 := (a 2 3) &&& (~~~(c 2 3))
  let b_12 := (a 3 0) &&& (~~~(c 3 0))
  let b_13 := (a 3 1) &&& (~~~(c 3 1))
  let b_14 := (a 3 2) &&& (~~~(c 3 2))
  let b_15 := (a 3 3) &&& (~~~(c 3 3))
  let b := four (quad b_0 b_1 b_2 b_3) (quad b_4 b_5 b_6 b_7) (quad b_8 b_9 b_10 b_11) (quad b_12 b_13 b_14 b_15)
  b

/-- `notczero`, /repo/src/util/v16/v16_avx512.h:2336-2343. -/
def notczero (c a : Reg 4 Word) : Reg 4 Word :=
  let b := lift2 Word.and c a
  b

/-- `merge`, /repo/src/util/v16/v16_avx512.h:2345-2353. -/
def merge (c t f : Reg 4 Word) : Reg 4 Word :=
  let m_0 := ((f 0 0) &&& (~~~(c 0 0))) ||| ((t 0 0) &&& (c 0 0))
  let m_1 := ((f 0 1) &&& (~~~(c 0 1))) ||| ((t 0 1) &&& (c 0 1))
  let m_2 := ((f 0 2) &&& (~~~(c 0 2))) ||| ((t 0 2) &&& (c 0 2))
  let m_3 := ((f 0 3) &&& (~~~(c 0 3))) ||| ((t 0 3) &&& (c 0 3))
  let m_4 := ((f 1 0) &&& (~~~(c 1 0))) ||| ((t 1 0) &&& (c 1 0))
  let m_5 := ((f 1 1) &&& (~~~(c 1 1))) ||| ((t 1 1) &&& (c 1 1))
  let m_6 := ((f 1 2) &&& (~~~(c 1 2))) ||| ((t 1 2) &&& (c 1 2))
  let m_7 := ((f 1 3) &&& (~~~(c 1 3))) ||| ((t 1 3) &&& (c 1 3))
  let m_8 := ((f 2 0) &&& (~~~(c 2 0))) ||| ((t 2 0) &&& (c 2 0))
  let m_9 := ((f 2 1) &&& (~~~(c 2 1))) ||| ((t 2 1) &&& (c 2 1))
  let m_10 := ((f 2 2) &&& (~~~(c 2 2))) ||| ((t 2 2) &&& (c 2 2))
  let m_11 := ((f 2 3) &&& (~~~(c 2 3))) ||| ((t 2 3) &&& (c 2 3))
  let m_12 := ((f 3 0) &&& (~~~(c 3 0))) ||| ((t 3 0) &&& (c 3 0))
  let m_13 := ((f 3 1) &&& (~~~(c 3 1))) ||| ((t 3 1) &&& (c 3 1))
  let m_14 := ((f 3 2) &&& (~~~(c 3 2))) ||| ((t 3 2) &&& (c 3 2))
  let m_15 := ((f 3 3) &&& (~~~(c 3 3))) ||| ((t 3 3) &&& (c 3 3))
  let m := four (quad m_0 m_1 m_2 m_3) (quad m_4 m_5 m_6 m_7) (quad m_8 m_9 m_10 m_11) (quad m_12 m_13 m_14 m_15)
  m

/-- `operator +=`, /repo/src/util/v16/v16_avx512.h:2474-2479,2487. -/
def fadd_to (F : Arith W) (a b : Reg 4 W) : Reg 4 W :=
  let a := lift2 F.add a b
  a

/-- `operator -=`, /repo/src/util/v16/v16_avx512.h:2474-2479,2488. -/
def fsub_to (F : Arith W) (a b : Reg 4 W) : Reg 4 W :=
  let a := lift2 F.sub a b
  a

/-- `operator *=`, /repo/src/util/v16/v16_avx512.h:2474-2479,2489. -/
def fmul_to (F : Arith W) (a b : Reg 4 W) : Reg 4 W :=
  let a := lift2 F.mul a b
  a

/-- `operator /=`, /repo/src/util/v16/v16_avx512.h:2474-2479,2490. -/
def fdiv_to (F : Arith W) (a b : Reg 4 W) : Reg 4 W :=
  let a := lift2 F.div a b
  a

/-- `operator -`, /repo/src/util/v16/v16_avx512.h:2518-2525. -/
def fneg (F : Arith W) (a : Reg 4 W) : Reg 4 W :=
  let b := lift2 F.sub (set1 F.zero : Reg 4 _) a
  b

/-- `operator !`, /repo/src/util/v16/v16_avx512.h:2527-2535. -/
def flnot (a : Reg 4 Word) : Reg 4 Word :=
  let b_0 := if (a 0 0 != 0) then (0 : Word) else (-1 : Word)
  let b_1 := if (a 0 1 != 0) then (0 : Word) else (-1 : Word)
  let b_2 := if (a 0 2 != 0) then (0 : Word) else (-1 : Word)
  let b_3 := if (a 0 3 != 0) then (0 : Word) else (-1 : Word)
  let b_4 := if (a 1 0 != 0) then (0 : Word) else (-1 : Word)
  let b_5 := if (a 1 1 != 0) then (0 : Word) else (-1 : Word)
  let b_6 := if (a 1 2 != 0) then (0 : Word) else (-1 : Word)
  let b_7 := if (a 1 3 != 0) then (0 : Word) else (-1 : Word)
  let b_8 := if (a 2 0 != 0) then (0 : Word) else (-1 : Word)
  let b_9 := if (a 2 1 != 0) then (0 : Word) else (-1 : Word)
  let b_10 := if (a 2 2 != 0) then (0 : Word) else (-1 : Word)
  let b_11 := if (a 2 3 != 0) then (0 : Word) else (-1 : Word)
  let b_12 := if (a 3 0 != 0) then (0 : Word) else (-1 : Word)
  let b_13 := if (a 3 1 != 0) then (0 : Word) else (-1 : Word)
  let b_14 := if (a 3 2 != 0) then (0 : Word) else (-1 : Word)
  let b_15 := if (a 3 3 != 0) then (0 : Word) else (-1 : Word)
  let b := four (quad b_0 b_1 b_2 b_3) (quad b_4 b_5 b_6 b_7) (quad b_8 b_9 b_10 b_11) (quad b_12 b_13 b_14 b_15)
  b

/-- `operator ++`, /repo/src/util/v16/v16_avx512.h:2550-2559. -/
def preinc (F : Arith W) (a : Reg 4 W) : Reg 4 W × Reg 4 W :=
  let t := lift2 F.add a (set1 F.one : Reg 4 _)
  let a := t
  let b := t
  (a, b)

/-- `operator --`, /repo/src/util/v16/v16_avx512.h:2561-2570. -/
def predec (F : Arith W) (a : Reg 4 W) : Reg 4 W × Reg 4 W :=
  let t := lift2 F.sub a (set1 F.one : Reg 4 _)
  let a := t
  let b := t
  (a, b)

/-- `operator ++`, /repo/src/util/v16/v16_avx512.h:2574-2583. -/
def postinc (F : Arith W) (a : Reg 4 W) : Reg 4 W × Reg 4 W :=
  let a_v := a
  let a := lift2 F.add a_v (set1 F.one : Reg 4 _)
  let b := a_v
  (a, b)

/-- `operator --`, /repo/src/util/v16/v16_avx512.h:2585-2594. -/
def postdec (F : Arith W) (a : Reg 4 W) : Reg 4 W × Reg 4 W :=
  let a_v := a
  let a := lift2 F.sub a_v (set1 F.one : Reg 4 _)
  let b := a_v
  (a, b)

/-- `operator +`, /repo/src/util/v16/v16_avx512.h:2598-2604,2606. -/
def fadd (F : Arith W) (a b : Reg 4 W) : Reg 4 W :=
  let c := lift2 F.add a b
  c

/-- `operator -`, /repo/src/util/v16/v16_avx512.h:2598-2604,2607. -/
def fsub (F : Arith W) (a b : Reg 4 W) : Reg 4 W :=
  let c := lift2 F.sub a b
  c

/-- `operator *`, /repo/src/util/v16/v16_avx512.h:2598-2604,2608. -/
def fmul (F : Arith W) (a b : Reg 4 W) : Reg 4 W :=
  let c := lift2 F.mul a b
  c

/-- `operator /`, /repo/src/util/v16/v16_avx512.h:2598-2604,2609. -/
def fdiv (F : Arith W) (a b : Reg 4 W) : Reg 4 W :=
  let c := lift2 F.div a b
  c

/-- `operator <`, /repo/src/util/v16/v16_avx512.h:2615-2622,2624. -/
def flt (a b : Reg 4 Word) : Reg 4 Word :=
  let c_0 := -(Word.bit (Word.flt (a 0 0) (b 0 0)))
  let c_1 := -(Word.bit (Word.flt (a 0 1) (b 0 1)))
  let c_2 := -(Word.bit (Word.flt (a 0 2) (b 0 2)))
  let c_3 := -(Word.bit (Word.flt (a 0 3) (b 0 3)))
  let c_4 := -(Word.bit (Word.flt (a 1 0) (b 1 0)))
  let c_5 := -(Word.bit (Word.flt (a 1 1) (b 1 1)))
  let c_6 := -(Word.bit (Word.flt (a 1 2) (b 1 2)))
  let c_7 := -(Word.bit (Word.flt (a 1 3) (b 1 3)))
  let c_8 := -(Word.bit (Word.flt (a 2 0) (b 2 0)))
  let c_9 := -(Word.bit (Word.flt (a 2 1) (b 2 1)))
  let c_10 := -(Word.bit (Word.flt (a 2 2) (b 2 2)))
  let c_11 := -(Word.bit (Word.flt (a 2 3) (b 2 3)))
  let c_12 := -(Word.bit (Word.flt (a 3 0) (b 3 0)))
  let c_13 := -(Word.bit (Word.flt (a 3 1) (b 3 1)))
  let c_14 := -(Word.bit (Word.flt (a 3 2) (b 3 2)))
  let c_15 := -(Word.bit (Word.flt (a 3 3) (b 3 3)))
  let c := four (quad c_0 c_1 c_2 c_3) (quad c_4 c_5 c_6 c_7) (quad c_8 c_9 c_10 c_11) (quad c_12 c_13 c_14 c_15)
  c

/-- `operator >`, /repo/src/util/v16/v16_avx512.h:2615-2622,2625. -/
def fgt (a b : Reg 4 Word) : Reg 4 Word :=
  let c_0 := -(Word.bit (Word.fgt (a 0 0) (b 0 0)))
  let c_1 := -(Word.bit (Word.fgt (a 0 1) (b 0 1)))
  let c_2 := -(Word.bit (Word.fgt (a 0 2) (b 0 2)))
  let c_3 := -(Word.bit (Word.fgt (a 0 3) (b 0 3)))
  let c_4 := -(Word.bit (Word.fgt (a 1 0) (b 1 0)))
  let c_5 := -(Word.bit (Word.fgt (a 1 1) (b 1 1)))
  let c_6 := -(Word.bit (Word.fgt (a 1 2) (b 1 2)))
  let c_7 := -(Word.bit (Word.fgt (a 1 3) (b 1 3)))
  let c_8 := -(Word.bit (Word.fgt (a 2 0) (b 2 0)))
  let c_9 := -(Word.bit (Word.fgt (a 2 1) (b 2 1)))
  let c_10 := -(Word.bit (Word.fgt (a 2 2) (b 2 2)))
  let c_11 := -(Word.bit (Word.fgt (a 2 3) (b 2 3)))
  let c_12 := -(Word.bit (Word.fgt (a 3 0) (b 3 0)))
  let c_13 := -(Word.bit (Word.fgt (a 3 1) (b 3 1)))
  let c_14 := -(Word.bit (Word.fgt (a 3 2) (b 3 2)))
  let c_15 := -(Word.bit (Word.fgt (a 3 3) (b 3 3)))
  let c := four (quad c_0 c_1 c_2 c_3) (quad c_4 c_5 c_6 c_7) (quad c_8 c_9 c_10 c_11) (quad c_12 c_13 c_14 c_15)
  c

/-- `operator ==`, /repo/src/util/v16/v16_avx512.h:2615-2622,2626. -/
def feq (a b : Reg 4 Word) : Reg 4 Word :=
  let c_0 := -(Word.bit (Word.feq (a 0 0) (b 0 0)))
  let c_1 := -(Word.bit (Word.feq (a 0 1) (b 0 1)))
  let c_2 := -(Word.bit (Word.feq (a 0 2) (b 0 2)))
  let c_3 := -(Word.bit (Word.feq (a 0 3) (b 0 3)))
  let c_4 := -(Word.bit (Word.feq (a 1 0) (b 1 0)))
  let c_5 := -(Word.bit (Word.feq (a 1 1) (b 1 1)))
  let c_6 := -(Word.bit (Word.feq (a 1 2) (b 1 2)))
  let c_7 := -(Word.bit (Word.feq (a 1 3) (b 1 3)))
  let c_8 := -(Word.bit (Word.feq (a 2 0) (b 2 0)))
  let c_9 := -(Word.bit (Word.feq (a 2 1) (b 2 1)))
  let c_10 := -(Word.bit (Word.feq (a 2 2) (b 2 2)))
  let c_11 := -(Word.bit (Word.feq (a 2 3) (b 2 3)))
  let c_12 := -(Word.bit (Word.feq (a 3 0) (b 3 0)))
  let c_13 := -(Word.bit (Word.feq (a 3 1) (b 3 1)))
  let c_14 := -(Word.bit (Word.feq (a 3 2) (b 3 2)))
  let c_15 := -(Word.bit (Word.feq (a 3 3) (b 3 3)))
  let c := four (quad c_0 c_1 c_2 c_3) (quad c_4 c_5 c_6 c_7) (quad c_8 c_9 c_10 c_11) (quad c_12 c_13 c_14 c_15)
  c

/-- `operator !=`, /repo/src/util/v16/v16_avx512.h:2615-2622,2627. -/
def fne (a b : Reg 4 Word) : Reg 4 Word :=
  let c_0 := -(Word.bit (Word.fne (a 0 0) (b 0 0)))
  let c_1 := -(Word.bit (Word.fne (a 0 1) (b 0 1)))
  let c_2 := -(Word.bit (Word.fne (a 0 2) (b 0 2)))
  let c_3 := -(Word.bit (Word.fne (a 0 3) (b 0 3)))
  let c_4 := -(Word.bit (Word.fne (a 1 0) (b 1 0)))
  let c_5 := -(Word.bit (Word.fne (a 1 1) (b 1 1)))
  let c_6 := -(Word.bit (Word.fne (a 1 2) (b 1 2)))
  let c_7 := -(Word.bit (Word.fne (a 1 3) (b 1 3)))
  let c_8 := -(Word.bit (Word.fne (a 2 0) (b 2 0)))
  let c_9 := -(Word.bit (Word.fne (a 2 1) (b 2 1)))
  let c_10 := -(Word.bit (Word.fne (a 2 2) (b 2 2)))
  let c_11 := -(Word.bit (Word.fne (a 2 3) (b 2 3)))
  let c_12 := -(Word.bit (Word.fne (a 3 0) (b 3 0)))
  let c_13 := -(Word.bit (Word.fne (a 3 1) (b 3 1)))
  let c_14 := -(Word.bit (Word.fne (a 3 2) (b 3 2)))
  let c_15 := -(Word.bit (Word.fne (a 3 3) (b 3 3)))
  let c := four (quad c_0 c_1 c_2 c_3) (quad c_4 c_5 c_6 c_7) (quad c_8 c_9 c_10 c_11) (quad c_12 c_13 c_14 c_15)
  c

/-- `operator <=`, /repo/src/util/v16/v16_avx512.h:2615-2622,2628. -/
def fle (a b : Reg 4 Word) : Reg 4 Word :=
  let c_0 := -(Word.bit (Word.fle (a 0 0) (b 0 0)))
  let c_1 := -(Word.bit (Word.fle (a 0 1) (b 0 1)))
  let c_2 := -(Word.bit (Word.fle (a 0 2) (b 0 2)))
  let c_3 := -(Word.bit (Word.fle (a 0 3) (b 0 3)))
  let c_4 := -(Word.bit (Word.fle (a 1 0) (b 1 0)))
  let c_5 := -(Word.bit (Word.fle (a 1 1) (b 1 1)))
  let c_6 := -(Word.bit (Word.fle (a 1 2) (b 1 2)))
  let c_7 := -(Word.bit (Word.fle (a 1 3) (b 1 3)))
  let c_8 := -(Word.bit (Word.fle (a 2 0) (b 2 0)))
  let c_9 := -(Word.bit (Word.fle (a 2 1) (b 2 1)))
  let c_10 := -(Word.bit (Word.fle (a 2 2) (b 2 2)))
  let c_11 := -(Word.bit (Word.fle (a 2 3) (b 2 3)))
  let c_12 := -(Word.bit (Word.fle (a 3 0) (b 3 0)))
  let c_13 := -(Word.bit (Word.fle (a 3 1) (b 3 1)))
  let c_14 := -(Word.bit (Word.fle (a 3 2) (b 3 2)))
  let c_15 := -(Word.bit (Word.fle (a 3 3) (b 3 3)))
  let c := four (quad c_0 c_1 c_2 c_3) (quad c_4 c_5 c_6 c_7) (quad c_8 c_9 c_10 c_11) (quad c_12 c_13 c_14 c_15)
  c

/-- `operator >=`, /repo/src/util/v16/v16_avx512.h:2615-2622,2629. -/
def fge (a b : Reg 4 Word) : Reg 4 Word :=
  let c_0 := -(Word.bit (Word.fge (a 0 0) (b 0 0)))
  let c_1 := -(Word.bit (Word.fge (a 0 1) (b 0 1)))
  let c_2 := -(Word.bit (Word.fge (a 0 2) (b 0 2)))
  let c_3 := -(Word.bit (Word.fge (a 0 3) (b 0 3)))
  let c_4 := -(Word.bit (Word.fge (a 1 0) (b 1 0)))
  let c_5 := -(Word.bit (Word.fge (a 1 1) (b 1 1)))
  let c_6 := -(Word.bit (Word.fge (a 1 2) (b 1 2)))
  let c_7 := -(Word.bit (Word.fge (a 1 3) (b 1 3)))
  let c_8 := -(Word.bit (Word.fge (a 2 0) (b 2 0)))
  let c_9 := -(Word.bit (Word.fge (a 2 1) (b 2 1)))
  let c_10 := -(Word.bit (Word.fge (a 2 2) (b 2 2)))
  let c_11 := -(Word.bit (Word.fge (a 2 3) (b 2 3)))
  let c_12 := -(Word.bit (Word.fge (a 3 0) (b 3 0)))
  let c_13 := -(Word.bit (Word.fge (a 3 1) (b 3 1)))
  let c_14 := -(Word.bit (Word.fge (a 3 2) (b 3 2)))
  let c_15 := -(Word.bit (Word.fge (a 3 3) (b 3 3)))
  let c := four (quad c_0 c_1 c_2 c_3) (quad c_4 c_5 c_6 c_7) (quad c_8 c_9 c_10 c_11) (quad c_12 c_13 c_14 c_15)
  c

/-- `operator &&`, /repo/src/util/v16/v16_avx512.h:2615-2622,2630. -/
def fland (a b : Reg 4 Word) : Reg 4 Word :=
  let c_0 := -(Word.bit ((Word.fne (a 0 0) 0) && (Word.fne (b 0 0) 0)))
  let c_1 := -(Word.bit ((Word.fne (a 0 1) 0) && (Word.fne (b 0 1) 0)))
  let c_2 := -(Word.bit ((Word.fne (a 0 2) 0) && (Word.fne (b 0 2) 0)))
  let c_3 := -(Word.bit ((Word.fne (a 0 3) 0) && (Word.fne (b 0 3) 0)))
  let c_4 := -(Word.bit ((Word.fne (a 1 0) 0) && (Word.fne (b 1 0) 0)))
  let c_5 := -(Word.bit ((Word.fne (a 1 1) 0) && (Word.fne (b 1 1) 0)))
  let c_6 := -(Word.bit ((Word.fne (a 1 2) 0) && (Word.fne (b 1 2) 0)))
  let c_7 := -(Word.bit ((Word.fne (a 1 3) 0) && (Word.fne (b 1 3) 0)))
  let c_8 := -(Word.bit ((Word.fne (a 2 0) 0) && (Word.fne (b 2 0) 0)))
  let c_9 := -(Word.bit ((Word.fne (a 2 1) 0) && (Word.fne (b 2 1) 0)))
  let c_10 := -(Word.bit ((Word.fne (a 2 2) 0) && (Word.fne (b 2 2) 0)))
  let c_11 := -(Word.bit ((Word.fne (a 2 3) 0) && (Word.fne (b 2 3) 0)))
  let c_12 := -(Word.bit ((Word.fne (a 3 0) 0) && (Word.fne (b 3 0) 0)))
  let c_13 := -(Word.bit ((Word.fne (a 3 1) 0) && (Word.fne (b 3 1) 0)))
  let c_14 := -(Word.bit ((Word.fne (a 3 2) 0) && (Word.fne (b 3 2) 0)))
  let c_15 := -(Word.bit ((Word.fne (a 3 3) 0) && (Word.fne (b 3 3) 0)))
  let c := four (quad c_0 c_1 c_2 c_3) (quad c_4 c_5 c_6 c_7) (quad c_8 c_9 c_10 c_11) (quad c_12 c_13 c_14 c_15)
  c

/-- `operator ||`, /repo/src/util/v16/v16_avx512.h:2615-2622,2631. -/
def flor (a b : Reg 4 Word) : Reg 4 Word :=
  let c_0 := -(Word.bit ((Word.fne (a 0 0) 0) || (Word.fne (b 0 0) 0)))
  let c_1 := -(Word.bit ((Word.fne (a 0 1) 0) || (Word.fne (b 0 1) 0)))
  let c_2 := -(Word.bit ((Word.fne (a 0 2) 0) || (Word.fne (b 0 2) 0)))
  let c_3 := -(Word.bit ((Word.fne (a 0 3) 0) || (Word.fne (b 0 3) 0)))
  let c_4 := -(Word.bit ((Word.fne (a 1 0) 0) || (Word.fne (b 1 0) 0)))
  let c_5 := -(Word.bit ((Word.fne (a 1 1) 0) || (Word.fne (b 1 1) 0)))
  let c_6 := -(Word.bit ((Word.fne (a 1 2) 0) || (Word.fne (b 1 2) 0)))
  let c_7 := -(Word.bit ((Word.fne (a 1 3) 0) || (Word.fne (b 1 3) 0)))
  let c_8 := -(Word.bit ((Word.fne (a 2 0) 0) || (Word.fne (b 2 0) 0)))
  let c_9 := -(Word.bit ((Word.fne (a 2 1) 0) || (Word.fne (b 2 1) 0)))
  let c_10 := -(Word.bit ((Word.fne (a 2 2) 0) || (Word.fne (b 2 2) 0)))
  let c_11 := -(Word.bit ((Word.fne (a 2 3) 0) || (Word.fne (b 2 3) 0)))
  let c_12 := -(Word.bit ((Word.fne (a 3 0) 0) || (Word.fne (b 3 0) 0)))
  let c_13 := -(Word.bit ((Word.fne (a 3 1) 0) || (Word.fne (b 3 1) 0)))
  let c_14 := -(Word.bit ((Word.fne (a 3 2) 0) || (Word.fne (b 3 2) 0)))
  let c_15 := -(Word.bit ((Word.fne (a 3 3) 0) || (Word.fne (b 3 3) 0)))
  let c := four (quad c_0 c_1 c_2 c_3) (quad c_4 c_5 c_6 c_7) (quad c_8 c_9 c_10 c_11) (quad c_12 c_13 c_14 c_15)
  c

/-- `fabs`, /repo/src/util/v16/v16_avx512.h:2698-2705. -/
def fabs (a : Reg 4 Word) : Reg 4 Word :=
  let b := lift2 Word.andnot (set1 Word.sign : Reg 4 _) a
  b

/-- `sqrt`, /repo/src/util/v16/v16_avx512.h:2707-2714. -/
def sqrt (F : Arith W) (a : Reg 4 W) : Reg 4 W :=
  let b := lift1 F.sqrt a
  b

/-- `copysign`, /repo/src/util/v16/v16_avx512.h:2716-2724. -/
def copysign (a b : Reg 4 Word) : Reg 4 Word :=
  let t := (set1 Word.sign : Reg 4 _)
  let c := lift2 Word.or (lift2 Word.and t b) (lift2 Word.andnot t a)
  c

/-- `rsqrt`, /repo/src/util/v16/v16_avx512.h:2742-2762. -/
def rsqrt (F : Arith W) (a : Reg 4 W) : Reg 4 W :=
  let a_v := a
  let b_v := lift1 F.rsqrtE a_v
  let b := lift2 F.add b_v (lift2 F.mul (set1 F.half : Reg 4 _) (lift2 F.sub b_v (lift2 F.mul a_v (lift2 F.mul b_v (lift2 F.mul b_v b_v)))))
  b

/-- `rcp`, /repo/src/util/v16/v16_avx512.h:2775-2790. -/
def rcp (F : Arith W) (a : Reg 4 W) : Reg 4 W :=
  let a_v := a
  let b_v := lift1 F.rcpE a_v
  let b := lift2 F.sub (lift2 F.add b_v b_v) (lift2 F.mul a_v (lift2 F.mul b_v b_v))
  b

/-- `fma`, /repo/src/util/v16/v16_avx512.h:2792-2799. -/
def fma (F : Arith W) (a b c : Reg 4 W) : Reg 4 W :=
  let d := lift3 F.fmadd a b c
  d

/-- `fms`, /repo/src/util/v16/v16_avx512.h:2801-2808. -/
def fms (F : Arith W) (a b c : Reg 4 W) : Reg 4 W :=
  let d := lift3 F.fmsub a b c
  d

/-- `fnms`, /repo/src/util/v16/v16_avx512.h:2810-2817. -/
def fnms (F : Arith W) (a b c : Reg 4 W) : Reg 4 W :=
  let d := lift3 F.fnmadd a b c
  d

/-- `clear_bits`, /repo/src/util/v16/v16_avx512.h:2819-2826. -/
def clear_bits (m a : Reg 4 Word) : Reg 4 Word :=
  let b := lift2 Word.andnot m a
  b

/-- `set_bits`, /repo/src/util/v16/v16_avx512.h:2828-2835. -/
def set_bits (m a : Reg 4 Word) : Reg 4 Word :=
  let b := lift2 Word.or m a
  b

/-- `toggle_bits`, /repo/src/util/v16/v16_avx512.h:2837-2844. -/
def toggle_bits (m a : Reg 4 Word) : Reg 4 Word :=
  let b := lift2 Word.xor m a
  b

/-- `increment_16x1`, /repo/src/util/v16/v16_avx512.h:2846-2849. -/
def increment (F : Arith W) (m : Memory W) (p : ℕ) (a : Reg 4 W) : Option (Memory W) := do
  let m ← store4 m p (lift2 F.add (← load4 m p) a)
  return m

/-- `decrement_16x1`, /repo/src/util/v16/v16_avx512.h:2851-2854. -/
def decrement (F : Arith W) (m : Memory W) (p : ℕ) (a : Reg 4 W) : Option (Memory W) := do
  let m ← store4 m p (lift2 F.sub (← load4 m p) a)
  return m

/-- `scale_16x1`, /repo/src/util/v16/v16_avx512.h:2856-2859. -/
def scale (F : Arith W) (m : Memory W) (p : ℕ) (a : Reg 4 W) : Option (Memory W) := do
  let m ← store4 m p (lift2 F.mul (← load4 m p) a)
  return m

end Verif.Vector.V16Avx512
