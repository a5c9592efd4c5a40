import Verif.Vector.Instr

/-! Functions of /repo/src/util/v16/v16_avx512.h that move data; written by `tools/gen_vector.py`. -/
namespace Verif.Vector.V16Avx512

variable {α : Type}

/-- `swap`, /repo/src/util/v16/v16_avx512.h:420-427. -/
def swap (v : Fin 2 → Reg 4 α) : (Fin 2 → Reg 4 α) :=
  let a_v := (v 0)
  let a := (v 1)
  let b := a_v
  ![a, b]

/-- `transpose`, /repo/src/util/v16/v16_avx512.h:429-520. -/
def transpose (v : Fin 16 → Reg 4 α) : (Fin 16 → Reg 4 α) :=
  let t00 := unpacklo (v 0) (v 1)
  let t01 := unpackhi (v 0) (v 1)
  let t02 := unpacklo (v 2) (v 3)
  let t03 := unpackhi (v 2) (v 3)
  let t04 := unpacklo (v 4) (v 5)
  let t05 := unpackhi (v 4) (v 5)
  let t06 := unpacklo (v 6) (v 7)
  let t07 := unpackhi (v 6) (v 7)
  let t08 := unpacklo (v 8) (v 9)
  let t09 := unpackhi (v 8) (v 9)
  let t10 := unpacklo (v 10) (v 11)
  let t11 := unpackhi (v 10) (v 11)
  let t12 := unpacklo (v 12) (v 13)
  let t13 := unpackhi (v 12) (v 13)
  let t14 := unpacklo (v 14) (v 15)
  let t15 := unpackhi (v 14) (v 15)
  let a00 := shuffle t00 t02 (mmShuffle 1 0 1 0)
  let a01 := shuffle t00 t02 (mmShuffle 3 2 3 2)
  let a02 := shuffle t01 t03 (mmShuffle 1 0 1 0)
  let a03 := shuffle t01 t03 (mmShuffle 3 2 3 2)
  let a04 := shuffle t04 t06 (mmShuffle 1 0 1 0)
  let a05 := shuffle t04 t06 (mmShuffle 3 2 3 2)
  let a06 := shuffle t05 t07 (mmShuffle 1 0 1 0)
  let a07 := shuffle t05 t07 (mmShuffle 3 2 3 2)
  let a08 := shuffle t08 t10 (mmShuffle 1 0 1 0)
  let a09 := shuffle t08 t10 (mmShuffle 3 2 3 2)
  let a10 := shuffle t09 t11 (mmShuffle 1 0 1 0)
  let a11 := shuffle t09 t11 (mmShuffle 3 2 3 2)
  let a12 := shuffle t12 t14 (mmShuffle 1 0 1 0)
  let a13 := shuffle t12 t14 (mmShuffle 3 2 3 2)
  let a14 := shuffle t13 t15 (mmShuffle 1 0 1 0)
  let a15 := shuffle t13 t15 (mmShuffle 3 2 3 2)
  let t00 := shuffleF32x4 a00 a04 0x88
  let t01 := shuffleF32x4 a01 a05 0x88
  let t02 := shuffleF32x4 a02 a06 0x88
  let t03 := shuffleF32x4 a03 a07 0x88
  let t04 := shuffleF32x4 a00 a04 0xdd
  let t05 := shuffleF32x4 a01 a05 0xdd
  let t06 := shuffleF32x4 a02 a06 0xdd
  let t07 := shuffleF32x4 a03 a07 0xdd
  let t08 := shuffleF32x4 a08 a12 0x88
  let t09 := shuffleF32x4 a09 a13 0x88
  let t10 := shuffleF32x4 a10 a14 0x88
  let t11 := shuffleF32x4 a11 a15 0x88
  let t12 := shuffleF32x4 a08 a12 0xdd
  let t13 := shuffleF32x4 a09 a13 0xdd
  let t14 := shuffleF32x4 a10 a14 0xdd
  let t15 := shuffleF32x4 a11 a15 0xdd
  let a00 := shuffleF32x4 t00 t08 0x88
  let a01 := shuffleF32x4 t01 t09 0x88
  let a02 := shuffleF32x4 t02 t10 0x88
  let a03 := shuffleF32x4 t03 t11 0x88
  let a04 := shuffleF32x4 t04 t12 0x88
  let a05 := shuffleF32x4 t05 t13 0x88
  let a06 := shuffleF32x4 t06 t14 0x88
  let a07 := shuffleF32x4 t07 t15 0x88
  let a08 := shuffleF32x4 t00 t08 0xdd
  let a09 := shuffleF32x4 t01 t09 0xdd
  let a10 := shuffleF32x4 t02 t10 0xdd
  let a11 := shuffleF32x4 t03 t11 0xdd
  let a12 := shuffleF32x4 t04 t12 0xdd
  let a13 := shuffleF32x4 t05 t13 0xdd
  let a14 := shuffleF32x4 t06 t14 0xdd
  let a15 := shuffleF32x4 t07 t15 0xdd
  ![a00, a01, a02, a03, a04, a05, a06, a07, a08, a09, a10, a11, a12, a13, a14, a15]

/-- `load_16x1`, /repo/src/util/v16/v16_avx512.h:527-532. -/
def load_16x1 (m : Memory α) (p : ℕ) : Reg 4 α :=
  let a_0 := m p
  let a_1 := m (p + 1)
  let a_2 := m (p + 2)
  let a_3 := m (p + 3)
  let a_4 := m (p + 4)
  let a_5 := m (p + 5)
  let a_6 := m (p + 6)
  let a_7 := m (p + 7)
  let a_8 := m (p + 8)
  let a_9 := m (p + 9)
  let a_10 := m (p + 10)
  let a_11 := m (p + 11)
  let a_12 := m (p + 12)
  let a_13 := m (p + 13)
  let a_14 := m (p + 14)
  let a_15 := m (p + 15)
  let a := four (quad a_0 a_1 a_2 a_3) (quad a_4 a_5 a_6 a_7) (quad a_8 a_9 a_10 a_11) (quad a_12 a_13 a_14 a_15)
  a

/-- `store_16x1`, /repo/src/util/v16/v16_avx512.h:535-540. -/
def store_16x1 (m : Memory α) (v : Fin 1 → Reg 4 α) (p : ℕ) : Memory α :=
  let m := put m (p) ((v 0) 0 0)
  let m := put m (p + 1) ((v 0) 0 1)
  let m := put m (p + 2) ((v 0) 0 2)
  let m := put m (p + 3) ((v 0) 0 3)
  let m := put m (p + 4) ((v 0) 1 0)
  let m := put m (p + 5) ((v 0) 1 1)
  let m := put m (p + 6) ((v 0) 1 2)
  let m := put m (p + 7) ((v 0) 1 3)
  let m := put m (p + 8) ((v 0) 2 0)
  let m := put m (p + 9) ((v 0) 2 1)
  let m := put m (p + 10) ((v 0) 2 2)
  let m := put m (p + 11) ((v 0) 2 3)
  let m := put m (p + 12) ((v 0) 3 0)
  let m := put m (p + 13) ((v 0) 3 1)
  let m := put m (p + 14) ((v 0) 3 2)
  let m := put m (p + 15) ((v 0) 3 3)
  m

/-- `stream_16x1`, /repo/src/util/v16/v16_avx512.h:542-547. -/
def stream_16x1 (m : Memory α) (v : Fin 1 → Reg 4 α) (p : ℕ) : Memory α :=
  let m := put m (p) ((v 0) 0 0)
  let m := put m (p + 1) ((v 0) 0 1)
  let m := put m (p + 2) ((v 0) 0 2)
  let m := put m (p + 3) ((v 0) 0 3)
  let m := put m (p + 4) ((v 0) 1 0)
  let m := put m (p + 5) ((v 0) 1 1)
  let m := put m (p + 6) ((v 0) 1 2)
  let m := put m (p + 7) ((v 0) 1 3)
  let m := put m (p + 8) ((v 0) 2 0)
  let m := put m (p + 9) ((v 0) 2 1)
  let m := put m (p + 10) ((v 0) 2 2)
  let m := put m (p + 11) ((v 0) 2 3)
  let m := put m (p + 12) ((v 0) 3 0)
  let m := put m (p + 13) ((v 0) 3 1)
  let m := put m (p + 14) ((v 0) 3 2)
  let m := put m (p + 15) ((v 0) 3 3)
  m

/-- `clear_16x1`, /repo/src/util/v16/v16_avx512.h:549-553. -/
def clear_16x1 [Zero α] (m : Memory α) (p : ℕ) : Memory α :=
  let m := put m (p) 0
  let m := put m (p + 1) 0
  let m := put m (p + 2) 0
  let m := put m (p + 3) 0
  let m := put m (p + 4) 0
  let m := put m (p + 5) 0
  let m := put m (p + 6) 0
  let m := put m (p + 7) 0
  let m := put m (p + 8) 0
  let m := put m (p + 9) 0
  let m := put m (p + 10) 0
  let m := put m (p + 11) 0
  let m := put m (p + 12) 0
  let m := put m (p + 13) 0
  let m := put m (p + 14) 0
  let m := put m (p + 15) 0
  m

/-- `copy_16x1`, /repo/src/util/v16/v16_avx512.h:556-561. -/
def copy_16x1 (m : Memory α) (dst : ℕ) (src : ℕ) : Memory α :=
  let m := put m (dst) (m src)
  let m := put m (dst + 1) (m (src + 1))
  let m := put m (dst + 2) (m (src + 2))
  let m := put m (dst + 3) (m (src + 3))
  let m := put m (dst + 4) (m (src + 4))
  let m := put m (dst + 5) (m (src + 5))
  let m := put m (dst + 6) (m (src + 6))
  let m := put m (dst + 7) (m (src + 7))
  let m := put m (dst + 8) (m (src + 8))
  let m := put m (dst + 9) (m (src + 9))
  let m := put m (dst + 10) (m (src + 10))
  let m := put m (dst + 11) (m (src + 11))
  let m := put m (dst + 12) (m (src + 12))
  let m := put m (dst + 13) (m (src + 13))
  let m := put m (dst + 14) (m (src + 14))
  let m := put m (dst + 15) (m (src + 15))
  m

/-- `swap_16x1`, /repo/src/util/v16/v16_avx512.h:563-574. -/
def swap_16x1 (m : Memory α) (a : ℕ) (b : ℕ) : Memory α :=
  let t := m a
  let m := put m (a) (m b)
  let m := put m (b) t
  let t := m (a + 1)
  let m := put m (a + 1) (m (b + 1))
  let m := put m (b + 1) t
  let t := m (a + 2)
  let m := put m (a + 2) (m (b + 2))
  let m := put m (b + 2) t
  let t := m (a + 3)
  let m := put m (a + 3) (m (b + 3))
  let m := put m (b + 3) t
  let t := m (a + 4)
  let m := put m (a + 4) (m (b + 4))
  let m := put m (b + 4) t
  let t := m (a + 5)
  let m := put m (a + 5) (m (b + 5))
  let m := put m (b + 5) t
  let t := m (a + 6)
  let m := put m (a + 6) (m (b + 6))
  let m := put m (b + 6) t
  let t := m (a + 7)
  let m := put m (a + 7) (m (b + 7))
  let m := put m (b + 7) t
  let t := m (a + 8)
  let m := put m (a + 8) (m (b + 8))
  let m := put m (b + 8) t
  let t := m (a + 9)
  let m := put m (a + 9) (m (b + 9))
  let m := put m (b + 9) t
  let t := m (a + 10)
  let m := put m (a + 10) (m (b + 10))
  let m := put m (b + 10) t
  let t := m (a + 11)
  let m := put m (a + 11) (m (b + 11))
  let m := put m (b + 11) t
  let t := m (a + 12)
  let m := put m (a + 12) (m (b + 12))
  let m := put m (b + 12) t
  let t := m (a + 13)
  let m := put m (a + 13) (m (b + 13))
  let m := put m (b + 13) t
  let t := m (a + 14)
  let m := put m (a + 14) (m (b + 14))
  let m := put m (b + 14) t
  let t := m (a + 15)
  let m := put m (a + 15) (m (b + 15))
  let m := put m (b + 15) t
  m

/-- `load_16x1_tr`, /repo/src/util/v16/v16_avx512.h:578-604. -/
def load_16x1_tr (m : Memory α) (p : Fin 4 → Fin 4 → ℕ) : Reg 4 α :=
  let a_0 := m (p 0 0)
  let a_1 := m (p 0 1)
  let a_2 := m (p 0 2)
  let a_3 := m (p 0 3)
  let a_4 := m (p 1 0)
  let a_5 := m (p 1 1)
  let a_6 := m (p 1 2)
  let a_7 := m (p 1 3)
  let a_8 := m (p 2 0)
  let a_9 := m (p 2 1)
  let a_10 := m (p 2 2)
  let a_11 := m (p 2 3)
  let a_12 := m (p 3 0)
  let a_13 := m (p 3 1)
  let a_14 := m (p 3 2)
  let a_15 := m (p 3 3)
  let a := four (quad a_0 a_1 a_2 a_3) (quad a_4 a_5 a_6 a_7) (quad a_8 a_9 a_10 a_11) (quad a_12 a_13 a_14 a_15)
  a

/-- `load_16x2_tr`, /repo/src/util/v16/v16_avx512.h:606-669. -/
def load_16x2_tr (m : Memory α) (p : Fin 4 → Fin 4 → ℕ) : Option ((Fin 2 → Reg 4 α)) := do
  let u00 := (← load4 m (p 0 0))
  let u01 := (← load4 m (p 0 1))
  let u02 := (← load4 m (p 0 2))
  let u03 := (← load4 m (p 0 3))
  let u04 := (← load4 m (p 1 0))
  let u05 := (← load4 m (p 1 1))
  let u06 := (← load4 m (p 1 2))
  let u07 := (← load4 m (p 1 3))
  let u08 := (← load4 m (p 2 0))
  let u09 := (← load4 m (p 2 1))
  let u10 := (← load4 m (p 2 2))
  let u11 := (← load4 m (p 2 3))
  let u12 := (← load4 m (p 3 0))
  let u13 := (← load4 m (p 3 1))
  let u14 := (← load4 m (p 3 2))
  let u15 := (← load4 m (p 3 3))
  let t00 := unpacklo u00 u01
  let t02 := unpacklo u02 u03
  let t04 := unpacklo u04 u05
  let t06 := unpacklo u06 u07
  let t08 := unpacklo u08 u09
  let t10 := unpacklo u10 u11
  let t12 := unpacklo u12 u13
  let t14 := unpacklo u14 u15
  let u00 := shuffle t00 t02 (mmShuffle 1 0 1 0)
  let u01 := shuffle t00 t02 (mmShuffle 3 2 3 2)
  let u04 := shuffle t04 t06 (mmShuffle 1 0 1 0)
  let u05 := shuffle t04 t06 (mmShuffle 3 2 3 2)
  let u08 := shuffle t08 t10 (mmShuffle 1 0 1 0)
  let u09 := shuffle t08 t10 (mmShuffle 3 2 3 2)
  let u12 := shuffle t12 t14 (mmShuffle 1 0 1 0)
  let u13 := shuffle t12 t14 (mmShuffle 3 2 3 2)
  let t00 := shuffleF32x4 u00 u04 0x88
  let t01 := shuffleF32x4 u01 u05 0x88
  let t08 := shuffleF32x4 u08 u12 0x88
  let t09 := shuffleF32x4 u09 u13 0x88
  let b00 := shuffleF32x4 t00 t08 0x88
  let b01 := shuffleF32x4 t01 t09 0x88
  return ![b00, b01]

/-- `load_16x2_bc`, /repo/src/util/v16/v16_avx512.h:671-680. -/
def load_16x2_bc (m : Memory α) (p : Fin 1 → Fin 4 → ℕ) : Option ((Fin 2 → Reg 4 α)) := do
  let t00 := (← load4 m (p 0 0))
  let b00 := (set1 (t00 0 0) : Reg 4 α)
  let b01 := (set1 (t00 0 1) : Reg 4 α)
  return ![b00, b01]

/-- `load_16x3_tr`, /repo/src/util/v16/v16_avx512.h:682-760. -/
def load_16x3_tr (m : Memory α) (p : Fin 4 → Fin 4 → ℕ) : Option ((Fin 3 → Reg 4 α)) := do
  let u00 := (← load4 m (p 0 0))
  let u01 := (← load4 m (p 0 1))
  let u02 := (← load4 m (p 0 2))
  let u03 := (← load4 m (p 0 3))
  let u04 := (← load4 m (p 1 0))
  let u05 := (← load4 m (p 1 1))
  let u06 := (← load4 m (p 1 2))
  let u07 := (← load4 m (p 1 3))
  let u08 := (← load4 m (p 2 0))
  let u09 := (← load4 m (p 2 1))
  let u10 := (← load4 m (p 2 2))
  let u11 := (← load4 m (p 2 3))
  let u12 := (← load4 m (p 3 0))
  let u13 := (← load4 m (p 3 1))
  let u14 := (← load4 m (p 3 2))
  let u15 := (← load4 m (p 3 3))
  let t00 := unpacklo u00 u01
  let t01 := unpackhi u00 u01
  let t02 := unpacklo u02 u03
  let t03 := unpackhi u02 u03
  let t04 := unpacklo u04 u05
  let t05 := unpackhi u04 u05
  let t06 := unpacklo u06 u07
  let t07 := unpackhi u06 u07
  let t08 := unpacklo u08 u09
  let t09 := unpackhi u08 u09
  let t10 := unpacklo u10 u11
  let t11 := unpackhi u10 u11
  let t12 := unpacklo u12 u13
  let t13 := unpackhi u12 u13
  let t14 := unpacklo u14 u15
  let t15 := unpackhi u14 u15
  let u00 := shuffle t00 t02 (mmShuffle 1 0 1 0)
  let u01 := shuffle t00 t02 (mmShuffle 3 2 3 2)
  let u02 := shuffle t01 t03 (mmShuffle 1 0 1 0)
  let u04 := shuffle t04 t06 (mmShuffle 1 0 1 0)
  let u05 := shuffle t04 t06 (mmShuffle 3 2 3 2)
  let u06 := shuffle t05 t07 (mmShuffle 1 0 1 0)
  let u08 := shuffle t08 t10 (mmShuffle 1 0 1 0)
  let u09 := shuffle t08 t10 (mmShuffle 3 2 3 2)
  let u10 := shuffle t09 t11 (mmShuffle 1 0 1 0)
  let u12 := shuffle t12 t14 (mmShuffle 1 0 1 0)
  let u13 := shuffle t12 t14 (mmShuffle 3 2 3 2)
  let u14 := shuffle t13 t15 (mmShuffle 1 0 1 0)
  let t00 := shuffleF32x4 u00 u04 0x88
  let t01 := shuffleF32x4 u01 u05 0x88
  let t02 := shuffleF32x4 u02 u06 0x88
  let t08 := shuffleF32x4 u08 u12 0x88
  let t09 := shuffleF32x4 u09 u13 0x88
  let t10 := shuffleF32x4 u10 u14 0x88
  let b00 := shuffleF32x4 t00 t08 0x88
  let b01 := shuffleF32x4 t01 t09 0x88
  let b02 := shuffleF32x4 t02 t10 0x88
  return ![b00, b01, b02]

/-- `load_16x4_tr`, /repo/src/util/v16/v16_avx512.h:762-847. -/
def load_16x4_tr (m : Memory α) (p : Fin 4 → Fin 4 → ℕ) : Option ((Fin 4 → Reg 4 α)) := do
  let u00 := (← load4 m (p 0 0))
  let u01 := (← load4 m (p 0 1))
  let u02 := (← load4 m (p 0 2))
  let u03 := (← load4 m (p 0 3))
  let u04 := (← load4 m (p 1 0))
  let u05 := (← load4 m (p 1 1))
  let u06 := (← load4 m (p 1 2))
  let u07 := (← load4 m (p 1 3))
  let u08 := (← load4 m (p 2 0))
  let u09 := (← load4 m (p 2 1))
  let u10 := (← load4 m (p 2 2))
  let u11 := (← load4 m (p 2 3))
  let u12 := (← load4 m (p 3 0))
  let u13 := (← load4 m (p 3 1))
  let u14 := (← load4 m (p 3 2))
  let u15 := (← load4 m (p 3 3))
  let t00 := unpacklo u00 u01
  let t01 := unpackhi u00 u01
  let t02 := unpacklo u02 u03
  let t03 := unpackhi u02 u03
  let t04 := unpacklo u04 u05
  let t05 := unpackhi u04 u05
  let t06 := unpacklo u06 u07
  let t07 := unpackhi u06 u07
  let t08 := unpacklo u08 u09
  let t09 := unpackhi u08 u09
  let t10 := unpacklo u10 u11
  let t11 := unpackhi u10 u11
  let t12 := unpacklo u12 u13
  let t13 := unpackhi u12 u13
  let t14 := unpacklo u14 u15
  let t15 := unpackhi u14 u15
  let u00 := shuffle t00 t02 (mmShuffle 1 0 1 0)
  let u01 := shuffle t00 t02 (mmShuffle 3 2 3 2)
  let u02 := shuffle t01 t03 (mmShuffle 1 0 1 0)
  let u03 := shuffle t01 t03 (mmShuffle 3 2 3 2)
  let u04 := shuffle t04 t06 (mmShuffle 1 0 1 0)
  let u05 := shuffle t04 t06 (mmShuffle 3 2 3 2)
  let u06 := shuffle t05 t07 (mmShuffle 1 0 1 0)
  let u07 := shuffle t05 t07 (mmShuffle 3 2 3 2)
  let u08 := shuffle t08 t10 (mmShuffle 1 0 1 0)
  let u09 := shuffle t08 t10 (mmShuffle 3 2 3 2)
  let u10 := shuffle t09 t11 (mmShuffle 1 0 1 0)
  let u11 := shuffle t09 t11 (mmShuffle 3 2 3 2)
  let u12 := shuffle t12 t14 (mmShuffle 1 0 1 0)
  let u13 := shuffle t12 t14 (mmShuffle 3 2 3 2)
  let u14 := shuffle t13 t15 (mmShuffle 1 0 1 0)
  let u15 := shuffle t13 t15 (mmShuffle 3 2 3 2)
  let t00 := shuffleF32x4 u00 u04 0x88
  let t01 := shuffleF32x4 u01 u05 0x88
  let t02 := shuffleF32x4 u02 u06 0x88
  let t03 := shuffleF32x4 u03 u07 0x88
  let t08 := shuffleF32x4 u08 u12 0x88
  let t09 := shuffleF32x4 u09 u13 0x88
  let t10 := shuffleF32x4 u10 u14 0x88
  let t11 := shuffleF32x4 u11 u15 0x88
  let b00 := shuffleF32x4 t00 t08 0x88
  let b01 := shuffleF32x4 t01 t09 0x88
  let b02 := shuffleF32x4 t02 t10 0x88
  let b03 := shuffleF32x4 t03 t11 0x88
  return ![b00, b01, b02, b03]

/-- `load_16x8_tr`, /repo/src/util/v16/v16_avx512.h:849-947. -/
def load_16x8_tr (m : Memory α) (p : Fin 4 → Fin 4 → ℕ) : Option ((Fin 8 → Reg 4 α)) := do
  let u00 := (← load4 m (p 0 0))
  let u01 := (← load4 m (p 0 1))
  let u02 := (← load4 m (p 0 2))
  let u03 := (← load4 m (p 0 3))
  let u04 := (← load4 m (p 1 0))
  let u05 := (← load4 m (p 1 1))
  let u06 := (← load4 m (p 1 2))
  let u07 := (← load4 m (p 1 3))
  let u08 := (← load4 m (p 2 0))
  let u09 := (← load4 m (p 2 1))
  let u10 := (← load4 m (p 2 2))
  let u11 := (← load4 m (p 2 3))
  let u12 := (← load4 m (p 3 0))
  let u13 := (← load4 m (p 3 1))
  let u14 := (← load4 m (p 3 2))
  let u15 := (← load4 m (p 3 3))
  let t00 := unpacklo u00 u01
  let t01 := unpackhi u00 u01
  let t02 := unpacklo u02 u03
  let t03 := unpackhi u02 u03
  let t04 := unpacklo u04 u05
  let t05 := unpackhi u04 u05
  let t06 := unpacklo u06 u07
  let t07 := unpackhi u06 u07
  let t08 := unpacklo u08 u09
  let t09 := unpackhi u08 u09
  let t10 := unpacklo u10 u11
  let t11 := unpackhi u10 u11
  let t12 := unpacklo u12 u13
  let t13 := unpackhi u12 u13
  let t14 := unpacklo u14 u15
  let t15 := unpackhi u14 u15
  let u00 := shuffle t00 t02 (mmShuffle 1 0 1 0)
  let u01 := shuffle t00 t02 (mmShuffle 3 2 3 2)
  let u02 := shuffle t01 t03 (mmShuffle 1 0 1 0)
  let u03 := shuffle t01 t03 (mmShuffle 3 2 3 2)
  let u04 := shuffle t04 t06 (mmShuffle 1 0 1 0)
  let u05 := shuffle t04 t06 (mmShuffle 3 2 3 2)
  let u06 := shuffle t05 t07 (mmShuffle 1 0 1 0)
  let u07 := shuffle t05 t07 (mmShuffle 3 2 3 2)
  let u08 := shuffle t08 t10 (mmShuffle 1 0 1 0)
  let u09 := shuffle t08 t10 (mmShuffle 3 2 3 2)
  let u10 := shuffle t09 t11 (mmShuffle 1 0 1 0)
  let u11 := shuffle t09 t11 (mmShuffle 3 2 3 2)
  let u12 := shuffle t12 t14 (mmShuffle 1 0 1 0)
  let u13 := shuffle t12 t14 (mmShuffle 3 2 3 2)
  let u14 := shuffle t13 t15 (mmShuffle 1 0 1 0)
  let u15 := shuffle t13 t15 (mmShuffle 3 2 3 2)
  let t00 := shuffleF32x4 u00 u04 0x88
  let t01 := shuffleF32x4 u01 u05 0x88
  let t02 := shuffleF32x4 u02 u06 0x88
  let t03 := shuffleF32x4 u03 u07 0x88
  let t04 := shuffleF32x4 u00 u04 0xdd
  let t05 := shuffleF32x4 u01 u05 0xdd
  let t06 := shuffleF32x4 u02 u06 0xdd
  let t07 := shuffleF32x4 u03 u07 0xdd
  let t08 := shuffleF32x4 u08 u12 0x88
  let t09 := shuffleF32x4 u09 u13 0x88
  let t10 := shuffleF32x4 u10 u14 0x88
  let t11 := shuffleF32x4 u11 u15 0x88
  let t12 := shuffleF32x4 u08 u12 0xdd
  let t13 := shuffleF32x4 u09 u13 0xdd
  let t14 := shuffleF32x4 u10 u14 0xdd
  let t15 := shuffleF32x4 u11 u15 0xdd
  let b00 := shuffleF32x4 t00 t08 0x88
  let b01 := shuffleF32x4 t01 t09 0x88
  let b02 := shuffleF32x4 t02 t10 0x88
  let b03 := shuffleF32x4 t03 t11 0x88
  let b04 := shuffleF32x4 t04 t12 0x88
  let b05 := shuffleF32x4 t05 t13 0x88
  let b06 := shuffleF32x4 t06 t14 0x88
  let b07 := shuffleF32x4 t07 t15 0x88
  return ![b00, b01, b02, b03, b04, b05, b06, b07]

/-- `load_16x16_tr`, /repo/src/util/v16/v16_avx512.h:950-1057. -/
def load_16x16_tr (m : Memory α) (p : Fin 4 → Fin 4 → ℕ) : Option ((Fin 16 → Reg 4 α)) := do
  let b00 := (← load4 m (p 0 0))
  let b01 := (← load4 m (p 0 1))
  let b02 := (← load4 m (p 0 2))
  let b03 := (← load4 m (p 0 3))
  let b04 := (← load4 m (p 1 0))
  let b05 := (← load4 m (p 1 1))
  let b06 := (← load4 m (p 1 2))
  let b07 := (← load4 m (p 1 3))
  let b08 := (← load4 m (p 2 0))
  let b09 := (← load4 m (p 2 1))
  let b10 := (← load4 m (p 2 2))
  let b11 := (← load4 m (p 2 3))
  let b12 := (← load4 m (p 3 0))
  let b13 := (← load4 m (p 3 1))
  let b14 := (← load4 m (p 3 2))
  let b15 := (← load4 m (p 3 3))
  let t00 := unpacklo b00 b01
  let t01 := unpackhi b00 b01
  let t02 := unpacklo b02 b03
  let t03 := unpackhi b02 b03
  let t04 := unpacklo b04 b05
  let t05 := unpackhi b04 b05
  let t06 := unpacklo b06 b07
  let t07 := unpackhi b06 b07
  let t08 := unpacklo b08 b09
  let t09 := unpackhi b08 b09
  let t10 := unpacklo b10 b11
  let t11 := unpackhi b10 b11
  let t12 := unpacklo b12 b13
  let t13 := unpackhi b12 b13
  let t14 := unpacklo b14 b15
  let t15 := unpackhi b14 b15
  let b00 := shuffle t00 t02 (mmShuffle 1 0 1 0)
  let b01 := shuffle t00 t02 (mmShuffle 3 2 3 2)
  let b02 := shuffle t01 t03 (mmShuffle 1 0 1 0)
  let b03 := shuffle t01 t03 (mmShuffle 3 2 3 2)
  let b04 := shuffle t04 t06 (mmShuffle 1 0 1 0)
  let b05 := shuffle t04 t06 (mmShuffle 3 2 3 2)
  let b06 := shuffle t05 t07 (mmShuffle 1 0 1 0)
  let b07 := shuffle t05 t07 (mmShuffle 3 2 3 2)
  let b08 := shuffle t08 t10 (mmShuffle 1 0 1 0)
  let b09 := shuffle t08 t10 (mmShuffle 3 2 3 2)
  let b10 := shuffle t09 t11 (mmShuffle 1 0 1 0)
  let b11 := shuffle t09 t11 (mmShuffle 3 2 3 2)
  let b12 := shuffle t12 t14 (mmShuffle 1 0 1 0)
  let b13 := shuffle t12 t14 (mmShuffle 3 2 3 2)
  let b14 := shuffle t13 t15 (mmShuffle 1 0 1 0)
  let b15 := shuffle t13 t15 (mmShuffle 3 2 3 2)
  let t00 := shuffleF32x4 b00 b04 0x88
  let t01 := shuffleF32x4 b01 b05 0x88
  let t02 := shuffleF32x4 b02 b06 0x88
  let t03 := shuffleF32x4 b03 b07 0x88
  let t04 := shuffleF32x4 b00 b04 0xdd
  let t05 := shuffleF32x4 b01 b05 0xdd
  let t06 := shuffleF32x4 b02 b06 0xdd
  let t07 := shuffleF32x4 b03 b07 0xdd
  let t08 := shuffleF32x4 b08 b12 0x88
  let t09 := shuffleF32x4 b09 b13 0x88
  let t10 := shuffleF32x4 b10 b14 0x88
  let t11 := shuffleF32x4 b11 b15 0x88
  let t12 := shuffleF32x4 b08 b12 0xdd
  let t13 := shuffleF32x4 b09 b13 0xdd
  let t14 := shuffleF32x4 b10 b14 0xdd
  let t15 := shuffleF32x4 b11 b15 0xdd
  let b00 := shuffleF32x4 t00 t08 0x88
  let b01 := shuffleF32x4 t01 t09 0x88
  let b02 := shuffleF32x4 t02 t10 0x88
  let b03 := shuffleF32x4 t03 t11 0x88
  let b04 := shuffleF32x4 t04 t12 0x88
  let b05 := shuffleF32x4 t05 t13 0x88
  let b06 := shuffleF32x4 t06 t14 0x88
  let b07 := shuffleF32x4 t07 t15 0x88
  let b08 := shuffleF32x4 t00 t08 0xdd
  let b09 := shuffleF32x4 t01 t09 0xdd
  let b10 := shuffleF32x4 t02 t10 0xdd
  let b11 := shuffleF32x4 t03 t11 0xdd
  let b12 := shuffleF32x4 t04 t12 0xdd
  let b13 := shuffleF32x4 t05 t13 0xdd
  let b14 := shuffleF32x4 t06 t14 0xdd
  let b15 := shuffleF32x4 t07 t15 0xdd
  return ![b00, b01, b02, b03, b04, b05, b06, b07, b08, b09, b10, b11, b12, b13, b14, b15]

/-- `load_16x8_tr_p`, /repo/src/util/v16/v16_avx512.h:1060-1119. -/
def load_16x8_tr_p (m : Memory α) (p : Fin 2 → Fin 4 → ℕ) : Option ((Fin 8 → Reg 4 α)) := do
  let idx := setEpi32 15 11 14 10 13 9 12 8 7 3 6 2 5 1 4 0
  let b00 := (← load4 m (p 0 0))
  let b01 := (← load4 m (p 0 1))
  let b02 := (← load4 m (p 0 2))
  let b03 := (← load4 m (p 0 3))
  let b04 := (← load4 m (p 1 0))
  let b05 := (← load4 m (p 1 1))
  let b06 := (← load4 m (p 1 2))
  let b07 := (← load4 m (p 1 3))
  let t00 := unpacklo b00 b01
  let t01 := unpackhi b00 b01
  let t02 := unpacklo b02 b03
  let t03 := unpackhi b02 b03
  let t04 := unpacklo b04 b05
  let t05 := unpackhi b04 b05
  let t06 := unpacklo b06 b07
  let t07 := unpackhi b06 b07
  let b00 := shuffle t00 t02 (mmShuffle 1 0 1 0)
  let b01 := shuffle t00 t02 (mmShuffle 3 2 3 2)
  let b02 := shuffle t01 t03 (mmShuffle 1 0 1 0)
  let b03 := shuffle t01 t03 (mmShuffle 3 2 3 2)
  let b04 := shuffle t04 t06 (mmShuffle 1 0 1 0)
  let b05 := shuffle t04 t06 (mmShuffle 3 2 3 2)
  let b06 := shuffle t05 t07 (mmShuffle 1 0 1 0)
  let b07 := shuffle t05 t07 (mmShuffle 3 2 3 2)
  let t00 := shuffleF32x4 b00 b04 0x88
  let t01 := shuffleF32x4 b01 b05 0x88
  let t02 := shuffleF32x4 b02 b06 0x88
  let t03 := shuffleF32x4 b03 b07 0x88
  let t04 := shuffleF32x4 b00 b04 0xdd
  let t05 := shuffleF32x4 b01 b05 0xdd
  let t06 := shuffleF32x4 b02 b06 0xdd
  let t07 := shuffleF32x4 b03 b07 0xdd
  let b00 := permutexvar idx t00
  let b01 := permutexvar idx t01
  let b02 := permutexvar idx t02
  let b03 := permutexvar idx t03
  let b04 := permutexvar idx t04
  let b05 := permutexvar idx t05
  let b06 := permutexvar idx t06
  let b07 := permutexvar idx t07
  return ![b00, b01, b02, b03, b04, b05, b06, b07]

/-- `load_16x16_tr_p`, /repo/src/util/v16/v16_avx512.h:1122-1231. -/
def load_16x16_tr_p (m : Memory α) (p : Fin 4 → Fin 4 → ℕ) : Option ((Fin 16 → Reg 4 α)) := do
  let idx := setEpi32 15 11 14 10 13 9 12 8 7 3 6 2 5 1 4 0
  let b00 := (← load4 m (p 0 0))
  let b01 := (← load4 m (p 0 1))
  let b02 := (← load4 m (p 0 2))
  let b03 := (← load4 m (p 0 3))
  let b04 := (← load4 m (p 1 0))
  let b05 := (← load4 m (p 1 1))
  let b06 := (← load4 m (p 1 2))
  let b07 := (← load4 m (p 1 3))
  let b08 := (← load4 m (p 2 0))
  let b09 := (← load4 m (p 2 1))
  let b10 := (← load4 m (p 2 2))
  let b11 := (← load4 m (p 2 3))
  let b12 := (← load4 m (p 3 0))
  let b13 := (← load4 m (p 3 1))
  let b14 := (← load4 m (p 3 2))
  let b15 := (← load4 m (p 3 3))
  let t00 := unpacklo b00 b01
  let t01 := unpackhi b00 b01
  let t02 := unpacklo b02 b03
  let t03 := unpackhi b02 b03
  let t04 := unpacklo b04 b05
  let t05 := unpackhi b04 b05
  let t06 := unpacklo b06 b07
  let t07 := unpackhi b06 b07
  let t08 := unpacklo b08 b09
  let t09 := unpackhi b08 b09
  let t10 := unpacklo b10 b11
  let t11 := unpackhi b10 b11
  let t12 := unpacklo b12 b13
  let t13 := unpackhi b12 b13
  let t14 := unpacklo b14 b15
  let t15 := unpackhi b14 b15
  let b00 := shuffle t00 t02 (mmShuffle 1 0 1 0)
  let b01 := shuffle t00 t02 (mmShuffle 3 2 3 2)
  let b02 := shuffle t01 t03 (mmShuffle 1 0 1 0)
  let b03 := shuffle t01 t03 (mmShuffle 3 2 3 2)
  let b04 := shuffle t04 t06 (mmShuffle 1 0 1 0)
  let b05 := shuffle t04 t06 (mmShuffle 3 2 3 2)
  let b06 := shuffle t05 t07 (mmShuffle 1 0 1 0)
  let b07 := shuffle t05 t07 (mmShuffle 3 2 3 2)
  let b08 := shuffle t08 t10 (mmShuffle 1 0 1 0)
  let b09 := shuffle t08 t10 (mmShuffle 3 2 3 2)
  let b10 := shuffle t09 t11 (mmShuffle 1 0 1 0)
  let b11 := shuffle t09 t11 (mmShuffle 3 2 3 2)
  let b12 := shuffle t12 t14 (mmShuffle 1 0 1 0)
  let b13 := shuffle t12 t14 (mmShuffle 3 2 3 2)
  let b14 := shuffle t13 t15 (mmShuffle 1 0 1 0)
  let b15 := shuffle t13 t15 (mmShuffle 3 2 3 2)
  let t00 := shuffleF32x4 b00 b04 0x88
  let t01 := shuffleF32x4 b01 b05 0x88
  let t02 := shuffleF32x4 b02 b06 0x88
  let t03 := shuffleF32x4 b03 b07 0x88
  let t04 := shuffleF32x4 b00 b04 0xdd
  let t05 := shuffleF32x4 b01 b05 0xdd
  let t06 := shuffleF32x4 b02 b06 0xdd
  let t07 := shuffleF32x4 b03 b07 0xdd
  let t08 := shuffleF32x4 b08 b12 0x88
  let t09 := shuffleF32x4 b09 b13 0x88
  let t10 := shuffleF32x4 b10 b14 0x88
  let t11 := shuffleF32x4 b11 b15 0x88
  let t12 := shuffleF32x4 b08 b12 0xdd
  let t13 := shuffleF32x4 b09 b13 0xdd
  let t14 := shuffleF32x4 b10 b14 0xdd
  let t15 := shuffleF32x4 b11 b15 0xdd
  let b00 := permutexvar idx t00
  let b01 := permutexvar idx t01
  let b02 := permutexvar idx t02
  let b03 := permutexvar idx t03
  let b04 := permutexvar idx t04
  let b05 := permutexvar idx t05
  let b06 := permutexvar idx t06
  let b07 := permutexvar idx t07
  let b08 := permutexvar idx t08
  let b09 := permutexvar idx t09
  let b10 := permutexvar idx t10
  let b11 := permutexvar idx t11
  let b12 := permutexvar idx t12
  let b13 := permutexvar idx t13
  let b14 := permutexvar idx t14
  let b15 := permutexvar idx t15
  return ![b00, b01, b02, b03, b04, b05, b06, b07, b08, b09, b10, b11, b12, b13, b14, b15]

/-- `store_16x1_tr`, /repo/src/util/v16/v16_avx512.h:1233-1255. -/
def store_16x1_tr (m : Memory α) (v : Fin 1 → Reg 4 α) (p : Fin 4 → Fin 4 → ℕ) : Memory α :=
  let m := put m (p 0 0) ((v 0) 0 0)
  let m := put m (p 0 1) ((v 0) 0 1)
  let m := put m (p 0 2) ((v 0) 0 2)
  let m := put m (p 0 3) ((v 0) 0 3)
  let m := put m (p 1 0) ((v 0) 1 0)
  let m := put m (p 1 1) ((v 0) 1 1)
  let m := put m (p 1 2) ((v 0) 1 2)
  let m := put m (p 1 3) ((v 0) 1 3)
  let m := put m (p 2 0) ((v 0) 2 0)
  let m := put m (p 2 1) ((v 0) 2 1)
  let m := put m (p 2 2) ((v 0) 2 2)
  let m := put m (p 2 3) ((v 0) 2 3)
  let m := put m (p 3 0) ((v 0) 3 0)
  let m := put m (p 3 1) ((v 0) 3 1)
  let m := put m (p 3 2) ((v 0) 3 2)
  let m := put m (p 3 3) ((v 0) 3 3)
  m

/-- `store_16x2_tr`, /repo/src/util/v16/v16_avx512.h:1257-1314. -/
def store_16x2_tr (m : Memory α) (v : Fin 2 → Reg 4 α) (p : Fin 4 → Fin 4 → ℕ) : Memory α :=
  let m := put m (p 0 0) ((v 0) 0 0)
  let m := put m (p 0 0 + 1) ((v 1) 0 0)
  let m := put m (p 0 1) ((v 0) 0 1)
  let m := put m (p 0 1 + 1) ((v 1) 0 1)
  let m := put m (p 0 2) ((v 0) 0 2)
  let m := put m (p 0 2 + 1) ((v 1) 0 2)
  let m := put m (p 0 3) ((v 0) 0 3)
  let m := put m (p 0 3 + 1) ((v 1) 0 3)
  let m := put m (p 1 0) ((v 0) 1 0)
  let m := put m (p 1 0 + 1) ((v 1) 1 0)
  let m := put m (p 1 1) ((v 0) 1 1)
  let m := put m (p 1 1 + 1) ((v 1) 1 1)
  let m := put m (p 1 2) ((v 0) 1 2)
  let m := put m (p 1 2 + 1) ((v 1) 1 2)
  let m := put m (p 1 3) ((v 0) 1 3)
  let m := put m (p 1 3 + 1) ((v 1) 1 3)
  let m := put m (p 2 0) ((v 0) 2 0)
  let m := put m (p 2 0 + 1) ((v 1) 2 0)
  let m := put m (p 2 1) ((v 0) 2 1)
  let m := put m (p 2 1 + 1) ((v 1) 2 1)
  let m := put m (p 2 2) ((v 0) 2 2)
  let m := put m (p 2 2 + 1) ((v 1) 2 2)
  let m := put m (p 2 3) ((v 0) 2 3)
  let m := put m (p 2 3 + 1) ((v 1) 2 3)
  let m := put m (p 3 0) ((v 0) 3 0)
  let m := put m (p 3 0 + 1) ((v 1) 3 0)
  let m := put m (p 3 1) ((v 0) 3 1)
  let m := put m (p 3 1 + 1) ((v 1) 3 1)
  let m := put m (p 3 2) ((v 0) 3 2)
  let m := put m (p 3 2 + 1) ((v 1) 3 2)
  let m := put m (p 3 3) ((v 0) 3 3)
  let m := put m (p 3 3 + 1) ((v 1) 3 3)
  m

/-- `store_16x3_tr`, /repo/src/util/v16/v16_avx512.h:1316-1389. -/
def store_16x3_tr (m : Memory α) (v : Fin 3 → Reg 4 α) (p : Fin 4 → Fin 4 → ℕ) : Memory α :=
  let m := put m (p 0 0) ((v 0) 0 0)
  let m := put m (p 0 0 + 1) ((v 1) 0 0)
  let m := put m (p 0 0 + 2) ((v 2) 0 0)
  let m := put m (p 0 1) ((v 0) 0 1)
  let m := put m (p 0 1 + 1) ((v 1) 0 1)
  let m := put m (p 0 1 + 2) ((v 2) 0 1)
  let m := put m (p 0 2) ((v 0) 0 2)
  let m := put m (p 0 2 + 1) ((v 1) 0 2)
  let m := put m (p 0 2 + 2) ((v 2) 0 2)
  let m := put m (p 0 3) ((v 0) 0 3)
  let m := put m (p 0 3 + 1) ((v 1) 0 3)
  let m := put m (p 0 3 + 2) ((v 2) 0 3)
  let m := put m (p 1 0) ((v 0) 1 0)
  let m := put m (p 1 0 + 1) ((v 1) 1 0)
  let m := put m (p 1 0 + 2) ((v 2) 1 0)
  let m := put m (p 1 1) ((v 0) 1 1)
  let m := put m (p 1 1 + 1) ((v 1) 1 1)
  let m := put m (p 1 1 + 2) ((v 2) 1 1)
  let m := put m (p 1 2) ((v 0) 1 2)
  let m := put m (p 1 2 + 1) ((v 1) 1 2)
  let m := put m (p 1 2 + 2) ((v 2) 1 2)
  let m := put m (p 1 3) ((v 0) 1 3)
  let m := put m (p 1 3 + 1) ((v 1) 1 3)
  let m := put m (p 1 3 + 2) ((v 2) 1 3)
  let m := put m (p 2 0) ((v 0) 2 0)
  let m := put m (p 2 0 + 1) ((v 1) 2 0)
  let m := put m (p 2 0 + 2) ((v 2) 2 0)
  let m := put m (p 2 1) ((v 0) 2 1)
  let m := put m (p 2 1 + 1) ((v 1) 2 1)
  let m := put m (p 2 1 + 2) ((v 2) 2 1)
  let m := put m (p 2 2) ((v 0) 2 2)
  let m := put m (p 2 2 + 1) ((v 1) 2 2)
  let m := put m (p 2 2 + 2) ((v 2) 2 2)
  let m := put m (p 2 3) ((v 0) 2 3)
  let m := put m (p 2 3 + 1) ((v 1) 2 3)
  let m := put m (p 2 3 + 2) ((v 2) 2 3)
  let m := put m (p 3 0) ((v 0) 3 0)
  let m := put m (p 3 0 + 1) ((v 1) 3 0)
  let m := put m (p 3 0 + 2) ((v 2) 3 0)
  let m := put m (p 3 1) ((v 0) 3 1)
  let m := put m (p 3 1 + 1) ((v 1) 3 1)
  let m := put m (p 3 1 + 2) ((v 2) 3 1)
  let m := put m (p 3 2) ((v 0) 3 2)
  let m := put m (p 3 2 + 1) ((v 1) 3 2)
  let m := put m (p 3 2 + 2) ((v 2) 3 2)
  let m := put m (p 3 3) ((v 0) 3 3)
  let m := put m (p 3 3 + 1) ((v 1) 3 3)
  let m := put m (p 3 3 + 2) ((v 2) 3 3)
  m

/-- `store_16x4_tr`, /repo/src/util/v16/v16_avx512.h:1391-1480. -/
def store_16x4_tr (m : Memory α) (v : Fin 4 → Reg 4 α) (p : Fin 4 → Fin 4 → ℕ) : Memory α :=
  let m := put m (p 0 0) ((v 0) 0 0)
  let m := put m (p 0 0 + 1) ((v 1) 0 0)
  let m := put m (p 0 0 + 2) ((v 2) 0 0)
  let m := put m (p 0 0 + 3) ((v 3) 0 0)
  let m := put m (p 0 1) ((v 0) 0 1)
  let m := put m (p 0 1 + 1) ((v 1) 0 1)
  let m := put m (p 0 1 + 2) ((v 2) 0 1)
  let m := put m (p 0 1 + 3) ((v 3) 0 1)
  let m := put m (p 0 2) ((v 0) 0 2)
  let m := put m (p 0 2 + 1) ((v 1) 0 2)
  let m := put m (p 0 2 + 2) ((v 2) 0 2)
  let m := put m (p 0 2 + 3) ((v 3) 0 2)
  let m := put m (p 0 3) ((v 0) 0 3)
  let m := put m (p 0 3 + 1) ((v 1) 0 3)
  let m := put m (p 0 3 + 2) ((v 2) 0 3)
  let m := put m (p 0 3 + 3) ((v 3) 0 3)
  let m := put m (p 1 0) ((v 0) 1 0)
  let m := put m (p 1 0 + 1) ((v 1) 1 0)
  let m := put m (p 1 0 + 2) ((v 2) 1 0)
  let m := put m (p 1 0 + 3) ((v 3) 1 0)
  let m := put m (p 1 1) ((v 0) 1 1)
  let m := put m (p 1 1 + 1) ((v 1) 1 1)
  let m := put m (p 1 1 + 2) ((v 2) 1 1)
  let m := put m (p 1 1 + 3) ((v 3) 1 1)
  let m := put m (p 1 2) ((v 0) 1 2)
  let m := put m (p 1 2 + 1) ((v 1) 1 2)
  let m := put m (p 1 2 + 2) ((v 2) 1 2)
  let m := put m (p 1 2 + 3) ((v 3) 1 2)
  let m := put m (p 1 3) ((v 0) 1 3)
  let m := put m (p 1 3 + 1) ((v 1) 1 3)
  let m := put m (p 1 3 + 2) ((v 2) 1 3)
  let m := put m (p 1 3 + 3) ((v 3) 1 3)
  let m := put m (p 2 0) ((v 0) 2 0)
  let m := put m (p 2 0 + 1) ((v 1) 2 0)
  let m := put m (p 2 0 + 2) ((v 2) 2 0)
  let m := put m (p 2 0 + 3) ((v 3) 2 0)
  let m := put m (p 2 1) ((v 0) 2 1)
  let m := put m (p 2 1 + 1) ((v 1) 2 1)
  let m := put m (p 2 1 + 2) ((v 2) 2 1)
  let m := put m (p 2 1 + 3) ((v 3) 2 1)
  let m := put m (p 2 2) ((v 0) 2 2)
  let m := put m (p 2 2 + 1) ((v 1) 2 2)
  let m := put m (p 2 2 + 2) ((v 2) 2 2)
  let m := put m (p 2 2 + 3) ((v 3) 2 2)
  let m := put m (p 2 3) ((v 0) 2 3)
  let m := put m (p 2 3 + 1) ((v 1) 2 3)
  let m := put m (p 2 3 + 2) ((v 2) 2 3)
  let m := put m (p 2 3 + 3) ((v 3) 2 3)
  let m := put m (p 3 0) ((v 0) 3 0)
  let m := put m (p 3 0 + 1) ((v 1) 3 0)
  let m := put m (p 3 0 + 2) ((v 2) 3 0)
  let m := put m (p 3 0 + 3) ((v 3) 3 0)
  let m := put m (p 3 1) ((v 0) 3 1)
  let m := put m (p 3 1 + 1) ((v 1) 3 1)
  let m := put m (p 3 1 + 2) ((v 2) 3 1)
  let m := put m (p 3 1 + 3) ((v 3) 3 1)
  let m := put m (p 3 2) ((v 0) 3 2)
  let m := put m (p 3 2 + 1) ((v 1) 3 2)
  let m := put m (p 3 2 + 2) ((v 2) 3 2)
  let m := put m (p 3 2 + 3) ((v 3) 3 2)
  let m := put m (p 3 3) ((v 0) 3 3)
  let m := put m (p 3 3 + 1) ((v 1) 3 3)
  let m := put m (p 3 3 + 2) ((v 2) 3 3)
  let m := put m (p 3 3 + 3) ((v 3) 3 3)
  m

/-- `store_16x8_tr`, /repo/src/util/v16/v16_avx512.h:1482-1636. -/
def store_16x8_tr (m : Memory α) (v : Fin 8 → Reg 4 α) (p : Fin 4 → Fin 4 → ℕ) : Memory α :=
  let m := put m (p 0 0) ((v 0) 0 0)
  let m := put m (p 0 0 + 1) ((v 1) 0 0)
  let m := put m (p 0 0 + 2) ((v 2) 0 0)
  let m := put m (p 0 0 + 3) ((v 3) 0 0)
  let m := put m (p 0 0 + 4) ((v 4) 0 0)
  let m := put m (p 0 0 + 5) ((v 5) 0 0)
  let m := put m (p 0 0 + 6) ((v 6) 0 0)
  let m := put m (p 0 0 + 7) ((v 7) 0 0)
  let m := put m (p 0 1) ((v 0) 0 1)
  let m := put m (p 0 1 + 1) ((v 1) 0 1)
  let m := put m (p 0 1 + 2) ((v 2) 0 1)
  let m := put m (p 0 1 + 3) ((v 3) 0 1)
  let m := put m (p 0 1 + 4) ((v 4) 0 1)
  let m := put m (p 0 1 + 5) ((v 5) 0 1)
  let m := put m (p 0 1 + 6) ((v 6) 0 1)
  let m := put m (p 0 1 + 7) ((v 7) 0 1)
  let m := put m (p 0 2) ((v 0) 0 2)
  let m := put m (p 0 2 + 1) ((v 1) 0 2)
  let m := put m (p 0 2 + 2) ((v 2) 0 2)
  let m := put m (p 0 2 + 3) ((v 3) 0 2)
  let m := put m (p 0 2 + 4) ((v 4) 0 2)
  let m := put m (p 0 2 + 5) ((v 5) 0 2)
  let m := put m (p 0 2 + 6) ((v 6) 0 2)
  let m := put m (p 0 2 + 7) ((v 7) 0 2)
  let m := put m (p 0 3) ((v 0) 0 3)
  let m := put m (p 0 3 + 1) ((v 1) 0 3)
  let m := put m (p 0 3 + 2) ((v 2) 0 3)
  let m := put m (p 0 3 + 3) ((v 3) 0 3)
  let m := put m (p 0 3 + 4) ((v 4) 0 3)
  let m := put m (p 0 3 + 5) ((v 5) 0 3)
  let m := put m (p 0 3 + 6) ((v 6) 0 3)
  let m := put m (p 0 3 + 7) ((v 7) 0 3)
  let m := put m (p 1 0) ((v 0) 1 0)
  let m := put m (p 1 0 + 1) ((v 1) 1 0)
  let m := put m (p 1 0 + 2) ((v 2) 1 0)
  let m := put m (p 1 0 + 3) ((v 3) 1 0)
  let m := put m (p 1 0 + 4) ((v 4) 1 0)
  let m := put m (p 1 0 + 5) ((v 5) 1 0)
  let m := put m (p 1 0 + 6) ((v 6) 1 0)
  let m := put m (p 1 0 + 7) ((v 7) 1 0)
  let m := put m (p 1 1) ((v 0) 1 1)
  let m := put m (p 1 1 + 1) ((v 1) 1 1)
  let m := put m (p 1 1 + 2) ((v 2) 1 1)
  let m := put m (p 1 1 + 3) ((v 3) 1 1)
  let m := put m (p 1 1 + 4) ((v 4) 1 1)
  let m := put m (p 1 1 + 5) ((v 5) 1 1)
  let m := put m (p 1 1 + 6) ((v 6) 1 1)
  let m := put m (p 1 1 + 7) ((v 7) 1 1)
  let m := put m (p 1 2) ((v 0) 1 2)
  let m := put m (p 1 2 + 1) ((v 1) 1 2)
  let m := put m (p 1 2 + 2) ((v 2) 1 2)
  let m := put m (p 1 2 + 3) ((v 3) 1 2)
  let m := put m (p 1 2 + 4) ((v 4) 1 2)
  let m := put m (p 1 2 + 5) ((v 5) 1 2)
  let m := put m (p 1 2 + 6) ((v 6) 1 2)
  let m := put m (p 1 2 + 7) ((v 7) 1 2)
  let m := put m (p 1 3) ((v 0) 1 3)
  let m := put m (p 1 3 + 1) ((v 1) 1 3)
  let m := put m (p 1 3 + 2) ((v 2) 1 3)
  let m := put m (p 1 3 + 3) ((v 3) 1 3)
  let m := put m (p 1 3 + 4) ((v 4) 1 3)
  let m := put m (p 1 3 + 5) ((v 5) 1 3)
  let m := put m (p 1 3 + 6) ((v 6) 1 3)
  let m := put m (p 1 3 + 7) ((v 7) 1 3)
  let m := put m (p 2 0) ((v 0) 2 0)
  let m := put m (p 2 0 + 1) ((v 1) 2 0)
  let m := put m (p 2 0 + 2) ((v 2) 2 0)
  let m := put m (p 2 0 + 3) ((v 3) 2 0)
  let m := put m (p 2 0 + 4) ((v 4) 2 0)
  let m := put m (p 2 0 + 5) ((v 5) 2 0)
  let m := put m (p 2 0 + 6) ((v 6) 2 0)
  let m := put m (p 2 0 + 7) ((v 7) 2 0)
  let m := put m (p 2 1) ((v 0) 2 1)
  let m := put m (p 2 1 + 1) ((v 1) 2 1)
  let m := put m (p 2 1 + 2) ((v 2) 2 1)
  let m := put m (p 2 1 + 3) ((v 3) 2 1)
  let m := put m (p 2 1 + 4) ((v 4) 2 1)
  let m := put m (p 2 1 + 5) ((v 5) 2 1)
  let m := put m (p 2 1 + 6) ((v 6) 2 1)
  let m := put m (p 2 1 + 7) ((v 7) 2 1)
  let m := put m (p 2 2) ((v 0) 2 2)
  let m := put m (p 2 2 + 1) ((v 1) 2 2)
  let m := put m (p 2 2 + 2) ((v 2) 2 2)
  let m := put m (p 2 2 + 3) ((v 3) 2 2)
  let m := put m (p 2 2 + 4) ((v 4) 2 2)
  let m := put m (p 2 2 + 5) ((v 5) 2 2)
  let m := put m (p 2 2 + 6) ((v 6) 2 2)
  let m := put m (p 2 2 + 7) ((v 7) 2 2)
  let m := put m (p 2 3) ((v 0) 2 3)
  let m := put m (p 2 3 + 1) ((v 1) 2 3)
  let m := put m (p 2 3 + 2) ((v 2) 2 3)
  let m := put m (p 2 3 + 3) ((v 3) 2 3)
  let m := put m (p 2 3 + 4) ((v 4) 2 3)
  let m := put m (p 2 3 + 5) ((v 5) 2 3)
  let m := put m (p 2 3 + 6) ((v 6) 2 3)
  let m := put m (p 2 3 + 7) ((v 7) 2 3)
  let m := put m (p 3 0) ((v 0) 3 0)
  let m := put m (p 3 0 + 1) ((v 1) 3 0)
  let m := put m (p 3 0 + 2) ((v 2) 3 0)
  let m := put m (p 3 0 + 3) ((v 3) 3 0)
  let m := put m (p 3 0 + 4) ((v 4) 3 0)
  let m := put m (p 3 0 + 5) ((v 5) 3 0)
  let m := put m (p 3 0 + 6) ((v 6) 3 0)
  let m := put m (p 3 0 + 7) ((v 7) 3 0)
  let m := put m (p 3 1) ((v 0) 3 1)
  let m := put m (p 3 1 + 1) ((v 1) 3 1)
  let m := put m (p 3 1 + 2) ((v 2) 3 1)
  let m := put m (p 3 1 + 3) ((v 3) 3 1)
  let m := put m (p 3 1 + 4) ((v 4) 3 1)
  let m := put m (p 3 1 + 5) ((v 5) 3 1)
  let m := put m (p 3 1 + 6) ((v 6) 3 1)
  let m := put m (p 3 1 + 7) ((v 7) 3 1)
  let m := put m (p 3 2) ((v 0) 3 2)
  let m := put m (p 3 2 + 1) ((v 1) 3 2)
  let m := put m (p 3 2 + 2) ((v 2) 3 2)
  let m := put m (p 3 2 + 3) ((v 3) 3 2)
  let m := put m (p 3 2 + 4) ((v 4) 3 2)
  let m := put m (p 3 2 + 5) ((v 5) 3 2)
  let m := put m (p 3 2 + 6) ((v 6) 3 2)
  let m := put m (p 3 2 + 7) ((v 7) 3 2)
  let m := put m (p 3 3) ((v 0) 3 3)
  let m := put m (p 3 3 + 1) ((v 1) 3 3)
  let m := put m (p 3 3 + 2) ((v 2) 3 3)
  let m := put m (p 3 3 + 3) ((v 3) 3 3)
  let m := put m (p 3 3 + 4) ((v 4) 3 3)
  let m := put m (p 3 3 + 5) ((v 5) 3 3)
  let m := put m (p 3 3 + 6) ((v 6) 3 3)
  let m := put m (p 3 3 + 7) ((v 7) 3 3)
  m

/-- `store_16x16_tr`, /repo/src/util/v16/v16_avx512.h:1638-1755. -/
def store_16x16_tr (m : Memory α) (v : Fin 16 → Reg 4 α) (p : Fin 4 → Fin 4 → ℕ) : Option (Memory α) := do
  let t00 := unpacklo (v 0) (v 1)
  let t01 := unpackhi (v 0) (v 1)
  let t02 := unpacklo (v 2) (v 3)
  let t03 := unpackhi (v 2) (v 3)
  let t04 := unpacklo (v 4) (v 5)
  let t05 := unpackhi (v 4) (v 5)
  let t06 := unpacklo (v 6) (v 7)
  let t07 := unpackhi (v 6) (v 7)
  let t08 := unpacklo (v 8) (v 9)
  let t09 := unpackhi (v 8) (v 9)
  let t10 := unpacklo (v 10) (v 11)
  let t11 := unpackhi (v 10) (v 11)
  let t12 := unpacklo (v 12) (v 13)
  let t13 := unpackhi (v 12) (v 13)
  let t14 := unpacklo (v 14) (v 15)
  let t15 := unpackhi (v 14) (v 15)
  let u00 := shuffle t00 t02 (mmShuffle 1 0 1 0)
  let u01 := shuffle t00 t02 (mmShuffle 3 2 3 2)
  let u02 := shuffle t01 t03 (mmShuffle 1 0 1 0)
  let u03 := shuffle t01 t03 (mmShuffle 3 2 3 2)
  let u04 := shuffle t04 t06 (mmShuffle 1 0 1 0)
  let u05 := shuffle t04 t06 (mmShuffle 3 2 3 2)
  let u06 := shuffle t05 t07 (mmShuffle 1 0 1 0)
  let u07 := shuffle t05 t07 (mmShuffle 3 2 3 2)
  let u08 := shuffle t08 t10 (mmShuffle 1 0 1 0)
  let u09 := shuffle t08 t10 (mmShuffle 3 2 3 2)
  let u10 := shuffle t09 t11 (mmShuffle 1 0 1 0)
  let u11 := shuffle t09 t11 (mmShuffle 3 2 3 2)
  let u12 := shuffle t12 t14 (mmShuffle 1 0 1 0)
  let u13 := shuffle t12 t14 (mmShuffle 3 2 3 2)
  let u14 := shuffle t13 t15 (mmShuffle 1 0 1 0)
  let u15 := shuffle t13 t15 (mmShuffle 3 2 3 2)
  let t00 := shuffleF32x4 u00 u04 0x88
  let t01 := shuffleF32x4 u01 u05 0x88
  let t02 := shuffleF32x4 u02 u06 0x88
  let t03 := shuffleF32x4 u03 u07 0x88
  let t04 := shuffleF32x4 u00 u04 0xdd
  let t05 := shuffleF32x4 u01 u05 0xdd
  let t06 := shuffleF32x4 u02 u06 0xdd
  let t07 := shuffleF32x4 u03 u07 0xdd
  let t08 := shuffleF32x4 u08 u12 0x88
  let t09 := shuffleF32x4 u09 u13 0x88
  let t10 := shuffleF32x4 u10 u14 0x88
  let t11 := shuffleF32x4 u11 u15 0x88
  let t12 := shuffleF32x4 u08 u12 0xdd
  let t13 := shuffleF32x4 u09 u13 0xdd
  let t14 := shuffleF32x4 u10 u14 0xdd
  let t15 := shuffleF32x4 u11 u15 0xdd
  let u00 := shuffleF32x4 t00 t08 0x88
  let u01 := shuffleF32x4 t01 t09 0x88
  let u02 := shuffleF32x4 t02 t10 0x88
  let u03 := shuffleF32x4 t03 t11 0x88
  let u04 := shuffleF32x4 t04 t12 0x88
  let u05 := shuffleF32x4 t05 t13 0x88
  let u06 := shuffleF32x4 t06 t14 0x88
  let u07 := shuffleF32x4 t07 t15 0x88
  let u08 := shuffleF32x4 t00 t08 0xdd
  let u09 := shuffleF32x4 t01 t09 0xdd
  let u10 := shuffleF32x4 t02 t10 0xdd
  let u11 := shuffleF32x4 t03 t11 0xdd
  let u12 := shuffleF32x4 t04 t12 0xdd
  let u13 := shuffleF32x4 t05 t13 0xdd
  let u14 := shuffleF32x4 t06 t14 0xdd
  let u15 := shuffleF32x4 t07 t15 0xdd
  let m ← store4 m (p 0 0) u00
  let m ← store4 m (p 0 1) u01
  let m ← store4 m (p 0 2) u02
  let m ← store4 m (p 0 3) u03
  let m ← store4 m (p 1 0) u04
  let m ← store4 m (p 1 1) u05
  let m ← store4 m (p 1 2) u06
  let m ← store4 m (p 1 3) u07
  let m ← store4 m (p 2 0) u08
  let m ← store4 m (p 2 1) u09
  let m ← store4 m (p 2 2) u10
  let m ← store4 m (p 2 3) u11
  let m ← store4 m (p 3 0) u12
  let m ← store4 m (p 3 1) u13
  let m ← store4 m (p 3 2) u14
  let m ← store4 m (p 3 3) u15
  return m

/-- `store_16x8_tr_p`, /repo/src/util/v16/v16_avx512.h:1758-1838. -/
def store_16x8_tr_p (m : Memory α) (v : Fin 8 → Reg 4 α) (p : Fin 2 → Fin 4 → ℕ) : Option (Memory α) := do
  let idx := setEpi32 15 13 11 9 14 12 10 8 7 5 3 1 6 4 2 0
  let t00 := permutexvar idx (v 0)
  let t01 := permutexvar idx (v 1)
  let t02 := permutexvar idx (v 2)
  let t03 := permutexvar idx (v 3)
  let t04 := permutexvar idx (v 4)
  let t05 := permutexvar idx (v 5)
  let t06 := permutexvar idx (v 6)
  let t07 := permutexvar idx (v 7)
  let idx1 := setEpi32 (7+16) (6+16) (5+16) (4+16) 7 6 5 4 (3+16) (2+16) (1+16) (0+16) 3 2 1 0
  let idx2 := setEpi32 (15+16) (14+16) (13+16) (12+16) 15 14 13 12 (11+16) (10+16) (9+16) (8+16) 11 10 9 8
  let u00 := permutex2var t00 idx1 t04
  let u01 := permutex2var t01 idx1 t05
  let u02 := permutex2var t02 idx1 t06
  let u03 := permutex2var t03 idx1 t07
  let u04 := permutex2var t00 idx2 t04
  let u05 := permutex2var t01 idx2 t05
  let u06 := permutex2var t02 idx2 t06
  let u07 := permutex2var t03 idx2 t07
  let t00 := shuffle u00 u01 (mmShuffle 1 0 1 0)
  let t01 := shuffle u02 u03 (mmShuffle 1 0 1 0)
  let t02 := shuffle u00 u01 (mmShuffle 3 2 3 2)
  let t03 := shuffle u02 u03 (mmShuffle 3 2 3 2)
  let t04 := shuffle u04 u05 (mmShuffle 1 0 1 0)
  let t05 := shuffle u06 u07 (mmShuffle 1 0 1 0)
  let t06 := shuffle u04 u05 (mmShuffle 3 2 3 2)
  let t07 := shuffle u06 u07 (mmShuffle 3 2 3 2)
  let u00 := shuffle t00 t01 (mmShuffle 2 0 2 0)
  let u01 := shuffle t00 t01 (mmShuffle 3 1 3 1)
  let u02 := shuffle t02 t03 (mmShuffle 2 0 2 0)
  let u03 := shuffle t02 t03 (mmShuffle 3 1 3 1)
  let u04 := shuffle t04 t05 (mmShuffle 2 0 2 0)
  let u05 := shuffle t04 t05 (mmShuffle 3 1 3 1)
  let u06 := shuffle t06 t07 (mmShuffle 2 0 2 0)
  let u07 := shuffle t06 t07 (mmShuffle 3 1 3 1)
  let m ← store4 m (p 0 0) u00
  let m ← store4 m (p 0 1) u01
  let m ← store4 m (p 0 2) u02
  let m ← store4 m (p 0 3) u03
  let m ← store4 m (p 1 0) u04
  let m ← store4 m (p 1 1) u05
  let m ← store4 m (p 1 2) u06
  let m ← store4 m (p 1 3) u07
  return m

/-- `store_16x16_tr_p`, /repo/src/util/v16/v16_avx512.h:1841-1965. -/
def store_16x16_tr_p (m : Memory α) (v : Fin 16 → Reg 4 α) (p : Fin 4 → Fin 4 → ℕ) : Option (Memory α) := do
  let idx := setEpi32 15 13 11 9 14 12 10 8 7 5 3 1 6 4 2 0
  let t00 := permutexvar idx (v 0)
  let t01 := permutexvar idx (v 1)
  let t02 := permutexvar idx (v 2)
  let t03 := permutexvar idx (v 3)
  let t04 := permutexvar idx (v 4)
  let t05 := permutexvar idx (v 5)
  let t06 := permutexvar idx (v 6)
  let t07 := permutexvar idx (v 7)
  let t08 := permutexvar idx (v 8)
  let t09 := permutexvar idx (v 9)
  let t10 := permutexvar idx (v 10)
  let t11 := permutexvar idx (v 11)
  let t12 := permutexvar idx (v 12)
  let t13 := permutexvar idx (v 13)
  let t14 := permutexvar idx (v 14)
  let t15 := permutexvar idx (v 15)
  let idx1 := setEpi32 (7+16) (6+16) (5+16) (4+16) 7 6 5 4 (3+16) (2+16) (1+16) (0+16) 3 2 1 0
  let idx2 := setEpi32 (15+16) (14+16) (13+16) (12+16) 15 14 13 12 (11+16) (10+16) (9+16) (8+16) 11 10 9 8
  let u00 := permutex2var t00 idx1 t04
  let u01 := permutex2var t01 idx1 t05
  let u02 := permutex2var t02 idx1 t06
  let u03 := permutex2var t03 idx1 t07
  let u04 := permutex2var t00 idx2 t04
  let u05 := permutex2var t01 idx2 t05
  let u06 := permutex2var t02 idx2 t06
  let u07 := permutex2var t03 idx2 t07
  let u08 := permutex2var t08 idx1 t12
  let u09 := permutex2var t09 idx1 t13
  let u10 := permutex2var t10 idx1 t14
  let u11 := permutex2var t11 idx1 t15
  let u12 := permutex2var t08 idx2 t12
  let u13 := permutex2var t09 idx2 t13
  let u14 := permutex2var t10 idx2 t14
  let u15 := permutex2var t11 idx2 t15
  let t00 := shuffle u00 u01 (mmShuffle 1 0 1 0)
  let t01 := shuffle u02 u03 (mmShuffle 1 0 1 0)
  let t02 := shuffle u00 u01 (mmShuffle 3 2 3 2)
  let t03 := shuffle u02 u03 (mmShuffle 3 2 3 2)
  let t04 := shuffle u04 u05 (mmShuffle 1 0 1 0)
  let t05 := shuffle u06 u07 (mmShuffle 1 0 1 0)
  let t06 := shuffle u04 u05 (mmShuffle 3 2 3 2)
  let t07 := shuffle u06 u07 (mmShuffle 3 2 3 2)
  let t08 := shuffle u08 u09 (mmShuffle 1 0 1 0)
  let t09 := shuffle u10 u11 (mmShuffle 1 0 1 0)
  let t10 := shuffle u08 u09 (mmShuffle 3 2 3 2)
  let t11 := shuffle u10 u11 (mmShuffle 3 2 3 2)
  let t12 := shuffle u12 u13 (mmShuffle 1 0 1 0)
  let t13 := shuffle u14 u15 (mmShuffle 1 0 1 0)
  let t14 := shuffle u12 u13 (mmShuffle 3 2 3 2)
  let t15 := shuffle u14 u15 (mmShuffle 3 2 3 2)
  let u00 := shuffle t00 t01 (mmShuffle 2 0 2 0)
  let u01 := shuffle t00 t01 (mmShuffle 3 1 3 1)
  let u02 := shuffle t02 t03 (mmShuffle 2 0 2 0)
  let u03 := shuffle t02 t03 (mmShuffle 3 1 3 1)
  let u04 := shuffle t04 t05 (mmShuffle 2 0 2 0)
  let u05 := shuffle t04 t05 (mmShuffle 3 1 3 1)
  let u06 := shuffle t06 t07 (mmShuffle 2 0 2 0)
  let u07 := shuffle t06 t07 (mmShuffle 3 1 3 1)
  let u08 := shuffle t08 t09 (mmShuffle 2 0 2 0)
  let u09 := shuffle t08 t09 (mmShuffle 3 1 3 1)
  let u10 := shuffle t10 t11 (mmShuffle 2 0 2 0)
  let u11 := shuffle t10 t11 (mmShuffle 3 1 3 1)
  let u12 := shuffle t12 t13 (mmShuffle 2 0 2 0)
  let u13 := shuffle t12 t13 (mmShuffle 3 1 3 1)
  let u14 := shuffle t14 t15 (mmShuffle 2 0 2 0)
  let u15 := shuffle t14 t15 (mmShuffle 3 1 3 1)
  let m ← store4 m (p 0 0) u00
  let m ← store4 m (p 0 1) u01
  let m ← store4 m (p 0 2) u02
  let m ← store4 m (p 0 3) u03
  let m ← store4 m (p 1 0) u04
  let m ← store4 m (p 1 1) u05
  let m ← store4 m (p 1 2) u06
  let m ← store4 m (p 1 3) u07
  let m ← store4 m (p 2 0) u08
  let m ← store4 m (p 2 1) u09
  let m ← store4 m (p 2 2) u10
  let m ← store4 m (p 2 3) u11
  let m ← store4 m (p 3 0) u12
  let m ← store4 m (p 3 1) u13
  let m ← store4 m (p 3 2) u14
  let m ← store4 m (p 3 3) u15
  return m

end Verif.Vector.V16Avx512
