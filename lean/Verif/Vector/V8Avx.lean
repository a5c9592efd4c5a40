import Verif.Vector.Instr

/-! Functions of /repo/src/util/v8/v8_avx.h that move data; written by `tools/gen_vector.py`. -/
namespace Verif.Vector.V8Avx

variable {α : Type}

/-- `swap`, /repo/src/util/v8/v8_avx.h:232-239. -/
def swap (v : Fin 2 → Reg 2 α) : (Fin 2 → Reg 2 α) :=
  let a_v := (v 0)
  let a := (v 1)
  let b := a_v
  ![a, b]

/-- `transpose`, /repo/src/util/v8/v8_avx.h:241-274. -/
def transpose [Zero α] (v : Fin 8 → Reg 2 α) : (Fin 8 → Reg 2 α) :=
  let t0 := unpacklo (v 0) (v 1)
  let t1 := unpackhi (v 0) (v 1)
  let t2 := unpacklo (v 2) (v 3)
  let t3 := unpackhi (v 2) (v 3)
  let t4 := unpacklo (v 4) (v 5)
  let t5 := unpackhi (v 4) (v 5)
  let t6 := unpacklo (v 6) (v 7)
  let t7 := unpackhi (v 6) (v 7)
  let u0 := shuffle t0 t2 (mmShuffle 1 0 1 0)
  let u1 := shuffle t0 t2 (mmShuffle 3 2 3 2)
  let u2 := shuffle t1 t3 (mmShuffle 1 0 1 0)
  let u3 := shuffle t1 t3 (mmShuffle 3 2 3 2)
  let u4 := shuffle t4 t6 (mmShuffle 1 0 1 0)
  let u5 := shuffle t4 t6 (mmShuffle 3 2 3 2)
  let u6 := shuffle t5 t7 (mmShuffle 1 0 1 0)
  let u7 := shuffle t5 t7 (mmShuffle 3 2 3 2)
  let a0 := permute2f128 u0 u4 0x20
  let a1 := permute2f128 u1 u5 0x20
  let a2 := permute2f128 u2 u6 0x20
  let a3 := permute2f128 u3 u7 0x20
  let a4 := permute2f128 u0 u4 0x31
  let a5 := permute2f128 u1 u5 0x31
  let a6 := permute2f128 u2 u6 0x31
  let a7 := permute2f128 u3 u7 0x31
  ![a0, a1, a2, a3, a4, a5, a6, a7]

/-- `load_8x1`, /repo/src/util/v8/v8_avx.h:278-289. -/
def load_8x1 (m : Memory α) (p : ℕ) : Reg 2 α :=
  let a_0 := m p
  let a_1 := m (p + 1)
  let a_2 := m (p + 2)
  let a_3 := m (p + 3)
  let a_4 := m (p + 4)
  let a_5 := m (p + 5)
  let a_6 := m (p + 6)
  let a_7 := m (p + 7)
  let a := two (quad a_0 a_1 a_2 a_3) (quad a_4 a_5 a_6 a_7)
  a

/-- `store_8x1`, /repo/src/util/v8/v8_avx.h:291-302. -/
def store_8x1 (m : Memory α) (v : Fin 1 → Reg 2 α) (p : ℕ) : Memory α :=
  let m := put m (p) ((v 0) 0 0)
  let m := put m (p + 1) ((v 0) 0 1)
  let m := put m (p + 2) ((v 0) 0 2)
  let m := put m (p + 3) ((v 0) 0 3)
  let m := put m (p + 4) ((v 0) 1 0)
  let m := put m (p + 5) ((v 0) 1 1)
  let m := put m (p + 6) ((v 0) 1 2)
  let m := put m (p + 7) ((v 0) 1 3)
  m

/-- `stream_8x1`, /repo/src/util/v8/v8_avx.h:304-315. -/
def stream_8x1 (m : Memory α) (v : Fin 1 → Reg 2 α) (p : ℕ) : Memory α :=
  let m := put m (p) ((v 0) 0 0)
  let m := put m (p + 1) ((v 0) 0 1)
  let m := put m (p + 2) ((v 0) 0 2)
  let m := put m (p + 3) ((v 0) 0 3)
  let m := put m (p + 4) ((v 0) 1 0)
  let m := put m (p + 5) ((v 0) 1 1)
  let m := put m (p + 6) ((v 0) 1 2)
  let m := put m (p + 7) ((v 0) 1 3)
  m

/-- `clear_8x1`, /repo/src/util/v8/v8_avx.h:317-327. -/
def clear_8x1 [Zero α] (m : Memory α) (p : ℕ) : Memory α :=
  let m := put m (p) 0
  let m := put m (p + 1) 0
  let m := put m (p + 2) 0
  let m := put m (p + 3) 0
  let m := put m (p + 4) 0
  let m := put m (p + 5) 0
  let m := put m (p + 6) 0
  let m := put m (p + 7) 0
  m

/-- `copy_8x1`, /repo/src/util/v8/v8_avx.h:330-341. -/
def copy_8x1 (m : Memory α) (dst : ℕ) (src : ℕ) : Memory α :=
  let m := put m (dst) (m src)
  let m := put m (dst + 1) (m (src + 1))
  let m := put m (dst + 2) (m (src + 2))
  let m := put m (dst + 3) (m (src + 3))
  let m := put m (dst + 4) (m (src + 4))
  let m := put m (dst + 5) (m (src + 5))
  let m := put m (dst + 6) (m (src + 6))
  let m := put m (dst + 7) (m (src + 7))
  m

/-- `swap_8x1`, /repo/src/util/v8/v8_avx.h:343-379. -/
def swap_8x1 (m : Memory α) (a : ℕ) (b : ℕ) : Memory α :=
  let t := m a
  let m := put m (a) (m b)
  let m := put m (b) t
  let t := m (a + 1)
  let m := put m (a + 1) (m (b + 1))
  let m := put m (b + 1) t
  let t := m (a + 2)
  let m := put m (a + 2) (m (b + 2))
  let m := put m (b + 2) t
  let t := m (a + 3)
  let m := put m (a + 3) (m (b + 3))
  let m := put m (b + 3) t
  let t := m (a + 4)
  let m := put m (a + 4) (m (b + 4))
  let m := put m (b + 4) t
  let t := m (a + 5)
  let m := put m (a + 5) (m (b + 5))
  let m := put m (b + 5) t
  let t := m (a + 6)
  let m := put m (a + 6) (m (b + 6))
  let m := put m (b + 6) t
  let t := m (a + 7)
  let m := put m (a + 7) (m (b + 7))
  let m := put m (b + 7) t
  m

/-- `load_8x1_tr`, /repo/src/util/v8/v8_avx.h:383-397. -/
def load_8x1_tr (m : Memory α) (p : Fin 2 → Fin 4 → ℕ) : Reg 2 α :=
  let a_0 := m (p 0 0)
  let a_1 := m (p 0 1)
  let a_2 := m (p 0 2)
  let a_3 := m (p 0 3)
  let a_4 := m (p 1 0)
  let a_5 := m (p 1 1)
  let a_6 := m (p 1 2)
  let a_7 := m (p 1 3)
  let a := two (quad a_0 a_1 a_2 a_3) (quad a_4 a_5 a_6 a_7)
  a

/-- `load_8x2_tr`, /repo/src/util/v8/v8_avx.h:399-425. -/
def load_8x2_tr [Zero α] (m : Memory α) (p : Fin 2 → Fin 4 → ℕ) : (Fin 2 → Reg 2 α) :=
  let zero := (setzero : Reg 1 α)
  let t0 := loadh (loadl zero m (p 0 0)) m (p 0 1)
  let t1 := loadh (loadl zero m (p 0 2)) m (p 0 3)
  let t2 := loadh (loadl zero m (p 1 0)) m (p 1 1)
  let t3 := loadh (loadl zero m (p 1 2)) m (p 1 3)
  let u0 := setM128 t2 t0
  let u1 := setM128 t3 t1
  let a := shuffle u0 u1 (mmShuffle 2 0 2 0)
  let b := shuffle u0 u1 (mmShuffle 3 1 3 1)
  ![a, b]

/-- `load_8x3_tr`, /repo/src/util/v8/v8_avx.h:427-468. -/
def load_8x3_tr (m : Memory α) (p : Fin 2 → Fin 4 → ℕ) : (Fin 3 → Reg 2 α) :=
  let a_0 := m (p 0 0)
  let b_0 := m (p 0 0 + 1)
  let c_0 := m (p 0 0 + 2)
  let a_1 := m (p 0 1)
  let b_1 := m (p 0 1 + 1)
  let c_1 := m (p 0 1 + 2)
  let a_2 := m (p 0 2)
  let b_2 := m (p 0 2 + 1)
  let c_2 := m (p 0 2 + 2)
  let a_3 := m (p 0 3)
  let b_3 := m (p 0 3 + 1)
  let c_3 := m (p 0 3 + 2)
  let a_4 := m (p 1 0)
  let b_4 := m (p 1 0 + 1)
  let c_4 := m (p 1 0 + 2)
  let a_5 := m (p 1 1)
  let b_5 := m (p 1 1 + 1)
  let c_5 := m (p 1 1 + 2)
  let a_6 := m (p 1 2)
  let b_6 := m (p 1 2 + 1)
  let c_6 := m (p 1 2 + 2)
  let a_7 := m (p 1 3)
  let a := two (quad a_0 a_1 a_2 a_3) (quad a_4 a_5 a_6 a_7)
  let b_7 := m (p 1 3 + 1)
  let b := two (quad b_0 b_1 b_2 b_3) (quad b_4 b_5 b_6 b_7)
  let c_7 := m (p 1 3 + 2)
  let c := two (quad c_0 c_1 c_2 c_3) (quad c_4 c_5 c_6 c_7)
  ![a, b, c]

/-- `load_8x4_tr`, /repo/src/util/v8/v8_avx.h:470-500. -/
def load_8x4_tr (m : Memory α) (p : Fin 2 → Fin 4 → ℕ) : Option ((Fin 4 → Reg 2 α)) := do
  let a := setM128 (← load1 m (p 1 0)) (← load1 m (p 0 0))
  let b := setM128 (← load1 m (p 1 1)) (← load1 m (p 0 1))
  let c := setM128 (← load1 m (p 1 2)) (← load1 m (p 0 2))
  let d := setM128 (← load1 m (p 1 3)) (← load1 m (p 0 3))
  let tmp0 := shuffle a b 0x44
  let tmp2 := shuffle a b 0xee
  let tmp1 := shuffle c d 0x44
  let tmp3 := shuffle c d 0xee
  let a := shuffle tmp0 tmp1 0x88
  let b := shuffle tmp0 tmp1 0xdd
  let c := shuffle tmp2 tmp3 0x88
  let d := shuffle tmp2 tmp3 0xdd
  return ![a, b, c, d]

/-- `load_8x8_tr`, /repo/src/util/v8/v8_avx.h:502-552. -/
def load_8x8_tr [Zero α] (m : Memory α) (p : Fin 2 → Fin 4 → ℕ) : Option ((Fin 8 → Reg 2 α)) := do
  let a := (← load2 m (p 0 0))
  let b := (← load2 m (p 0 1))
  let c := (← load2 m (p 0 2))
  let d := (← load2 m (p 0 3))
  let e := (← load2 m (p 1 0))
  let f := (← load2 m (p 1 1))
  let g := (← load2 m (p 1 2))
  let h := (← load2 m (p 1 3))
  let t0 := unpacklo a b
  let t1 := unpackhi a b
  let t2 := unpacklo c d
  let t3 := unpackhi c d
  let t4 := unpacklo e f
  let t5 := unpackhi e f
  let t6 := unpacklo g h
  let t7 := unpackhi g h
  let u0 := shuffle t0 t2 (mmShuffle 1 0 1 0)
  let u1 := shuffle t0 t2 (mmShuffle 3 2 3 2)
  let u2 := shuffle t1 t3 (mmShuffle 1 0 1 0)
  let u3 := shuffle t1 t3 (mmShuffle 3 2 3 2)
  let u4 := shuffle t4 t6 (mmShuffle 1 0 1 0)
  let u5 := shuffle t4 t6 (mmShuffle 3 2 3 2)
  let u6 := shuffle t5 t7 (mmShuffle 1 0 1 0)
  let u7 := shuffle t5 t7 (mmShuffle 3 2 3 2)
  let a := permute2f128 u0 u4 0x20
  let b := permute2f128 u1 u5 0x20
  let c := permute2f128 u2 u6 0x20
  let d := permute2f128 u3 u7 0x20
  let e := permute2f128 u0 u4 0x31
  let f := permute2f128 u1 u5 0x31
  let g := permute2f128 u2 u6 0x31
  let h := permute2f128 u3 u7 0x31
  return ![a, b, c, d, e, f, g, h]

/-- `store_8x1_tr`, /repo/src/util/v8/v8_avx.h:554-566. -/
def store_8x1_tr (m : Memory α) (v : Fin 1 → Reg 2 α) (p : Fin 2 → Fin 4 → ℕ) : Memory α :=
  let m := put m (p 0 0) ((v 0) 0 0)
  let m := put m (p 0 1) ((v 0) 0 1)
  let m := put m (p 0 2) ((v 0) 0 2)
  let m := put m (p 0 3) ((v 0) 0 3)
  let m := put m (p 1 0) ((v 0) 1 0)
  let m := put m (p 1 1) ((v 0) 1 1)
  let m := put m (p 1 2) ((v 0) 1 2)
  let m := put m (p 1 3) ((v 0) 1 3)
  m

/-- `store_8x2_tr`, /repo/src/util/v8/v8_avx.h:568-596. -/
def store_8x2_tr (m : Memory α) (v : Fin 2 → Reg 2 α) (p : Fin 2 → Fin 4 → ℕ) : Memory α :=
  let u0 := unpacklo (v 0) (v 1)
  let u1 := unpackhi (v 0) (v 1)
  let t0 := extractf128 u0 0
  let t1 := extractf128 u1 0
  let t2 := extractf128 u0 1
  let t3 := extractf128 u1 1
  let m := storel m (p 0 0) t0
  let m := storeh m (p 0 1) t0
  let m := storel m (p 0 2) t1
  let m := storeh m (p 0 3) t1
  let m := storel m (p 1 0) t2
  let m := storeh m (p 1 1) t2
  let m := storel m (p 1 2) t3
  let m := storeh m (p 1 3) t3
  m

/-- `store_8x3_tr`, /repo/src/util/v8/v8_avx.h:598-635. -/
def store_8x3_tr (m : Memory α) (v : Fin 3 → Reg 2 α) (p : Fin 2 → Fin 4 → ℕ) : Memory α :=
  let m := put m (p 0 0) ((v 0) 0 0)
  let m := put m (p 0 0 + 1) ((v 1) 0 0)
  let m := put m (p 0 0 + 2) ((v 2) 0 0)
  let m := put m (p 0 1) ((v 0) 0 1)
  let m := put m (p 0 1 + 1) ((v 1) 0 1)
  let m := put m (p 0 1 + 2) ((v 2) 0 1)
  let m := put m (p 0 2) ((v 0) 0 2)
  let m := put m (p 0 2 + 1) ((v 1) 0 2)
  let m := put m (p 0 2 + 2) ((v 2) 0 2)
  let m := put m (p 0 3) ((v 0) 0 3)
  let m := put m (p 0 3 + 1) ((v 1) 0 3)
  let m := put m (p 0 3 + 2) ((v 2) 0 3)
  let m := put m (p 1 0) ((v 0) 1 0)
  let m := put m (p 1 0 + 1) ((v 1) 1 0)
  let m := put m (p 1 0 + 2) ((v 2) 1 0)
  let m := put m (p 1 1) ((v 0) 1 1)
  let m := put m (p 1 1 + 1) ((v 1) 1 1)
  let m := put m (p 1 1 + 2) ((v 2) 1 1)
  let m := put m (p 1 2) ((v 0) 1 2)
  let m := put m (p 1 2 + 1) ((v 1) 1 2)
  let m := put m (p 1 2 + 2) ((v 2) 1 2)
  let m := put m (p 1 3) ((v 0) 1 3)
  let m := put m (p 1 3 + 1) ((v 1) 1 3)
  let m := put m (p 1 3 + 2) ((v 2) 1 3)
  m

/-- `store_8x4_tr`, /repo/src/util/v8/v8_avx.h:637-675. -/
def store_8x4_tr (m : Memory α) (v : Fin 4 → Reg 2 α) (p : Fin 2 → Fin 4 → ℕ) : Option (Memory α) := do
  let u0 := unpacklo (v 0) (v 1)
  let u1 := unpacklo (v 2) (v 3)
  let u2 := unpackhi (v 0) (v 1)
  let u3 := unpackhi (v 2) (v 3)
  let t0 := shuffle u0 u1 (mmShuffle 1 0 1 0)
  let t1 := shuffle u0 u1 (mmShuffle 3 2 3 2)
  let t2 := shuffle u2 u3 (mmShuffle 1 0 1 0)
  let t3 := shuffle u2 u3 (mmShuffle 3 2 3 2)
  let s0 := extractf128 t0 0
  let s1 := extractf128 t1 0
  let s2 := extractf128 t2 0
  let s3 := extractf128 t3 0
  let s4 := extractf128 t0 1
  let s5 := extractf128 t1 1
  let s6 := extractf128 t2 1
  let s7 := extractf128 t3 1
  let m ← store1 m (p 0 0) s0
  let m ← store1 m (p 0 1) s1
  let m ← store1 m (p 0 2) s2
  let m ← store1 m (p 0 3) s3
  let m ← store1 m (p 1 0) s4
  let m ← store1 m (p 1 1) s5
  let m ← store1 m (p 1 2) s6
  let m ← store1 m (p 1 3) s7
  return m

/-- `store_8x8_tr`, /repo/src/util/v8/v8_avx.h:677-723. -/
def store_8x8_tr [Zero α] (m : Memory α) (v : Fin 8 → Reg 2 α) (p : Fin 2 → Fin 4 → ℕ) : Option (Memory α) := do
  let t0 := unpacklo (v 0) (v 1)
  let t1 := unpackhi (v 0) (v 1)
  let t2 := unpacklo (v 2) (v 3)
  let t3 := unpackhi (v 2) (v 3)
  let t4 := unpacklo (v 4) (v 5)
  let t5 := unpackhi (v 4) (v 5)
  let t6 := unpacklo (v 6) (v 7)
  let t7 := unpackhi (v 6) (v 7)
  let u0 := shuffle t0 t2 (mmShuffle 1 0 1 0)
  let u1 := shuffle t0 t2 (mmShuffle 3 2 3 2)
  let u2 := shuffle t1 t3 (mmShuffle 1 0 1 0)
  let u3 := shuffle t1 t3 (mmShuffle 3 2 3 2)
  let u4 := shuffle t4 t6 (mmShuffle 1 0 1 0)
  let u5 := shuffle t4 t6 (mmShuffle 3 2 3 2)
  let u6 := shuffle t5 t7 (mmShuffle 1 0 1 0)
  let u7 := shuffle t5 t7 (mmShuffle 3 2 3 2)
  let t0 := permute2f128 u0 u4 0x20
  let t1 := permute2f128 u1 u5 0x20
  let t2 := permute2f128 u2 u6 0x20
  let t3 := permute2f128 u3 u7 0x20
  let t4 := permute2f128 u0 u4 0x31
  let t5 := permute2f128 u1 u5 0x31
  let t6 := permute2f128 u2 u6 0x31
  let t7 := permute2f128 u3 u7 0x31
  let m ← store2 m (p 0 0) t0
  let m ← store2 m (p 0 1) t1
  let m ← store2 m (p 0 2) t2
  let m ← store2 m (p 0 3) t3
  let m ← store2 m (p 1 0) t4
  let m ← store2 m (p 1 1) t5
  let m ← store2 m (p 1 2) t6
  let m ← store2 m (p 1 3) t7
  return m

end Verif.Vector.V8Avx
