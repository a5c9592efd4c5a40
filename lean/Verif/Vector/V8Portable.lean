import Verif.Vector.Instr

/-! Functions of /repo/src/util/v8/v8_portable.h that move data; written by `tools/gen_vector.py`. -/
namespace Verif.Vector.V8Portable

variable {α : Type}

/-- `swap`, /repo/src/util/v8/v8_portable.h:233-243. -/
def swap (v : Fin 2 → Reg 2 α) : (Fin 2 → Reg 2 α) :=
  let s := (v 0) 0 0
  let a_0 := (v 1) 0 0
  let b_0 := s
  let s := (v 0) 0 1
  let a_1 := (v 1) 0 1
  let b_1 := s
  let s := (v 0) 0 2
  let a_2 := (v 1) 0 2
  let b_2 := s
  let s := (v 0) 0 3
  let a_3 := (v 1) 0 3
  let b_3 := s
  let s := (v 0) 1 0
  let a_4 := (v 1) 1 0
  let b_4 := s
  let s := (v 0) 1 1
  let a_5 := (v 1) 1 1
  let b_5 := s
  let s := (v 0) 1 2
  let a_6 := (v 1) 1 2
  let b_6 := s
  let s := (v 0) 1 3
  let a_7 := (v 1) 1 3
  let b_7 := s
  let a := two (quad (a_0) (a_1) (a_2) (a_3)) (quad (a_4) (a_5) (a_6) (a_7))
  let b := two (quad (b_0) (b_1) (b_2) (b_3)) (quad (b_4) (b_5) (b_6) (b_7))
  ![a, b]

/-- `transpose`, /repo/src/util/v8/v8_portable.h:245-255. -/
def transpose (v : Fin 8 → Reg 2 α) : (Fin 8 → Reg 2 α) :=
  let s := (v 0) 0 1
  let a0_1 := (v 1) 0 0
  let a1_0 := s
  let s := (v 0) 0 2
  let a0_2 := (v 2) 0 0
  let a2_0 := s
  let s := (v 0) 0 3
  let a0_3 := (v 3) 0 0
  let a3_0 := s
  let s := (v 0) 1 0
  let a0_4 := (v 4) 0 0
  let a4_0 := s
  let s := (v 0) 1 1
  let a0_5 := (v 5) 0 0
  let a5_0 := s
  let s := (v 0) 1 2
  let a0_6 := (v 6) 0 0
  let a6_0 := s
  let s := (v 0) 1 3
  let a0_7 := (v 7) 0 0
  let a7_0 := s
  let s := (v 1) 0 2
  let a1_2 := (v 2) 0 1
  let a2_1 := s
  let s := (v 1) 0 3
  let a1_3 := (v 3) 0 1
  let a3_1 := s
  let s := (v 1) 1 0
  let a1_4 := (v 4) 0 1
  let a4_1 := s
  let s := (v 1) 1 1
  let a1_5 := (v 5) 0 1
  let a5_1 := s
  let s := (v 1) 1 2
  let a1_6 := (v 6) 0 1
  let a6_1 := s
  let s := (v 1) 1 3
  let a1_7 := (v 7) 0 1
  let a7_1 := s
  let s := (v 2) 0 3
  let a2_3 := (v 3) 0 2
  let a3_2 := s
  let s := (v 2) 1 0
  let a2_4 := (v 4) 0 2
  let a4_2 := s
  let s := (v 2) 1 1
  let a2_5 := (v 5) 0 2
  let a5_2 := s
  let s := (v 2) 1 2
  let a2_6 := (v 6) 0 2
  let a6_2 := s
  let s := (v 2) 1 3
  let a2_7 := (v 7) 0 2
  let a7_2 := s
  let s := (v 3) 1 0
  let a3_4 := (v 4) 0 3
  let a4_3 := s
  let s := (v 3) 1 1
  let a3_5 := (v 5) 0 3
  let a5_3 := s
  let s := (v 3) 1 2
  let a3_6 := (v 6) 0 3
  let a6_3 := s
  let s := (v 3) 1 3
  let a3_7 := (v 7) 0 3
  let a7_3 := s
  let s := (v 4) 1 1
  let a4_5 := (v 5) 1 0
  let a5_4 := s
  let s := (v 4) 1 2
  let a4_6 := (v 6) 1 0
  let a6_4 := s
  let s := (v 4) 1 3
  let a4_7 := (v 7) 1 0
  let a7_4 := s
  let s := (v 5) 1 2
  let a5_6 := (v 6) 1 1
  let a6_5 := s
  let s := (v 5) 1 3
  let a5_7 := (v 7) 1 1
  let a7_5 := s
  let s := (v 6) 1 3
  let a6_7 := (v 7) 1 2
  let a7_6 := s
  let a0 := two (quad ((v 0) 0 0) (a0_1) (a0_2) (a0_3)) (quad (a0_4) (a0_5) (a0_6) (a0_7))
  let a1 := two (quad (a1_0) ((v 1) 0 1) (a1_2) (a1_3)) (quad (a1_4) (a1_5) (a1_6) (a1_7))
  let a2 := two (quad (a2_0) (a2_1) ((v 2) 0 2) (a2_3)) (quad (a2_4) (a2_5) (a2_6) (a2_7))
  let a3 := two (quad (a3_0) (a3_1) (a3_2) ((v 3) 0 3)) (quad (a3_4) (a3_5) (a3_6) (a3_7))
  let a4 := two (quad (a4_0) (a4_1) (a4_2) (a4_3)) (quad ((v 4) 1 0) (a4_5) (a4_6) (a4_7))
  let a5 := two (quad (a5_0) (a5_1) (a5_2) (a5_3)) (quad (a5_4) ((v 5) 1 1) (a5_6) (a5_7))
  let a6 := two (quad (a6_0) (a6_1) (a6_2) (a6_3)) (quad (a6_4) (a6_5) ((v 6) 1 2) (a6_7))
  let a7 := two (quad (a7_0) (a7_1) (a7_2) (a7_3)) (quad (a7_4) (a7_5) (a7_6) ((v 7) 1 3))
  ![a0, a1, a2, a3, a4, a5, a6, a7]

/-- `load_8x1`, /repo/src/util/v8/v8_portable.h:261-272. -/
def load_8x1 (m : Memory α) (p : ℕ) : Reg 2 α :=
  let a_0 := m p
  let a_1 := m (p + 1)
  let a_2 := m (p + 2)
  let a_3 := m (p + 3)
  let a_4 := m (p + 4)
  let a_5 := m (p + 5)
  let a_6 := m (p + 6)
  let a_7 := m (p + 7)
  let a := two (quad a_0 a_1 a_2 a_3) (quad a_4 a_5 a_6 a_7)
  a

/-- `store_8x1`, /repo/src/util/v8/v8_portable.h:274-285. -/
def store_8x1 (m : Memory α) (v : Fin 1 → Reg 2 α) (p : ℕ) : Memory α :=
  let m := put m (p) ((v 0) 0 0)
  let m := put m (p + 1) ((v 0) 0 1)
  let m := put m (p + 2) ((v 0) 0 2)
  let m := put m (p + 3) ((v 0) 0 3)
  let m := put m (p + 4) ((v 0) 1 0)
  let m := put m (p + 5) ((v 0) 1 1)
  let m := put m (p + 6) ((v 0) 1 2)
  let m := put m (p + 7) ((v 0) 1 3)
  m

/-- `stream_8x1`, /repo/src/util/v8/v8_portable.h:287-298. -/
def stream_8x1 (m : Memory α) (v : Fin 1 → Reg 2 α) (p : ℕ) : Memory α :=
  let m := put m (p) ((v 0) 0 0)
  let m := put m (p + 1) ((v 0) 0 1)
  let m := put m (p + 2) ((v 0) 0 2)
  let m := put m (p + 3) ((v 0) 0 3)
  let m := put m (p + 4) ((v 0) 1 0)
  let m := put m (p + 5) ((v 0) 1 1)
  let m := put m (p + 6) ((v 0) 1 2)
  let m := put m (p + 7) ((v 0) 1 3)
  m

/-- `clear_8x1`, /repo/src/util/v8/v8_portable.h:300-310. -/
def clear_8x1 [Zero α] (m : Memory α) (p : ℕ) : Memory α :=
  let m := put m (p) 0
  let m := put m (p + 1) 0
  let m := put m (p + 2) 0
  let m := put m (p + 3) 0
  let m := put m (p + 4) 0
  let m := put m (p + 5) 0
  let m := put m (p + 6) 0
  let m := put m (p + 7) 0
  m

/-- `copy_8x1`, /repo/src/util/v8/v8_portable.h:313-324. -/
def copy_8x1 (m : Memory α) (dst : ℕ) (src : ℕ) : Memory α :=
  let m := put m (dst) (m src)
  let m := put m (dst + 1) (m (src + 1))
  let m := put m (dst + 2) (m (src + 2))
  let m := put m (dst + 3) (m (src + 3))
  let m := put m (dst + 4) (m (src + 4))
  let m := put m (dst + 5) (m (src + 5))
  let m := put m (dst + 6) (m (src + 6))
  let m := put m (dst + 7) (m (src + 7))
  m

/-- `swap_8x1`, /repo/src/util/v8/v8_portable.h:326-362. -/
def swap_8x1 (m : Memory α) (a : ℕ) (b : ℕ) : Memory α :=
  let t := m a
  let m := put m (a) (m b)
  let m := put m (b) t
  let t := m (a + 1)
  let m := put m (a + 1) (m (b + 1))
  let m := put m (b + 1) t
  let t := m (a + 2)
  let m := put m (a + 2) (m (b + 2))
  let m := put m (b + 2) t
  let t := m (a + 3)
  let m := put m (a + 3) (m (b + 3))
  let m := put m (b + 3) t
  let t := m (a + 4)
  let m := put m (a + 4) (m (b + 4))
  let m := put m (b + 4) t
  let t := m (a + 5)
  let m := put m (a + 5) (m (b + 5))
  let m := put m (b + 5) t
  let t := m (a + 6)
  let m := put m (a + 6) (m (b + 6))
  let m := put m (b + 6) t
  let t := m (a + 7)
  let m := put m (a + 7) (m (b + 7))
  let m := put m (b + 7) t
  m

/-- `load_8x1_tr`, /repo/src/util/v8/v8_portable.h:366-380. -/
def load_8x1_tr (m : Memory α) (p : Fin 2 → Fin 4 → ℕ) : Reg 2 α :=
  let a_0 := m (p 0 0)
  let a_1 := m (p 0 1)
  let a_2 := m (p 0 2)
  let a_3 := m (p 0 3)
  let a_4 := m (p 1 0)
  let a_5 := m (p 1 1)
  let a_6 := m (p 1 2)
  let a_7 := m (p 1 3)
  let a := two (quad a_0 a_1 a_2 a_3) (quad a_4 a_5 a_6 a_7)
  a

/-- `load_8x2_tr`, /repo/src/util/v8/v8_portable.h:382-415. -/
def load_8x2_tr (m : Memory α) (p : Fin 2 → Fin 4 → ℕ) : (Fin 2 → Reg 2 α) :=
  let a_0 := m (p 0 0)
  let b_0 := m (p 0 0 + 1)
  let a_1 := m (p 0 1)
  let b_1 := m (p 0 1 + 1)
  let a_2 := m (p 0 2)
  let b_2 := m (p 0 2 + 1)
  let a_3 := m (p 0 3)
  let b_3 := m (p 0 3 + 1)
  let a_4 := m (p 1 0)
  let b_4 := m (p 1 0 + 1)
  let a_5 := m (p 1 1)
  let b_5 := m (p 1 1 + 1)
  let a_6 := m (p 1 2)
  let b_6 := m (p 1 2 + 1)
  let a_7 := m (p 1 3)
  let a := two (quad a_0 a_1 a_2 a_3) (quad a_4 a_5 a_6 a_7)
  let b_7 := m (p 1 3 + 1)
  let b := two (quad b_0 b_1 b_2 b_3) (quad b_4 b_5 b_6 b_7)
  ![a, b]

/-- `load_8x3_tr`, /repo/src/util/v8/v8_portable.h:417-458. -/
def load_8x3_tr (m : Memory α) (p : Fin 2 → Fin 4 → ℕ) : (Fin 3 → Reg 2 α) :=
  let a_0 := m (p 0 0)
  let b_0 := m (p 0 0 + 1)
  let c_0 := m (p 0 0 + 2)
  let a_1 := m (p 0 1)
  let b_1 := m (p 0 1 + 1)
  let c_1 := m (p 0 1 + 2)
  let a_2 := m (p 0 2)
  let b_2 := m (p 0 2 + 1)
  let c_2 := m (p 0 2 + 2)
  let a_3 := m (p 0 3)
  let b_3 := m (p 0 3 + 1)
  let c_3 := m (p 0 3 + 2)
  let a_4 := m (p 1 0)
  let b_4 := m (p 1 0 + 1)
  let c_4 := m (p 1 0 + 2)
  let a_5 := m (p 1 1)
  let b_5 := m (p 1 1 + 1)
  let c_5 := m (p 1 1 + 2)
  let a_6 := m (p 1 2)
  let b_6 := m (p 1 2 + 1)
  let c_6 := m (p 1 2 + 2)
  let a_7 := m (p 1 3)
  let a := two (quad a_0 a_1 a_2 a_3) (quad a_4 a_5 a_6 a_7)
  let b_7 := m (p 1 3 + 1)
  let b := two (quad b_0 b_1 b_2 b_3) (quad b_4 b_5 b_6 b_7)
  let c_7 := m (p 1 3 + 2)
  let c := two (quad c_0 c_1 c_2 c_3) (quad c_4 c_5 c_6 c_7)
  ![a, b, c]

/-- `load_8x4_tr`, /repo/src/util/v8/v8_portable.h:460-509. -/
def load_8x4_tr (m : Memory α) (p : Fin 2 → Fin 4 → ℕ) : (Fin 4 → Reg 2 α) :=
  let a_0 := m (p 0 0)
  let b_0 := m (p 0 0 + 1)
  let c_0 := m (p 0 0 + 2)
  let d_0 := m (p 0 0 + 3)
  let a_1 := m (p 0 1)
  let b_1 := m (p 0 1 + 1)
  let c_1 := m (p 0 1 + 2)
  let d_1 := m (p 0 1 + 3)
  let a_2 := m (p 0 2)
  let b_2 := m (p 0 2 + 1)
  let c_2 := m (p 0 2 + 2)
  let d_2 := m (p 0 2 + 3)
  let a_3 := m (p 0 3)
  let b_3 := m (p 0 3 + 1)
  let c_3 := m (p 0 3 + 2)
  let d_3 := m (p 0 3 + 3)
  let a_4 := m (p 1 0)
  let b_4 := m (p 1 0 + 1)
  let c_4 := m (p 1 0 + 2)
  let d_4 := m (p 1 0 + 3)
  let a_5 := m (p 1 1)
  let b_5 := m (p 1 1 + 1)
  let c_5 := m (p 1 1 + 2)
  let d_5 := m (p 1 1 + 3)
  let a_6 := m (p 1 2)
  let b_6 := m (p 1 2 + 1)
  let c_6 := m (p 1 2 + 2)
  let d_6 := m (p 1 2 + 3)
  let a_7 := m (p 1 3)
  let a := two (quad a_0 a_1 a_2 a_3) (quad a_4 a_5 a_6 a_7)
  let b_7 := m (p 1 3 + 1)
  let b := two (quad b_0 b_1 b_2 b_3) (quad b_4 b_5 b_6 b_7)
  let c_7 := m (p 1 3 + 2)
  let c := two (quad c_0 c_1 c_2 c_3) (quad c_4 c_5 c_6 c_7)
  let d_7 := m (p 1 3 + 3)
  let d := two (quad d_0 d_1 d_2 d_3) (quad d_4 d_5 d_6 d_7)
  ![a, b, c, d]

/-- `load_8x8_tr`, /repo/src/util/v8/v8_portable.h:511-593. -/
def load_8x8_tr (m : Memory α) (p : Fin 2 → Fin 4 → ℕ) : (Fin 8 → Reg 2 α) :=
  let a_0 := m (p 0 0)
  let b_0 := m (p 0 0 + 1)
  let c_0 := m (p 0 0 + 2)
  let d_0 := m (p 0 0 + 3)
  let e_0 := m (p 0 0 + 4)
  let f_0 := m (p 0 0 + 5)
  let g_0 := m (p 0 0 + 6)
  let h_0 := m (p 0 0 + 7)
  let a_1 := m (p 0 1)
  let b_1 := m (p 0 1 + 1)
  let c_1 := m (p 0 1 + 2)
  let d_1 := m (p 0 1 + 3)
  let e_1 := m (p 0 1 + 4)
  let f_1 := m (p 0 1 + 5)
  let g_1 := m (p 0 1 + 6)
  let h_1 := m (p 0 1 + 7)
  let a_2 := m (p 0 2)
  let b_2 := m (p 0 2 + 1)
  let c_2 := m (p 0 2 + 2)
  let d_2 := m (p 0 2 + 3)
  let e_2 := m (p 0 2 + 4)
  let f_2 := m (p 0 2 + 5)
  let g_2 := m (p 0 2 + 6)
  let h_2 := m (p 0 2 + 7)
  let a_3 := m (p 0 3)
  let b_3 := m (p 0 3 + 1)
  let c_3 := m (p 0 3 + 2)
  let d_3 := m (p 0 3 + 3)
  let e_3 := m (p 0 3 + 4)
  let f_3 := m (p 0 3 + 5)
  let g_3 := m (p 0 3 + 6)
  let h_3 := m (p 0 3 + 7)
  let a_4 := m (p 1 0)
  let b_4 := m (p 1 0 + 1)
  let c_4 := m (p 1 0 + 2)
  let d_4 := m (p 1 0 + 3)
  let e_4 := m (p 1 0 + 4)
  let f_4 := m (p 1 0 + 5)
  let g_4 := m (p 1 0 + 6)
  let h_4 := m (p 1 0 + 7)
  let a_5 := m (p 1 1)
  let b_5 := m (p 1 1 + 1)
  let c_5 := m (p 1 1 + 2)
  let d_5 := m (p 1 1 + 3)
  let e_5 := m (p 1 1 + 4)
  let f_5 := m (p 1 1 + 5)
  let g_5 := m (p 1 1 + 6)
  let h_5 := m (p 1 1 + 7)
  let a_6 := m (p 1 2)
  let b_6 := m (p 1 2 + 1)
  let c_6 := m (p 1 2 + 2)
  let d_6 := m (p 1 2 + 3)
  let e_6 := m (p 1 2 + 4)
  let f_6 := m (p 1 2 + 5)
  let g_6 := m (p 1 2 + 6)
  let h_6 := m (p 1 2 + 7)
  let a_7 := m (p 1 3)
  let a := two (quad a_0 a_1 a_2 a_3) (quad a_4 a_5 a_6 a_7)
  let b_7 := m (p 1 3 + 1)
  let b := two (quad b_0 b_1 b_2 b_3) (quad b_4 b_5 b_6 b_7)
  let c_7 := m (p 1 3 + 2)
  let c := two (quad c_0 c_1 c_2 c_3) (quad c_4 c_5 c_6 c_7)
  let d_7 := m (p 1 3 + 3)
  let d := two (quad d_0 d_1 d_2 d_3) (quad d_4 d_5 d_6 d_7)
  let e_7 := m (p 1 3 + 4)
  let e := two (quad e_0 e_1 e_2 e_3) (quad e_4 e_5 e_6 e_7)
  let f_7 := m (p 1 3 + 5)
  let f := two (quad f_0 f_1 f_2 f_3) (quad f_4 f_5 f_6 f_7)
  let g_7 := m (p 1 3 + 6)
  let g := two (quad g_0 g_1 g_2 g_3) (quad g_4 g_5 g_6 g_7)
  let h_7 := m (p 1 3 + 7)
  let h := two (quad h_0 h_1 h_2 h_3) (quad h_4 h_5 h_6 h_7)
  ![a, b, c, d, e, f, g, h]

/-- `store_8x1_tr`, /repo/src/util/v8/v8_portable.h:595-607. -/
def store_8x1_tr (m : Memory α) (v : Fin 1 → Reg 2 α) (p : Fin 2 → Fin 4 → ℕ) : Memory α :=
  let m := put m (p 0 0) ((v 0) 0 0)
  let m := put m (p 0 1) ((v 0) 0 1)
  let m := put m (p 0 2) ((v 0) 0 2)
  let m := put m (p 0 3) ((v 0) 0 3)
  let m := put m (p 1 0) ((v 0) 1 0)
  let m := put m (p 1 1) ((v 0) 1 1)
  let m := put m (p 1 2) ((v 0) 1 2)
  let m := put m (p 1 3) ((v 0) 1 3)
  m

/-- `store_8x2_tr`, /repo/src/util/v8/v8_portable.h:609-638. -/
def store_8x2_tr (m : Memory α) (v : Fin 2 → Reg 2 α) (p : Fin 2 → Fin 4 → ℕ) : Memory α :=
  let m := put m (p 0 0) ((v 0) 0 0)
  let m := put m (p 0 0 + 1) ((v 1) 0 0)
  let m := put m (p 0 1) ((v 0) 0 1)
  let m := put m (p 0 1 + 1) ((v 1) 0 1)
  let m := put m (p 0 2) ((v 0) 0 2)
  let m := put m (p 0 2 + 1) ((v 1) 0 2)
  let m := put m (p 0 3) ((v 0) 0 3)
  let m := put m (p 0 3 + 1) ((v 1) 0 3)
  let m := put m (p 1 0) ((v 0) 1 0)
  let m := put m (p 1 0 + 1) ((v 1) 1 0)
  let m := put m (p 1 1) ((v 0) 1 1)
  let m := put m (p 1 1 + 1) ((v 1) 1 1)
  let m := put m (p 1 2) ((v 0) 1 2)
  let m := put m (p 1 2 + 1) ((v 1) 1 2)
  let m := put m (p 1 3) ((v 0) 1 3)
  let m := put m (p 1 3 + 1) ((v 1) 1 3)
  m

/-- `store_8x3_tr`, /repo/src/util/v8/v8_portable.h:640-677. -/
def store_8x3_tr (m : Memory α) (v : Fin 3 → Reg 2 α) (p : Fin 2 → Fin 4 → ℕ) : Memory α :=
  let m := put m (p 0 0) ((v 0) 0 0)
  let m := put m (p 0 0 + 1) ((v 1) 0 0)
  let m := put m (p 0 0 + 2) ((v 2) 0 0)
  let m := put m (p 0 1) ((v 0) 0 1)
  let m := put m (p 0 1 + 1) ((v 1) 0 1)
  let m := put m (p 0 1 + 2) ((v 2) 0 1)
  let m := put m (p 0 2) ((v 0) 0 2)
  let m := put m (p 0 2 + 1) ((v 1) 0 2)
  let m := put m (p 0 2 + 2) ((v 2) 0 2)
  let m := put m (p 0 3) ((v 0) 0 3)
  let m := put m (p 0 3 + 1) ((v 1) 0 3)
  let m := put m (p 0 3 + 2) ((v 2) 0 3)
  let m := put m (p 1 0) ((v 0) 1 0)
  let m := put m (p 1 0 + 1) ((v 1) 1 0)
  let m := put m (p 1 0 + 2) ((v 2) 1 0)
  let m := put m (p 1 1) ((v 0) 1 1)
  let m := put m (p 1 1 + 1) ((v 1) 1 1)
  let m := put m (p 1 1 + 2) ((v 2) 1 1)
  let m := put m (p 1 2) ((v 0) 1 2)
  let m := put m (p 1 2 + 1) ((v 1) 1 2)
  let m := put m (p 1 2 + 2) ((v 2) 1 2)
  let m := put m (p 1 3) ((v 0) 1 3)
  let m := put m (p 1 3 + 1) ((v 1) 1 3)
  let m := put m (p 1 3 + 2) ((v 2) 1 3)
  m

/-- `store_8x4_tr`, /repo/src/util/v8/v8_portable.h:679-724. -/
def store_8x4_tr (m : Memory α) (v : Fin 4 → Reg 2 α) (p : Fin 2 → Fin 4 → ℕ) : Memory α :=
  let m := put m (p 0 0) ((v 0) 0 0)
  let m := put m (p 0 0 + 1) ((v 1) 0 0)
  let m := put m (p 0 0 + 2) ((v 2) 0 0)
  let m := put m (p 0 0 + 3) ((v 3) 0 0)
  let m := put m (p 0 1) ((v 0) 0 1)
  let m := put m (p 0 1 + 1) ((v 1) 0 1)
  let m := put m (p 0 1 + 2) ((v 2) 0 1)
  let m := put m (p 0 1 + 3) ((v 3) 0 1)
  let m := put m (p 0 2) ((v 0) 0 2)
  let m := put m (p 0 2 + 1) ((v 1) 0 2)
  let m := put m (p 0 2 + 2) ((v 2) 0 2)
  let m := put m (p 0 2 + 3) ((v 3) 0 2)
  let m := put m (p 0 3) ((v 0) 0 3)
  let m := put m (p 0 3 + 1) ((v 1) 0 3)
  let m := put m (p 0 3 + 2) ((v 2) 0 3)
  let m := put m (p 0 3 + 3) ((v 3) 0 3)
  let m := put m (p 1 0) ((v 0) 1 0)
  let m := put m (p 1 0 + 1) ((v 1) 1 0)
  let m := put m (p 1 0 + 2) ((v 2) 1 0)
  let m := put m (p 1 0 + 3) ((v 3) 1 0)
  let m := put m (p 1 1) ((v 0) 1 1)
  let m := put m (p 1 1 + 1) ((v 1) 1 1)
  let m := put m (p 1 1 + 2) ((v 2) 1 1)
  let m := put m (p 1 1 + 3) ((v 3) 1 1)
  let m := put m (p 1 2) ((v 0) 1 2)
  let m := put m (p 1 2 + 1) ((v 1) 1 2)
  let m := put m (p 1 2 + 2) ((v 2) 1 2)
  let m := put m (p 1 2 + 3) ((v 3) 1 2)
  let m := put m (p 1 3) ((v 0) 1 3)
  let m := put m (p 1 3 + 1) ((v 1) 1 3)
  let m := put m (p 1 3 + 2) ((v 2) 1 3)
  let m := put m (p 1 3 + 3) ((v 3) 1 3)
  m

/-- `store_8x8_tr`, /repo/src/util/v8/v8_portable.h:726-804. -/
def store_8x8_tr (m : Memory α) (v : Fin 8 → Reg 2 α) (p : Fin 2 → Fin 4 → ℕ) : Memory α :=
  let m := put m (p 0 0) ((v 0) 0 0)
  let m := put m (p 0 0 + 1) ((v 1) 0 0)
  let m := put m (p 0 0 + 2) ((v 2) 0 0)
  let m := put m (p 0 0 + 3) ((v 3) 0 0)
  let m := put m (p 0 0 + 4) ((v 4) 0 0)
  let m := put m (p 0 0 + 5) ((v 5) 0 0)
  let m := put m (p 0 0 + 6) ((v 6) 0 0)
  let m := put m (p 0 0 + 7) ((v 7) 0 0)
  let m := put m (p 0 1) ((v 0) 0 1)
  let m := put m (p 0 1 + 1) ((v 1) 0 1)
  let m := put m (p 0 1 + 2) ((v 2) 0 1)
  let m := put m (p 0 1 + 3) ((v 3) 0 1)
  let m := put m (p 0 1 + 4) ((v 4) 0 1)
  let m := put m (p 0 1 + 5) ((v 5) 0 1)
  let m := put m (p 0 1 + 6) ((v 6) 0 1)
  let m := put m (p 0 1 + 7) ((v 7) 0 1)
  let m := put m (p 0 2) ((v 0) 0 2)
  let m := put m (p 0 2 + 1) ((v 1) 0 2)
  let m := put m (p 0 2 + 2) ((v 2) 0 2)
  let m := put m (p 0 2 + 3) ((v 3) 0 2)
  let m := put m (p 0 2 + 4) ((v 4) 0 2)
  let m := put m (p 0 2 + 5) ((v 5) 0 2)
  let m := put m (p 0 2 + 6) ((v 6) 0 2)
  let m := put m (p 0 2 + 7) ((v 7) 0 2)
  let m := put m (p 0 3) ((v 0) 0 3)
  let m := put m (p 0 3 + 1) ((v 1) 0 3)
  let m := put m (p 0 3 + 2) ((v 2) 0 3)
  let m := put m (p 0 3 + 3) ((v 3) 0 3)
  let m := put m (p 0 3 + 4) ((v 4) 0 3)
  let m := put m (p 0 3 + 5) ((v 5) 0 3)
  let m := put m (p 0 3 + 6) ((v 6) 0 3)
  let m := put m (p 0 3 + 7) ((v 7) 0 3)
  let m := put m (p 1 0) ((v 0) 1 0)
  let m := put m (p 1 0 + 1) ((v 1) 1 0)
  let m := put m (p 1 0 + 2) ((v 2) 1 0)
  let m := put m (p 1 0 + 3) ((v 3) 1 0)
  let m := put m (p 1 0 + 4) ((v 4) 1 0)
  let m := put m (p 1 0 + 5) ((v 5) 1 0)
  let m := put m (p 1 0 + 6) ((v 6) 1 0)
  let m := put m (p 1 0 + 7) ((v 7) 1 0)
  let m := put m (p 1 1) ((v 0) 1 1)
  let m := put m (p 1 1 + 1) ((v 1) 1 1)
  let m := put m (p 1 1 + 2) ((v 2) 1 1)
  let m := put m (p 1 1 + 3) ((v 3) 1 1)
  let m := put m (p 1 1 + 4) ((v 4) 1 1)
  let m := put m (p 1 1 + 5) ((v 5) 1 1)
  let m := put m (p 1 1 + 6) ((v 6) 1 1)
  let m := put m (p 1 1 + 7) ((v 7) 1 1)
  let m := put m (p 1 2) ((v 0) 1 2)
  let m := put m (p 1 2 + 1) ((v 1) 1 2)
  let m := put m (p 1 2 + 2) ((v 2) 1 2)
  let m := put m (p 1 2 + 3) ((v 3) 1 2)
  let m := put m (p 1 2 + 4) ((v 4) 1 2)
  let m := put m (p 1 2 + 5) ((v 5) 1 2)
  let m := put m (p 1 2 + 6) ((v 6) 1 2)
  let m := put m (p 1 2 + 7) ((v 7) 1 2)
  let m := put m (p 1 3) ((v 0) 1 3)
  let m := put m (p 1 3 + 1) ((v 1) 1 3)
  let m := put m (p 1 3 + 2) ((v 2) 1 3)
  let m := put m (p 1 3 + 3) ((v 3) 1 3)
  let m := put m (p 1 3 + 4) ((v 4) 1 3)
  let m := put m (p 1 3 + 5) ((v 5) 1 3)
  let m := put m (p 1 3 + 6) ((v 6) 1 3)
  let m := put m (p 1 3 + 7) ((v 7) 1 3)
  m

end Verif.Vector.V8Portable
