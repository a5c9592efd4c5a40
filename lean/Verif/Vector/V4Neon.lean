import Verif.Vector.Instr

/-! Functions of /repo/src/util/v4/v4_neon.h that move data; written by `tools/gen_vector.py`. -/
namespace Verif.Vector.V4Neon

variable {α : Type}

/-- `swap`, /repo/src/util/v4/v4_neon.h:224-235. -/
def swap (v : Fin 2 → Reg 1 α) : (Fin 2 → Reg 1 α) :=
  let s := (v 0) 0 0
  let a_0 := (v 1) 0 0
  let b_0 := s
  let s := (v 0) 0 1
  let a_1 := (v 1) 0 1
  let b_1 := s
  let s := (v 0) 0 2
  let a_2 := (v 1) 0 2
  let b_2 := s
  let s := (v 0) 0 3
  let a_3 := (v 1) 0 3
  let b_3 := s
  let a := one (quad (a_0) (a_1) (a_2) (a_3))
  let b := one (quad (b_0) (b_1) (b_2) (b_3))
  ![a, b]

/-- `transpose`, /repo/src/util/v4/v4_neon.h:238-250. -/
def transpose (v : Fin 4 → Reg 1 α) : (Fin 4 → Reg 1 α) :=
  let r_0 := trn1 (v 0) (v 1)
  let r_1 := trn2 (v 0) (v 1)
  let s_0 := trn1 (v 2) (v 3)
  let s_1 := trn2 (v 2) (v 3)
  let a0 := trn1d r_0 s_0
  let a2 := trn2d r_0 s_0
  let a1 := trn1d r_1 s_1
  let a3 := trn2d r_1 s_1
  ![a0, a1, a2, a3]

/-- `load_4x1`, /repo/src/util/v4/v4_neon.h:286-290. -/
def load_4x1 (m : Memory α) (p : ℕ) : Reg 1 α :=
  let a := ldq m (p)
  a

/-- `store_4x1`, /repo/src/util/v4/v4_neon.h:292-296. -/
def store_4x1 (m : Memory α) (v : Fin 1 → Reg 1 α) (p : ℕ) : Memory α :=
  let m := stq m (p) (v 0)
  m

/-- `stream_4x1`, /repo/src/util/v4/v4_neon.h:298-304. -/
def stream_4x1 (m : Memory α) (v : Fin 1 → Reg 1 α) (p : ℕ) : Memory α :=
  let m := put m (p) ((v 0) 0 0)
  let m := put m (p + 1) ((v 0) 0 1)
  let m := put m (p + 2) ((v 0) 0 2)
  let m := put m (p + 3) ((v 0) 0 3)
  m

/-- `clear_4x1`, /repo/src/util/v4/v4_neon.h:306-309. -/
def clear_4x1 [Zero α] (m : Memory α) (p : ℕ) : Memory α :=
  let m := stq m (p) (setzero : Reg 1 α)
  m

/-- `copy_4x1`, /repo/src/util/v4/v4_neon.h:311-315. -/
def copy_4x1 (m : Memory α) (dst : ℕ) (src : ℕ) : Memory α :=
  let m := stq m (dst) (ldq m (src))
  m

/-- `swap_4x1`, /repo/src/util/v4/v4_neon.h:317-324. -/
def swap_4x1 (m : Memory α) (a : ℕ) (b : ℕ) : Memory α :=
  let t := ldq m (a)
  let m := stq m (a) (ldq m (b))
  let m := stq m (b) t
  m

/-- `load_4x1_tr`, /repo/src/util/v4/v4_neon.h:328-338. -/
def load_4x1_tr (m : Memory α) (p : Fin 1 → Fin 4 → ℕ) : Reg 1 α :=
  let a_0 := m (p 0 0)
  let a_1 := m (p 0 1)
  let a_2 := m (p 0 2)
  let a_3 := m (p 0 3)
  let a := one (quad a_0 a_1 a_2 a_3)
  a

/-- `load_4x2_tr`, /repo/src/util/v4/v4_neon.h:340-362. -/
def load_4x2_tr (m : Memory α) (p : Fin 1 → Fin 4 → ℕ) : (Fin 2 → Reg 1 α) :=
  let a := ldq m (p 0 0)
  let b := ldq m (p 0 1)
  let a2_v := ldq m (p 0 2)
  let a3_v := ldq m (p 0 3)
  let r := trn1 a b
  let s := trn2 a b
  let t := trn1 a2_v a3_v
  let u := trn2 a2_v a3_v
  let a := trn1d r t
  let b := trn1d s u
  ![a, b]

/-- `load_4x3_tr`, /repo/src/util/v4/v4_neon.h:364-388. -/
def load_4x3_tr (m : Memory α) (p : Fin 1 → Fin 4 → ℕ) : (Fin 3 → Reg 1 α) :=
  let a := ldq m (p 0 0)
  let b := ldq m (p 0 1)
  let c := ldq m (p 0 2)
  let d_v := ldq m (p 0 3)
  let r := trn1 a b
  let s := trn2 a b
  let t := trn1 c d_v
  let u := trn2 c d_v
  let a := trn1d r t
  let b := trn1d s u
  let c := trn2d r t
  ![a, b, c]

/-- `load_4x4_tr`, /repo/src/util/v4/v4_neon.h:390-416. -/
def load_4x4_tr (m : Memory α) (p : Fin 1 → Fin 4 → ℕ) : (Fin 4 → Reg 1 α) :=
  let a := ldq m (p 0 0)
  let b := ldq m (p 0 1)
  let c := ldq m (p 0 2)
  let d := ldq m (p 0 3)
  let r := trn1 a b
  let s := trn2 a b
  let t := trn1 c d
  let u := trn2 c d
  let a := trn1d r t
  let b := trn1d s u
  let c := trn2d r t
  let d := trn2d s u
  ![a, b, c, d]

/-- `load_4x8_tr`, /repo/src/util/v4/v4_neon.h:419-444. -/
def load_4x8_tr (m : Memory α) (p : Fin 1 → Fin 4 → ℕ) : (Fin 8 → Reg 1 α) :=
  let mat0_0 := ld4 m (p 0 0) 0
  let mat0_1 := ld4 m (p 0 0) 1
  let mat0_2 := ld4 m (p 0 0) 2
  let mat0_3 := ld4 m (p 0 0) 3
  let mat2_0 := ld4 m (p 0 2) 0
  let mat2_1 := ld4 m (p 0 2) 1
  let mat2_2 := ld4 m (p 0 2) 2
  let mat2_3 := ld4 m (p 0 2) 3
  let b00 := uzp1 mat0_0 mat2_0
  let b01 := uzp1 mat0_1 mat2_1
  let b02 := uzp1 mat0_2 mat2_2
  let b03 := uzp1 mat0_3 mat2_3
  let b04 := uzp2 mat0_0 mat2_0
  let b05 := uzp2 mat0_1 mat2_1
  let b06 := uzp2 mat0_2 mat2_2
  let b07 := uzp2 mat0_3 mat2_3
  ![b00, b01, b02, b03, b04, b05, b06, b07]

/-- `load_4x16_tr`, /repo/src/util/v4/v4_neon.h:448-514. -/
def load_4x16_tr (m : Memory α) (p : Fin 1 → Fin 4 → ℕ) : (Fin 16 → Reg 1 α) :=
  let mat0_0 := ld4 m (p 0 0) 0
  let mat0_1 := ld4 m (p 0 0) 1
  let mat0_2 := ld4 m (p 0 0) 2
  let mat0_3 := ld4 m (p 0 0) 3
  let mat1_0 := ld4 m (p 0 1) 0
  let mat1_1 := ld4 m (p 0 1) 1
  let mat1_2 := ld4 m (p 0 1) 2
  let mat1_3 := ld4 m (p 0 1) 3
  let mat2_0 := ld4 m (p 0 2) 0
  let mat2_1 := ld4 m (p 0 2) 1
  let mat2_2 := ld4 m (p 0 2) 2
  let mat2_3 := ld4 m (p 0 2) 3
  let mat3_0 := ld4 m (p 0 3) 0
  let mat3_1 := ld4 m (p 0 3) 1
  let mat3_2 := ld4 m (p 0 3) 2
  let mat3_3 := ld4 m (p 0 3) 3
  let c00 := uzp1 mat0_0 mat1_0
  let c01 := uzp1 mat0_1 mat1_1
  let c02 := uzp1 mat0_2 mat1_2
  let c03 := uzp1 mat0_3 mat1_3
  let c04 := uzp2 mat0_0 mat1_0
  let c05 := uzp2 mat0_1 mat1_1
  let c06 := uzp2 mat0_2 mat1_2
  let c07 := uzp2 mat0_3 mat1_3
  let c08 := uzp1 mat2_0 mat3_0
  let c09 := uzp1 mat2_1 mat3_1
  let c10 := uzp1 mat2_2 mat3_2
  let c11 := uzp1 mat2_3 mat3_3
  let c12 := uzp2 mat2_0 mat3_0
  let c13 := uzp2 mat2_1 mat3_1
  let c14 := uzp2 mat2_2 mat3_2
  let c15 := uzp2 mat2_3 mat3_3
  let b00 := uzp1 c00 c08
  let b01 := uzp1 c01 c09
  let b02 := uzp1 c02 c10
  let b03 := uzp1 c03 c11
  let b04 := uzp1 c04 c12
  let b05 := uzp1 c05 c13
  let b06 := uzp1 c06 c14
  let b07 := uzp1 c07 c15
  let b08 := uzp2 c00 c08
  let b09 := uzp2 c01 c09
  let b10 := uzp2 c02 c10
  let b11 := uzp2 c03 c11
  let b12 := uzp2 c04 c12
  let b13 := uzp2 c05 c13
  let b14 := uzp2 c06 c14
  let b15 := uzp2 c07 c15
  ![b00, b01, b02, b03, b04, b05, b06, b07, b08, b09, b10, b11, b12, b13, b14, b15]

/-- `store_4x1_tr`, /repo/src/util/v4/v4_neon.h:517-527. -/
def store_4x1_tr (m : Memory α) (v : Fin 1 → Reg 1 α) (p : Fin 1 → Fin 4 → ℕ) : Memory α :=
  let m := put m (p 0 0) ((v 0) 0 0)
  let m := put m (p 0 1) ((v 0) 0 1)
  let m := put m (p 0 2) ((v 0) 0 2)
  let m := put m (p 0 3) ((v 0) 0 3)
  m

/-- `store_4x2_tr`, /repo/src/util/v4/v4_neon.h:529-559. -/
def store_4x2_tr (m : Memory α) (v : Fin 2 → Reg 1 α) (p : Fin 1 → Fin 4 → ℕ) : Memory α :=
  let m := put m (p 0 0) ((v 0) 0 0)
  let m := put m (p 0 0 + 1) ((v 1) 0 0)
  let m := put m (p 0 1) ((v 0) 0 1)
  let m := put m (p 0 1 + 1) ((v 1) 0 1)
  let m := put m (p 0 2) ((v 0) 0 2)
  let m := put m (p 0 2 + 1) ((v 1) 0 2)
  let m := put m (p 0 3) ((v 0) 0 3)
  let m := put m (p 0 3 + 1) ((v 1) 0 3)
  m

/-- `store_4x3_tr`, /repo/src/util/v4/v4_neon.h:561-601. -/
def store_4x3_tr (m : Memory α) (v : Fin 3 → Reg 1 α) (p : Fin 1 → Fin 4 → ℕ) : Memory α :=
  let m := put m (p 0 0) ((v 0) 0 0)
  let m := put m (p 0 0 + 1) ((v 1) 0 0)
  let m := put m (p 0 0 + 2) ((v 2) 0 0)
  let m := put m (p 0 1) ((v 0) 0 1)
  let m := put m (p 0 1 + 1) ((v 1) 0 1)
  let m := put m (p 0 1 + 2) ((v 2) 0 1)
  let m := put m (p 0 2) ((v 0) 0 2)
  let m := put m (p 0 2 + 1) ((v 1) 0 2)
  let m := put m (p 0 2 + 2) ((v 2) 0 2)
  let m := put m (p 0 3) ((v 0) 0 3)
  let m := put m (p 0 3 + 1) ((v 1) 0 3)
  let m := put m (p 0 3 + 2) ((v 2) 0 3)
  m

/-- `store_4x4_tr`, /repo/src/util/v4/v4_neon.h:603-624. -/
def store_4x4_tr (m : Memory α) (v : Fin 4 → Reg 1 α) (p : Fin 1 → Fin 4 → ℕ) : Memory α :=
  let r := trn1 (v 0) (v 1)
  let s := trn2 (v 0) (v 1)
  let t := trn1 (v 2) (v 3)
  let u := trn2 (v 2) (v 3)
  let m := stq m (p 0 0) (trn1d r t)
  let m := stq m (p 0 1) (trn1d s u)
  let m := stq m (p 0 2) (trn2d r t)
  let m := stq m (p 0 3) (trn2d s u)
  m

/-- `store_4x8_tr`, /repo/src/util/v4/v4_neon.h:627-654. -/
def store_4x8_tr (m : Memory α) (v : Fin 8 → Reg 1 α) (p : Fin 1 → Fin 4 → ℕ) : Memory α :=
  let mat0_0 := uzp1 (v 0) (v 4)
  let mat0_1 := uzp1 (v 1) (v 5)
  let mat0_2 := uzp1 (v 2) (v 6)
  let mat0_3 := uzp1 (v 3) (v 7)
  let mat2_0 := uzp2 (v 0) (v 4)
  let mat2_1 := uzp2 (v 1) (v 5)
  let mat2_2 := uzp2 (v 2) (v 6)
  let mat2_3 := uzp2 (v 3) (v 7)
  let m := st4 m (p 0 0) mat0_0 mat0_1 mat0_2 mat0_3
  let m := st4 m (p 0 2) mat2_0 mat2_1 mat2_2 mat2_3
  m

end Verif.Vector.V4Neon
