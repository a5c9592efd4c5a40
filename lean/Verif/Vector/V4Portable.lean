import Verif.Vector.Instr

/-! Functions of /repo/src/util/v4/v4_portable.h that move data; written by `tools/gen_vector.py`. -/
namespace Verif.Vector.V4Portable

variable {α : Type}

/-- `swap`, /repo/src/util/v4/v4_portable.h:181-187. -/
def swap (v : Fin 2 → Reg 1 α) : (Fin 2 → Reg 1 α) :=
  let s := (v 0) 0 0
  let a_0 := (v 1) 0 0
  let b_0 := s
  let s := (v 0) 0 1
  let a_1 := (v 1) 0 1
  let b_1 := s
  let s := (v 0) 0 2
  let a_2 := (v 1) 0 2
  let b_2 := s
  let s := (v 0) 0 3
  let a_3 := (v 1) 0 3
  let b_3 := s
  let a := one (quad (a_0) (a_1) (a_2) (a_3))
  let b := one (quad (b_0) (b_1) (b_2) (b_3))
  ![a, b]

/-- `transpose`, /repo/src/util/v4/v4_portable.h:189-194. -/
def transpose (v : Fin 4 → Reg 1 α) : (Fin 4 → Reg 1 α) :=
  let s := (v 0) 0 1
  let a0_1 := (v 1) 0 0
  let a1_0 := s
  let s := (v 0) 0 2
  let a0_2 := (v 2) 0 0
  let a2_0 := s
  let s := (v 0) 0 3
  let a0_3 := (v 3) 0 0
  let a3_0 := s
  let s := (v 1) 0 2
  let a1_2 := (v 2) 0 1
  let a2_1 := s
  let s := (v 1) 0 3
  let a1_3 := (v 3) 0 1
  let a3_1 := s
  let s := (v 2) 0 3
  let a2_3 := (v 3) 0 2
  let a3_2 := s
  let a0 := one (quad ((v 0) 0 0) (a0_1) (a0_2) (a0_3))
  let a1 := one (quad (a1_0) ((v 1) 0 1) (a1_2) (a1_3))
  let a2 := one (quad (a2_0) (a2_1) ((v 2) 0 2) (a2_3))
  let a3 := one (quad (a3_0) (a3_1) (a3_2) ((v 3) 0 3))
  ![a0, a1, a2, a3]

/-- `load_4x1`, /repo/src/util/v4/v4_portable.h:200-207. -/
def load_4x1 (m : Memory α) (p : ℕ) : Reg 1 α :=
  let a_0 := m p
  let a_1 := m (p + 1)
  let a_2 := m (p + 2)
  let a_3 := m (p + 3)
  let a := one (quad a_0 a_1 a_2 a_3)
  a

/-- `store_4x1`, /repo/src/util/v4/v4_portable.h:209-216. -/
def store_4x1 (m : Memory α) (v : Fin 1 → Reg 1 α) (p : ℕ) : Memory α :=
  let m := put m (p) ((v 0) 0 0)
  let m := put m (p + 1) ((v 0) 0 1)
  let m := put m (p + 2) ((v 0) 0 2)
  let m := put m (p + 3) ((v 0) 0 3)
  m

/-- `stream_4x1`, /repo/src/util/v4/v4_portable.h:218-225. -/
def stream_4x1 (m : Memory α) (v : Fin 1 → Reg 1 α) (p : ℕ) : Memory α :=
  let m := put m (p) ((v 0) 0 0)
  let m := put m (p + 1) ((v 0) 0 1)
  let m := put m (p + 2) ((v 0) 0 2)
  let m := put m (p + 3) ((v 0) 0 3)
  m

/-- `clear_4x1`, /repo/src/util/v4/v4_portable.h:227-233. -/
def clear_4x1 [Zero α] (m : Memory α) (p : ℕ) : Memory α :=
  let m := put m (p) 0
  let m := put m (p + 1) 0
  let m := put m (p + 2) 0
  let m := put m (p + 3) 0
  m

/-- `copy_4x1`, /repo/src/util/v4/v4_portable.h:235-242. -/
def copy_4x1 (m : Memory α) (dst : ℕ) (src : ℕ) : Memory α :=
  let m := put m (dst) (m src)
  let m := put m (dst + 1) (m (src + 1))
  let m := put m (dst + 2) (m (src + 2))
  let m := put m (dst + 3) (m (src + 3))
  m

/-- `swap_4x1`, /repo/src/util/v4/v4_portable.h:244-268. -/
def swap_4x1 (m : Memory α) (a : ℕ) (b : ℕ) : Memory α :=
  let t := m a
  let m := put m (a) (m b)
  let m := put m (b) t
  let t := m (a + 1)
  let m := put m (a + 1) (m (b + 1))
  let m := put m (b + 1) t
  let t := m (a + 2)
  let m := put m (a + 2) (m (b + 2))
  let m := put m (b + 2) t
  let t := m (a + 3)
  let m := put m (a + 3) (m (b + 3))
  let m := put m (b + 3) t
  m

/-- `load_4x1_tr`, /repo/src/util/v4/v4_portable.h:272-282. -/
def load_4x1_tr (m : Memory α) (p : Fin 1 → Fin 4 → ℕ) : Reg 1 α :=
  let a_0 := m (p 0 0)
  let a_1 := m (p 0 1)
  let a_2 := m (p 0 2)
  let a_3 := m (p 0 3)
  let a := one (quad a_0 a_1 a_2 a_3)
  a

/-- `load_4x2_tr`, /repo/src/util/v4/v4_portable.h:284-302. -/
def load_4x2_tr (m : Memory α) (p : Fin 1 → Fin 4 → ℕ) : (Fin 2 → Reg 1 α) :=
  let a_0 := m (p 0 0)
  let b_0 := m (p 0 0 + 1)
  let a_1 := m (p 0 1)
  let b_1 := m (p 0 1 + 1)
  let a_2 := m (p 0 2)
  let b_2 := m (p 0 2 + 1)
  let a_3 := m (p 0 3)
  let a := one (quad a_0 a_1 a_2 a_3)
  let b_3 := m (p 0 3 + 1)
  let b := one (quad b_0 b_1 b_2 b_3)
  ![a, b]

/-- `load_4x3_tr`, /repo/src/util/v4/v4_portable.h:304-327. -/
def load_4x3_tr (m : Memory α) (p : Fin 1 → Fin 4 → ℕ) : (Fin 3 → Reg 1 α) :=
  let a_0 := m (p 0 0)
  let b_0 := m (p 0 0 + 1)
  let c_0 := m (p 0 0 + 2)
  let a_1 := m (p 0 1)
  let b_1 := m (p 0 1 + 1)
  let c_1 := m (p 0 1 + 2)
  let a_2 := m (p 0 2)
  let b_2 := m (p 0 2 + 1)
  let c_2 := m (p 0 2 + 2)
  let a_3 := m (p 0 3)
  let a := one (quad a_0 a_1 a_2 a_3)
  let b_3 := m (p 0 3 + 1)
  let b := one (quad b_0 b_1 b_2 b_3)
  let c_3 := m (p 0 3 + 2)
  let c := one (quad c_0 c_1 c_2 c_3)
  ![a, b, c]

/-- `load_4x4_tr`, /repo/src/util/v4/v4_portable.h:329-357. -/
def load_4x4_tr (m : Memory α) (p : Fin 1 → Fin 4 → ℕ) : (Fin 4 → Reg 1 α) :=
  let a_0 := m (p 0 0)
  let b_0 := m (p 0 0 + 1)
  let c_0 := m (p 0 0 + 2)
  let d_0 := m (p 0 0 + 3)
  let a_1 := m (p 0 1)
  let b_1 := m (p 0 1 + 1)
  let c_1 := m (p 0 1 + 2)
  let d_1 := m (p 0 1 + 3)
  let a_2 := m (p 0 2)
  let b_2 := m (p 0 2 + 1)
  let c_2 := m (p 0 2 + 2)
  let d_2 := m (p 0 2 + 3)
  let a_3 := m (p 0 3)
  let a := one (quad a_0 a_1 a_2 a_3)
  let b_3 := m (p 0 3 + 1)
  let b := one (quad b_0 b_1 b_2 b_3)
  let c_3 := m (p 0 3 + 2)
  let c := one (quad c_0 c_1 c_2 c_3)
  let d_3 := m (p 0 3 + 3)
  let d := one (quad d_0 d_1 d_2 d_3)
  ![a, b, c, d]

/-- `store_4x1_tr`, /repo/src/util/v4/v4_portable.h:359-369. -/
def store_4x1_tr (m : Memory α) (v : Fin 1 → Reg 1 α) (p : Fin 1 → Fin 4 → ℕ) : Memory α :=
  let m := put m (p 0 0) ((v 0) 0 0)
  let m := put m (p 0 1) ((v 0) 0 1)
  let m := put m (p 0 2) ((v 0) 0 2)
  let m := put m (p 0 3) ((v 0) 0 3)
  m

/-- `store_4x2_tr`, /repo/src/util/v4/v4_portable.h:371-389. -/
def store_4x2_tr (m : Memory α) (v : Fin 2 → Reg 1 α) (p : Fin 1 → Fin 4 → ℕ) : Memory α :=
  let m := put m (p 0 0) ((v 0) 0 0)
  let m := put m (p 0 0 + 1) ((v 1) 0 0)
  let m := put m (p 0 1) ((v 0) 0 1)
  let m := put m (p 0 1 + 1) ((v 1) 0 1)
  let m := put m (p 0 2) ((v 0) 0 2)
  let m := put m (p 0 2 + 1) ((v 1) 0 2)
  let m := put m (p 0 3) ((v 0) 0 3)
  let m := put m (p 0 3 + 1) ((v 1) 0 3)
  m

/-- `store_4x3_tr`, /repo/src/util/v4/v4_portable.h:391-414. -/
def store_4x3_tr (m : Memory α) (v : Fin 3 → Reg 1 α) (p : Fin 1 → Fin 4 → ℕ) : Memory α :=
  let m := put m (p 0 0) ((v 0) 0 0)
  let m := put m (p 0 0 + 1) ((v 1) 0 0)
  let m := put m (p 0 0 + 2) ((v 2) 0 0)
  let m := put m (p 0 1) ((v 0) 0 1)
  let m := put m (p 0 1 + 1) ((v 1) 0 1)
  let m := put m (p 0 1 + 2) ((v 2) 0 1)
  let m := put m (p 0 2) ((v 0) 0 2)
  let m := put m (p 0 2 + 1) ((v 1) 0 2)
  let m := put m (p 0 2 + 2) ((v 2) 0 2)
  let m := put m (p 0 3) ((v 0) 0 3)
  let m := put m (p 0 3 + 1) ((v 1) 0 3)
  let m := put m (p 0 3 + 2) ((v 2) 0 3)
  m

/-- `store_4x4_tr`, /repo/src/util/v4/v4_portable.h:416-444. -/
def store_4x4_tr (m : Memory α) (v : Fin 4 → Reg 1 α) (p : Fin 1 → Fin 4 → ℕ) : Memory α :=
  let m := put m (p 0 0) ((v 0) 0 0)
  let m := put m (p 0 0 + 1) ((v 1) 0 0)
  let m := put m (p 0 0 + 2) ((v 2) 0 0)
  let m := put m (p 0 0 + 3) ((v 3) 0 0)
  let m := put m (p 0 1) ((v 0) 0 1)
  let m := put m (p 0 1 + 1) ((v 1) 0 1)
  let m := put m (p 0 1 + 2) ((v 2) 0 1)
  let m := put m (p 0 1 + 3) ((v 3) 0 1)
  let m := put m (p 0 2) ((v 0) 0 2)
  let m := put m (p 0 2 + 1) ((v 1) 0 2)
  let m := put m (p 0 2 + 2) ((v 2) 0 2)
  let m := put m (p 0 2 + 3) ((v 3) 0 2)
  let m := put m (p 0 3) ((v 0) 0 3)
  let m := put m (p 0 3 + 1) ((v 1) 0 3)
  let m := put m (p 0 3 + 2) ((v 2) 0 3)
  let m := put m (p 0 3 + 3) ((v 3) 0 3)
  m

end Verif.Vector.V4Portable
