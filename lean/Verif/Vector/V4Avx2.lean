import Verif.Vector.Instr

/-! Functions of /repo/src/util/v4/v4_avx2.h that move data; written by `tools/gen_vector.py`. -/
namespace Verif.Vector.V4Avx2

variable {α : Type}

/-- `swap`, /repo/src/util/v4/v4_avx2.h:180-187. -/
def swap (v : Fin 2 → Reg 1 α) : (Fin 2 → Reg 1 α) :=
  let t := (v 0)
  let a := (v 1)
  let b := t
  ![a, b]

/-- `transpose`, /repo/src/util/v4/v4_avx2.h:189-207. -/
def transpose (v : Fin 4 → Reg 1 α) : (Fin 4 → Reg 1 α) :=
  let a0_v := (v 0)
  let a1_v := (v 1)
  let a2_v := (v 2)
  let a3_v := (v 3)
  let t := unpackhi a0_v a1_v
  let a0_v := unpacklo a0_v a1_v
  let u := unpackhi a2_v a3_v
  let a2_v := unpacklo a2_v a3_v
  let a1_v := movehl a2_v a0_v
  let a0_v := movelh a0_v a2_v
  let a2_v := movelh t u
  let a3_v := movehl u t
  let a0 := a0_v
  let a1 := a1_v
  let a2 := a2_v
  let a3 := a3_v
  ![a0, a1, a2, a3]

/-- `load_4x1`, /repo/src/util/v4/v4_avx2.h:211-215. -/
def load_4x1 (m : Memory α) (p : ℕ) : Option (Reg 1 α) := do
  let a := (← load1 m (p))
  return a

/-- `store_4x1`, /repo/src/util/v4/v4_avx2.h:217-221. -/
def store_4x1 (m : Memory α) (v : Fin 1 → Reg 1 α) (p : ℕ) : Option (Memory α) := do
  let m ← store1 m (p) (v 0)
  return m

/-- `stream_4x1`, /repo/src/util/v4/v4_avx2.h:223-227. -/
def stream_4x1 (m : Memory α) (v : Fin 1 → Reg 1 α) (p : ℕ) : Option (Memory α) := do
  let m ← store1 m (p) (v 0)
  return m

/-- `clear_4x1`, /repo/src/util/v4/v4_avx2.h:229-232. -/
def clear_4x1 [Zero α] (m : Memory α) (p : ℕ) : Option (Memory α) := do
  let m ← store1 m (p) (setzero : Reg 1 α)
  return m

/-- `copy_4x1`, /repo/src/util/v4/v4_avx2.h:234-238. -/
def copy_4x1 (m : Memory α) (dst : ℕ) (src : ℕ) : Option (Memory α) := do
  let m ← store1 m (dst) (← load1 m (src))
  return m

/-- `swap_4x1`, /repo/src/util/v4/v4_avx2.h:240-247. -/
def swap_4x1 (m : Memory α) (a : ℕ) (b : ℕ) : Option (Memory α) := do
  let t := (← load1 m (a))
  let m ← store1 m (a) (← load1 m (b))
  let m ← store1 m (b) t
  return m

/-- `load_4x1_tr`, /repo/src/util/v4/v4_avx2.h:251-261. -/
def load_4x1_tr (m : Memory α) (p : Fin 1 → Fin 4 → ℕ) : Reg 1 α :=
  let a := one (quad (m (p 0 0)) (m (p 0 1)) (m (p 0 2)) (m (p 0 3)))
  a

/-- `load_4x2_tr`, /repo/src/util/v4/v4_avx2.h:263-279. -/
def load_4x2_tr [Zero α] (m : Memory α) (p : Fin 1 → Fin 4 → ℕ) : (Fin 2 → Reg 1 α) :=
  let b_v := (setzero : Reg 1 α)
  let t := loadh (loadl b_v m (p 0 0)) m (p 0 1)
  let b_v := loadh (loadl b_v m (p 0 2)) m (p 0 3)
  let a := shuffle t b_v 0x88
  let b := shuffle t b_v 0xdd
  ![a, b]

/-- `load_4x3_tr`, /repo/src/util/v4/v4_avx2.h:281-305. -/
def load_4x3_tr (m : Memory α) (p : Fin 1 → Fin 4 → ℕ) : Option ((Fin 3 → Reg 1 α)) := do
  let a := (← load1 m (p 0 0))
  let b := (← load1 m (p 0 1))
  let c := (← load1 m (p 0 2))
  let d_v := (← load1 m (p 0 3))
  let r := unpacklo a b
  let s := unpackhi a b
  let t := unpacklo c d_v
  let u := unpackhi c d_v
  let a := movelh r t
  let b := movehl t r
  let c := movelh s u
  return ![a, b, c]

/-- `load_4x4_tr`, /repo/src/util/v4/v4_avx2.h:338-364. -/
def load_4x4_tr (m : Memory α) (p : Fin 1 → Fin 4 → ℕ) : Option ((Fin 4 → Reg 1 α)) := do
  let a := (← load1 m (p 0 0))
  let b := (← load1 m (p 0 1))
  let c := (← load1 m (p 0 2))
  let d := (← load1 m (p 0 3))
  let r := unpackhi a b
  let s := unpacklo a b
  let t := unpackhi c d
  let u := unpacklo c d
  let a := movelh s u
  let b := movehl u s
  let c := movelh r t
  let d := movehl t r
  return ![a, b, c, d]

/-- `store_4x1_tr`, /repo/src/util/v4/v4_avx2.h:480-490. -/
def store_4x1_tr (m : Memory α) (v : Fin 1 → Reg 1 α) (p : Fin 1 → Fin 4 → ℕ) : Memory α :=
  let m := put m (p 0 0) ((v 0) 0 0)
  let m := put m (p 0 1) ((v 0) 0 1)
  let m := put m (p 0 2) ((v 0) 0 2)
  let m := put m (p 0 3) ((v 0) 0 3)
  m

/-- `store_4x2_tr`, /repo/src/util/v4/v4_avx2.h:492-510. -/
def store_4x2_tr (m : Memory α) (v : Fin 2 → Reg 1 α) (p : Fin 1 → Fin 4 → ℕ) : Memory α :=
  let t := unpacklo (v 0) (v 1)
  let m := storel m (p 0 0) t
  let m := storeh m (p 0 1) t
  let t := unpackhi (v 0) (v 1)
  let m := storel m (p 0 2) t
  let m := storeh m (p 0 3) t
  m

/-- `store_4x3_tr`, /repo/src/util/v4/v4_avx2.h:512-536. -/
def store_4x3_tr (m : Memory α) (v : Fin 3 → Reg 1 α) (p : Fin 1 → Fin 4 → ℕ) : Memory α :=
  let t := unpacklo (v 0) (v 1)
  let m := storel m (p 0 0) t
  let m := storeh m (p 0 1) t
  let t := unpackhi (v 0) (v 1)
  let m := storel m (p 0 2) t
  let m := storeh m (p 0 3) t
  let m := put m (p 0 0 + 2) ((v 2) 0 0)
  let m := put m (p 0 1 + 2) ((v 2) 0 1)
  let m := put m (p 0 2 + 2) ((v 2) 0 2)
  let m := put m (p 0 3 + 2) ((v 2) 0 3)
  m

/-- `store_4x4_tr`, /repo/src/util/v4/v4_avx2.h:538-563. -/
def store_4x4_tr (m : Memory α) (v : Fin 4 → Reg 1 α) (p : Fin 1 → Fin 4 → ℕ) : Option (Memory α) := do
  let t := unpackhi (v 0) (v 1)
  let a_v := unpacklo (v 0) (v 1)
  let u := unpackhi (v 2) (v 3)
  let c_v := unpacklo (v 2) (v 3)
  let b_v := movehl c_v a_v
  let a_v := movelh a_v c_v
  let c_v := movelh t u
  let d_v := movehl u t
  let m ← store1 m (p 0 0) a_v
  let m ← store1 m (p 0 1) b_v
  let m ← store1 m (p 0 2) c_v
  let m ← store1 m (p 0 3) d_v
  return m

end Verif.Vector.V4Avx2
