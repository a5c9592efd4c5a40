import Verif.Vector.Instr

/-! Functions of /repo/src/util/v4/v4_sse.h that move data; written by `tools/gen_vector.py`. -/
namespace Verif.Vector.V4Sse

variable {α : Type}

/-- `swap`, /repo/src/util/v4/v4_sse.h:180-187. -/
def swap (v : Fin 2 → Reg 1 α) : (Fin 2 → Reg 1 α) :=
  let t := (v 0)
  let a := (v 1)
  let b := t
  ![a, b]

/-- `transpose`, /repo/src/util/v4/v4_sse.h:189-207. -/
def transpose (v : Fin 4 → Reg 1 α) : (Fin 4 → Reg 1 α) :=
  let a0_v := (v 0)
  let a1_v := (v 1)
  let a2_v := (v 2)
  let a3_v := (v 3)
  let t := unpackhi a0_v a1_v
  let a0_v := unpacklo a0_v a1_v
  let u := unpackhi a2_v a3_v
  let a2_v := unpacklo a2_v a3_v
  let a1_v := movehl a2_v a0_v
  let a0_v := movelh a0_v a2_v
  let a2_v := movelh t u
  let a3_v := movehl u t
  let a0 := a0_v
  let a1 := a1_v
  let a2 := a2_v
  let a3 := a3_v
  ![a0, a1, a2, a3]

/-- `load_4x1`, /repo/src/util/v4/v4_sse.h:211-215. -/
def load_4x1 (m : Memory α) (p : ℕ) : Option (Reg 1 α) := do
  let a := (← load1 m (p))
  return a

/-- `store_4x1`, /repo/src/util/v4/v4_sse.h:217-221. -/
def store_4x1 (m : Memory α) (v : Fin 1 → Reg 1 α) (p : ℕ) : Option (Memory α) := do
  let m ← store1 m (p) (v 0)
  return m

/-- `stream_4x1`, /repo/src/util/v4/v4_sse.h:223-227. -/
def stream_4x1 (m : Memory α) (v : Fin 1 → Reg 1 α) (p : ℕ) : Option (Memory α) := do
  let m ← store1 m (p) (v 0)
  return m

/-- `clear_4x1`, /repo/src/util/v4/v4_sse.h:229-232. -/
def clear_4x1 [Zero α] (m : Memory α) (p : ℕ) : Option (Memory α) := do
  let m ← store1 m (p) (setzero : Reg 1 α)
  return m

/-- `copy_4x1`, /repo/src/util/v4/v4_sse.h:234-238. -/
def copy_4x1 (m : Memory α) (dst : ℕ) (src : ℕ) : Option (Memory α) := do
  let m ← store1 m (dst) (← load1 m (src))
  return m

/-- `swap_4x1`, /repo/src/util/v4/v4_sse.h:240-247. -/
def swap_4x1 (m : Memory α) (a : ℕ) (b : ℕ) : Option (Memory α) := do
  let t := (← load1 m (a))
  let m ← store1 m (a) (← load1 m (b))
  let m ← store1 m (b) t
  return m

/-- `load_4x1_tr`, /repo/src/util/v4/v4_sse.h:251-261. -/
def load_4x1_tr (m : Memory α) (p : Fin 1 → Fin 4 → ℕ) : Reg 1 α :=
  let a := one (quad (m (p 0 0)) (m (p 0 1)) (m (p 0 2)) (m (p 0 3)))
  a

/-- `load_4x2_tr`, /repo/src/util/v4/v4_sse.h:263-282. -/
def load_4x2_tr [Zero α] (m : Memory α) (p : Fin 1 → Fin 4 → ℕ) : (Fin 2 → Reg 1 α) :=
  let b_v := (setzero : Reg 1 α)
  let t := loadh (loadl b_v m (p 0 0)) m (p 0 1)
  let b_v := loadh (loadl b_v m (p 0 2)) m (p 0 3)
  let a_v := shuffle t b_v 0x88
  let b_v := shuffle t b_v 0xdd
  let a := a_v
  let b := b_v
  ![a, b]

/-- `load_4x3_tr`, /repo/src/util/v4/v4_sse.h:284-312. -/
def load_4x3_tr (m : Memory α) (p : Fin 1 → Fin 4 → ℕ) : Option ((Fin 3 → Reg 1 α)) := do
  let t := (← load1 m (p 0 0))
  let b_v := (← load1 m (p 0 1))
  let c_v := (← load1 m (p 0 2))
  let u := (← load1 m (p 0 3))
  let a_v := unpacklo t b_v
  let b_v := unpackhi t b_v
  let t := unpacklo c_v u
  let u := unpackhi c_v u
  let c_v := movelh b_v u
  let b_v := movehl t a_v
  let a_v := movelh a_v t
  let a := a_v
  let b := b_v
  let c := c_v
  return ![a, b, c]

/-- `load_4x4_tr`, /repo/src/util/v4/v4_sse.h:314-345. -/
def load_4x4_tr (m : Memory α) (p : Fin 1 → Fin 4 → ℕ) : Option ((Fin 4 → Reg 1 α)) := do
  let a_v := (← load1 m (p 0 0))
  let b_v := (← load1 m (p 0 1))
  let c_v := (← load1 m (p 0 2))
  let d_v := (← load1 m (p 0 3))
  let t := unpackhi a_v b_v
  let a_v := unpacklo a_v b_v
  let u := unpackhi c_v d_v
  let c_v := unpacklo c_v d_v
  let b_v := movehl c_v a_v
  let a_v := movelh a_v c_v
  let c_v := movelh t u
  let d_v := movehl u t
  let a := a_v
  let b := b_v
  let c := c_v
  let d := d_v
  return ![a, b, c, d]

/-- `store_4x1_tr`, /repo/src/util/v4/v4_sse.h:347-357. -/
def store_4x1_tr (m : Memory α) (v : Fin 1 → Reg 1 α) (p : Fin 1 → Fin 4 → ℕ) : Memory α :=
  let m := put m (p 0 0) ((v 0) 0 0)
  let m := put m (p 0 1) ((v 0) 0 1)
  let m := put m (p 0 2) ((v 0) 0 2)
  let m := put m (p 0 3) ((v 0) 0 3)
  m

/-- `store_4x2_tr`, /repo/src/util/v4/v4_sse.h:359-377. -/
def store_4x2_tr (m : Memory α) (v : Fin 2 → Reg 1 α) (p : Fin 1 → Fin 4 → ℕ) : Memory α :=
  let a_v := (v 0)
  let b_v := (v 1)
  let t := unpacklo a_v b_v
  let m := storel m (p 0 0) t
  let m := storeh m (p 0 1) t
  let t := unpackhi a_v b_v
  let m := storel m (p 0 2) t
  let m := storeh m (p 0 3) t
  m

/-- `store_4x3_tr`, /repo/src/util/v4/v4_sse.h:379-403. -/
def store_4x3_tr (m : Memory α) (v : Fin 3 → Reg 1 α) (p : Fin 1 → Fin 4 → ℕ) : Memory α :=
  let a_v := (v 0)
  let b_v := (v 1)
  let t := unpacklo a_v b_v
  let m := storel m (p 0 0) t
  let m := storeh m (p 0 1) t
  let t := unpackhi a_v b_v
  let m := storel m (p 0 2) t
  let m := storeh m (p 0 3) t
  let m := put m (p 0 0 + 2) ((v 2) 0 0)
  let m := put m (p 0 1 + 2) ((v 2) 0 1)
  let m := put m (p 0 2 + 2) ((v 2) 0 2)
  let m := put m (p 0 3 + 2) ((v 2) 0 3)
  m

/-- `store_4x4_tr`, /repo/src/util/v4/v4_sse.h:405-430. -/
def store_4x4_tr (m : Memory α) (v : Fin 4 → Reg 1 α) (p : Fin 1 → Fin 4 → ℕ) : Option (Memory α) := do
  let a_v := (v 0)
  let b_v := (v 1)
  let c_v := (v 2)
  let d_v := (v 3)
  let t := unpackhi a_v b_v
  let a_v := unpacklo a_v b_v
  let u := unpackhi c_v d_v
  let c_v := unpacklo c_v d_v
  let b_v := movehl c_v a_v
  let a_v := movelh a_v c_v
  let c_v := movelh t u
  let d_v := movehl u t
  let m ← store1 m (p 0 0) a_v
  let m ← store1 m (p 0 1) b_v
  let m ← store1 m (p 0 2) c_v
  let m ← store1 m (p 0 3) d_v
  return m

end Verif.Vector.V4Sse
