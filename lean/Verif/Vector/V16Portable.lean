import Verif.Vector.Instr

/-! Functions of /repo/src/util/v16/v16_portable.h that move data; written by `tools/gen_vector.py`. -/
namespace Verif.Vector.V16Portable

variable {α : Type}

/-- `swap`, /repo/src/util/v16/v16_portable.h:429-447. -/
def swap (v : Fin 2 → Reg 4 α) : (Fin 2 → Reg 4 α) :=
  let s := (v 0) 0 0
  let a_0 := (v 1) 0 0
  let b_0 := s
  let s := (v 0) 0 1
  let a_1 := (v 1) 0 1
  let b_1 := s
  let s := (v 0) 0 2
  let a_2 := (v 1) 0 2
  let b_2 := s
  let s := (v 0) 0 3
  let a_3 := (v 1) 0 3
  let b_3 := s
  let s := (v 0) 1 0
  let a_4 := (v 1) 1 0
  let b_4 := s
  let s := (v 0) 1 1
  let a_5 := (v 1) 1 1
  let b_5 := s
  let s := (v 0) 1 2
  let a_6 := (v 1) 1 2
  let b_6 := s
  let s := (v 0) 1 3
  let a_7 := (v 1) 1 3
  let b_7 := s
  let s := (v 0) 2 0
  let a_8 := (v 1) 2 0
  let b_8 := s
  let s := (v 0) 2 1
  let a_9 := (v 1) 2 1
  let b_9 := s
  let s := (v 0) 2 2
  let a_10 := (v 1) 2 2
  let b_10 := s
  let s := (v 0) 2 3
  let a_11 := (v 1) 2 3
  let b_11 := s
  let s := (v 0) 3 0
  let a_12 := (v 1) 3 0
  let b_12 := s
  let s := (v 0) 3 1
  let a_13 := (v 1) 3 1
  let b_13 := s
  let s := (v 0) 3 2
  let a_14 := (v 1) 3 2
  let b_14 := s
  let s := (v 0) 3 3
  let a_15 := (v 1) 3 3
  let b_15 := s
  let a := four (quad (a_0) (a_1) (a_2) (a_3)) (quad (a_4) (a_5) (a_6) (a_7)) (quad (a_8) (a_9) (a_10) (a_11)) (quad (a_12) (a_13) (a_14) (a_15))
  let b := four (quad (b_0) (b_1) (b_2) (b_3)) (quad (b_4) (b_5) (b_6) (b_7)) (quad (b_8) (b_9) (b_10) (b_11)) (quad (b_12) (b_13) (b_14) (b_15))
  ![a, b]

/-- `transpose`, /repo/src/util/v16/v16_portable.h:449-469. -/
def transpose (v : Fin 16 → Reg 4 α) : (Fin 16 → Reg 4 α) :=
  let s := (v 0) 0 1
  let a00_1 := (v 1) 0 0
  let a01_0 := s
  let s := (v 0) 0 2
  let a00_2 := (v 2) 0 0
  let a02_0 := s
  let s := (v 0) 0 3
  let a00_3 := (v 3) 0 0
  let a03_0 := s
  let s := (v 0) 1 0
  let a00_4 := (v 4) 0 0
  let a04_0 := s
  let s := (v 0) 1 1
  let a00_5 := (v 5) 0 0
  let a05_0 := s
  let s := (v 0) 1 2
  let a00_6 := (v 6) 0 0
  let a06_0 := s
  let s := (v 0) 1 3
  let a00_7 := (v 7) 0 0
  let a07_0 := s
  let s := (v 0) 2 0
  let a00_8 := (v 8) 0 0
  let a08_0 := s
  let s := (v 0) 2 1
  let a00_9 := (v 9) 0 0
  let a09_0 := s
  let s := (v 0) 2 2
  let a00_10 := (v 10) 0 0
  let a10_0 := s
  let s := (v 0) 2 3
  let a00_11 := (v 11) 0 0
  let a11_0 := s
  let s := (v 0) 3 0
  let a00_12 := (v 12) 0 0
  let a12_0 := s
  let s := (v 0) 3 1
  let a00_13 := (v 13) 0 0
  let a13_0 := s
  let s := (v 0) 3 2
  let a00_14 := (v 14) 0 0
  let a14_0 := s
  let s := (v 0) 3 3
  let a00_15 := (v 15) 0 0
  let a15_0 := s
  let s := (v 1) 0 2
  let a01_2 := (v 2) 0 1
  let a02_1 := s
  let s := (v 1) 0 3
  let a01_3 := (v 3) 0 1
  let a03_1 := s
  let s := (v 1) 1 0
  let a01_4 := (v 4) 0 1
  let a04_1 := s
  let s := (v 1) 1 1
  let a01_5 := (v 5) 0 1
  let a05_1 := s
  let s := (v 1) 1 2
  let a01_6 := (v 6) 0 1
  let a06_1 := s
  let s := (v 1) 1 3
  let a01_7 := (v 7) 0 1
  let a07_1 := s
  let s := (v 1) 2 0
  let a01_8 := (v 8) 0 1
  let a08_1 := s
  let s := (v 1) 2 1
  let a01_9 := (v 9) 0 1
  let a09_1 := s
  let s := (v 1) 2 2
  let a01_10 := (v 10) 0 1
  let a10_1 := s
  let s := (v 1) 2 3
  let a01_11 := (v 11) 0 1
  let a11_1 := s
  let s := (v 1) 3 0
  let a01_12 := (v 12) 0 1
  let a12_1 := s
  let s := (v 1) 3 1
  let a01_13 := (v 13) 0 1
  let a13_1 := s
  let s := (v 1) 3 2
  let a01_14 := (v 14) 0 1
  let a14_1 := s
  let s := (v 1) 3 3
  let a01_15 := (v 15) 0 1
  let a15_1 := s
  let s := (v 2) 0 3
  let a02_3 := (v 3) 0 2
  let a03_2 := s
  let s := (v 2) 1 0
  let a02_4 := (v 4) 0 2
  let a04_2 := s
  let s := (v 2) 1 1
  let a02_5 := (v 5) 0 2
  let a05_2 := s
  let s := (v 2) 1 2
  let a02_6 := (v 6) 0 2
  let a06_2 := s
  let s := (v 2) 1 3
  let a02_7 := (v 7) 0 2
  let a07_2 := s
  let s := (v 2) 2 0
  let a02_8 := (v 8) 0 2
  let a08_2 := s
  let s := (v 2) 2 1
  let a02_9 := (v 9) 0 2
  let a09_2 := s
  let s := (v 2) 2 2
  let a02_10 := (v 10) 0 2
  let a10_2 := s
  let s := (v 2) 2 3
  let a02_11 := (v 11) 0 2
  let a11_2 := s
  let s := (v 2) 3 0
  let a02_12 := (v 12) 0 2
  let a12_2 := s
  let s := (v 2) 3 1
  let a02_13 := (v 13) 0 2
  let a13_2 := s
  let s := (v 2) 3 2
  let a02_14 := (v 14) 0 2
  let a14_2 := s
  let s := (v 2) 3 3
  let a02_15 := (v 15) 0 2
  let a15_2 := s
  let s := (v 3) 1 0
  let a03_4 := (v 4) 0 3
  let a04_3 := s
  let s := (v 3) 1 1
  let a03_5 := (v 5) 0 3
  let a05_3 := s
  let s := (v 3) 1 2
  let a03_6 := (v 6) 0 3
  let a06_3 := s
  let s := (v 3) 1 3
  let a03_7 := (v 7) 0 3
  let a07_3 := s
  let s := (v 3) 2 0
  let a03_8 := (v 8) 0 3
  let a08_3 := s
  let s := (v 3) 2 1
  let a03_9 := (v 9) 0 3
  let a09_3 := s
  let s := (v 3) 2 2
  let a03_10 := (v 10) 0 3
  let a10_3 := s
  let s := (v 3) 2 3
  let a03_11 := (v 11) 0 3
  let a11_3 := s
  let s := (v 3) 3 0
  let a03_12 := (v 12) 0 3
  let a12_3 := s
  let s := (v 3) 3 1
  let a03_13 := (v 13) 0 3
  let a13_3 := s
  let s := (v 3) 3 2
  let a03_14 := (v 14) 0 3
  let a14_3 := s
  let s := (v 3) 3 3
  let a03_15 := (v 15) 0 3
  let a15_3 := s
  let s := (v 4) 1 1
  let a04_5 := (v 5) 1 0
  let a05_4 := s
  let s := (v 4) 1 2
  let a04_6 := (v 6) 1 0
  let a06_4 := s
  let s := (v 4) 1 3
  let a04_7 := (v 7) 1 0
  let a07_4 := s
  let s := (v 4) 2 0
  let a04_8 := (v 8) 1 0
  let a08_4 := s
  let s := (v 4) 2 1
  let a04_9 := (v 9) 1 0
  let a09_4 := s
  let s := (v 4) 2 2
  let a04_10 := (v 10) 1 0
  let a10_4 := s
  let s := (v 4) 2 3
  let a04_11 := (v 11) 1 0
  let a11_4 := s
  let s := (v 4) 3 0
  let a04_12 := (v 12) 1 0
  let a12_4 := s
  let s := (v 4) 3 1
  let a04_13 := (v 13) 1 0
  let a13_4 := s
  let s := (v 4) 3 2
  let a04_14 := (v 14) 1 0
  let a14_4 := s
  let s := (v 4) 3 3
  let a04_15 := (v 15) 1 0
  let a15_4 := s
  let s := (v 5) 1 2
  let a05_6 := (v 6) 1 1
  let a06_5 := s
  let s := (v 5) 1 3
  let a05_7 := (v 7) 1 1
  let a07_5 := s
  let s := (v 5) 2 0
  let a05_8 := (v 8) 1 1
  let a08_5 := s
  let s := (v 5) 2 1
  let a05_9 := (v 9) 1 1
  let a09_5 := s
  let s := (v 5) 2 2
  let a05_10 := (v 10) 1 1
  let a10_5 := s
  let s := (v 5) 2 3
  let a05_11 := (v 11) 1 1
  let a11_5 := s
  let s := (v 5) 3 0
  let a05_12 := (v 12) 1 1
  let a12_5 := s
  let s := (v 5) 3 1
  let a05_13 := (v 13) 1 1
  let a13_5 := s
  let s := (v 5) 3 2
  let a05_14 := (v 14) 1 1
  let a14_5 := s
  let s := (v 5) 3 3
  let a05_15 := (v 15) 1 1
  let a15_5 := s
  let s := (v 6) 1 3
  let a06_7 := (v 7) 1 2
  let a07_6 := s
  let s := (v 6) 2 0
  let a06_8 := (v 8) 1 2
  let a08_6 := s
  let s := (v 6) 2 1
  let a06_9 := (v 9) 1 2
  let a09_6 := s
  let s := (v 6) 2 2
  let a06_10 := (v 10) 1 2
  let a10_6 := s
  let s := (v 6) 2 3
  let a06_11 := (v 11) 1 2
  let a11_6 := s
  let s := (v 6) 3 0
  let a06_12 := (v 12) 1 2
  let a12_6 := s
  let s := (v 6) 3 1
  let a06_13 := (v 13) 1 2
  let a13_6 := s
  let s := (v 6) 3 2
  let a06_14 := (v 14) 1 2
  let a14_6 := s
  let s := (v 6) 3 3
  let a06_15 := (v 15) 1 2
  let a15_6 := s
  let s := (v 7) 2 0
  let a07_8 := (v 8) 1 3
  let a08_7 := s
  let s := (v 7) 2 1
  let a07_9 := (v 9) 1 3
  let a09_7 := s
  let s := (v 7) 2 2
  let a07_10 := (v 10) 1 3
  let a10_7 := s
  let s := (v 7) 2 3
  let a07_11 := (v 11) 1 3
  let a11_7 := s
  let s := (v 7) 3 0
  let a07_12 := (v 12) 1 3
  let a12_7 := s
  let s := (v 7) 3 1
  let a07_13 := (v 13) 1 3
  let a13_7 := s
  let s := (v 7) 3 2
  let a07_14 := (v 14) 1 3
  let a14_7 := s
  let s := (v 7) 3 3
  let a07_15 := (v 15) 1 3
  let a15_7 := s
  let s := (v 8) 2 1
  let a08_9 := (v 9) 2 0
  let a09_8 := s
  let s := (v 8) 2 2
  let a08_10 := (v 10) 2 0
  let a10_8 := s
  let s := (v 8) 2 3
  let a08_11 := (v 11) 2 0
  let a11_8 := s
  let s := (v 8) 3 0
  let a08_12 := (v 12) 2 0
  let a12_8 := s
  let s := (v 8) 3 1
  let a08_13 := (v 13) 2 0
  let a13_8 := s
  let s := (v 8) 3 2
  let a08_14 := (v 14) 2 0
  let a14_8 := s
  let s := (v 8) 3 3
  let a08_15 := (v 15) 2 0
  let a15_8 := s
  let s := (v 9) 2 2
  let a09_10 := (v 10) 2 1
  let a10_9 := s
  let s := (v 9) 2 3
  let a09_11 := (v 11) 2 1
  let a11_9 := s
  let s := (v 9) 3 0
  let a09_12 := (v 12) 2 1
  let a12_9 := s
  let s := (v 9) 3 1
  let a09_13 := (v 13) 2 1
  let a13_9 := s
  let s := (v 9) 3 2
  let a09_14 := (v 14) 2 1
  let a14_9 := s
  let s := (v 9) 3 3
  let a09_15 := (v 15) 2 1
  let a15_9 := s
  let s := (v 10) 2 3
  let a10_11 := (v 11) 2 2
  let a11_10 := s
  let s := (v 10) 3 0
  let a10_12 := (v 12) 2 2
  let a12_10 := s
  let s := (v 10) 3 1
  let a10_13 := (v 13) 2 2
  let a13_10 := s
  let s := (v 10) 3 2
  let a10_14 := (v 14) 2 2
  let a14_10 := s
  let s := (v 10) 3 3
  let a10_15 := (v 15) 2 2
  let a15_10 := s
  let s := (v 11) 3 0
  let a11_12 := (v 12) 2 3
  let a12_11 := s
  let s := (v 11) 3 1
  let a11_13 := (v 13) 2 3
  let a13_11 := s
  let s := (v 11) 3 2
  let a11_14 := (v 14) 2 3
  let a14_11 := s
  let s := (v 11) 3 3
  let a11_15 := (v 15) 2 3
  let a15_11 := s
  let s := (v 12) 3 1
  let a12_13 := (v 13) 3 0
  let a13_12 := s
  let s := (v 12) 3 2
  let a12_14 := (v 14) 3 0
  let a14_12 := s
  let s := (v 12) 3 3
  let a12_15 := (v 15) 3 0
  let a15_12 := s
  let s := (v 13) 3 2
  let a13_14 := (v 14) 3 1
  let a14_13 := s
  let s := (v 13) 3 3
  let a13_15 := (v 15) 3 1
  let a15_13 := s
  let s := (v 14) 3 3
  let a14_15 := (v 15) 3 2
  let a15_14 := s
  let a00 := four (quad ((v 0) 0 0) (a00_1) (a00_2) (a00_3)) (quad (a00_4) (a00_5) (a00_6) (a00_7)) (quad (a00_8) (a00_9) (a00_10) (a00_11)) (quad (a00_12) (a00_13) (a00_14) (a00_15))
  let a01 := four (quad (a01_0) ((v 1) 0 1) (a01_2) (a01_3)) (quad (a01_4) (a01_5) (a01_6) (a01_7)) (quad (a01_8) (a01_9) (a01_10) (a01_11)) (quad (a01_12) (a01_13) (a01_14) (a01_15))
  let a02 := four (quad (a02_0) (a02_1) ((v 2) 0 2) (a02_3)) (quad (a02_4) (a02_5) (a02_6) (a02_7)) (quad (a02_8) (a02_9) (a02_10) (a02_11)) (quad (a02_12) (a02_13) (a02_14) (a02_15))
  let a03 := four (quad (a03_0) (a03_1) (a03_2) ((v 3) 0 3)) (quad (a03_4) (a03_5) (a03_6) (a03_7)) (quad (a03_8) (a03_9) (a03_10) (a03_11)) (quad (a03_12) (a03_13) (a03_14) (a03_15))
  let a04 := four (quad (a04_0) (a04_1) (a04_2) (a04_3)) (quad ((v 4) 1 0) (a04_5) (a04_6) (a04_7)) (quad (a04_8) (a04_9) (a04_10) (a04_11)) (quad (a04_12) (a04_13) (a04_14) (a04_15))
  let a05 := four (quad (a05_0) (a05_1) (a05_2) (a05_3)) (quad (a05_4) ((v 5) 1 1) (a05_6) (a05_7)) (quad (a05_8) (a05_9) (a05_10) (a05_11)) (quad (a05_12) (a05_13) (a05_14) (a05_15))
  let a06 := four (quad (a06_0) (a06_1) (a06_2) (a06_3)) (quad (a06_4) (a06_5) ((v 6) 1 2) (a06_7)) (quad (a06_8) (a06_9) (a06_10) (a06_11)) (quad (a06_12) (a06_13) (a06_14) (a06_15))
  let a07 := four (quad (a07_0) (a07_1) (a07_2) (a07_3)) (quad (a07_4) (a07_5) (a07_6) ((v 7) 1 3)) (quad (a07_8) (a07_9) (a07_10) (a07_11)) (quad (a07_12) (a07_13) (a07_14) (a07_15))
  let a08 := four (quad (a08_0) (a08_1) (a08_2) (a08_3)) (quad (a08_4) (a08_5) (a08_6) (a08_7)) (quad ((v 8) 2 0) (a08_9) (a08_10) (a08_11)) (quad (a08_12) (a08_13) (a08_14) (a08_15))
  let a09 := four (quad (a09_0) (a09_1) (a09_2) (a09_3)) (quad (a09_4) (a09_5) (a09_6) (a09_7)) (quad (a09_8) ((v 9) 2 1) (a09_10) (a09_11)) (quad (a09_12) (a09_13) (a09_14) (a09_15))
  let a10 := four (quad (a10_0) (a10_1) (a10_2) (a10_3)) (quad (a10_4) (a10_5) (a10_6) (a10_7)) (quad (a10_8) (a10_9) ((v 10) 2 2) (a10_11)) (quad (a10_12) (a10_13) (a10_14) (a10_15))
  let a11 := four (quad (a11_0) (a11_1) (a11_2) (a11_3)) (quad (a11_4) (a11_5) (a11_6) (a11_7)) (quad (a11_8) (a11_9) (a11_10) ((v 11) 2 3)) (quad (a11_12) (a11_13) (a11_14) (a11_15))
  let a12 := four (quad (a12_0) (a12_1) (a12_2) (a12_3)) (quad (a12_4) (a12_5) (a12_6) (a12_7)) (quad (a12_8) (a12_9) (a12_10) (a12_11)) (quad ((v 12) 3 0) (a12_13) (a12_14) (a12_15))
  let a13 := four (quad (a13_0) (a13_1) (a13_2) (a13_3)) (quad (a13_4) (a13_5) (a13_6) (a13_7)) (quad (a13_8) (a13_9) (a13_10) (a13_11)) (quad (a13_12) ((v 13) 3 1) (a13_14) (a13_15))
  let a14 := four (quad (a14_0) (a14_1) (a14_2) (a14_3)) (quad (a14_4) (a14_5) (a14_6) (a14_7)) (quad (a14_8) (a14_9) (a14_10) (a14_11)) (quad (a14_12) (a14_13) ((v 14) 3 2) (a14_15))
  let a15 := four (quad (a15_0) (a15_1) (a15_2) (a15_3)) (quad (a15_4) (a15_5) (a15_6) (a15_7)) (quad (a15_8) (a15_9) (a15_10) (a15_11)) (quad (a15_12) (a15_13) (a15_14) ((v 15) 3 3))
  ![a00, a01, a02, a03, a04, a05, a06, a07, a08, a09, a10, a11, a12, a13, a14, a15]

/-- `load_16x1`, /repo/src/util/v16/v16_portable.h:475-494. -/
def load_16x1 (m : Memory α) (p : ℕ) : Reg 4 α :=
  let a_0 := m p
  let a_1 := m (p + 1)
  let a_2 := m (p + 2)
  let a_3 := m (p + 3)
  let a_4 := m (p + 4)
  let a_5 := m (p + 5)
  let a_6 := m (p + 6)
  let a_7 := m (p + 7)
  let a_8 := m (p + 8)
  let a_9 := m (p + 9)
  let a_10 := m (p + 10)
  let a_11 := m (p + 11)
  let a_12 := m (p + 12)
  let a_13 := m (p + 13)
  let a_14 := m (p + 14)
  let a_15 := m (p + 15)
  let a := four (quad a_0 a_1 a_2 a_3) (quad a_4 a_5 a_6 a_7) (quad a_8 a_9 a_10 a_11) (quad a_12 a_13 a_14 a_15)
  a

/-- `store_16x1`, /repo/src/util/v16/v16_portable.h:496-515. -/
def store_16x1 (m : Memory α) (v : Fin 1 → Reg 4 α) (p : ℕ) : Memory α :=
  let m := put m (p) ((v 0) 0 0)
  let m := put m (p + 1) ((v 0) 0 1)
  let m := put m (p + 2) ((v 0) 0 2)
  let m := put m (p + 3) ((v 0) 0 3)
  let m := put m (p + 4) ((v 0) 1 0)
  let m := put m (p + 5) ((v 0) 1 1)
  let m := put m (p + 6) ((v 0) 1 2)
  let m := put m (p + 7) ((v 0) 1 3)
  let m := put m (p + 8) ((v 0) 2 0)
  let m := put m (p + 9) ((v 0) 2 1)
  let m := put m (p + 10) ((v 0) 2 2)
  let m := put m (p + 11) ((v 0) 2 3)
  let m := put m (p + 12) ((v 0) 3 0)
  let m := put m (p + 13) ((v 0) 3 1)
  let m := put m (p + 14) ((v 0) 3 2)
  let m := put m (p + 15) ((v 0) 3 3)
  m

/-- `stream_16x1`, /repo/src/util/v16/v16_portable.h:517-536. -/
def stream_16x1 (m : Memory α) (v : Fin 1 → Reg 4 α) (p : ℕ) : Memory α :=
  let m := put m (p) ((v 0) 0 0)
  let m := put m (p + 1) ((v 0) 0 1)
  let m := put m (p + 2) ((v 0) 0 2)
  let m := put m (p + 3) ((v 0) 0 3)
  let m := put m (p + 4) ((v 0) 1 0)
  let m := put m (p + 5) ((v 0) 1 1)
  let m := put m (p + 6) ((v 0) 1 2)
  let m := put m (p + 7) ((v 0) 1 3)
  let m := put m (p + 8) ((v 0) 2 0)
  let m := put m (p + 9) ((v 0) 2 1)
  let m := put m (p + 10) ((v 0) 2 2)
  let m := put m (p + 11) ((v 0) 2 3)
  let m := put m (p + 12) ((v 0) 3 0)
  let m := put m (p + 13) ((v 0) 3 1)
  let m := put m (p + 14) ((v 0) 3 2)
  let m := put m (p + 15) ((v 0) 3 3)
  m

/-- `clear_16x1`, /repo/src/util/v16/v16_portable.h:538-556. -/
def clear_16x1 [Zero α] (m : Memory α) (p : ℕ) : Memory α :=
  let m := put m (p) 0
  let m := put m (p + 1) 0
  let m := put m (p + 2) 0
  let m := put m (p + 3) 0
  let m := put m (p + 4) 0
  let m := put m (p + 5) 0
  let m := put m (p + 6) 0
  let m := put m (p + 7) 0
  let m := put m (p + 8) 0
  let m := put m (p + 9) 0
  let m := put m (p + 10) 0
  let m := put m (p + 11) 0
  let m := put m (p + 12) 0
  let m := put m (p + 13) 0
  let m := put m (p + 14) 0
  let m := put m (p + 15) 0
  m

/-- `copy_16x1`, /repo/src/util/v16/v16_portable.h:559-578. -/
def copy_16x1 (m : Memory α) (dst : ℕ) (src : ℕ) : Memory α :=
  let m := put m (dst) (m src)
  let m := put m (dst + 1) (m (src + 1))
  let m := put m (dst + 2) (m (src + 2))
  let m := put m (dst + 3) (m (src + 3))
  let m := put m (dst + 4) (m (src + 4))
  let m := put m (dst + 5) (m (src + 5))
  let m := put m (dst + 6) (m (src + 6))
  let m := put m (dst + 7) (m (src + 7))
  let m := put m (dst + 8) (m (src + 8))
  let m := put m (dst + 9) (m (src + 9))
  let m := put m (dst + 10) (m (src + 10))
  let m := put m (dst + 11) (m (src + 11))
  let m := put m (dst + 12) (m (src + 12))
  let m := put m (dst + 13) (m (src + 13))
  let m := put m (dst + 14) (m (src + 14))
  let m := put m (dst + 15) (m (src + 15))
  m

/-- `swap_16x1`, /repo/src/util/v16/v16_portable.h:580-648. -/
def swap_16x1 (m : Memory α) (a : ℕ) (b : ℕ) : Memory α :=
  let t := m a
  let m := put m (a) (m b)
  let m := put m (b) t
  let t := m (a + 1)
  let m := put m (a + 1) (m (b + 1))
  let m := put m (b + 1) t
  let t := m (a + 2)
  let m := put m (a + 2) (m (b + 2))
  let m := put m (b + 2) t
  let t := m (a + 3)
  let m := put m (a + 3) (m (b + 3))
  let m := put m (b + 3) t
  let t := m (a + 4)
  let m := put m (a + 4) (m (b + 4))
  let m := put m (b + 4) t
  let t := m (a + 5)
  let m := put m (a + 5) (m (b + 5))
  let m := put m (b + 5) t
  let t := m (a + 6)
  let m := put m (a + 6) (m (b + 6))
  let m := put m (b + 6) t
  let t := m (a + 7)
  let m := put m (a + 7) (m (b + 7))
  let m := put m (b + 7) t
  let t := m (a + 8)
  let m := put m (a + 8) (m (b + 8))
  let m := put m (b + 8) t
  let t := m (a + 9)
  let m := put m (a + 9) (m (b + 9))
  let m := put m (b + 9) t
  let t := m (a + 10)
  let m := put m (a + 10) (m (b + 10))
  let m := put m (b + 10) t
  let t := m (a + 11)
  let m := put m (a + 11) (m (b + 11))
  let m := put m (b + 11) t
  let t := m (a + 12)
  let m := put m (a + 12) (m (b + 12))
  let m := put m (b + 12) t
  let t := m (a + 13)
  let m := put m (a + 13) (m (b + 13))
  let m := put m (b + 13) t
  let t := m (a + 14)
  let m := put m (a + 14) (m (b + 14))
  let m := put m (b + 14) t
  let t := m (a + 15)
  let m := put m (a + 15) (m (b + 15))
  let m := put m (b + 15) t
  m

/-- `load_16x1_tr`, /repo/src/util/v16/v16_portable.h:652-678. -/
def load_16x1_tr (m : Memory α) (p : Fin 4 → Fin 4 → ℕ) : Reg 4 α :=
  let a_0 := m (p 0 0)
  let a_1 := m (p 0 1)
  let a_2 := m (p 0 2)
  let a_3 := m (p 0 3)
  let a_4 := m (p 1 0)
  let a_5 := m (p 1 1)
  let a_6 := m (p 1 2)
  let a_7 := m (p 1 3)
  let a_8 := m (p 2 0)
  let a_9 := m (p 2 1)
  let a_10 := m (p 2 2)
  let a_11 := m (p 2 3)
  let a_12 := m (p 3 0)
  let a_13 := m (p 3 1)
  let a_14 := m (p 3 2)
  let a_15 := m (p 3 3)
  let a := four (quad a_0 a_1 a_2 a_3) (quad a_4 a_5 a_6 a_7) (quad a_8 a_9 a_10 a_11) (quad a_12 a_13 a_14 a_15)
  a

/-- `load_16x2_tr`, /repo/src/util/v16/v16_portable.h:680-745. -/
def load_16x2_tr (m : Memory α) (p : Fin 4 → Fin 4 → ℕ) : (Fin 2 → Reg 4 α) :=
  let a_0 := m (p 0 0)
  let b_0 := m (p 0 0 + 1)
  let a_1 := m (p 0 1)
  let b_1 := m (p 0 1 + 1)
  let a_2 := m (p 0 2)
  let b_2 := m (p 0 2 + 1)
  let a_3 := m (p 0 3)
  let b_3 := m (p 0 3 + 1)
  let a_4 := m (p 1 0)
  let b_4 := m (p 1 0 + 1)
  let a_5 := m (p 1 1)
  let b_5 := m (p 1 1 + 1)
  let a_6 := m (p 1 2)
  let b_6 := m (p 1 2 + 1)
  let a_7 := m (p 1 3)
  let b_7 := m (p 1 3 + 1)
  let a_8 := m (p 2 0)
  let b_8 := m (p 2 0 + 1)
  let a_9 := m (p 2 1)
  let b_9 := m (p 2 1 + 1)
  let a_10 := m (p 2 2)
  let b_10 := m (p 2 2 + 1)
  let a_11 := m (p 2 3)
  let b_11 := m (p 2 3 + 1)
  let a_12 := m (p 3 0)
  let b_12 := m (p 3 0 + 1)
  let a_13 := m (p 3 1)
  let b_13 := m (p 3 1 + 1)
  let a_14 := m (p 3 2)
  let b_14 := m (p 3 2 + 1)
  let a_15 := m (p 3 3)
  let a := four (quad a_0 a_1 a_2 a_3) (quad a_4 a_5 a_6 a_7) (quad a_8 a_9 a_10 a_11) (quad a_12 a_13 a_14 a_15)
  let b_15 := m (p 3 3 + 1)
  let b := four (quad b_0 b_1 b_2 b_3) (quad b_4 b_5 b_6 b_7) (quad b_8 b_9 b_10 b_11) (quad b_12 b_13 b_14 b_15)
  ![a, b]

/-- `load_16x3_tr`, /repo/src/util/v16/v16_portable.h:747-828. -/
def load_16x3_tr (m : Memory α) (p : Fin 4 → Fin 4 → ℕ) : (Fin 3 → Reg 4 α) :=
  let a_0 := m (p 0 0)
  let b_0 := m (p 0 0 + 1)
  let c_0 := m (p 0 0 + 2)
  let a_1 := m (p 0 1)
  let b_1 := m (p 0 1 + 1)
  let c_1 := m (p 0 1 + 2)
  let a_2 := m (p 0 2)
  let b_2 := m (p 0 2 + 1)
  let c_2 := m (p 0 2 + 2)
  let a_3 := m (p 0 3)
  let b_3 := m (p 0 3 + 1)
  let c_3 := m (p 0 3 + 2)
  let a_4 := m (p 1 0)
  let b_4 := m (p 1 0 + 1)
  let c_4 := m (p 1 0 + 2)
  let a_5 := m (p 1 1)
  let b_5 := m (p 1 1 + 1)
  let c_5 := m (p 1 1 + 2)
  let a_6 := m (p 1 2)
  let b_6 := m (p 1 2 + 1)
  let c_6 := m (p 1 2 + 2)
  let a_7 := m (p 1 3)
  let b_7 := m (p 1 3 + 1)
  let c_7 := m (p 1 3 + 2)
  let a_8 := m (p 2 0)
  let b_8 := m (p 2 0 + 1)
  let c_8 := m (p 2 0 + 2)
  let a_9 := m (p 2 1)
  let b_9 := m (p 2 1 + 1)
  let c_9 := m (p 2 1 + 2)
  let a_10 := m (p 2 2)
  let b_10 := m (p 2 2 + 1)
  let c_10 := m (p 2 2 + 2)
  let a_11 := m (p 2 3)
  let b_11 := m (p 2 3 + 1)
  let c_11 := m (p 2 3 + 2)
  let a_12 := m (p 3 0)
  let b_12 := m (p 3 0 + 1)
  let c_12 := m (p 3 0 + 2)
  let a_13 := m (p 3 1)
  let b_13 := m (p 3 1 + 1)
  let c_13 := m (p 3 1 + 2)
  let a_14 := m (p 3 2)
  let b_14 := m (p 3 2 + 1)
  let c_14 := m (p 3 2 + 2)
  let a_15 := m (p 3 3)
  let a := four (quad a_0 a_1 a_2 a_3) (quad a_4 a_5 a_6 a_7) (quad a_8 a_9 a_10 a_11) (quad a_12 a_13 a_14 a_15)
  let b_15 := m (p 3 3 + 1)
  let b := four (quad b_0 b_1 b_2 b_3) (quad b_4 b_5 b_6 b_7) (quad b_8 b_9 b_10 b_11) (quad b_12 b_13 b_14 b_15)
  let c_15 := m (p 3 3 + 2)
  let c := four (quad c_0 c_1 c_2 c_3) (quad c_4 c_5 c_6 c_7) (quad c_8 c_9 c_10 c_11) (quad c_12 c_13 c_14 c_15)
  ![a, b, c]

/-- `load_16x4_tr`, /repo/src/util/v16/v16_portable.h:830-927. -/
def load_16x4_tr (m : Memory α) (p : Fin 4 → Fin 4 → ℕ) : (Fin 4 → Reg 4 α) :=
  let a_0 := m (p 0 0)
  let b_0 := m (p 0 0 + 1)
  let c_0 := m (p 0 0 + 2)
  let d_0 := m (p 0 0 + 3)
  let a_1 := m (p 0 1)
  let b_1 := m (p 0 1 + 1)
  let c_1 := m (p 0 1 + 2)
  let d_1 := m (p 0 1 + 3)
  let a_2 := m (p 0 2)
  let b_2 := m (p 0 2 + 1)
  let c_2 := m (p 0 2 + 2)
  let d_2 := m (p 0 2 + 3)
  let a_3 := m (p 0 3)
  let b_3 := m (p 0 3 + 1)
  let c_3 := m (p 0 3 + 2)
  let d_3 := m (p 0 3 + 3)
  let a_4 := m (p 1 0)
  let b_4 := m (p 1 0 + 1)
  let c_4 := m (p 1 0 + 2)
  let d_4 := m (p 1 0 + 3)
  let a_5 := m (p 1 1)
  let b_5 := m (p 1 1 + 1)
  let c_5 := m (p 1 1 + 2)
  let d_5 := m (p 1 1 + 3)
  let a_6 := m (p 1 2)
  let b_6 := m (p 1 2 + 1)
  let c_6 := m (p 1 2 + 2)
  let d_6 := m (p 1 2 + 3)
  let a_7 := m (p 1 3)
  let b_7 := m (p 1 3 + 1)
  let c_7 := m (p 1 3 + 2)
  let d_7 := m (p 1 3 + 3)
  let a_8 := m (p 2 0)
  let b_8 := m (p 2 0 + 1)
  let c_8 := m (p 2 0 + 2)
  let d_8 := m (p 2 0 + 3)
  let a_9 := m (p 2 1)
  let b_9 := m (p 2 1 + 1)
  let c_9 := m (p 2 1 + 2)
  let d_9 := m (p 2 1 + 3)
  let a_10 := m (p 2 2)
  let b_10 := m (p 2 2 + 1)
  let c_10 := m (p 2 2 + 2)
  let d_10 := m (p 2 2 + 3)
  let a_11 := m (p 2 3)
  let b_11 := m (p 2 3 + 1)
  let c_11 := m (p 2 3 + 2)
  let d_11 := m (p 2 3 + 3)
  let a_12 := m (p 3 0)
  let b_12 := m (p 3 0 + 1)
  let c_12 := m (p 3 0 + 2)
  let d_12 := m (p 3 0 + 3)
  let a_13 := m (p 3 1)
  let b_13 := m (p 3 1 + 1)
  let c_13 := m (p 3 1 + 2)
  let d_13 := m (p 3 1 + 3)
  let a_14 := m (p 3 2)
  let b_14 := m (p 3 2 + 1)
  let c_14 := m (p 3 2 + 2)
  let d_14 := m (p 3 2 + 3)
  let a_15 := m (p 3 3)
  let a := four (quad a_0 a_1 a_2 a_3) (quad a_4 a_5 a_6 a_7) (quad a_8 a_9 a_10 a_11) (quad a_12 a_13 a_14 a_15)
  let b_15 := m (p 3 3 + 1)
  let b := four (quad b_0 b_1 b_2 b_3) (quad b_4 b_5 b_6 b_7) (quad b_8 b_9 b_10 b_11) (quad b_12 b_13 b_14 b_15)
  let c_15 := m (p 3 3 + 2)
  let c := four (quad c_0 c_1 c_2 c_3) (quad c_4 c_5 c_6 c_7) (quad c_8 c_9 c_10 c_11) (quad c_12 c_13 c_14 c_15)
  let d_15 := m (p 3 3 + 3)
  let d := four (quad d_0 d_1 d_2 d_3) (quad d_4 d_5 d_6 d_7) (quad d_8 d_9 d_10 d_11) (quad d_12 d_13 d_14 d_15)
  ![a, b, c, d]

/-- `load_16x8_tr`, /repo/src/util/v16/v16_portable.h:929-1091. -/
def load_16x8_tr (m : Memory α) (p : Fin 4 → Fin 4 → ℕ) : (Fin 8 → Reg 4 α) :=
  let a_0 := m (p 0 0)
  let b_0 := m (p 0 0 + 1)
  let c_0 := m (p 0 0 + 2)
  let d_0 := m (p 0 0 + 3)
  let e_0 := m (p 0 0 + 4)
  let f_0 := m (p 0 0 + 5)
  let g_0 := m (p 0 0 + 6)
  let h_0 := m (p 0 0 + 7)
  let a_1 := m (p 0 1)
  let b_1 := m (p 0 1 + 1)
  let c_1 := m (p 0 1 + 2)
  let d_1 := m (p 0 1 + 3)
  let e_1 := m (p 0 1 + 4)
  let f_1 := m (p 0 1 + 5)
  let g_1 := m (p 0 1 + 6)
  let h_1 := m (p 0 1 + 7)
  let a_2 := m (p 0 2)
  let b_2 := m (p 0 2 + 1)
  let c_2 := m (p 0 2 + 2)
  let d_2 := m (p 0 2 + 3)
  let e_2 := m (p 0 2 + 4)
  let f_2 := m (p 0 2 + 5)
  let g_2 := m (p 0 2 + 6)
  let h_2 := m (p 0 2 + 7)
  let a_3 := m (p 0 3)
  let b_3 := m (p 0 3 + 1)
  let c_3 := m (p 0 3 + 2)
  let d_3 := m (p 0 3 + 3)
  let e_3 := m (p 0 3 + 4)
  let f_3 := m (p 0 3 + 5)
  let g_3 := m (p 0 3 + 6)
  let h_3 := m (p 0 3 + 7)
  let a_4 := m (p 1 0)
  let b_4 := m (p 1 0 + 1)
  let c_4 := m (p 1 0 + 2)
  let d_4 := m (p 1 0 + 3)
  let e_4 := m (p 1 0 + 4)
  let f_4 := m (p 1 0 + 5)
  let g_4 := m (p 1 0 + 6)
  let h_4 := m (p 1 0 + 7)
  let a_5 := m (p 1 1)
  let b_5 := m (p 1 1 + 1)
  let c_5 := m (p 1 1 + 2)
  let d_5 := m (p 1 1 + 3)
  let e_5 := m (p 1 1 + 4)
  let f_5 := m (p 1 1 + 5)
  let g_5 := m (p 1 1 + 6)
  let h_5 := m (p 1 1 + 7)
  let a_6 := m (p 1 2)
  let b_6 := m (p 1 2 + 1)
  let c_6 := m (p 1 2 + 2)
  let d_6 := m (p 1 2 + 3)
  let e_6 := m (p 1 2 + 4)
  let f_6 := m (p 1 2 + 5)
  let g_6 := m (p 1 2 + 6)
  let h_6 := m (p 1 2 + 7)
  let a_7 := m (p 1 3)
  let b_7 := m (p 1 3 + 1)
  let c_7 := m (p 1 3 + 2)
  let d_7 := m (p 1 3 + 3)
  let e_7 := m (p 1 3 + 4)
  let f_7 := m (p 1 3 + 5)
  let g_7 := m (p 1 3 + 6)
  let h_7 := m (p 1 3 + 7)
  let a_8 := m (p 2 0)
  let b_8 := m (p 2 0 + 1)
  let c_8 := m (p 2 0 + 2)
  let d_8 := m (p 2 0 + 3)
  let e_8 := m (p 2 0 + 4)
  let f_8 := m (p 2 0 + 5)
  let g_8 := m (p 2 0 + 6)
  let h_8 := m (p 2 0 + 7)
  let a_9 := m (p 2 1)
  let b_9 := m (p 2 1 + 1)
  let c_9 := m (p 2 1 + 2)
  let d_9 := m (p 2 1 + 3)
  let e_9 := m (p 2 1 + 4)
  let f_9 := m (p 2 1 + 5)
  let g_9 := m (p 2 1 + 6)
  let h_9 := m (p 2 1 + 7)
  let a_10 := m (p 2 2)
  let b_10 := m (p 2 2 + 1)
  let c_10 := m (p 2 2 + 2)
  let d_10 := m (p 2 2 + 3)
  let e_10 := m (p 2 2 + 4)
  let f_10 := m (p 2 2 + 5)
  let g_10 := m (p 2 2 + 6)
  let h_10 := m (p 2 2 + 7)
  let a_11 := m (p 2 3)
  let b_11 := m (p 2 3 + 1)
  let c_11 := m (p 2 3 + 2)
  let d_11 := m (p 2 3 + 3)
  let e_11 := m (p 2 3 + 4)
  let f_11 := m (p 2 3 + 5)
  let g_11 := m (p 2 3 + 6)
  let h_11 := m (p 2 3 + 7)
  let a_12 := m (p 3 0)
  let b_12 := m (p 3 0 + 1)
  let c_12 := m (p 3 0 + 2)
  let d_12 := m (p 3 0 + 3)
  let e_12 := m (p 3 0 + 4)
  let f_12 := m (p 3 0 + 5)
  let g_12 := m (p 3 0 + 6)
  let h_12 := m (p 3 0 + 7)
  let a_13 := m (p 3 1)
  let b_13 := m (p 3 1 + 1)
  let c_13 := m (p 3 1 + 2)
  let d_13 := m (p 3 1 + 3)
  let e_13 := m (p 3 1 + 4)
  let f_13 := m (p 3 1 + 5)
  let g_13 := m (p 3 1 + 6)
  let h_13 := m (p 3 1 + 7)
  let a_14 := m (p 3 2)
  let b_14 := m (p 3 2 + 1)
  let c_14 := m (p 3 2 + 2)
  let d_14 := m (p 3 2 + 3)
  let e_14 := m (p 3 2 + 4)
  let f_14 := m (p 3 2 + 5)
  let g_14 := m (p 3 2 + 6)
  let h_14 := m (p 3 2 + 7)
  let a_15 := m (p 3 3)
  let a := four (quad a_0 a_1 a_2 a_3) (quad a_4 a_5 a_6 a_7) (quad a_8 a_9 a_10 a_11) (quad a_12 a_13 a_14 a_15)
  let b_15 := m (p 3 3 + 1)
  let b := four (quad b_0 b_1 b_2 b_3) (quad b_4 b_5 b_6 b_7) (quad b_8 b_9 b_10 b_11) (quad b_12 b_13 b_14 b_15)
  let c_15 := m (p 3 3 + 2)
  let c := four (quad c_0 c_1 c_2 c_3) (quad c_4 c_5 c_6 c_7) (quad c_8 c_9 c_10 c_11) (quad c_12 c_13 c_14 c_15)
  let d_15 := m (p 3 3 + 3)
  let d := four (quad d_0 d_1 d_2 d_3) (quad d_4 d_5 d_6 d_7) (quad d_8 d_9 d_10 d_11) (quad d_12 d_13 d_14 d_15)
  let e_15 := m (p 3 3 + 4)
  let e := four (quad e_0 e_1 e_2 e_3) (quad e_4 e_5 e_6 e_7) (quad e_8 e_9 e_10 e_11) (quad e_12 e_13 e_14 e_15)
  let f_15 := m (p 3 3 + 5)
  let f := four (quad f_0 f_1 f_2 f_3) (quad f_4 f_5 f_6 f_7) (quad f_8 f_9 f_10 f_11) (quad f_12 f_13 f_14 f_15)
  let g_15 := m (p 3 3 + 6)
  let g := four (quad g_0 g_1 g_2 g_3) (quad g_4 g_5 g_6 g_7) (quad g_8 g_9 g_10 g_11) (quad g_12 g_13 g_14 g_15)
  let h_15 := m (p 3 3 + 7)
  let h := four (quad h_0 h_1 h_2 h_3) (quad h_4 h_5 h_6 h_7) (quad h_8 h_9 h_10 h_11) (quad h_12 h_13 h_14 h_15)
  ![a, b, c, d, e, f, g, h]

/-- `load_16x16_tr`, /repo/src/util/v16/v16_portable.h:1093-1385. -/
def load_16x16_tr (m : Memory α) (p : Fin 4 → Fin 4 → ℕ) : (Fin 16 → Reg 4 α) :=
  let b00_0 := m (p 0 0)
  let b01_0 := m (p 0 0 + 1)
  let b02_0 := m (p 0 0 + 2)
  let b03_0 := m (p 0 0 + 3)
  let b04_0 := m (p 0 0 + 4)
  let b05_0 := m (p 0 0 + 5)
  let b06_0 := m (p 0 0 + 6)
  let b07_0 := m (p 0 0 + 7)
  let b08_0 := m (p 0 0 + 8)
  let b09_0 := m (p 0 0 + 9)
  let b10_0 := m (p 0 0 + 10)
  let b11_0 := m (p 0 0 + 11)
  let b12_0 := m (p 0 0 + 12)
  let b13_0 := m (p 0 0 + 13)
  let b14_0 := m (p 0 0 + 14)
  let b15_0 := m (p 0 0 + 15)
  let b00_1 := m (p 0 1)
  let b01_1 := m (p 0 1 + 1)
  let b02_1 := m (p 0 1 + 2)
  let b03_1 := m (p 0 1 + 3)
  let b04_1 := m (p 0 1 + 4)
  let b05_1 := m (p 0 1 + 5)
  let b06_1 := m (p 0 1 + 6)
  let b07_1 := m (p 0 1 + 7)
  let b08_1 := m (p 0 1 + 8)
  let b09_1 := m (p 0 1 + 9)
  let b10_1 := m (p 0 1 + 10)
  let b11_1 := m (p 0 1 + 11)
  let b12_1 := m (p 0 1 + 12)
  let b13_1 := m (p 0 1 + 13)
  let b14_1 := m (p 0 1 + 14)
  let b15_1 := m (p 0 1 + 15)
  let b00_2 := m (p 0 2)
  let b01_2 := m (p 0 2 + 1)
  let b02_2 := m (p 0 2 + 2)
  let b03_2 := m (p 0 2 + 3)
  let b04_2 := m (p 0 2 + 4)
  let b05_2 := m (p 0 2 + 5)
  let b06_2 := m (p 0 2 + 6)
  let b07_2 := m (p 0 2 + 7)
  let b08_2 := m (p 0 2 + 8)
  let b09_2 := m (p 0 2 + 9)
  let b10_2 := m (p 0 2 + 10)
  let b11_2 := m (p 0 2 + 11)
  let b12_2 := m (p 0 2 + 12)
  let b13_2 := m (p 0 2 + 13)
  let b14_2 := m (p 0 2 + 14)
  let b15_2 := m (p 0 2 + 15)
  let b00_3 := m (p 0 3)
  let b01_3 := m (p 0 3 + 1)
  let b02_3 := m (p 0 3 + 2)
  let b03_3 := m (p 0 3 + 3)
  let b04_3 := m (p 0 3 + 4)
  let b05_3 := m (p 0 3 + 5)
  let b06_3 := m (p 0 3 + 6)
  let b07_3 := m (p 0 3 + 7)
  let b08_3 := m (p 0 3 + 8)
  let b09_3 := m (p 0 3 + 9)
  let b10_3 := m (p 0 3 + 10)
  let b11_3 := m (p 0 3 + 11)
  let b12_3 := m (p 0 3 + 12)
  let b13_3 := m (p 0 3 + 13)
  let b14_3 := m (p 0 3 + 14)
  let b15_3 := m (p 0 3 + 15)
  let b00_4 := m (p 1 0)
  let b01_4 := m (p 1 0 + 1)
  let b02_4 := m (p 1 0 + 2)
  let b03_4 := m (p 1 0 + 3)
  let b04_4 := m (p 1 0 + 4)
  let b05_4 := m (p 1 0 + 5)
  let b06_4 := m (p 1 0 + 6)
  let b07_4 := m (p 1 0 + 7)
  let b08_4 := m (p 1 0 + 8)
  let b09_4 := m (p 1 0 + 9)
  let b10_4 := m (p 1 0 + 10)
  let b11_4 := m (p 1 0 + 11)
  let b12_4 := m (p 1 0 + 12)
  let b13_4 := m (p 1 0 + 13)
  let b14_4 := m (p 1 0 + 14)
  let b15_4 := m (p 1 0 + 15)
  let b00_5 := m (p 1 1)
  let b01_5 := m (p 1 1 + 1)
  let b02_5 := m (p 1 1 + 2)
  let b03_5 := m (p 1 1 + 3)
  let b04_5 := m (p 1 1 + 4)
  let b05_5 := m (p 1 1 + 5)
  let b06_5 := m (p 1 1 + 6)
  let b07_5 := m (p 1 1 + 7)
  let b08_5 := m (p 1 1 + 8)
  let b09_5 := m (p 1 1 + 9)
  let b10_5 := m (p 1 1 + 10)
  let b11_5 := m (p 1 1 + 11)
  let b12_5 := m (p 1 1 + 12)
  let b13_5 := m (p 1 1 + 13)
  let b14_5 := m (p 1 1 + 14)
  let b15_5 := m (p 1 1 + 15)
  let b00_6 := m (p 1 2)
  let b01_6 := m (p 1 2 + 1)
  let b02_6 := m (p 1 2 + 2)
  let b03_6 := m (p 1 2 + 3)
  let b04_6 := m (p 1 2 + 4)
  let b05_6 := m (p 1 2 + 5)
  let b06_6 := m (p 1 2 + 6)
  let b07_6 := m (p 1 2 + 7)
  let b08_6 := m (p 1 2 + 8)
  let b09_6 := m (p 1 2 + 9)
  let b10_6 := m (p 1 2 + 10)
  let b11_6 := m (p 1 2 + 11)
  let b12_6 := m (p 1 2 + 12)
  let b13_6 := m (p 1 2 + 13)
  let b14_6 := m (p 1 2 + 14)
  let b15_6 := m (p 1 2 + 15)
  let b00_7 := m (p 1 3)
  let b01_7 := m (p 1 3 + 1)
  let b02_7 := m (p 1 3 + 2)
  let b03_7 := m (p 1 3 + 3)
  let b04_7 := m (p 1 3 + 4)
  let b05_7 := m (p 1 3 + 5)
  let b06_7 := m (p 1 3 + 6)
  let b07_7 := m (p 1 3 + 7)
  let b08_7 := m (p 1 3 + 8)
  let b09_7 := m (p 1 3 + 9)
  let b10_7 := m (p 1 3 + 10)
  let b11_7 := m (p 1 3 + 11)
  let b12_7 := m (p 1 3 + 12)
  let b13_7 := m (p 1 3 + 13)
  let b14_7 := m (p 1 3 + 14)
  let b15_7 := m (p 1 3 + 15)
  let b00_8 := m (p 2 0)
  let b01_8 := m (p 2 0 + 1)
  let b02_8 := m (p 2 0 + 2)
  let b03_8 := m (p 2 0 + 3)
  let b04_8 := m (p 2 0 + 4)
  let b05_8 := m (p 2 0 + 5)
  let b06_8 := m (p 2 0 + 6)
  let b07_8 := m (p 2 0 + 7)
  let b08_8 := m (p 2 0 + 8)
  let b09_8 := m (p 2 0 + 9)
  let b10_8 := m (p 2 0 + 10)
  let b11_8 := m (p 2 0 + 11)
  let b12_8 := m (p 2 0 + 12)
  let b13_8 := m (p 2 0 + 13)
  let b14_8 := m (p 2 0 + 14)
  let b15_8 := m (p 2 0 + 15)
  let b00_9 := m (p 2 1)
  let b01_9 := m (p 2 1 + 1)
  let b02_9 := m (p 2 1 + 2)
  let b03_9 := m (p 2 1 + 3)
  let b04_9 := m (p 2 1 + 4)
  let b05_9 := m (p 2 1 + 5)
  let b06_9 := m (p 2 1 + 6)
  let b07_9 := m (p 2 1 + 7)
  let b08_9 := m (p 2 1 + 8)
  let b09_9 := m (p 2 1 + 9)
  let b10_9 := m (p 2 1 + 10)
  let b11_9 := m (p 2 1 + 11)
  let b12_9 := m (p 2 1 + 12)
  let b13_9 := m (p 2 1 + 13)
  let b14_9 := m (p 2 1 + 14)
  let b15_9 := m (p 2 1 + 15)
  let b00_10 := m (p 2 2)
  let b01_10 := m (p 2 2 + 1)
  let b02_10 := m (p 2 2 + 2)
  let b03_10 := m (p 2 2 + 3)
  let b04_10 := m (p 2 2 + 4)
  let b05_10 := m (p 2 2 + 5)
  let b06_10 := m (p 2 2 + 6)
  let b07_10 := m (p 2 2 + 7)
  let b08_10 := m (p 2 2 + 8)
  let b09_10 := m (p 2 2 + 9)
  let b10_10 := m (p 2 2 + 10)
  let b11_10 := m (p 2 2 + 11)
  let b12_10 := m (p 2 2 + 12)
  let b13_10 := m (p 2 2 + 13)
  let b14_10 := m (p 2 2 + 14)
  let b15_10 := m (p 2 2 + 15)
  let b00_11 := m (p 2 3)
  let b01_11 := m (p 2 3 + 1)
  let b02_11 := m (p 2 3 + 2)
  let b03_11 := m (p 2 3 + 3)
  let b04_11 := m (p 2 3 + 4)
  let b05_11 := m (p 2 3 + 5)
  let b06_11 := m (p 2 3 + 6)
  let b07_11 := m (p 2 3 + 7)
  let b08_11 := m (p 2 3 + 8)
  let b09_11 := m (p 2 3 + 9)
  let b10_11 := m (p 2 3 + 10)
  let b11_11 := m (p 2 3 + 11)
  let b12_11 := m (p 2 3 + 12)
  let b13_11 := m (p 2 3 + 13)
  let b14_11 := m (p 2 3 + 14)
  let b15_11 := m (p 2 3 + 15)
  let b00_12 := m (p 3 0)
  let b01_12 := m (p 3 0 + 1)
  let b02_12 := m (p 3 0 + 2)
  let b03_12 := m (p 3 0 + 3)
  let b04_12 := m (p 3 0 + 4)
  let b05_12 := m (p 3 0 + 5)
  let b06_12 := m (p 3 0 + 6)
  let b07_12 := m (p 3 0 + 7)
  let b08_12 := m (p 3 0 + 8)
  let b09_12 := m (p 3 0 + 9)
  let b10_12 := m (p 3 0 + 10)
  let b11_12 := m (p 3 0 + 11)
  let b12_12 := m (p 3 0 + 12)
  let b13_12 := m (p 3 0 + 13)
  let b14_12 := m (p 3 0 + 14)
  let b15_12 := m (p 3 0 + 15)
  let b00_13 := m (p 3 1)
  let b01_13 := m (p 3 1 + 1)
  let b02_13 := m (p 3 1 + 2)
  let b03_13 := m (p 3 1 + 3)
  let b04_13 := m (p 3 1 + 4)
  let b05_13 := m (p 3 1 + 5)
  let b06_13 := m (p 3 1 + 6)
  let b07_13 := m (p 3 1 + 7)
  let b08_13 := m (p 3 1 + 8)
  let b09_13 := m (p 3 1 + 9)
  let b10_13 := m (p 3 1 + 10)
  let b11_13 := m (p 3 1 + 11)
  let b12_13 := m (p 3 1 + 12)
  let b13_13 := m (p 3 1 + 13)
  let b14_13 := m (p 3 1 + 14)
  let b15_13 := m (p 3 1 + 15)
  let b00_14 := m (p 3 2)
  let b01_14 := m (p 3 2 + 1)
  let b02_14 := m (p 3 2 + 2)
  let b03_14 := m (p 3 2 + 3)
  let b04_14 := m (p 3 2 + 4)
  let b05_14 := m (p 3 2 + 5)
  let b06_14 := m (p 3 2 + 6)
  let b07_14 := m (p 3 2 + 7)
  let b08_14 := m (p 3 2 + 8)
  let b09_14 := m (p 3 2 + 9)
  let b10_14 := m (p 3 2 + 10)
  let b11_14 := m (p 3 2 + 11)
  let b12_14 := m (p 3 2 + 12)
  let b13_14 := m (p 3 2 + 13)
  let b14_14 := m (p 3 2 + 14)
  let b15_14 := m (p 3 2 + 15)
  let b00_15 := m (p 3 3)
  let b00 := four (quad b00_0 b00_1 b00_2 b00_3) (quad b00_4 b00_5 b00_6 b00_7) (quad b00_8 b00_9 b00_10 b00_11) (quad b00_12 b00_13 b00_14 b00_15)
  let b01_15 := m (p 3 3 + 1)
  let b01 := four (quad b01_0 b01_1 b01_2 b01_3) (quad b01_4 b01_5 b01_6 b01_7) (quad b01_8 b01_9 b01_10 b01_11) (quad b01_12 b01_13 b01_14 b01_15)
  let b02_15 := m (p 3 3 + 2)
  let b02 := four (quad b02_0 b02_1 b02_2 b02_3) (quad b02_4 b02_5 b02_6 b02_7) (quad b02_8 b02_9 b02_10 b02_11) (quad b02_12 b02_13 b02_14 b02_15)
  let b03_15 := m (p 3 3 + 3)
  let b03 := four (quad b03_0 b03_1 b03_2 b03_3) (quad b03_4 b03_5 b03_6 b03_7) (quad b03_8 b03_9 b03_10 b03_11) (quad b03_12 b03_13 b03_14 b03_15)
  let b04_15 := m (p 3 3 + 4)
  let b04 := four (quad b04_0 b04_1 b04_2 b04_3) (quad b04_4 b04_5 b04_6 b04_7) (quad b04_8 b04_9 b04_10 b04_11) (quad b04_12 b04_13 b04_14 b04_15)
  let b05_15 := m (p 3 3 + 5)
  let b05 := four (quad b05_0 b05_1 b05_2 b05_3) (quad b05_4 b05_5 b05_6 b05_7) (quad b05_8 b05_9 b05_10 b05_11) (quad b05_12 b05_13 b05_14 b05_15)
  let b06_15 := m (p 3 3 + 6)
  let b06 := four (quad b06_0 b06_1 b06_2 b06_3) (quad b06_4 b06_5 b06_6 b06_7) (quad b06_8 b06_9 b06_10 b06_11) (quad b06_12 b06_13 b06_14 b06_15)
  let b07_15 := m (p 3 3 + 7)
  let b07 := four (quad b07_0 b07_1 b07_2 b07_3) (quad b07_4 b07_5 b07_6 b07_7) (quad b07_8 b07_9 b07_10 b07_11) (quad b07_12 b07_13 b07_14 b07_15)
  let b08_15 := m (p 3 3 + 8)
  let b08 := four (quad b08_0 b08_1 b08_2 b08_3) (quad b08_4 b08_5 b08_6 b08_7) (quad b08_8 b08_9 b08_10 b08_11) (quad b08_12 b08_13 b08_14 b08_15)
  let b09_15 := m (p 3 3 + 9)
  let b09 := four (quad b09_0 b09_1 b09_2 b09_3) (quad b09_4 b09_5 b09_6 b09_7) (quad b09_8 b09_9 b09_10 b09_11) (quad b09_12 b09_13 b09_14 b09_15)
  let b10_15 := m (p 3 3 + 10)
  let b10 := four (quad b10_0 b10_1 b10_2 b10_3) (quad b10_4 b10_5 b10_6 b10_7) (quad b10_8 b10_9 b10_10 b10_11) (quad b10_12 b10_13 b10_14 b10_15)
  let b11_15 := m (p 3 3 + 11)
  let b11 := four (quad b11_0 b11_1 b11_2 b11_3) (quad b11_4 b11_5 b11_6 b11_7) (quad b11_8 b11_9 b11_10 b11_11) (quad b11_12 b11_13 b11_14 b11_15)
  let b12_15 := m (p 3 3 + 12)
  let b12 := four (quad b12_0 b12_1 b12_2 b12_3) (quad b12_4 b12_5 b12_6 b12_7) (quad b12_8 b12_9 b12_10 b12_11) (quad b12_12 b12_13 b12_14 b12_15)
  let b13_15 := m (p 3 3 + 13)
  let b13 := four (quad b13_0 b13_1 b13_2 b13_3) (quad b13_4 b13_5 b13_6 b13_7) (quad b13_8 b13_9 b13_10 b13_11) (quad b13_12 b13_13 b13_14 b13_15)
  let b14_15 := m (p 3 3 + 14)
  let b14 := four (quad b14_0 b14_1 b14_2 b14_3) (quad b14_4 b14_5 b14_6 b14_7) (quad b14_8 b14_9 b14_10 b14_11) (quad b14_12 b14_13 b14_14 b14_15)
  let b15_15 := m (p 3 3 + 15)
  let b15 := four (quad b15_0 b15_1 b15_2 b15_3) (quad b15_4 b15_5 b15_6 b15_7) (quad b15_8 b15_9 b15_10 b15_11) (quad b15_12 b15_13 b15_14 b15_15)
  ![b00, b01, b02, b03, b04, b05, b06, b07, b08, b09, b10, b11, b12, b13, b14, b15]

/-- `load_16x8_tr_p`, /repo/src/util/v16/v16_portable.h:1387-1533. -/
def load_16x8_tr_p (m : Memory α) (p : Fin 2 → Fin 4 → ℕ) : (Fin 8 → Reg 4 α) :=
  let b00_0 := m (p 0 0)
  let b01_0 := m (p 0 0 + 1)
  let b02_0 := m (p 0 0 + 2)
  let b03_0 := m (p 0 0 + 3)
  let b04_0 := m (p 0 0 + 4)
  let b05_0 := m (p 0 0 + 5)
  let b06_0 := m (p 0 0 + 6)
  let b07_0 := m (p 0 0 + 7)
  let b00_1 := m (p 0 0 + 8)
  let b01_1 := m (p 0 0 + 9)
  let b02_1 := m (p 0 0 + 10)
  let b03_1 := m (p 0 0 + 11)
  let b04_1 := m (p 0 0 + 12)
  let b05_1 := m (p 0 0 + 13)
  let b06_1 := m (p 0 0 + 14)
  let b07_1 := m (p 0 0 + 15)
  let b00_2 := m (p 0 1)
  let b01_2 := m (p 0 1 + 1)
  let b02_2 := m (p 0 1 + 2)
  let b03_2 := m (p 0 1 + 3)
  let b04_2 := m (p 0 1 + 4)
  let b05_2 := m (p 0 1 + 5)
  let b06_2 := m (p 0 1 + 6)
  let b07_2 := m (p 0 1 + 7)
  let b00_3 := m (p 0 1 + 8)
  let b01_3 := m (p 0 1 + 9)
  let b02_3 := m (p 0 1 + 10)
  let b03_3 := m (p 0 1 + 11)
  let b04_3 := m (p 0 1 + 12)
  let b05_3 := m (p 0 1 + 13)
  let b06_3 := m (p 0 1 + 14)
  let b07_3 := m (p 0 1 + 15)
  let b00_4 := m (p 0 2)
  let b01_4 := m (p 0 2 + 1)
  let b02_4 := m (p 0 2 + 2)
  let b03_4 := m (p 0 2 + 3)
  let b04_4 := m (p 0 2 + 4)
  let b05_4 := m (p 0 2 + 5)
  let b06_4 := m (p 0 2 + 6)
  let b07_4 := m (p 0 2 + 7)
  let b00_5 := m (p 0 2 + 8)
  let b01_5 := m (p 0 2 + 9)
  let b02_5 := m (p 0 2 + 10)
  let b03_5 := m (p 0 2 + 11)
  let b04_5 := m (p 0 2 + 12)
  let b05_5 := m (p 0 2 + 13)
  let b06_5 := m (p 0 2 + 14)
  let b07_5 := m (p 0 2 + 15)
  let b00_6 := m (p 0 3)
  let b01_6 := m (p 0 3 + 1)
  let b02_6 := m (p 0 3 + 2)
  let b03_6 := m (p 0 3 + 3)
  let b04_6 := m (p 0 3 + 4)
  let b05_6 := m (p 0 3 + 5)
  let b06_6 := m (p 0 3 + 6)
  let b07_6 := m (p 0 3 + 7)
  let b00_7 := m (p 0 3 + 8)
  let b01_7 := m (p 0 3 + 9)
  let b02_7 := m (p 0 3 + 10)
  let b03_7 := m (p 0 3 + 11)
  let b04_7 := m (p 0 3 + 12)
  let b05_7 := m (p 0 3 + 13)
  let b06_7 := m (p 0 3 + 14)
  let b07_7 := m (p 0 3 + 15)
  let b00_8 := m (p 1 0)
  let b01_8 := m (p 1 0 + 1)
  let b02_8 := m (p 1 0 + 2)
  let b03_8 := m (p 1 0 + 3)
  let b04_8 := m (p 1 0 + 4)
  let b05_8 := m (p 1 0 + 5)
  let b06_8 := m (p 1 0 + 6)
  let b07_8 := m (p 1 0 + 7)
  let b00_9 := m (p 1 0 + 8)
  let b01_9 := m (p 1 0 + 9)
  let b02_9 := m (p 1 0 + 10)
  let b03_9 := m (p 1 0 + 11)
  let b04_9 := m (p 1 0 + 12)
  let b05_9 := m (p 1 0 + 13)
  let b06_9 := m (p 1 0 + 14)
  let b07_9 := m (p 1 0 + 15)
  let b00_10 := m (p 1 1)
  let b01_10 := m (p 1 1 + 1)
  let b02_10 := m (p 1 1 + 2)
  let b03_10 := m (p 1 1 + 3)
  let b04_10 := m (p 1 1 + 4)
  let b05_10 := m (p 1 1 + 5)
  let b06_10 := m (p 1 1 + 6)
  let b07_10 := m (p 1 1 + 7)
  let b00_11 := m (p 1 1 + 8)
  let b01_11 := m (p 1 1 + 9)
  let b02_11 := m (p 1 1 + 10)
  let b03_11 := m (p 1 1 + 11)
  let b04_11 := m (p 1 1 + 12)
  let b05_11 := m (p 1 1 + 13)
  let b06_11 := m (p 1 1 + 14)
  let b07_11 := m (p 1 1 + 15)
  let b00_12 := m (p 1 2)
  let b01_12 := m (p 1 2 + 1)
  let b02_12 := m (p 1 2 + 2)
  let b03_12 := m (p 1 2 + 3)
  let b04_12 := m (p 1 2 + 4)
  let b05_12 := m (p 1 2 + 5)
  let b06_12 := m (p 1 2 + 6)
  let b07_12 := m (p 1 2 + 7)
  let b00_13 := m (p 1 2 + 8)
  let b01_13 := m (p 1 2 + 9)
  let b02_13 := m (p 1 2 + 10)
  let b03_13 := m (p 1 2 + 11)
  let b04_13 := m (p 1 2 + 12)
  let b05_13 := m (p 1 2 + 13)
  let b06_13 := m (p 1 2 + 14)
  let b07_13 := m (p 1 2 + 15)
  let b00_14 := m (p 1 3)
  let b01_14 := m (p 1 3 + 1)
  let b02_14 := m (p 1 3 + 2)
  let b03_14 := m (p 1 3 + 3)
  let b04_14 := m (p 1 3 + 4)
  let b05_14 := m (p 1 3 + 5)
  let b06_14 := m (p 1 3 + 6)
  let b07_14 := m (p 1 3 + 7)
  let b00_15 := m (p 1 3 + 8)
  let b00 := four (quad b00_0 b00_1 b00_2 b00_3) (quad b00_4 b00_5 b00_6 b00_7) (quad b00_8 b00_9 b00_10 b00_11) (quad b00_12 b00_13 b00_14 b00_15)
  let b01_15 := m (p 1 3 + 9)
  let b01 := four (quad b01_0 b01_1 b01_2 b01_3) (quad b01_4 b01_5 b01_6 b01_7) (quad b01_8 b01_9 b01_10 b01_11) (quad b01_12 b01_13 b01_14 b01_15)
  let b02_15 := m (p 1 3 + 10)
  let b02 := four (quad b02_0 b02_1 b02_2 b02_3) (quad b02_4 b02_5 b02_6 b02_7) (quad b02_8 b02_9 b02_10 b02_11) (quad b02_12 b02_13 b02_14 b02_15)
  let b03_15 := m (p 1 3 + 11)
  let b03 := four (quad b03_0 b03_1 b03_2 b03_3) (quad b03_4 b03_5 b03_6 b03_7) (quad b03_8 b03_9 b03_10 b03_11) (quad b03_12 b03_13 b03_14 b03_15)
  let b04_15 := m (p 1 3 + 12)
  let b04 := four (quad b04_0 b04_1 b04_2 b04_3) (quad b04_4 b04_5 b04_6 b04_7) (quad b04_8 b04_9 b04_10 b04_11) (quad b04_12 b04_13 b04_14 b04_15)
  let b05_15 := m (p 1 3 + 13)
  let b05 := four (quad b05_0 b05_1 b05_2 b05_3) (quad b05_4 b05_5 b05_6 b05_7) (quad b05_8 b05_9 b05_10 b05_11) (quad b05_12 b05_13 b05_14 b05_15)
  let b06_15 := m (p 1 3 + 14)
  let b06 := four (quad b06_0 b06_1 b06_2 b06_3) (quad b06_4 b06_5 b06_6 b06_7) (quad b06_8 b06_9 b06_10 b06_11) (quad b06_12 b06_13 b06_14 b06_15)
  let b07_15 := m (p 1 3 + 15)
  let b07 := four (quad b07_0 b07_1 b07_2 b07_3) (quad b07_4 b07_5 b07_6 b07_7) (quad b07_8 b07_9 b07_10 b07_11) (quad b07_12 b07_13 b07_14 b07_15)
  ![b00, b01, b02, b03, b04, b05, b06, b07]

/-- `load_16x16_tr_p`, /repo/src/util/v16/v16_portable.h:1535-1827. -/
def load_16x16_tr_p (m : Memory α) (p : Fin 4 → Fin 4 → ℕ) : (Fin 16 → Reg 4 α) :=
  let b00_0 := m (p 0 0)
  let b01_0 := m (p 0 0 + 1)
  let b02_0 := m (p 0 0 + 2)
  let b03_0 := m (p 0 0 + 3)
  let b04_0 := m (p 0 0 + 4)
  let b05_0 := m (p 0 0 + 5)
  let b06_0 := m (p 0 0 + 6)
  let b07_0 := m (p 0 0 + 7)
  let b00_1 := m (p 0 0 + 8)
  let b01_1 := m (p 0 0 + 9)
  let b02_1 := m (p 0 0 + 10)
  let b03_1 := m (p 0 0 + 11)
  let b04_1 := m (p 0 0 + 12)
  let b05_1 := m (p 0 0 + 13)
  let b06_1 := m (p 0 0 + 14)
  let b07_1 := m (p 0 0 + 15)
  let b00_2 := m (p 0 1)
  let b01_2 := m (p 0 1 + 1)
  let b02_2 := m (p 0 1 + 2)
  let b03_2 := m (p 0 1 + 3)
  let b04_2 := m (p 0 1 + 4)
  let b05_2 := m (p 0 1 + 5)
  let b06_2 := m (p 0 1 + 6)
  let b07_2 := m (p 0 1 + 7)
  let b00_3 := m (p 0 1 + 8)
  let b01_3 := m (p 0 1 + 9)
  let b02_3 := m (p 0 1 + 10)
  let b03_3 := m (p 0 1 + 11)
  let b04_3 := m (p 0 1 + 12)
  let b05_3 := m (p 0 1 + 13)
  let b06_3 := m (p 0 1 + 14)
  let b07_3 := m (p 0 1 + 15)
  let b00_4 := m (p 0 2)
  let b01_4 := m (p 0 2 + 1)
  let b02_4 := m (p 0 2 + 2)
  let b03_4 := m (p 0 2 + 3)
  let b04_4 := m (p 0 2 + 4)
  let b05_4 := m (p 0 2 + 5)
  let b06_4 := m (p 0 2 + 6)
  let b07_4 := m (p 0 2 + 7)
  let b00_5 := m (p 0 2 + 8)
  let b01_5 := m (p 0 2 + 9)
  let b02_5 := m (p 0 2 + 10)
  let b03_5 := m (p 0 2 + 11)
  let b04_5 := m (p 0 2 + 12)
  let b05_5 := m (p 0 2 + 13)
  let b06_5 := m (p 0 2 + 14)
  let b07_5 := m (p 0 2 + 15)
  let b00_6 := m (p 0 3)
  let b01_6 := m (p 0 3 + 1)
  let b02_6 := m (p 0 3 + 2)
  let b03_6 := m (p 0 3 + 3)
  let b04_6 := m (p 0 3 + 4)
  let b05_6 := m (p 0 3 + 5)
  let b06_6 := m (p 0 3 + 6)
  let b07_6 := m (p 0 3 + 7)
  let b00_7 := m (p 0 3 + 8)
  let b01_7 := m (p 0 3 + 9)
  let b02_7 := m (p 0 3 + 10)
  let b03_7 := m (p 0 3 + 11)
  let b04_7 := m (p 0 3 + 12)
  let b05_7 := m (p 0 3 + 13)
  let b06_7 := m (p 0 3 + 14)
  let b07_7 := m (p 0 3 + 15)
  let b00_8 := m (p 1 0)
  let b01_8 := m (p 1 0 + 1)
  let b02_8 := m (p 1 0 + 2)
  let b03_8 := m (p 1 0 + 3)
  let b04_8 := m (p 1 0 + 4)
  let b05_8 := m (p 1 0 + 5)
  let b06_8 := m (p 1 0 + 6)
  let b07_8 := m (p 1 0 + 7)
  let b00_9 := m (p 1 0 + 8)
  let b01_9 := m (p 1 0 + 9)
  let b02_9 := m (p 1 0 + 10)
  let b03_9 := m (p 1 0 + 11)
  let b04_9 := m (p 1 0 + 12)
  let b05_9 := m (p 1 0 + 13)
  let b06_9 := m (p 1 0 + 14)
  let b07_9 := m (p 1 0 + 15)
  let b00_10 := m (p 1 1)
  let b01_10 := m (p 1 1 + 1)
  let b02_10 := m (p 1 1 + 2)
  let b03_10 := m (p 1 1 + 3)
  let b04_10 := m (p 1 1 + 4)
  let b05_10 := m (p 1 1 + 5)
  let b06_10 := m (p 1 1 + 6)
  let b07_10 := m (p 1 1 + 7)
  let b00_11 := m (p 1 1 + 8)
  let b01_11 := m (p 1 1 + 9)
  let b02_11 := m (p 1 1 + 10)
  let b03_11 := m (p 1 1 + 11)
  let b04_11 := m (p 1 1 + 12)
  let b05_11 := m (p 1 1 + 13)
  let b06_11 := m (p 1 1 + 14)
  let b07_11 := m (p 1 1 + 15)
  let b00_12 := m (p 1 2)
  let b01_12 := m (p 1 2 + 1)
  let b02_12 := m (p 1 2 + 2)
  let b03_12 := m (p 1 2 + 3)
  let b04_12 := m (p 1 2 + 4)
  let b05_12 := m (p 1 2 + 5)
  let b06_12 := m (p 1 2 + 6)
  let b07_12 := m (p 1 2 + 7)
  let b00_13 := m (p 1 2 + 8)
  let b01_13 := m (p 1 2 + 9)
  let b02_13 := m (p 1 2 + 10)
  let b03_13 := m (p 1 2 + 11)
  let b04_13 := m (p 1 2 + 12)
  let b05_13 := m (p 1 2 + 13)
  let b06_13 := m (p 1 2 + 14)
  let b07_13 := m (p 1 2 + 15)
  let b00_14 := m (p 1 3)
  let b01_14 := m (p 1 3 + 1)
  let b02_14 := m (p 1 3 + 2)
  let b03_14 := m (p 1 3 + 3)
  let b04_14 := m (p 1 3 + 4)
  let b05_14 := m (p 1 3 + 5)
  let b06_14 := m (p 1 3 + 6)
  let b07_14 := m (p 1 3 + 7)
  let b00_15 := m (p 1 3 + 8)
  let b00 := four (quad b00_0 b00_1 b00_2 b00_3) (quad b00_4 b00_5 b00_6 b00_7) (quad b00_8 b00_9 b00_10 b00_11) (quad b00_12 b00_13 b00_14 b00_15)
  let b01_15 := m (p 1 3 + 9)
  let b01 := four (quad b01_0 b01_1 b01_2 b01_3) (quad b01_4 b01_5 b01_6 b01_7) (quad b01_8 b01_9 b01_10 b01_11) (quad b01_12 b01_13 b01_14 b01_15)
  let b02_15 := m (p 1 3 + 10)
  let b02 := four (quad b02_0 b02_1 b02_2 b02_3) (quad b02_4 b02_5 b02_6 b02_7) (quad b02_8 b02_9 b02_10 b02_11) (quad b02_12 b02_13 b02_14 b02_15)
  let b03_15 := m (p 1 3 + 11)
  let b03 := four (quad b03_0 b03_1 b03_2 b03_3) (quad b03_4 b03_5 b03_6 b03_7) (quad b03_8 b03_9 b03_10 b03_11) (quad b03_12 b03_13 b03_14 b03_15)
  let b04_15 := m (p 1 3 + 12)
  let b04 := four (quad b04_0 b04_1 b04_2 b04_3) (quad b04_4 b04_5 b04_6 b04_7) (quad b04_8 b04_9 b04_10 b04_11) (quad b04_12 b04_13 b04_14 b04_15)
  let b05_15 := m (p 1 3 + 13)
  let b05 := four (quad b05_0 b05_1 b05_2 b05_3) (quad b05_4 b05_5 b05_6 b05_7) (quad b05_8 b05_9 b05_10 b05_11) (quad b05_12 b05_13 b05_14 b05_15)
  let b06_15 := m (p 1 3 + 14)
  let b06 := four (quad b06_0 b06_1 b06_2 b06_3) (quad b06_4 b06_5 b06_6 b06_7) (quad b06_8 b06_9 b06_10 b06_11) (quad b06_12 b06_13 b06_14 b06_15)
  let b07_15 := m (p 1 3 + 15)
  let b07 := four (quad b07_0 b07_1 b07_2 b07_3) (quad b07_4 b07_5 b07_6 b07_7) (quad b07_8 b07_9 b07_10 b07_11) (quad b07_12 b07_13 b07_14 b07_15)
  let b08_0 := m (p 2 0)
  let b09_0 := m (p 2 0 + 1)
  let b10_0 := m (p 2 0 + 2)
  let b11_0 := m (p 2 0 + 3)
  let b12_0 := m (p 2 0 + 4)
  let b13_0 := m (p 2 0 + 5)
  let b14_0 := m (p 2 0 + 6)
  let b15_0 := m (p 2 0 + 7)
  let b08_1 := m (p 2 0 + 8)
  let b09_1 := m (p 2 0 + 9)
  let b10_1 := m (p 2 0 + 10)
  let b11_1 := m (p 2 0 + 11)
  let b12_1 := m (p 2 0 + 12)
  let b13_1 := m (p 2 0 + 13)
  let b14_1 := m (p 2 0 + 14)
  let b15_1 := m (p 2 0 + 15)
  let b08_2 := m (p 2 1)
  let b09_2 := m (p 2 1 + 1)
  let b10_2 := m (p 2 1 + 2)
  let b11_2 := m (p 2 1 + 3)
  let b12_2 := m (p 2 1 + 4)
  let b13_2 := m (p 2 1 + 5)
  let b14_2 := m (p 2 1 + 6)
  let b15_2 := m (p 2 1 + 7)
  let b08_3 := m (p 2 1 + 8)
  let b09_3 := m (p 2 1 + 9)
  let b10_3 := m (p 2 1 + 10)
  let b11_3 := m (p 2 1 + 11)
  let b12_3 := m (p 2 1 + 12)
  let b13_3 := m (p 2 1 + 13)
  let b14_3 := m (p 2 1 + 14)
  let b15_3 := m (p 2 1 + 15)
  let b08_4 := m (p 2 2)
  let b09_4 := m (p 2 2 + 1)
  let b10_4 := m (p 2 2 + 2)
  let b11_4 := m (p 2 2 + 3)
  let b12_4 := m (p 2 2 + 4)
  let b13_4 := m (p 2 2 + 5)
  let b14_4 := m (p 2 2 + 6)
  let b15_4 := m (p 2 2 + 7)
  let b08_5 := m (p 2 2 + 8)
  let b09_5 := m (p 2 2 + 9)
  let b10_5 := m (p 2 2 + 10)
  let b11_5 := m (p 2 2 + 11)
  let b12_5 := m (p 2 2 + 12)
  let b13_5 := m (p 2 2 + 13)
  let b14_5 := m (p 2 2 + 14)
  let b15_5 := m (p 2 2 + 15)
  let b08_6 := m (p 2 3)
  let b09_6 := m (p 2 3 + 1)
  let b10_6 := m (p 2 3 + 2)
  let b11_6 := m (p 2 3 + 3)
  let b12_6 := m (p 2 3 + 4)
  let b13_6 := m (p 2 3 + 5)
  let b14_6 := m (p 2 3 + 6)
  let b15_6 := m (p 2 3 + 7)
  let b08_7 := m (p 2 3 + 8)
  let b09_7 := m (p 2 3 + 9)
  let b10_7 := m (p 2 3 + 10)
  let b11_7 := m (p 2 3 + 11)
  let b12_7 := m (p 2 3 + 12)
  let b13_7 := m (p 2 3 + 13)
  let b14_7 := m (p 2 3 + 14)
  let b15_7 := m (p 2 3 + 15)
  let b08_8 := m (p 3 0)
  let b09_8 := m (p 3 0 + 1)
  let b10_8 := m (p 3 0 + 2)
  let b11_8 := m (p 3 0 + 3)
  let b12_8 := m (p 3 0 + 4)
  let b13_8 := m (p 3 0 + 5)
  let b14_8 := m (p 3 0 + 6)
  let b15_8 := m (p 3 0 + 7)
  let b08_9 := m (p 3 0 + 8)
  let b09_9 := m (p 3 0 + 9)
  let b10_9 := m (p 3 0 + 10)
  let b11_9 := m (p 3 0 + 11)
  let b12_9 := m (p 3 0 + 12)
  let b13_9 := m (p 3 0 + 13)
  let b14_9 := m (p 3 0 + 14)
  let b15_9 := m (p 3 0 + 15)
  let b08_10 := m (p 3 1)
  let b09_10 := m (p 3 1 + 1)
  let b10_10 := m (p 3 1 + 2)
  let b11_10 := m (p 3 1 + 3)
  let b12_10 := m (p 3 1 + 4)
  let b13_10 := m (p 3 1 + 5)
  let b14_10 := m (p 3 1 + 6)
  let b15_10 := m (p 3 1 + 7)
  let b08_11 := m (p 3 1 + 8)
  let b09_11 := m (p 3 1 + 9)
  let b10_11 := m (p 3 1 + 10)
  let b11_11 := m (p 3 1 + 11)
  let b12_11 := m (p 3 1 + 12)
  let b13_11 := m (p 3 1 + 13)
  let b14_11 := m (p 3 1 + 14)
  let b15_11 := m (p 3 1 + 15)
  let b08_12 := m (p 3 2)
  let b09_12 := m (p 3 2 + 1)
  let b10_12 := m (p 3 2 + 2)
  let b11_12 := m (p 3 2 + 3)
  let b12_12 := m (p 3 2 + 4)
  let b13_12 := m (p 3 2 + 5)
  let b14_12 := m (p 3 2 + 6)
  let b15_12 := m (p 3 2 + 7)
  let b08_13 := m (p 3 2 + 8)
  let b09_13 := m (p 3 2 + 9)
  let b10_13 := m (p 3 2 + 10)
  let b11_13 := m (p 3 2 + 11)
  let b12_13 := m (p 3 2 + 12)
  let b13_13 := m (p 3 2 + 13)
  let b14_13 := m (p 3 2 + 14)
  let b15_13 := m (p 3 2 + 15)
  let b08_14 := m (p 3 3)
  let b09_14 := m (p 3 3 + 1)
  let b10_14 := m (p 3 3 + 2)
  let b11_14 := m (p 3 3 + 3)
  let b12_14 := m (p 3 3 + 4)
  let b13_14 := m (p 3 3 + 5)
  let b14_14 := m (p 3 3 + 6)
  let b15_14 := m (p 3 3 + 7)
  let b08_15 := m (p 3 3 + 8)
  let b08 := four (quad b08_0 b08_1 b08_2 b08_3) (quad b08_4 b08_5 b08_6 b08_7) (quad b08_8 b08_9 b08_10 b08_11) (quad b08_12 b08_13 b08_14 b08_15)
  let b09_15 := m (p 3 3 + 9)
  let b09 := four (quad b09_0 b09_1 b09_2 b09_3) (quad b09_4 b09_5 b09_6 b09_7) (quad b09_8 b09_9 b09_10 b09_11) (quad b09_12 b09_13 b09_14 b09_15)
  let b10_15 := m (p 3 3 + 10)
  let b10 := four (quad b10_0 b10_1 b10_2 b10_3) (quad b10_4 b10_5 b10_6 b10_7) (quad b10_8 b10_9 b10_10 b10_11) (quad b10_12 b10_13 b10_14 b10_15)
  let b11_15 := m (p 3 3 + 11)
  let b11 := four (quad b11_0 b11_1 b11_2 b11_3) (quad b11_4 b11_5 b11_6 b11_7) (quad b11_8 b11_9 b11_10 b11_11) (quad b11_12 b11_13 b11_14 b11_15)
  let b12_15 := m (p 3 3 + 12)
  let b12 := four (quad b12_0 b12_1 b12_2 b12_3) (quad b12_4 b12_5 b12_6 b12_7) (quad b12_8 b12_9 b12_10 b12_11) (quad b12_12 b12_13 b12_14 b12_15)
  let b13_15 := m (p 3 3 + 13)
  let b13 := four (quad b13_0 b13_1 b13_2 b13_3) (quad b13_4 b13_5 b13_6 b13_7) (quad b13_8 b13_9 b13_10 b13_11) (quad b13_12 b13_13 b13_14 b13_15)
  let b14_15 := m (p 3 3 + 14)
  let b14 := four (quad b14_0 b14_1 b14_2 b14_3) (quad b14_4 b14_5 b14_6 b14_7) (quad b14_8 b14_9 b14_10 b14_11) (quad b14_12 b14_13 b14_14 b14_15)
  let b15_15 := m (p 3 3 + 15)
  let b15 := four (quad b15_0 b15_1 b15_2 b15_3) (quad b15_4 b15_5 b15_6 b15_7) (quad b15_8 b15_9 b15_10 b15_11) (quad b15_12 b15_13 b15_14 b15_15)
  ![b00, b01, b02, b03, b04, b05, b06, b07, b08, b09, b10, b11, b12, b13, b14, b15]

/-- `store_16x1_tr`, /repo/src/util/v16/v16_portable.h:1829-1851. -/
def store_16x1_tr (m : Memory α) (v : Fin 1 → Reg 4 α) (p : Fin 4 → Fin 4 → ℕ) : Memory α :=
  let m := put m (p 0 0) ((v 0) 0 0)
  let m := put m (p 0 1) ((v 0) 0 1)
  let m := put m (p 0 2) ((v 0) 0 2)
  let m := put m (p 0 3) ((v 0) 0 3)
  let m := put m (p 1 0) ((v 0) 1 0)
  let m := put m (p 1 1) ((v 0) 1 1)
  let m := put m (p 1 2) ((v 0) 1 2)
  let m := put m (p 1 3) ((v 0) 1 3)
  let m := put m (p 2 0) ((v 0) 2 0)
  let m := put m (p 2 1) ((v 0) 2 1)
  let m := put m (p 2 2) ((v 0) 2 2)
  let m := put m (p 2 3) ((v 0) 2 3)
  let m := put m (p 3 0) ((v 0) 3 0)
  let m := put m (p 3 1) ((v 0) 3 1)
  let m := put m (p 3 2) ((v 0) 3 2)
  let m := put m (p 3 3) ((v 0) 3 3)
  m

/-- `store_16x2_tr`, /repo/src/util/v16/v16_portable.h:1853-1910. -/
def store_16x2_tr (m : Memory α) (v : Fin 2 → Reg 4 α) (p : Fin 4 → Fin 4 → ℕ) : Memory α :=
  let m := put m (p 0 0) ((v 0) 0 0)
  let m := put m (p 0 0 + 1) ((v 1) 0 0)
  let m := put m (p 0 1) ((v 0) 0 1)
  let m := put m (p 0 1 + 1) ((v 1) 0 1)
  let m := put m (p 0 2) ((v 0) 0 2)
  let m := put m (p 0 2 + 1) ((v 1) 0 2)
  let m := put m (p 0 3) ((v 0) 0 3)
  let m := put m (p 0 3 + 1) ((v 1) 0 3)
  let m := put m (p 1 0) ((v 0) 1 0)
  let m := put m (p 1 0 + 1) ((v 1) 1 0)
  let m := put m (p 1 1) ((v 0) 1 1)
  let m := put m (p 1 1 + 1) ((v 1) 1 1)
  let m := put m (p 1 2) ((v 0) 1 2)
  let m := put m (p 1 2 + 1) ((v 1) 1 2)
  let m := put m (p 1 3) ((v 0) 1 3)
  let m := put m (p 1 3 + 1) ((v 1) 1 3)
  let m := put m (p 2 0) ((v 0) 2 0)
  let m := put m (p 2 0 + 1) ((v 1) 2 0)
  let m := put m (p 2 1) ((v 0) 2 1)
  let m := put m (p 2 1 + 1) ((v 1) 2 1)
  let m := put m (p 2 2) ((v 0) 2 2)
  let m := put m (p 2 2 + 1) ((v 1) 2 2)
  let m := put m (p 2 3) ((v 0) 2 3)
  let m := put m (p 2 3 + 1) ((v 1) 2 3)
  let m := put m (p 3 0) ((v 0) 3 0)
  let m := put m (p 3 0 + 1) ((v 1) 3 0)
  let m := put m (p 3 1) ((v 0) 3 1)
  let m := put m (p 3 1 + 1) ((v 1) 3 1)
  let m := put m (p 3 2) ((v 0) 3 2)
  let m := put m (p 3 2 + 1) ((v 1) 3 2)
  let m := put m (p 3 3) ((v 0) 3 3)
  let m := put m (p 3 3 + 1) ((v 1) 3 3)
  m

/-- `store_16x3_tr`, /repo/src/util/v16/v16_portable.h:1912-1985. -/
def store_16x3_tr (m : Memory α) (v : Fin 3 → Reg 4 α) (p : Fin 4 → Fin 4 → ℕ) : Memory α :=
  let m := put m (p 0 0) ((v 0) 0 0)
  let m := put m (p 0 0 + 1) ((v 1) 0 0)
  let m := put m (p 0 0 + 2) ((v 2) 0 0)
  let m := put m (p 0 1) ((v 0) 0 1)
  let m := put m (p 0 1 + 1) ((v 1) 0 1)
  let m := put m (p 0 1 + 2) ((v 2) 0 1)
  let m := put m (p 0 2) ((v 0) 0 2)
  let m := put m (p 0 2 + 1) ((v 1) 0 2)
  let m := put m (p 0 2 + 2) ((v 2) 0 2)
  let m := put m (p 0 3) ((v 0) 0 3)
  let m := put m (p 0 3 + 1) ((v 1) 0 3)
  let m := put m (p 0 3 + 2) ((v 2) 0 3)
  let m := put m (p 1 0) ((v 0) 1 0)
  let m := put m (p 1 0 + 1) ((v 1) 1 0)
  let m := put m (p 1 0 + 2) ((v 2) 1 0)
  let m := put m (p 1 1) ((v 0) 1 1)
  let m := put m (p 1 1 + 1) ((v 1) 1 1)
  let m := put m (p 1 1 + 2) ((v 2) 1 1)
  let m := put m (p 1 2) ((v 0) 1 2)
  let m := put m (p 1 2 + 1) ((v 1) 1 2)
  let m := put m (p 1 2 + 2) ((v 2) 1 2)
  let m := put m (p 1 3) ((v 0) 1 3)
  let m := put m (p 1 3 + 1) ((v 1) 1 3)
  let m := put m (p 1 3 + 2) ((v 2) 1 3)
  let m := put m (p 2 0) ((v 0) 2 0)
  let m := put m (p 2 0 + 1) ((v 1) 2 0)
  let m := put m (p 2 0 + 2) ((v 2) 2 0)
  let m := put m (p 2 1) ((v 0) 2 1)
  let m := put m (p 2 1 + 1) ((v 1) 2 1)
  let m := put m (p 2 1 + 2) ((v 2) 2 1)
  let m := put m (p 2 2) ((v 0) 2 2)
  let m := put m (p 2 2 + 1) ((v 1) 2 2)
  let m := put m (p 2 2 + 2) ((v 2) 2 2)
  let m := put m (p 2 3) ((v 0) 2 3)
  let m := put m (p 2 3 + 1) ((v 1) 2 3)
  let m := put m (p 2 3 + 2) ((v 2) 2 3)
  let m := put m (p 3 0) ((v 0) 3 0)
  let m := put m (p 3 0 + 1) ((v 1) 3 0)
  let m := put m (p 3 0 + 2) ((v 2) 3 0)
  let m := put m (p 3 1) ((v 0) 3 1)
  let m := put m (p 3 1 + 1) ((v 1) 3 1)
  let m := put m (p 3 1 + 2) ((v 2) 3 1)
  let m := put m (p 3 2) ((v 0) 3 2)
  let m := put m (p 3 2 + 1) ((v 1) 3 2)
  let m := put m (p 3 2 + 2) ((v 2) 3 2)
  let m := put m (p 3 3) ((v 0) 3 3)
  let m := put m (p 3 3 + 1) ((v 1) 3 3)
  let m := put m (p 3 3 + 2) ((v 2) 3 3)
  m

/-- `store_16x4_tr`, /repo/src/util/v16/v16_portable.h:1987-2076. -/
def store_16x4_tr (m : Memory α) (v : Fin 4 → Reg 4 α) (p : Fin 4 → Fin 4 → ℕ) : Memory α :=
  let m := put m (p 0 0) ((v 0) 0 0)
  let m := put m (p 0 0 + 1) ((v 1) 0 0)
  let m := put m (p 0 0 + 2) ((v 2) 0 0)
  let m := put m (p 0 0 + 3) ((v 3) 0 0)
  let m := put m (p 0 1) ((v 0) 0 1)
  let m := put m (p 0 1 + 1) ((v 1) 0 1)
  let m := put m (p 0 1 + 2) ((v 2) 0 1)
  let m := put m (p 0 1 + 3) ((v 3) 0 1)
  let m := put m (p 0 2) ((v 0) 0 2)
  let m := put m (p 0 2 + 1) ((v 1) 0 2)
  let m := put m (p 0 2 + 2) ((v 2) 0 2)
  let m := put m (p 0 2 + 3) ((v 3) 0 2)
  let m := put m (p 0 3) ((v 0) 0 3)
  let m := put m (p 0 3 + 1) ((v 1) 0 3)
  let m := put m (p 0 3 + 2) ((v 2) 0 3)
  let m := put m (p 0 3 + 3) ((v 3) 0 3)
  let m := put m (p 1 0) ((v 0) 1 0)
  let m := put m (p 1 0 + 1) ((v 1) 1 0)
  let m := put m (p 1 0 + 2) ((v 2) 1 0)
  let m := put m (p 1 0 + 3) ((v 3) 1 0)
  let m := put m (p 1 1) ((v 0) 1 1)
  let m := put m (p 1 1 + 1) ((v 1) 1 1)
  let m := put m (p 1 1 + 2) ((v 2) 1 1)
  let m := put m (p 1 1 + 3) ((v 3) 1 1)
  let m := put m (p 1 2) ((v 0) 1 2)
  let m := put m (p 1 2 + 1) ((v 1) 1 2)
  let m := put m (p 1 2 + 2) ((v 2) 1 2)
  let m := put m (p 1 2 + 3) ((v 3) 1 2)
  let m := put m (p 1 3) ((v 0) 1 3)
  let m := put m (p 1 3 + 1) ((v 1) 1 3)
  let m := put m (p 1 3 + 2) ((v 2) 1 3)
  let m := put m (p 1 3 + 3) ((v 3) 1 3)
  let m := put m (p 2 0) ((v 0) 2 0)
  let m := put m (p 2 0 + 1) ((v 1) 2 0)
  let m := put m (p 2 0 + 2) ((v 2) 2 0)
  let m := put m (p 2 0 + 3) ((v 3) 2 0)
  let m := put m (p 2 1) ((v 0) 2 1)
  let m := put m (p 2 1 + 1) ((v 1) 2 1)
  let m := put m (p 2 1 + 2) ((v 2) 2 1)
  let m := put m (p 2 1 + 3) ((v 3) 2 1)
  let m := put m (p 2 2) ((v 0) 2 2)
  let m := put m (p 2 2 + 1) ((v 1) 2 2)
  let m := put m (p 2 2 + 2) ((v 2) 2 2)
  let m := put m (p 2 2 + 3) ((v 3) 2 2)
  let m := put m (p 2 3) ((v 0) 2 3)
  let m := put m (p 2 3 + 1) ((v 1) 2 3)
  let m := put m (p 2 3 + 2) ((v 2) 2 3)
  let m := put m (p 2 3 + 3) ((v 3) 2 3)
  let m := put m (p 3 0) ((v 0) 3 0)
  let m := put m (p 3 0 + 1) ((v 1) 3 0)
  let m := put m (p 3 0 + 2) ((v 2) 3 0)
  let m := put m (p 3 0 + 3) ((v 3) 3 0)
  let m := put m (p 3 1) ((v 0) 3 1)
  let m := put m (p 3 1 + 1) ((v 1) 3 1)
  let m := put m (p 3 1 + 2) ((v 2) 3 1)
  let m := put m (p 3 1 + 3) ((v 3) 3 1)
  let m := put m (p 3 2) ((v 0) 3 2)
  let m := put m (p 3 2 + 1) ((v 1) 3 2)
  let m := put m (p 3 2 + 2) ((v 2) 3 2)
  let m := put m (p 3 2 + 3) ((v 3) 3 2)
  let m := put m (p 3 3) ((v 0) 3 3)
  let m := put m (p 3 3 + 1) ((v 1) 3 3)
  let m := put m (p 3 3 + 2) ((v 2) 3 3)
  let m := put m (p 3 3 + 3) ((v 3) 3 3)
  m

/-- `store_16x8_tr`, /repo/src/util/v16/v16_portable.h:2078-2232. -/
def store_16x8_tr (m : Memory α) (v : Fin 8 → Reg 4 α) (p : Fin 4 → Fin 4 → ℕ) : Memory α :=
  let m := put m (p 0 0) ((v 0) 0 0)
  let m := put m (p 0 0 + 1) ((v 1) 0 0)
  let m := put m (p 0 0 + 2) ((v 2) 0 0)
  let m := put m (p 0 0 + 3) ((v 3) 0 0)
  let m := put m (p 0 0 + 4) ((v 4) 0 0)
  let m := put m (p 0 0 + 5) ((v 5) 0 0)
  let m := put m (p 0 0 + 6) ((v 6) 0 0)
  let m := put m (p 0 0 + 7) ((v 7) 0 0)
  let m := put m (p 0 1) ((v 0) 0 1)
  let m := put m (p 0 1 + 1) ((v 1) 0 1)
  let m := put m (p 0 1 + 2) ((v 2) 0 1)
  let m := put m (p 0 1 + 3) ((v 3) 0 1)
  let m := put m (p 0 1 + 4) ((v 4) 0 1)
  let m := put m (p 0 1 + 5) ((v 5) 0 1)
  let m := put m (p 0 1 + 6) ((v 6) 0 1)
  let m := put m (p 0 1 + 7) ((v 7) 0 1)
  let m := put m (p 0 2) ((v 0) 0 2)
  let m := put m (p 0 2 + 1) ((v 1) 0 2)
  let m := put m (p 0 2 + 2) ((v 2) 0 2)
  let m := put m (p 0 2 + 3) ((v 3) 0 2)
  let m := put m (p 0 2 + 4) ((v 4) 0 2)
  let m := put m (p 0 2 + 5) ((v 5) 0 2)
  let m := put m (p 0 2 + 6) ((v 6) 0 2)
  let m := put m (p 0 2 + 7) ((v 7) 0 2)
  let m := put m (p 0 3) ((v 0) 0 3)
  let m := put m (p 0 3 + 1) ((v 1) 0 3)
  let m := put m (p 0 3 + 2) ((v 2) 0 3)
  let m := put m (p 0 3 + 3) ((v 3) 0 3)
  let m := put m (p 0 3 + 4) ((v 4) 0 3)
  let m := put m (p 0 3 + 5) ((v 5) 0 3)
  let m := put m (p 0 3 + 6) ((v 6) 0 3)
  let m := put m (p 0 3 + 7) ((v 7) 0 3)
  let m := put m (p 1 0) ((v 0) 1 0)
  let m := put m (p 1 0 + 1) ((v 1) 1 0)
  let m := put m (p 1 0 + 2) ((v 2) 1 0)
  let m := put m (p 1 0 + 3) ((v 3) 1 0)
  let m := put m (p 1 0 + 4) ((v 4) 1 0)
  let m := put m (p 1 0 + 5) ((v 5) 1 0)
  let m := put m (p 1 0 + 6) ((v 6) 1 0)
  let m := put m (p 1 0 + 7) ((v 7) 1 0)
  let m := put m (p 1 1) ((v 0) 1 1)
  let m := put m (p 1 1 + 1) ((v 1) 1 1)
  let m := put m (p 1 1 + 2) ((v 2) 1 1)
  let m := put m (p 1 1 + 3) ((v 3) 1 1)
  let m := put m (p 1 1 + 4) ((v 4) 1 1)
  let m := put m (p 1 1 + 5) ((v 5) 1 1)
  let m := put m (p 1 1 + 6) ((v 6) 1 1)
  let m := put m (p 1 1 + 7) ((v 7) 1 1)
  let m := put m (p 1 2) ((v 0) 1 2)
  let m := put m (p 1 2 + 1) ((v 1) 1 2)
  let m := put m (p 1 2 + 2) ((v 2) 1 2)
  let m := put m (p 1 2 + 3) ((v 3) 1 2)
  let m := put m (p 1 2 + 4) ((v 4) 1 2)
  let m := put m (p 1 2 + 5) ((v 5) 1 2)
  let m := put m (p 1 2 + 6) ((v 6) 1 2)
  let m := put m (p 1 2 + 7) ((v 7) 1 2)
  let m := put m (p 1 3) ((v 0) 1 3)
  let m := put m (p 1 3 + 1) ((v 1) 1 3)
  let m := put m (p 1 3 + 2) ((v 2) 1 3)
  let m := put m (p 1 3 + 3) ((v 3) 1 3)
  let m := put m (p 1 3 + 4) ((v 4) 1 3)
  let m := put m (p 1 3 + 5) ((v 5) 1 3)
  let m := put m (p 1 3 + 6) ((v 6) 1 3)
  let m := put m (p 1 3 + 7) ((v 7) 1 3)
  let m := put m (p 2 0) ((v 0) 2 0)
  let m := put m (p 2 0 + 1) ((v 1) 2 0)
  let m := put m (p 2 0 + 2) ((v 2) 2 0)
  let m := put m (p 2 0 + 3) ((v 3) 2 0)
  let m := put m (p 2 0 + 4) ((v 4) 2 0)
  let m := put m (p 2 0 + 5) ((v 5) 2 0)
  let m := put m (p 2 0 + 6) ((v 6) 2 0)
  let m := put m (p 2 0 + 7) ((v 7) 2 0)
  let m := put m (p 2 1) ((v 0) 2 1)
  let m := put m (p 2 1 + 1) ((v 1) 2 1)
  let m := put m (p 2 1 + 2) ((v 2) 2 1)
  let m := put m (p 2 1 + 3) ((v 3) 2 1)
  let m := put m (p 2 1 + 4) ((v 4) 2 1)
  let m := put m (p 2 1 + 5) ((v 5) 2 1)
  let m := put m (p 2 1 + 6) ((v 6) 2 1)
  let m := put m (p 2 1 + 7) ((v 7) 2 1)
  let m := put m (p 2 2) ((v 0) 2 2)
  let m := put m (p 2 2 + 1) ((v 1) 2 2)
  let m := put m (p 2 2 + 2) ((v 2) 2 2)
  let m := put m (p 2 2 + 3) ((v 3) 2 2)
  let m := put m (p 2 2 + 4) ((v 4) 2 2)
  let m := put m (p 2 2 + 5) ((v 5) 2 2)
  let m := put m (p 2 2 + 6) ((v 6) 2 2)
  let m := put m (p 2 2 + 7) ((v 7) 2 2)
  let m := put m (p 2 3) ((v 0) 2 3)
  let m := put m (p 2 3 + 1) ((v 1) 2 3)
  let m := put m (p 2 3 + 2) ((v 2) 2 3)
  let m := put m (p 2 3 + 3) ((v 3) 2 3)
  let m := put m (p 2 3 + 4) ((v 4) 2 3)
  let m := put m (p 2 3 + 5) ((v 5) 2 3)
  let m := put m (p 2 3 + 6) ((v 6) 2 3)
  let m := put m (p 2 3 + 7) ((v 7) 2 3)
  let m := put m (p 3 0) ((v 0) 3 0)
  let m := put m (p 3 0 + 1) ((v 1) 3 0)
  let m := put m (p 3 0 + 2) ((v 2) 3 0)
  let m := put m (p 3 0 + 3) ((v 3) 3 0)
  let m := put m (p 3 0 + 4) ((v 4) 3 0)
  let m := put m (p 3 0 + 5) ((v 5) 3 0)
  let m := put m (p 3 0 + 6) ((v 6) 3 0)
  let m := put m (p 3 0 + 7) ((v 7) 3 0)
  let m := put m (p 3 1) ((v 0) 3 1)
  let m := put m (p 3 1 + 1) ((v 1) 3 1)
  let m := put m (p 3 1 + 2) ((v 2) 3 1)
  let m := put m (p 3 1 + 3) ((v 3) 3 1)
  let m := put m (p 3 1 + 4) ((v 4) 3 1)
  let m := put m (p 3 1 + 5) ((v 5) 3 1)
  let m := put m (p 3 1 + 6) ((v 6) 3 1)
  let m := put m (p 3 1 + 7) ((v 7) 3 1)
  let m := put m (p 3 2) ((v 0) 3 2)
  let m := put m (p 3 2 + 1) ((v 1) 3 2)
  let m := put m (p 3 2 + 2) ((v 2) 3 2)
  let m := put m (p 3 2 + 3) ((v 3) 3 2)
  let m := put m (p 3 2 + 4) ((v 4) 3 2)
  let m := put m (p 3 2 + 5) ((v 5) 3 2)
  let m := put m (p 3 2 + 6) ((v 6) 3 2)
  let m := put m (p 3 2 + 7) ((v 7) 3 2)
  let m := put m (p 3 3) ((v 0) 3 3)
  let m := put m (p 3 3 + 1) ((v 1) 3 3)
  let m := put m (p 3 3 + 2) ((v 2) 3 3)
  let m := put m (p 3 3 + 3) ((v 3) 3 3)
  let m := put m (p 3 3 + 4) ((v 4) 3 3)
  let m := put m (p 3 3 + 5) ((v 5) 3 3)
  let m := put m (p 3 3 + 6) ((v 6) 3 3)
  let m := put m (p 3 3 + 7) ((v 7) 3 3)
  m

/-- `store_16x16_tr`, /repo/src/util/v16/v16_portable.h:2234-2518. -/
def store_16x16_tr (m : Memory α) (v : Fin 16 → Reg 4 α) (p : Fin 4 → Fin 4 → ℕ) : Memory α :=
  let m := put m (p 0 0) ((v 0) 0 0)
  let m := put m (p 0 0 + 1) ((v 1) 0 0)
  let m := put m (p 0 0 + 2) ((v 2) 0 0)
  let m := put m (p 0 0 + 3) ((v 3) 0 0)
  let m := put m (p 0 0 + 4) ((v 4) 0 0)
  let m := put m (p 0 0 + 5) ((v 5) 0 0)
  let m := put m (p 0 0 + 6) ((v 6) 0 0)
  let m := put m (p 0 0 + 7) ((v 7) 0 0)
  let m := put m (p 0 0 + 8) ((v 8) 0 0)
  let m := put m (p 0 0 + 9) ((v 9) 0 0)
  let m := put m (p 0 0 + 10) ((v 10) 0 0)
  let m := put m (p 0 0 + 11) ((v 11) 0 0)
  let m := put m (p 0 0 + 12) ((v 12) 0 0)
  let m := put m (p 0 0 + 13) ((v 13) 0 0)
  let m := put m (p 0 0 + 14) ((v 14) 0 0)
  let m := put m (p 0 0 + 15) ((v 15) 0 0)
  let m := put m (p 0 1) ((v 0) 0 1)
  let m := put m (p 0 1 + 1) ((v 1) 0 1)
  let m := put m (p 0 1 + 2) ((v 2) 0 1)
  let m := put m (p 0 1 + 3) ((v 3) 0 1)
  let m := put m (p 0 1 + 4) ((v 4) 0 1)
  let m := put m (p 0 1 + 5) ((v 5) 0 1)
  let m := put m (p 0 1 + 6) ((v 6) 0 1)
  let m := put m (p 0 1 + 7) ((v 7) 0 1)
  let m := put m (p 0 1 + 8) ((v 8) 0 1)
  let m := put m (p 0 1 + 9) ((v 9) 0 1)
  let m := put m (p 0 1 + 10) ((v 10) 0 1)
  let m := put m (p 0 1 + 11) ((v 11) 0 1)
  let m := put m (p 0 1 + 12) ((v 12) 0 1)
  let m := put m (p 0 1 + 13) ((v 13) 0 1)
  let m := put m (p 0 1 + 14) ((v 14) 0 1)
  let m := put m (p 0 1 + 15) ((v 15) 0 1)
  let m := put m (p 0 2) ((v 0) 0 2)
  let m := put m (p 0 2 + 1) ((v 1) 0 2)
  let m := put m (p 0 2 + 2) ((v 2) 0 2)
  let m := put m (p 0 2 + 3) ((v 3) 0 2)
  let m := put m (p 0 2 + 4) ((v 4) 0 2)
  let m := put m (p 0 2 + 5) ((v 5) 0 2)
  let m := put m (p 0 2 + 6) ((v 6) 0 2)
  let m := put m (p 0 2 + 7) ((v 7) 0 2)
  let m := put m (p 0 2 + 8) ((v 8) 0 2)
  let m := put m (p 0 2 + 9) ((v 9) 0 2)
  let m := put m (p 0 2 + 10) ((v 10) 0 2)
  let m := put m (p 0 2 + 11) ((v 11) 0 2)
  let m := put m (p 0 2 + 12) ((v 12) 0 2)
  let m := put m (p 0 2 + 13) ((v 13) 0 2)
  let m := put m (p 0 2 + 14) ((v 14) 0 2)
  let m := put m (p 0 2 + 15) ((v 15) 0 2)
  let m := put m (p 0 3) ((v 0) 0 3)
  let m := put m (p 0 3 + 1) ((v 1) 0 3)
  let m := put m (p 0 3 + 2) ((v 2) 0 3)
  let m := put m (p 0 3 + 3) ((v 3) 0 3)
  let m := put m (p 0 3 + 4) ((v 4) 0 3)
  let m := put m (p 0 3 + 5) ((v 5) 0 3)
  let m := put m (p 0 3 + 6) ((v 6) 0 3)
  let m := put m (p 0 3 + 7) ((v 7) 0 3)
  let m := put m (p 0 3 + 8) ((v 8) 0 3)
  let m := put m (p 0 3 + 9) ((v 9) 0 3)
  let m := put m (p 0 3 + 10) ((v 10) 0 3)
  let m := put m (p 0 3 + 11) ((v 11) 0 3)
  let m := put m (p 0 3 + 12) ((v 12) 0 3)
  let m := put m (p 0 3 + 13) ((v 13) 0 3)
  let m := put m (p 0 3 + 14) ((v 14) 0 3)
  let m := put m (p 0 3 + 15) ((v 15) 0 3)
  let m := put m (p 1 0) ((v 0) 1 0)
  let m := put m (p 1 0 + 1) ((v 1) 1 0)
  let m := put m (p 1 0 + 2) ((v 2) 1 0)
  let m := put m (p 1 0 + 3) ((v 3) 1 0)
  let m := put m (p 1 0 + 4) ((v 4) 1 0)
  let m := put m (p 1 0 + 5) ((v 5) 1 0)
  let m := put m (p 1 0 + 6) ((v 6) 1 0)
  let m := put m (p 1 0 + 7) ((v 7) 1 0)
  let m := put m (p 1 0 + 8) ((v 8) 1 0)
  let m := put m (p 1 0 + 9) ((v 9) 1 0)
  let m := put m (p 1 0 + 10) ((v 10) 1 0)
  let m := put m (p 1 0 + 11) ((v 11) 1 0)
  let m := put m (p 1 0 + 12) ((v 12) 1 0)
  let m := put m (p 1 0 + 13) ((v 13) 1 0)
  let m := put m (p 1 0 + 14) ((v 14) 1 0)
  let m := put m (p 1 0 + 15) ((v 15) 1 0)
  let m := put m (p 1 1) ((v 0) 1 1)
  let m := put m (p 1 1 + 1) ((v 1) 1 1)
  let m := put m (p 1 1 + 2) ((v 2) 1 1)
  let m := put m (p 1 1 + 3) ((v 3) 1 1)
  let m := put m (p 1 1 + 4) ((v 4) 1 1)
  let m := put m (p 1 1 + 5) ((v 5) 1 1)
  let m := put m (p 1 1 + 6) ((v 6) 1 1)
  let m := put m (p 1 1 + 7) ((v 7) 1 1)
  let m := put m (p 1 1 + 8) ((v 8) 1 1)
  let m := put m (p 1 1 + 9) ((v 9) 1 1)
  let m := put m (p 1 1 + 10) ((v 10) 1 1)
  let m := put m (p 1 1 + 11) ((v 11) 1 1)
  let m := put m (p 1 1 + 12) ((v 12) 1 1)
  let m := put m (p 1 1 + 13) ((v 13) 1 1)
  let m := put m (p 1 1 + 14) ((v 14) 1 1)
  let m := put m (p 1 1 + 15) ((v 15) 1 1)
  let m := put m (p 1 2) ((v 0) 1 2)
  let m := put m (p 1 2 + 1) ((v 1) 1 2)
  let m := put m (p 1 2 + 2) ((v 2) 1 2)
  let m := put m (p 1 2 + 3) ((v 3) 1 2)
  let m := put m (p 1 2 + 4) ((v 4) 1 2)
  let m := put m (p 1 2 + 5) ((v 5) 1 2)
  let m := put m (p 1 2 + 6) ((v 6) 1 2)
  let m := put m (p 1 2 + 7) ((v 7) 1 2)
  let m := put m (p 1 2 + 8) ((v 8) 1 2)
  let m := put m (p 1 2 + 9) ((v 9) 1 2)
  let m := put m (p 1 2 + 10) ((v 10) 1 2)
  let m := put m (p 1 2 + 11) ((v 11) 1 2)
  let m := put m (p 1 2 + 12) ((v 12) 1 2)
  let m := put m (p 1 2 + 13) ((v 13) 1 2)
  let m := put m (p 1 2 + 14) ((v 14) 1 2)
  let m := put m (p 1 2 + 15) ((v 15) 1 2)
  let m := put m (p 1 3) ((v 0) 1 3)
  let m := put m (p 1 3 + 1) ((v 1) 1 3)
  let m := put m (p 1 3 + 2) ((v 2) 1 3)
  let m := put m (p 1 3 + 3) ((v 3) 1 3)
  let m := put m (p 1 3 + 4) ((v 4) 1 3)
  let m := put m (p 1 3 + 5) ((v 5) 1 3)
  let m := put m (p 1 3 + 6) ((v 6) 1 3)
  let m := put m (p 1 3 + 7) ((v 7) 1 3)
  let m := put m (p 1 3 + 8) ((v 8) 1 3)
  let m := put m (p 1 3 + 9) ((v 9) 1 3)
  let m := put m (p 1 3 + 10) ((v 10) 1 3)
  let m := put m (p 1 3 + 11) ((v 11) 1 3)
  let m := put m (p 1 3 + 12) ((v 12) 1 3)
  let m := put m (p 1 3 + 13) ((v 13) 1 3)
  let m := put m (p 1 3 + 14) ((v 14) 1 3)
  let m := put m (p 1 3 + 15) ((v 15) 1 3)
  let m := put m (p 2 0) ((v 0) 2 0)
  let m := put m (p 2 0 + 1) ((v 1) 2 0)
  let m := put m (p 2 0 + 2) ((v 2) 2 0)
  let m := put m (p 2 0 + 3) ((v 3) 2 0)
  let m := put m (p 2 0 + 4) ((v 4) 2 0)
  let m := put m (p 2 0 + 5) ((v 5) 2 0)
  let m := put m (p 2 0 + 6) ((v 6) 2 0)
  let m := put m (p 2 0 + 7) ((v 7) 2 0)
  let m := put m (p 2 0 + 8) ((v 8) 2 0)
  let m := put m (p 2 0 + 9) ((v 9) 2 0)
  let m := put m (p 2 0 + 10) ((v 10) 2 0)
  let m := put m (p 2 0 + 11) ((v 11) 2 0)
  let m := put m (p 2 0 + 12) ((v 12) 2 0)
  let m := put m (p 2 0 + 13) ((v 13) 2 0)
  let m := put m (p 2 0 + 14) ((v 14) 2 0)
  let m := put m (p 2 0 + 15) ((v 15) 2 0)
  let m := put m (p 2 1) ((v 0) 2 1)
  let m := put m (p 2 1 + 1) ((v 1) 2 1)
  let m := put m (p 2 1 + 2) ((v 2) 2 1)
  let m := put m (p 2 1 + 3) ((v 3) 2 1)
  let m := put m (p 2 1 + 4) ((v 4) 2 1)
  let m := put m (p 2 1 + 5) ((v 5) 2 1)
  let m := put m (p 2 1 + 6) ((v 6) 2 1)
  let m := put m (p 2 1 + 7) ((v 7) 2 1)
  let m := put m (p 2 1 + 8) ((v 8) 2 1)
  let m := put m (p 2 1 + 9) ((v 9) 2 1)
  let m := put m (p 2 1 + 10) ((v 10) 2 1)
  let m := put m (p 2 1 + 11) ((v 11) 2 1)
  let m := put m (p 2 1 + 12) ((v 12) 2 1)
  let m := put m (p 2 1 + 13) ((v 13) 2 1)
  let m := put m (p 2 1 + 14) ((v 14) 2 1)
  let m := put m (p 2 1 + 15) ((v 15) 2 1)
  let m := put m (p 2 2) ((v 0) 2 2)
  let m := put m (p 2 2 + 1) ((v 1) 2 2)
  let m := put m (p 2 2 + 2) ((v 2) 2 2)
  let m := put m (p 2 2 + 3) ((v 3) 2 2)
  let m := put m (p 2 2 + 4) ((v 4) 2 2)
  let m := put m (p 2 2 + 5) ((v 5) 2 2)
  let m := put m (p 2 2 + 6) ((v 6) 2 2)
  let m := put m (p 2 2 + 7) ((v 7) 2 2)
  let m := put m (p 2 2 + 8) ((v 8) 2 2)
  let m := put m (p 2 2 + 9) ((v 9) 2 2)
  let m := put m (p 2 2 + 10) ((v 10) 2 2)
  let m := put m (p 2 2 + 11) ((v 11) 2 2)
  let m := put m (p 2 2 + 12) ((v 12) 2 2)
  let m := put m (p 2 2 + 13) ((v 13) 2 2)
  let m := put m (p 2 2 + 14) ((v 14) 2 2)
  let m := put m (p 2 2 + 15) ((v 15) 2 2)
  let m := put m (p 2 3) ((v 0) 2 3)
  let m := put m (p 2 3 + 1) ((v 1) 2 3)
  let m := put m (p 2 3 + 2) ((v 2) 2 3)
  let m := put m (p 2 3 + 3) ((v 3) 2 3)
  let m := put m (p 2 3 + 4) ((v 4) 2 3)
  let m := put m (p 2 3 + 5) ((v 5) 2 3)
  let m := put m (p 2 3 + 6) ((v 6) 2 3)
  let m := put m (p 2 3 + 7) ((v 7) 2 3)
  let m := put m (p 2 3 + 8) ((v 8) 2 3)
  let m := put m (p 2 3 + 9) ((v 9) 2 3)
  let m := put m (p 2 3 + 10) ((v 10) 2 3)
  let m := put m (p 2 3 + 11) ((v 11) 2 3)
  let m := put m (p 2 3 + 12) ((v 12) 2 3)
  let m := put m (p 2 3 + 13) ((v 13) 2 3)
  let m := put m (p 2 3 + 14) ((v 14) 2 3)
  let m := put m (p 2 3 + 15) ((v 15) 2 3)
  let m := put m (p 3 0) ((v 0) 3 0)
  let m := put m (p 3 0 + 1) ((v 1) 3 0)
  let m := put m (p 3 0 + 2) ((v 2) 3 0)
  let m := put m (p 3 0 + 3) ((v 3) 3 0)
  let m := put m (p 3 0 + 4) ((v 4) 3 0)
  let m := put m (p 3 0 + 5) ((v 5) 3 0)
  let m := put m (p 3 0 + 6) ((v 6) 3 0)
  let m := put m (p 3 0 + 7) ((v 7) 3 0)
  let m := put m (p 3 0 + 8) ((v 8) 3 0)
  let m := put m (p 3 0 + 9) ((v 9) 3 0)
  let m := put m (p 3 0 + 10) ((v 10) 3 0)
  let m := put m (p 3 0 + 11) ((v 11) 3 0)
  let m := put m (p 3 0 + 12) ((v 12) 3 0)
  let m := put m (p 3 0 + 13) ((v 13) 3 0)
  let m := put m (p 3 0 + 14) ((v 14) 3 0)
  let m := put m (p 3 0 + 15) ((v 15) 3 0)
  let m := put m (p 3 1) ((v 0) 3 1)
  let m := put m (p 3 1 + 1) ((v 1) 3 1)
  let m := put m (p 3 1 + 2) ((v 2) 3 1)
  let m := put m (p 3 1 + 3) ((v 3) 3 1)
  let m := put m (p 3 1 + 4) ((v 4) 3 1)
  let m := put m (p 3 1 + 5) ((v 5) 3 1)
  let m := put m (p 3 1 + 6) ((v 6) 3 1)
  let m := put m (p 3 1 + 7) ((v 7) 3 1)
  let m := put m (p 3 1 + 8) ((v 8) 3 1)
  let m := put m (p 3 1 + 9) ((v 9) 3 1)
  let m := put m (p 3 1 + 10) ((v 10) 3 1)
  let m := put m (p 3 1 + 11) ((v 11) 3 1)
  let m := put m (p 3 1 + 12) ((v 12) 3 1)
  let m := put m (p 3 1 + 13) ((v 13) 3 1)
  let m := put m (p 3 1 + 14) ((v 14) 3 1)
  let m := put m (p 3 1 + 15) ((v 15) 3 1)
  let m := put m (p 3 2) ((v 0) 3 2)
  let m := put m (p 3 2 + 1) ((v 1) 3 2)
  let m := put m (p 3 2 + 2) ((v 2) 3 2)
  let m := put m (p 3 2 + 3) ((v 3) 3 2)
  let m := put m (p 3 2 + 4) ((v 4) 3 2)
  let m := put m (p 3 2 + 5) ((v 5) 3 2)
  let m := put m (p 3 2 + 6) ((v 6) 3 2)
  let m := put m (p 3 2 + 7) ((v 7) 3 2)
  let m := put m (p 3 2 + 8) ((v 8) 3 2)
  let m := put m (p 3 2 + 9) ((v 9) 3 2)
  let m := put m (p 3 2 + 10) ((v 10) 3 2)
  let m := put m (p 3 2 + 11) ((v 11) 3 2)
  let m := put m (p 3 2 + 12) ((v 12) 3 2)
  let m := put m (p 3 2 + 13) ((v 13) 3 2)
  let m := put m (p 3 2 + 14) ((v 14) 3 2)
  let m := put m (p 3 2 + 15) ((v 15) 3 2)
  let m := put m (p 3 3) ((v 0) 3 3)
  let m := put m (p 3 3 + 1) ((v 1) 3 3)
  let m := put m (p 3 3 + 2) ((v 2) 3 3)
  let m := put m (p 3 3 + 3) ((v 3) 3 3)
  let m := put m (p 3 3 + 4) ((v 4) 3 3)
  let m := put m (p 3 3 + 5) ((v 5) 3 3)
  let m := put m (p 3 3 + 6) ((v 6) 3 3)
  let m := put m (p 3 3 + 7) ((v 7) 3 3)
  let m := put m (p 3 3 + 8) ((v 8) 3 3)
  let m := put m (p 3 3 + 9) ((v 9) 3 3)
  let m := put m (p 3 3 + 10) ((v 10) 3 3)
  let m := put m (p 3 3 + 11) ((v 11) 3 3)
  let m := put m (p 3 3 + 12) ((v 12) 3 3)
  let m := put m (p 3 3 + 13) ((v 13) 3 3)
  let m := put m (p 3 3 + 14) ((v 14) 3 3)
  let m := put m (p 3 3 + 15) ((v 15) 3 3)
  m

/-- `store_16x8_tr_p`, /repo/src/util/v16/v16_portable.h:2520-2672. -/
def store_16x8_tr_p (m : Memory α) (v : Fin 8 → Reg 4 α) (p : Fin 2 → Fin 4 → ℕ) : Memory α :=
  let m := put m (p 0 0) ((v 0) 0 0)
  let m := put m (p 0 0 + 1) ((v 1) 0 0)
  let m := put m (p 0 0 + 2) ((v 2) 0 0)
  let m := put m (p 0 0 + 3) ((v 3) 0 0)
  let m := put m (p 0 0 + 4) ((v 4) 0 0)
  let m := put m (p 0 0 + 5) ((v 5) 0 0)
  let m := put m (p 0 0 + 6) ((v 6) 0 0)
  let m := put m (p 0 0 + 7) ((v 7) 0 0)
  let m := put m (p 0 0 + 8) ((v 0) 0 1)
  let m := put m (p 0 0 + 9) ((v 1) 0 1)
  let m := put m (p 0 0 + 10) ((v 2) 0 1)
  let m := put m (p 0 0 + 11) ((v 3) 0 1)
  let m := put m (p 0 0 + 12) ((v 4) 0 1)
  let m := put m (p 0 0 + 13) ((v 5) 0 1)
  let m := put m (p 0 0 + 14) ((v 6) 0 1)
  let m := put m (p 0 0 + 15) ((v 7) 0 1)
  let m := put m (p 0 1) ((v 0) 0 2)
  let m := put m (p 0 1 + 1) ((v 1) 0 2)
  let m := put m (p 0 1 + 2) ((v 2) 0 2)
  let m := put m (p 0 1 + 3) ((v 3) 0 2)
  let m := put m (p 0 1 + 4) ((v 4) 0 2)
  let m := put m (p 0 1 + 5) ((v 5) 0 2)
  let m := put m (p 0 1 + 6) ((v 6) 0 2)
  let m := put m (p 0 1 + 7) ((v 7) 0 2)
  let m := put m (p 0 1 + 8) ((v 0) 0 3)
  let m := put m (p 0 1 + 9) ((v 1) 0 3)
  let m := put m (p 0 1 + 10) ((v 2) 0 3)
  let m := put m (p 0 1 + 11) ((v 3) 0 3)
  let m := put m (p 0 1 + 12) ((v 4) 0 3)
  let m := put m (p 0 1 + 13) ((v 5) 0 3)
  let m := put m (p 0 1 + 14) ((v 6) 0 3)
  let m := put m (p 0 1 + 15) ((v 7) 0 3)
  let m := put m (p 0 2) ((v 0) 1 0)
  let m := put m (p 0 2 + 1) ((v 1) 1 0)
  let m := put m (p 0 2 + 2) ((v 2) 1 0)
  let m := put m (p 0 2 + 3) ((v 3) 1 0)
  let m := put m (p 0 2 + 4) ((v 4) 1 0)
  let m := put m (p 0 2 + 5) ((v 5) 1 0)
  let m := put m (p 0 2 + 6) ((v 6) 1 0)
  let m := put m (p 0 2 + 7) ((v 7) 1 0)
  let m := put m (p 0 2 + 8) ((v 0) 1 1)
  let m := put m (p 0 2 + 9) ((v 1) 1 1)
  let m := put m (p 0 2 + 10) ((v 2) 1 1)
  let m := put m (p 0 2 + 11) ((v 3) 1 1)
  let m := put m (p 0 2 + 12) ((v 4) 1 1)
  let m := put m (p 0 2 + 13) ((v 5) 1 1)
  let m := put m (p 0 2 + 14) ((v 6) 1 1)
  let m := put m (p 0 2 + 15) ((v 7) 1 1)
  let m := put m (p 0 3) ((v 0) 1 2)
  let m := put m (p 0 3 + 1) ((v 1) 1 2)
  let m := put m (p 0 3 + 2) ((v 2) 1 2)
  let m := put m (p 0 3 + 3) ((v 3) 1 2)
  let m := put m (p 0 3 + 4) ((v 4) 1 2)
  let m := put m (p 0 3 + 5) ((v 5) 1 2)
  let m := put m (p 0 3 + 6) ((v 6) 1 2)
  let m := put m (p 0 3 + 7) ((v 7) 1 2)
  let m := put m (p 0 3 + 8) ((v 0) 1 3)
  let m := put m (p 0 3 + 9) ((v 1) 1 3)
  let m := put m (p 0 3 + 10) ((v 2) 1 3)
  let m := put m (p 0 3 + 11) ((v 3) 1 3)
  let m := put m (p 0 3 + 12) ((v 4) 1 3)
  let m := put m (p 0 3 + 13) ((v 5) 1 3)
  let m := put m (p 0 3 + 14) ((v 6) 1 3)
  let m := put m (p 0 3 + 15) ((v 7) 1 3)
  let m := put m (p 1 0) ((v 0) 2 0)
  let m := put m (p 1 0 + 1) ((v 1) 2 0)
  let m := put m (p 1 0 + 2) ((v 2) 2 0)
  let m := put m (p 1 0 + 3) ((v 3) 2 0)
  let m := put m (p 1 0 + 4) ((v 4) 2 0)
  let m := put m (p 1 0 + 5) ((v 5) 2 0)
  let m := put m (p 1 0 + 6) ((v 6) 2 0)
  let m := put m (p 1 0 + 7) ((v 7) 2 0)
  let m := put m (p 1 0 + 8) ((v 0) 2 1)
  let m := put m (p 1 0 + 9) ((v 1) 2 1)
  let m := put m (p 1 0 + 10) ((v 2) 2 1)
  let m := put m (p 1 0 + 11) ((v 3) 2 1)
  let m := put m (p 1 0 + 12) ((v 4) 2 1)
  let m := put m (p 1 0 + 13) ((v 5) 2 1)
  let m := put m (p 1 0 + 14) ((v 6) 2 1)
  let m := put m (p 1 0 + 15) ((v 7) 2 1)
  let m := put m (p 1 1) ((v 0) 2 2)
  let m := put m (p 1 1 + 1) ((v 1) 2 2)
  let m := put m (p 1 1 + 2) ((v 2) 2 2)
  let m := put m (p 1 1 + 3) ((v 3) 2 2)
  let m := put m (p 1 1 + 4) ((v 4) 2 2)
  let m := put m (p 1 1 + 5) ((v 5) 2 2)
  let m := put m (p 1 1 + 6) ((v 6) 2 2)
  let m := put m (p 1 1 + 7) ((v 7) 2 2)
  let m := put m (p 1 1 + 8) ((v 0) 2 3)
  let m := put m (p 1 1 + 9) ((v 1) 2 3)
  let m := put m (p 1 1 + 10) ((v 2) 2 3)
  let m := put m (p 1 1 + 11) ((v 3) 2 3)
  let m := put m (p 1 1 + 12) ((v 4) 2 3)
  let m := put m (p 1 1 + 13) ((v 5) 2 3)
  let m := put m (p 1 1 + 14) ((v 6) 2 3)
  let m := put m (p 1 1 + 15) ((v 7) 2 3)
  let m := put m (p 1 2) ((v 0) 3 0)
  let m := put m (p 1 2 + 1) ((v 1) 3 0)
  let m := put m (p 1 2 + 2) ((v 2) 3 0)
  let m := put m (p 1 2 + 3) ((v 3) 3 0)
  let m := put m (p 1 2 + 4) ((v 4) 3 0)
  let m := put m (p 1 2 + 5) ((v 5) 3 0)
  let m := put m (p 1 2 + 6) ((v 6) 3 0)
  let m := put m (p 1 2 + 7) ((v 7) 3 0)
  let m := put m (p 1 2 + 8) ((v 0) 3 1)
  let m := put m (p 1 2 + 9) ((v 1) 3 1)
  let m := put m (p 1 2 + 10) ((v 2) 3 1)
  let m := put m (p 1 2 + 11) ((v 3) 3 1)
  let m := put m (p 1 2 + 12) ((v 4) 3 1)
  let m := put m (p 1 2 + 13) ((v 5) 3 1)
  let m := put m (p 1 2 + 14) ((v 6) 3 1)
  let m := put m (p 1 2 + 15) ((v 7) 3 1)
  let m := put m (p 1 3) ((v 0) 3 2)
  let m := put m (p 1 3 + 1) ((v 1) 3 2)
  let m := put m (p 1 3 + 2) ((v 2) 3 2)
  let m := put m (p 1 3 + 3) ((v 3) 3 2)
  let m := put m (p 1 3 + 4) ((v 4) 3 2)
  let m := put m (p 1 3 + 5) ((v 5) 3 2)
  let m := put m (p 1 3 + 6) ((v 6) 3 2)
  let m := put m (p 1 3 + 7) ((v 7) 3 2)
  let m := put m (p 1 3 + 8) ((v 0) 3 3)
  let m := put m (p 1 3 + 9) ((v 1) 3 3)
  let m := put m (p 1 3 + 10) ((v 2) 3 3)
  let m := put m (p 1 3 + 11) ((v 3) 3 3)
  let m := put m (p 1 3 + 12) ((v 4) 3 3)
  let m := put m (p 1 3 + 13) ((v 5) 3 3)
  let m := put m (p 1 3 + 14) ((v 6) 3 3)
  let m := put m (p 1 3 + 15) ((v 7) 3 3)
  m

/-- `store_16x16_tr_p`, /repo/src/util/v16/v16_portable.h:2674-2958. -/
def store_16x16_tr_p (m : Memory α) (v : Fin 16 → Reg 4 α) (p : Fin 4 → Fin 4 → ℕ) : Memory α :=
  let m := put m (p 0 0) ((v 0) 0 0)
  let m := put m (p 0 0 + 1) ((v 1) 0 0)
  let m := put m (p 0 0 + 2) ((v 2) 0 0)
  let m := put m (p 0 0 + 3) ((v 3) 0 0)
  let m := put m (p 0 0 + 4) ((v 4) 0 0)
  let m := put m (p 0 0 + 5) ((v 5) 0 0)
  let m := put m (p 0 0 + 6) ((v 6) 0 0)
  let m := put m (p 0 0 + 7) ((v 7) 0 0)
  let m := put m (p 0 0 + 8) ((v 0) 0 1)
  let m := put m (p 0 0 + 9) ((v 1) 0 1)
  let m := put m (p 0 0 + 10) ((v 2) 0 1)
  let m := put m (p 0 0 + 11) ((v 3) 0 1)
  let m := put m (p 0 0 + 12) ((v 4) 0 1)
  let m := put m (p 0 0 + 13) ((v 5) 0 1)
  let m := put m (p 0 0 + 14) ((v 6) 0 1)
  let m := put m (p 0 0 + 15) ((v 7) 0 1)
  let m := put m (p 0 1) ((v 0) 0 2)
  let m := put m (p 0 1 + 1) ((v 1) 0 2)
  let m := put m (p 0 1 + 2) ((v 2) 0 2)
  let m := put m (p 0 1 + 3) ((v 3) 0 2)
  let m := put m (p 0 1 + 4) ((v 4) 0 2)
  let m := put m (p 0 1 + 5) ((v 5) 0 2)
  let m := put m (p 0 1 + 6) ((v 6) 0 2)
  let m := put m (p 0 1 + 7) ((v 7) 0 2)
  let m := put m (p 0 1 + 8) ((v 0) 0 3)
  let m := put m (p 0 1 + 9) ((v 1) 0 3)
  let m := put m (p 0 1 + 10) ((v 2) 0 3)
  let m := put m (p 0 1 + 11) ((v 3) 0 3)
  let m := put m (p 0 1 + 12) ((v 4) 0 3)
  let m := put m (p 0 1 + 13) ((v 5) 0 3)
  let m := put m (p 0 1 + 14) ((v 6) 0 3)
  let m := put m (p 0 1 + 15) ((v 7) 0 3)
  let m := put m (p 0 2) ((v 0) 1 0)
  let m := put m (p 0 2 + 1) ((v 1) 1 0)
  let m := put m (p 0 2 + 2) ((v 2) 1 0)
  let m := put m (p 0 2 + 3) ((v 3) 1 0)
  let m := put m (p 0 2 + 4) ((v 4) 1 0)
  let m := put m (p 0 2 + 5) ((v 5) 1 0)
  let m := put m (p 0 2 + 6) ((v 6) 1 0)
  let m := put m (p 0 2 + 7) ((v 7) 1 0)
  let m := put m (p 0 2 + 8) ((v 0) 1 1)
  let m := put m (p 0 2 + 9) ((v 1) 1 1)
  let m := put m (p 0 2 + 10) ((v 2) 1 1)
  let m := put m (p 0 2 + 11) ((v 3) 1 1)
  let m := put m (p 0 2 + 12) ((v 4) 1 1)
  let m := put m (p 0 2 + 13) ((v 5) 1 1)
  let m := put m (p 0 2 + 14) ((v 6) 1 1)
  let m := put m (p 0 2 + 15) ((v 7) 1 1)
  let m := put m (p 0 3) ((v 0) 1 2)
  let m := put m (p 0 3 + 1) ((v 1) 1 2)
  let m := put m (p 0 3 + 2) ((v 2) 1 2)
  let m := put m (p 0 3 + 3) ((v 3) 1 2)
  let m := put m (p 0 3 + 4) ((v 4) 1 2)
  let m := put m (p 0 3 + 5) ((v 5) 1 2)
  let m := put m (p 0 3 + 6) ((v 6) 1 2)
  let m := put m (p 0 3 + 7) ((v 7) 1 2)
  let m := put m (p 0 3 + 8) ((v 0) 1 3)
  let m := put m (p 0 3 + 9) ((v 1) 1 3)
  let m := put m (p 0 3 + 10) ((v 2) 1 3)
  let m := put m (p 0 3 + 11) ((v 3) 1 3)
  let m := put m (p 0 3 + 12) ((v 4) 1 3)
  let m := put m (p 0 3 + 13) ((v 5) 1 3)
  let m := put m (p 0 3 + 14) ((v 6) 1 3)
  let m := put m (p 0 3 + 15) ((v 7) 1 3)
  let m := put m (p 1 0) ((v 0) 2 0)
  let m := put m (p 1 0 + 1) ((v 1) 2 0)
  let m := put m (p 1 0 + 2) ((v 2) 2 0)
  let m := put m (p 1 0 + 3) ((v 3) 2 0)
  let m := put m (p 1 0 + 4) ((v 4) 2 0)
  let m := put m (p 1 0 + 5) ((v 5) 2 0)
  let m := put m (p 1 0 + 6) ((v 6) 2 0)
  let m := put m (p 1 0 + 7) ((v 7) 2 0)
  let m := put m (p 1 0 + 8) ((v 0) 2 1)
  let m := put m (p 1 0 + 9) ((v 1) 2 1)
  let m := put m (p 1 0 + 10) ((v 2) 2 1)
  let m := put m (p 1 0 + 11) ((v 3) 2 1)
  let m := put m (p 1 0 + 12) ((v 4) 2 1)
  let m := put m (p 1 0 + 13) ((v 5) 2 1)
  let m := put m (p 1 0 + 14) ((v 6) 2 1)
  let m := put m (p 1 0 + 15) ((v 7) 2 1)
  let m := put m (p 1 1) ((v 0) 2 2)
  let m := put m (p 1 1 + 1) ((v 1) 2 2)
  let m := put m (p 1 1 + 2) ((v 2) 2 2)
  let m := put m (p 1 1 + 3) ((v 3) 2 2)
  let m := put m (p 1 1 + 4) ((v 4) 2 2)
  let m := put m (p 1 1 + 5) ((v 5) 2 2)
  let m := put m (p 1 1 + 6) ((v 6) 2 2)
  let m := put m (p 1 1 + 7) ((v 7) 2 2)
  let m := put m (p 1 1 + 8) ((v 0) 2 3)
  let m := put m (p 1 1 + 9) ((v 1) 2 3)
  let m := put m (p 1 1 + 10) ((v 2) 2 3)
  let m := put m (p 1 1 + 11) ((v 3) 2 3)
  let m := put m (p 1 1 + 12) ((v 4) 2 3)
  let m := put m (p 1 1 + 13) ((v 5) 2 3)
  let m := put m (p 1 1 + 14) ((v 6) 2 3)
  let m := put m (p 1 1 + 15) ((v 7) 2 3)
  let m := put m (p 1 2) ((v 0) 3 0)
  let m := put m (p 1 2 + 1) ((v 1) 3 0)
  let m := put m (p 1 2 + 2) ((v 2) 3 0)
  let m := put m (p 1 2 + 3) ((v 3) 3 0)
  let m := put m (p 1 2 + 4) ((v 4) 3 0)
  let m := put m (p 1 2 + 5) ((v 5) 3 0)
  let m := put m (p 1 2 + 6) ((v 6) 3 0)
  let m := put m (p 1 2 + 7) ((v 7) 3 0)
  let m := put m (p 1 2 + 8) ((v 0) 3 1)
  let m := put m (p 1 2 + 9) ((v 1) 3 1)
  let m := put m (p 1 2 + 10) ((v 2) 3 1)
  let m := put m (p 1 2 + 11) ((v 3) 3 1)
  let m := put m (p 1 2 + 12) ((v 4) 3 1)
  let m := put m (p 1 2 + 13) ((v 5) 3 1)
  let m := put m (p 1 2 + 14) ((v 6) 3 1)
  let m := put m (p 1 2 + 15) ((v 7) 3 1)
  let m := put m (p 1 3) ((v 0) 3 2)
  let m := put m (p 1 3 + 1) ((v 1) 3 2)
  let m := put m (p 1 3 + 2) ((v 2) 3 2)
  let m := put m (p 1 3 + 3) ((v 3) 3 2)
  let m := put m (p 1 3 + 4) ((v 4) 3 2)
  let m := put m (p 1 3 + 5) ((v 5) 3 2)
  let m := put m (p 1 3 + 6) ((v 6) 3 2)
  let m := put m (p 1 3 + 7) ((v 7) 3 2)
  let m := put m (p 1 3 + 8) ((v 0) 3 3)
  let m := put m (p 1 3 + 9) ((v 1) 3 3)
  let m := put m (p 1 3 + 10) ((v 2) 3 3)
  let m := put m (p 1 3 + 11) ((v 3) 3 3)
  let m := put m (p 1 3 + 12) ((v 4) 3 3)
  let m := put m (p 1 3 + 13) ((v 5) 3 3)
  let m := put m (p 1 3 + 14) ((v 6) 3 3)
  let m := put m (p 1 3 + 15) ((v 7) 3 3)
  let m := put m (p 2 0) ((v 8) 0 0)
  let m := put m (p 2 0 + 1) ((v 9) 0 0)
  let m := put m (p 2 0 + 2) ((v 10) 0 0)
  let m := put m (p 2 0 + 3) ((v 11) 0 0)
  let m := put m (p 2 0 + 4) ((v 12) 0 0)
  let m := put m (p 2 0 + 5) ((v 13) 0 0)
  let m := put m (p 2 0 + 6) ((v 14) 0 0)
  let m := put m (p 2 0 + 7) ((v 15) 0 0)
  let m := put m (p 2 0 + 8) ((v 8) 0 1)
  let m := put m (p 2 0 + 9) ((v 9) 0 1)
  let m := put m (p 2 0 + 10) ((v 10) 0 1)
  let m := put m (p 2 0 + 11) ((v 11) 0 1)
  let m := put m (p 2 0 + 12) ((v 12) 0 1)
  let m := put m (p 2 0 + 13) ((v 13) 0 1)
  let m := put m (p 2 0 + 14) ((v 14) 0 1)
  let m := put m (p 2 0 + 15) ((v 15) 0 1)
  let m := put m (p 2 1) ((v 8) 0 2)
  let m := put m (p 2 1 + 1) ((v 9) 0 2)
  let m := put m (p 2 1 + 2) ((v 10) 0 2)
  let m := put m (p 2 1 + 3) ((v 11) 0 2)
  let m := put m (p 2 1 + 4) ((v 12) 0 2)
  let m := put m (p 2 1 + 5) ((v 13) 0 2)
  let m := put m (p 2 1 + 6) ((v 14) 0 2)
  let m := put m (p 2 1 + 7) ((v 15) 0 2)
  let m := put m (p 2 1 + 8) ((v 8) 0 3)
  let m := put m (p 2 1 + 9) ((v 9) 0 3)
  let m := put m (p 2 1 + 10) ((v 10) 0 3)
  let m := put m (p 2 1 + 11) ((v 11) 0 3)
  let m := put m (p 2 1 + 12) ((v 12) 0 3)
  let m := put m (p 2 1 + 13) ((v 13) 0 3)
  let m := put m (p 2 1 + 14) ((v 14) 0 3)
  let m := put m (p 2 1 + 15) ((v 15) 0 3)
  let m := put m (p 2 2) ((v 8) 1 0)
  let m := put m (p 2 2 + 1) ((v 9) 1 0)
  let m := put m (p 2 2 + 2) ((v 10) 1 0)
  let m := put m (p 2 2 + 3) ((v 11) 1 0)
  let m := put m (p 2 2 + 4) ((v 12) 1 0)
  let m := put m (p 2 2 + 5) ((v 13) 1 0)
  let m := put m (p 2 2 + 6) ((v 14) 1 0)
  let m := put m (p 2 2 + 7) ((v 15) 1 0)
  let m := put m (p 2 2 + 8) ((v 8) 1 1)
  let m := put m (p 2 2 + 9) ((v 9) 1 1)
  let m := put m (p 2 2 + 10) ((v 10) 1 1)
  let m := put m (p 2 2 + 11) ((v 11) 1 1)
  let m := put m (p 2 2 + 12) ((v 12) 1 1)
  let m := put m (p 2 2 + 13) ((v 13) 1 1)
  let m := put m (p 2 2 + 14) ((v 14) 1 1)
  let m := put m (p 2 2 + 15) ((v 15) 1 1)
  let m := put m (p 2 3) ((v 8) 1 2)
  let m := put m (p 2 3 + 1) ((v 9) 1 2)
  let m := put m (p 2 3 + 2) ((v 10) 1 2)
  let m := put m (p 2 3 + 3) ((v 11) 1 2)
  let m := put m (p 2 3 + 4) ((v 12) 1 2)
  let m := put m (p 2 3 + 5) ((v 13) 1 2)
  let m := put m (p 2 3 + 6) ((v 14) 1 2)
  let m := put m (p 2 3 + 7) ((v 15) 1 2)
  let m := put m (p 2 3 + 8) ((v 8) 1 3)
  let m := put m (p 2 3 + 9) ((v 9) 1 3)
  let m := put m (p 2 3 + 10) ((v 10) 1 3)
  let m := put m (p 2 3 + 11) ((v 11) 1 3)
  let m := put m (p 2 3 + 12) ((v 12) 1 3)
  let m := put m (p 2 3 + 13) ((v 13) 1 3)
  let m := put m (p 2 3 + 14) ((v 14) 1 3)
  let m := put m (p 2 3 + 15) ((v 15) 1 3)
  let m := put m (p 3 0) ((v 8) 2 0)
  let m := put m (p 3 0 + 1) ((v 9) 2 0)
  let m := put m (p 3 0 + 2) ((v 10) 2 0)
  let m := put m (p 3 0 + 3) ((v 11) 2 0)
  let m := put m (p 3 0 + 4) ((v 12) 2 0)
  let m := put m (p 3 0 + 5) ((v 13) 2 0)
  let m := put m (p 3 0 + 6) ((v 14) 2 0)
  let m := put m (p 3 0 + 7) ((v 15) 2 0)
  let m := put m (p 3 0 + 8) ((v 8) 2 1)
  let m := put m (p 3 0 + 9) ((v 9) 2 1)
  let m := put m (p 3 0 + 10) ((v 10) 2 1)
  let m := put m (p 3 0 + 11) ((v 11) 2 1)
  let m := put m (p 3 0 + 12) ((v 12) 2 1)
  let m := put m (p 3 0 + 13) ((v 13) 2 1)
  let m := put m (p 3 0 + 14) ((v 14) 2 1)
  let m := put m (p 3 0 + 15) ((v 15) 2 1)
  let m := put m (p 3 1) ((v 8) 2 2)
  let m := put m (p 3 1 + 1) ((v 9) 2 2)
  let m := put m (p 3 1 + 2) ((v 10) 2 2)
  let m := put m (p 3 1 + 3) ((v 11) 2 2)
  let m := put m (p 3 1 + 4) ((v 12) 2 2)
  let m := put m (p 3 1 + 5) ((v 13) 2 2)
  let m := put m (p 3 1 + 6) ((v 14) 2 2)
  let m := put m (p 3 1 + 7) ((v 15) 2 2)
  let m := put m (p 3 1 + 8) ((v 8) 2 3)
  let m := put m (p 3 1 + 9) ((v 9) 2 3)
  let m := put m (p 3 1 + 10) ((v 10) 2 3)
  let m := put m (p 3 1 + 11) ((v 11) 2 3)
  let m := put m (p 3 1 + 12) ((v 12) 2 3)
  let m := put m (p 3 1 + 13) ((v 13) 2 3)
  let m := put m (p 3 1 + 14) ((v 14) 2 3)
  let m := put m (p 3 1 + 15) ((v 15) 2 3)
  let m := put m (p 3 2) ((v 8) 3 0)
  let m := put m (p 3 2 + 1) ((v 9) 3 0)
  let m := put m (p 3 2 + 2) ((v 10) 3 0)
  let m := put m (p 3 2 + 3) ((v 11) 3 0)
  let m := put m (p 3 2 + 4) ((v 12) 3 0)
  let m := put m (p 3 2 + 5) ((v 13) 3 0)
  let m := put m (p 3 2 + 6) ((v 14) 3 0)
  let m := put m (p 3 2 + 7) ((v 15) 3 0)
  let m := put m (p 3 2 + 8) ((v 8) 3 1)
  let m := put m (p 3 2 + 9) ((v 9) 3 1)
  let m := put m (p 3 2 + 10) ((v 10) 3 1)
  let m := put m (p 3 2 + 11) ((v 11) 3 1)
  let m := put m (p 3 2 + 12) ((v 12) 3 1)
  let m := put m (p 3 2 + 13) ((v 13) 3 1)
  let m := put m (p 3 2 + 14) ((v 14) 3 1)
  let m := put m (p 3 2 + 15) ((v 15) 3 1)
  let m := put m (p 3 3) ((v 8) 3 2)
  let m := put m (p 3 3 + 1) ((v 9) 3 2)
  let m := put m (p 3 3 + 2) ((v 10) 3 2)
  let m := put m (p 3 3 + 3) ((v 11) 3 2)
  let m := put m (p 3 3 + 4) ((v 12) 3 2)
  let m := put m (p 3 3 + 5) ((v 13) 3 2)
  let m := put m (p 3 3 + 6) ((v 14) 3 2)
  let m := put m (p 3 3 + 7) ((v 15) 3 2)
  let m := put m (p 3 3 + 8) ((v 8) 3 3)
  let m := put m (p 3 3 + 9) ((v 9) 3 3)
  let m := put m (p 3 3 + 10) ((v 10) 3 3)
  let m := put m (p 3 3 + 11) ((v 11) 3 3)
  let m := put m (p 3 3 + 12) ((v 12) 3 3)
  let m := put m (p 3 3 + 13) ((v 13) 3 3)
  let m := put m (p 3 3 + 14) ((v 14) 3 3)
  let m := put m (p 3 3 + 15) ((v 15) 3 3)
  m

end Verif.Vector.V16Portable
