import Verif.Vector.Instr

/-! What the functions of the vector classes that move data shall do, without reference to how. A vector of `N = 4 n` words is `n` blocks of four; its word
`4 q + l`, and the pointer with that number, are written `q l`. Functions that cannot be undefined are composed with `some`. -/
namespace Verif.Vector

variable {α : Type}

/-- `load_NxK_tr`: the word `i` of the vector `j` is the word `j` behind the pointer `i`; defined exactly if every pointer is a multiple of `w` words. -/
def LoadsTr {n k : ℕ} (w : ℕ) (f : Memory α → (Fin n → Fin 4 → ℕ) → Option (Fin k → Reg n α)) : Prop :=
  ∀ m p, ((∀ q l, p q l % w = 0) → ∃ r, f m p = some r ∧ ∀ j q l, r j q l = m (p q l + j)) ∧ ((∃ q l, p q l % w ≠ 0) → f m p = none)

/-- The rows of `k` words behind the pointers do not overlap. -/
def Apart {n : ℕ} (k : ℕ) (p : Fin n → Fin 4 → ℕ) : Prop :=
  ∀ q l q' l' (j j' : Fin k), p q l + j = p q' l' + j' → q = q' ∧ l = l' ∧ j = j'

/-- `store_NxK_tr`: the word `j` behind the pointer `i` becomes the word `i` of the vector `j`, everything else stays; defined exactly if every pointer is a
multiple of `w` words. -/
def StoresTr {n k : ℕ} (w : ℕ) (f : Memory α → (Fin k → Reg n α) → (Fin n → Fin 4 → ℕ) → Option (Memory α)) : Prop :=
  ∀ m v p, ((∀ q l, p q l % w = 0) → Apart k p → ∃ m', f m v p = some m' ∧ (∀ q l (j : Fin k), m' (p q l + j) = v j q l) ∧
    ∀ x, (∀ q l (j : Fin k), x ≠ p q l + j) → m' x = m x) ∧ ((∃ q l, p q l % w ≠ 0) → f m v p = none)

/-- The pointers that the versions for pairs of rows (`load_16x8_tr_p`) get as every other one of sixteen: rows of eight words follow each other in pairs. -/
def pairs (p : Fin 2 → Fin 4 → ℕ) : Fin 4 → Fin 4 → ℕ := fun q l =>
  p ⟨q / 2, by omega⟩ ⟨2 * (q % 2) + l / 2, by omega⟩ + 8 * (l % 2)

/-- The first and the last eight of sixteen pointers. -/
def lower (p : Fin 4 → Fin 4 → ℕ) : Fin 2 → Fin 4 → ℕ := fun q => p ⟨q, by omega⟩

@[inherit_doc lower] def upper (p : Fin 4 → Fin 4 → ℕ) : Fin 2 → Fin 4 → ℕ := fun q => p ⟨2 + q, by omega⟩

/-- `load_16x8_tr_p`: as `load_16x8_tr` with the rows that the eight pointers and what follows them give. -/
def LoadsPairs (w : ℕ) (f : Memory α → (Fin 2 → Fin 4 → ℕ) → Option (Fin 8 → Reg 4 α)) : Prop :=
  ∀ m p, ((∀ q l, p q l % w = 0) → ∃ r, f m p = some r ∧ ∀ j q l, r j q l = m (pairs p q l + j)) ∧ ((∃ q l, p q l % w ≠ 0) → f m p = none)

/-- `store_16x8_tr_p`. -/
def StoresPairs (w : ℕ) (f : Memory α → (Fin 8 → Reg 4 α) → (Fin 2 → Fin 4 → ℕ) → Option (Memory α)) : Prop :=
  ∀ m v p, ((∀ q l, p q l % w = 0) → Apart 8 (pairs p) → ∃ m', f m v p = some m' ∧ (∀ q l (j : Fin 8), m' (pairs p q l + j) = v j q l) ∧
    ∀ x, (∀ q l (j : Fin 8), x ≠ pairs p q l + j) → m' x = m x) ∧ ((∃ q l, p q l % w ≠ 0) → f m v p = none)

/-- `load_16x16_tr_p`: the first eight vectors from the first eight pointers, the others from the others. -/
def LoadsPairs2 (w : ℕ) (f : Memory α → (Fin 4 → Fin 4 → ℕ) → Option (Fin 16 → Reg 4 α)) : Prop :=
  ∀ m p, ((∀ q l, p q l % w = 0) → ∃ r, f m p = some r ∧
    (∀ (j : Fin 8) q l, r ⟨j, by omega⟩ q l = m (pairs (lower p) q l + j)) ∧ ∀ (j : Fin 8) q l, r ⟨8 + j, by omega⟩ q l = m (pairs (upper p) q l + j)) ∧
    ((∃ q l, p q l % w ≠ 0) → f m p = none)

/-- `store_16x16_tr_p`. -/
def StoresPairs2 (w : ℕ) (f : Memory α → (Fin 16 → Reg 4 α) → (Fin 4 → Fin 4 → ℕ) → Option (Memory α)) : Prop :=
  ∀ m v p, ((∀ q l, p q l % w = 0) → Apart 16 p → ∃ m', f m v p = some m' ∧
    (∀ q l (j : Fin 8), m' (pairs (lower p) q l + j) = v ⟨j, by omega⟩ q l) ∧ (∀ q l (j : Fin 8), m' (pairs (upper p) q l + j) = v ⟨8 + j, by omega⟩ q l) ∧
    ∀ x, (∀ q l (j : Fin 16), x ≠ p q l + j) → m' x = m x) ∧ ((∃ q l, p q l % w ≠ 0) → f m v p = none)

/-- `transpose`: the word `i` of the vector `j` becomes the word `j` of the vector `i`. -/
def Transposes {n : ℕ} (f : (Fin (4 * n) → Reg n α) → Fin (4 * n) → Reg n α) : Prop :=
  ∀ v (q q' : Fin n) (l l' : Fin 4), f v ⟨4 * q + l, by omega⟩ q' l' = v ⟨4 * q' + l', by omega⟩ q l

/-- `swap`: each vector becomes the other one. -/
def Exchanges {n : ℕ} (f : (Fin 2 → Reg n α) → Fin 2 → Reg n α) : Prop := ∀ v, f v 0 = v 1 ∧ f v 1 = v 0

/-- `load_Nx1`: the words of the vector are those behind the pointer. -/
def Loads {n : ℕ} (w : ℕ) (f : Memory α → ℕ → Option (Reg n α)) : Prop :=
  ∀ m p, (p % w = 0 → ∃ r, f m p = some r ∧ ∀ (q : Fin n) (l : Fin 4), r q l = m (p + 4 * q + l)) ∧ (p % w ≠ 0 → f m p = none)

/-- `store_Nx1`, `stream_Nx1`: the words behind the pointer become those of the vector, everything else stays. -/
def Stores {n : ℕ} (w : ℕ) (f : Memory α → (Fin 1 → Reg n α) → ℕ → Option (Memory α)) : Prop :=
  ∀ m v p, (p % w = 0 → ∃ m', f m v p = some m' ∧ (∀ (q : Fin n) (l : Fin 4), m' (p + 4 * q + l) = v 0 q l) ∧
    ∀ x, (∀ i < 4 * n, x ≠ p + i) → m' x = m x) ∧ (p % w ≠ 0 → f m v p = none)

/-- `clear_Nx1`: the words behind the pointer become zero, everything else stays. -/
def Clears [Zero α] (n w : ℕ) (f : Memory α → ℕ → Option (Memory α)) : Prop :=
  ∀ m p, (p % w = 0 → ∃ m', f m p = some m' ∧ (∀ i < 4 * n, m' (p + i) = 0) ∧ ∀ x, (∀ i < 4 * n, x ≠ p + i) → m' x = m x) ∧ (p % w ≠ 0 → f m p = none)

/-- Two rows of `k` words are the same or do not overlap. -/
def SameOrApart (k a b : ℕ) : Prop := a = b ∨ a + k ≤ b ∨ b + k ≤ a

/-- `copy_Nx1`: the words at the first pointer become those at the second, everything else stays. -/
def Copies (n w : ℕ) (f : Memory α → ℕ → ℕ → Option (Memory α)) : Prop :=
  ∀ m a b, (a % w = 0 → b % w = 0 → SameOrApart (4 * n) a b → ∃ m', f m a b = some m' ∧ (∀ i < 4 * n, m' (a + i) = m (b + i)) ∧
    ∀ x, (∀ i < 4 * n, x ≠ a + i) → m' x = m x) ∧ (a % w ≠ 0 ∨ b % w ≠ 0 → f m a b = none)

/-- `swap_Nx1`: the words at the two pointers are exchanged, everything else stays. -/
def Swaps (n w : ℕ) (f : Memory α → ℕ → ℕ → Option (Memory α)) : Prop :=
  ∀ m a b, (a % w = 0 → b % w = 0 → SameOrApart (4 * n) a b → ∃ m', f m a b = some m' ∧ (∀ i < 4 * n, m' (a + i) = m (b + i)) ∧
    (∀ i < 4 * n, m' (b + i) = m (a + i)) ∧ ∀ x, (∀ i < 4 * n, x ≠ a + i ∧ x ≠ b + i) → m' x = m x) ∧ (a % w ≠ 0 ∨ b % w ≠ 0 → f m a b = none)

end Verif.Vector
