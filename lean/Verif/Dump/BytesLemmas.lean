import Verif.Dump.BytesSpec
import Mathlib.Tactic.Ring
import Mathlib.Tactic.IntervalCases

/-! Helper lemmas: what is written is what a reader takes. -/
namespace Verif.Dump

/-- The reader takes exactly `e` from the front and finds `v`; a piece of `e` is not enough for it. -/
def Exact {α : Type} (r : Reader α) (e : List Byte) (v : α) : Prop :=
  (∀ rest, r (e ++ rest) = some (v, rest)) ∧ ∀ l, l <+: e → l ≠ e → r l = none

/-- The reader wants exactly the file `e`. -/
def Full {α : Type} (r : Reader α) (e : List Byte) (v : α) : Prop :=
  (∀ rest, r (e ++ rest) = if rest = [] then some (v, []) else none) ∧ ∀ l, l <+: e → l ≠ e → r l = none

theorem bind_run {α β : Type} (r : Reader α) (q : α → Reader β) (l : List Byte) :
    (r >>= q) l = (r l).bind fun p => q p.1 p.2 := by
  show StateT.bind r q l = _
  simp only [StateT.bind]
  cases r l <;> rfl

theorem prefix_cases : ∀ (l a b : List Byte), l <+: a ++ b → l <+: a ∨ ∃ l', l = a ++ l' ∧ l' <+: b
  | l, [], b, h => .inr ⟨l, rfl, h⟩
  | [], _ :: _, _, _ => .inl List.nil_prefix
  | x :: l, y :: a, b, h => by
    rw [List.cons_append, List.cons_prefix_cons] at h
    obtain ⟨rfl, h⟩ := h
    rcases prefix_cases l a b h with h | ⟨l', rfl, h'⟩
    · exact .inl (List.cons_prefix_cons.2 ⟨rfl, h⟩)
    · exact .inr ⟨l', rfl, h'⟩

theorem split_prefix {l a b : List Byte} (h : l <+: a ++ b) (hne : l ≠ a ++ b) :
    (l <+: a ∧ l ≠ a) ∨ ∃ l', l = a ++ l' ∧ l' <+: b ∧ l' ≠ b := by
  rcases prefix_cases l a b h with h | ⟨l', rfl, h'⟩
  · by_cases e : l = a
    · subst e
      refine .inr ⟨[], by simp, List.nil_prefix, ?_⟩
      rintro rfl
      exact hne (by simp)
    · exact .inl ⟨h, e⟩
  · exact .inr ⟨l', rfl, h', fun e => hne (by rw [e])⟩

theorem Exact.bind {α β : Type} {r : Reader α} {q : α → Reader β} {a b : List Byte} {v : α} {w : β}
    (h : Exact r a v) (h' : Exact (q v) b w) : Exact (r >>= q) (a ++ b) w := by
  constructor
  · intro rest
    rw [bind_run, List.append_assoc, h.1]
    exact h'.1 rest
  · intro l hl hne
    rw [bind_run]
    rcases split_prefix hl hne with ⟨h1, h2⟩ | ⟨l', rfl, h1, h2⟩
    · rw [h.2 l h1 h2]; rfl
    · rw [h.1]; exact h'.2 l' h1 h2

theorem Exact.full {α β : Type} {r : Reader α} {q : α → Reader β} {a b : List Byte} {v : α} {w : β}
    (h : Exact r a v) (h' : Full (q v) b w) : Full (r >>= q) (a ++ b) w := by
  constructor
  · intro rest
    rw [bind_run, List.append_assoc, h.1]
    exact h'.1 rest
  · intro l hl hne
    rw [bind_run]
    rcases split_prefix hl hne with ⟨h1, h2⟩ | ⟨l', rfl, h1, h2⟩
    · rw [h.2 l h1 h2]; rfl
    · rw [h.1]; exact h'.2 l' h1 h2

theorem exact_pure {α : Type} (v : α) : Exact (pure v) [] v :=
  ⟨fun _ => rfl, fun l h hne => absurd (List.prefix_nil.1 h) hne⟩

/-- A reader that does not use anything in front. -/
theorem Exact.pass {α β : Type} {r : Reader α} {q : α → Reader β} {b : List Byte} {v : α} {w : β}
    (h : Exact r [] v) (h' : Exact (q v) b w) : Exact (r >>= q) b w := by
  have := h.bind h'
  rwa [List.nil_append] at this

theorem Exact.passFull {α β : Type} {r : Reader α} {q : α → Reader β} {b : List Byte} {v : α} {w : β}
    (h : Exact r [] v) (h' : Full (q v) b w) : Full (r >>= q) b w := by
  have := h.full h'
  rwa [List.nil_append] at this

theorem Exact.last {α β : Type} {r : Reader α} {a : List Byte} {v : α} (f : α → β)
    (h : Exact r a v) : Exact (r >>= fun x => pure (f x)) a (f v) := by
  have := h.bind (q := fun x => pure (f x)) (exact_pure (f v))
  rwa [List.append_nil] at this

theorem exact_check (c : Prop) [Decidable c] (h : c) : Exact (check c) [] () :=
  ⟨fun rest => by simp [check, h], fun l hl hne => absurd (List.prefix_nil.1 hl) hne⟩

theorem full_end {α : Type} (v : α) : Full (atEnd >>= fun _ => pure v) [] v := by
  constructor
  · intro rest
    rw [bind_run, List.nil_append]
    unfold atEnd
    by_cases h : rest = []
    · subst h; rfl
    · simp [h]
  · exact fun l hl hne => absurd (List.prefix_nil.1 hl) hne

theorem exact_take (e : List Byte) {n : ℕ} (h : e.length = n) : Exact (take n) e e := by
  subst h
  constructor
  · intro rest
    simp [take]
  · intro l hl hne
    have : l.length < e.length := by
      rcases Nat.lt_or_ge l.length e.length with h | h
      · exact h
      · exact absurd (hl.eq_of_length_le h) hne
    simp [take, this]

theorem mem_length (big : Bool) (n v : ℕ) : (mem big n v).length = n := by
  unfold mem
  cases big <;> simp

theorem number_low (n : ℕ) : ∀ v : ℕ,
    ((List.range n).map fun i => BitVec.ofNat 8 (v / 256 ^ i)).foldr (fun b v => b.toNat + 256 * v) 0 = v % 256 ^ n := by
  induction n with
  | zero => intro v; simp [Nat.mod_one]
  | succ n ih =>
    intro v
    rw [List.range_succ_eq_map, List.map_cons, List.foldr_cons, List.map_map]
    have : ((fun i => BitVec.ofNat 8 (v / 256 ^ i)) ∘ Nat.succ) = fun i => BitVec.ofNat 8 (v / 256 / 256 ^ i) := by
      funext i
      simp only [Function.comp, Nat.succ_eq_add_one, Nat.pow_succ, Nat.div_div_eq_div_mul, Nat.mul_comm]
    rw [this, ih]
    simp only [Nat.pow_zero, Nat.div_one, BitVec.toNat_ofNat]
    rw [show 256 ^ (n + 1) = 256 * 256 ^ n by ring, Nat.mod_mul]

theorem number_mem (big : Bool) (n v : ℕ) : number big (mem big n v) = v % 256 ^ n := by
  unfold number mem
  cases big
  · simpa using number_low n v
  · simpa using number_low n v

theorem exact_word (big : Bool) (v : BitVec 32) : Exact (rWord big) (wWord big v) v := by
  have h := (exact_take (wWord big v) (mem_length big 4 v.toNat)).last (fun l => BitVec.ofNat 32 (number big l))
  have e : BitVec.ofNat 32 (number big (wWord big v)) = v := by
    unfold wWord
    rw [number_mem]
    apply BitVec.eq_of_toNat_eq
    have := v.isLt
    simp only [BitVec.toNat_ofNat]
    omega
  rw [e] at h
  exact h

/-- An `int` as it is read back. -/
theorem exact_int (big : Bool) (v : ℤ) : Exact (rInt big) (wInt big v) (v.bmod (2 ^ 32)) := by
  have h := (exact_take (wInt big v) (mem_length big 4 _)).last (fun l => (BitVec.ofNat 32 (number big l)).toInt)
  have e : (BitVec.ofNat 32 (number big (wInt big v))).toInt = v.bmod (2 ^ 32) := by
    unfold wInt
    rw [number_mem, ← BitVec.toInt_ofInt]
    congr 1
    apply BitVec.eq_of_toNat_eq
    have := (BitVec.ofInt 32 v).isLt
    simp only [BitVec.toNat_ofNat]
    omega
  rw [e] at h
  exact h

theorem exact_long (big : Bool) (v : ℤ) : Exact (rLong big) (wLong big v) (v.bmod (2 ^ 64)) := by
  have h := (exact_take (wLong big v) (mem_length big 8 _)).last (fun l => (BitVec.ofNat 64 (number big l)).toInt)
  have e : (BitVec.ofNat 64 (number big (wLong big v))).toInt = v.bmod (2 ^ 64) := by
    unfold wLong
    rw [number_mem, ← BitVec.toInt_ofInt]
    congr 1
    apply BitVec.eq_of_toNat_eq
    have := (BitVec.ofInt 64 v).isLt
    simp only [BitVec.toNat_ofNat]
    omega
  rw [e] at h
  exact h

theorem bmod_fits {v : ℤ} (h : -2 ^ 31 ≤ v ∧ v < 2 ^ 31) : v.bmod (2 ^ 32) = v := by
  apply Int.bmod_eq_of_le <;> omega

theorem bmod_long {v : ℤ} (h : -2 ^ 63 ≤ v ∧ v < 2 ^ 63) : v.bmod (2 ^ 64) = v := by
  apply Int.bmod_eq_of_le <;> omega

theorem exact_int' (big : Bool) {v : ℤ} (h : -2 ^ 31 ≤ v ∧ v < 2 ^ 31) : Exact (rInt big) (wInt big v) v := by
  have := exact_int big v
  rwa [bmod_fits h] at this

theorem exact_times {α : Type} (r : Reader α) (w : α → List Byte) : ∀ (l : List α), (∀ x ∈ l, Exact r (w x) x) →
    Exact (times l.length r) (l.flatMap w) l := by
  intro l
  induction l with
  | nil => intro _; exact exact_pure []
  | cons x l ih =>
    intro h
    rw [List.flatMap_cons]
    exact (h x (by simp)).bind ((ih fun y hy => h y (by simp [hy])).last (fun l => x :: l))

theorem exact_times' {α : Type} {r : Reader α} {w : α → List Byte} {l : List α} {n : ℕ} (hn : n = l.length)
    (h : ∀ x ∈ l, Exact r (w x) x) : Exact (times n r) (l.flatMap w) l := by
  subst hn
  exact exact_times r w l h

theorem exact_double (big : Bool) (v : BitVec 64) : Exact (take 8) (wDouble big v) (wDouble big v) :=
  exact_take _ (mem_length big 8 _)

theorem number_double (big : Bool) (v : BitVec 64) : number big (wDouble big v) = v.toNat := by
  unfold wDouble
  rw [number_mem]
  have := v.isLt
  omega

/-- The binary compatibility information. -/
def magic (big : Bool) : List Byte :=
  wChar big 8 ++ wChar big 2 ++ wChar big 4 ++ wChar big 4 ++ wChar big 8 ++
  wShort big 0xcafe ++ wInt big 0xdeadbeef ++ wWord big 0x3f800000 ++ wDouble big 0x3ff0000000000000 ++ wInt big 0

theorem word_of_int (big : Bool) : wInt big 0xdeadbeef = wWord big 0xdeadbeef := rfl

theorem exact_magic (big : Bool) : Exact rMagic (magic big) big := by
  have e : magic big = (wChar big 8 ++ wChar big 2 ++ wChar big 4 ++ wChar big 4 ++ wChar big 8) ++
      (wShort big 0xcafe ++ (wWord big 0xdeadbeef ++ (wWord big 0x3f800000 ++ (wDouble big 0x3ff0000000000000 ++ wInt big 0)))) := by
    simp only [magic, word_of_int, List.append_assoc]
  rw [e]
  refine (exact_take _ (by cases big <;> rfl)).bind ?_
  refine (exact_check _ (by cases big <;> decide)).pass ?_
  refine (exact_take _ (by cases big <;> rfl)).bind ?_
  refine (exact_check _ (by cases big <;> decide)).pass ?_
  have hb : decide (wShort big 0xcafe = [0xca, 0xfe]) = big := by cases big <;> decide
  dsimp only
  rw [hb]
  refine (exact_word big _).bind ?_
  refine (exact_word big _).bind ?_
  refine (exact_double big _).bind ?_
  have h := (exact_int' big (v := 0) (by decide)).bind (q := fun v => check ((0xdeadbeef : BitVec 32) = 0xdeadbeef ∧
    (0x3f800000 : BitVec 32) = 0x3f800000 ∧ number big (wDouble big 0x3ff0000000000000) = 0x3ff0000000000000 ∧ v = 0) >>= fun _ => pure big)
    ((exact_check _ ⟨rfl, rfl, number_double big _, rfl⟩).pass (exact_pure big))
  rwa [List.append_nil] at h

/-- The rest of the header, as `header` writes it. -/
def rest (big : Bool) (h : Head) : List Byte :=
  wInt big h.kind ++ (wInt big h.step ++ (wInt big (h.nout 0) ++ (wInt big (h.nout 1) ++ (wInt big (h.nout 2) ++
  (wWord big h.dt ++ (wWord big (h.dout 0) ++ (wWord big (h.dout 1) ++ (wWord big (h.dout 2) ++
  (wWord big (h.x0 0) ++ (wWord big (h.x0 1) ++ (wWord big (h.x0 2) ++ (wWord big h.cvac ++ (wWord big h.eps0 ++ (wWord big 0 ++
  (wInt big h.rank ++ (wInt big h.nproc ++ (wInt big h.sp ++ wWord big h.q_m)))))))))))))))))

theorem header_parts (big : Bool) (h : Head) : header big h = magic big ++ rest big h := by
  unfold header magic rest
  generalize wInt big = I, wWord big = W, wChar big = C, wShort big = S, wDouble big = D
  simp only [List.append_assoc]

/-- The header as it is read back: every integer in 32 bits. -/
def Head.cut (h : Head) : Head :=
  { h with
    kind := h.kind.bmod (2 ^ 32), step := h.step.bmod (2 ^ 32), nout := fun c => (h.nout c).bmod (2 ^ 32)
    rank := h.rank.bmod (2 ^ 32), nproc := h.nproc.bmod (2 ^ 32), sp := h.sp.bmod (2 ^ 32) }

theorem three {α : Type} (f : Fin 3 → α) : ![f 0, f 1, f 2] = f := by
  funext c
  fin_cases c <;> rfl

theorem exact_rest (big : Bool) (h : Head) : Exact (rHead big) (rest big h) h.cut := by
  have e : h.cut = ⟨h.kind.bmod (2 ^ 32), h.step.bmod (2 ^ 32), ![(h.nout 0).bmod (2 ^ 32), (h.nout 1).bmod (2 ^ 32), (h.nout 2).bmod (2 ^ 32)],
      h.dt, ![h.dout 0, h.dout 1, h.dout 2], ![h.x0 0, h.x0 1, h.x0 2], h.cvac, h.eps0, h.rank.bmod (2 ^ 32), h.nproc.bmod (2 ^ 32),
      h.sp.bmod (2 ^ 32), h.q_m⟩ := by
    unfold Head.cut
    rw [three h.dout, three h.x0, three fun c => (h.nout c).bmod (2 ^ 32)]
  rw [e]
  unfold rHead rest
  refine (exact_int big _).bind ?_
  refine (exact_int big _).bind ?_
  refine (exact_int big _).bind ?_
  refine (exact_int big _).bind ?_
  refine (exact_int big _).bind ?_
  refine (exact_word big _).bind ?_
  refine (exact_word big _).bind ?_
  refine (exact_word big _).bind ?_
  refine (exact_word big _).bind ?_
  refine (exact_word big _).bind ?_
  refine (exact_word big _).bind ?_
  refine (exact_word big _).bind ?_
  refine (exact_word big _).bind ?_
  refine (exact_word big _).bind ?_
  refine (exact_word big _).bind ?_
  refine (exact_int big _).bind ?_
  refine (exact_int big _).bind ?_
  refine (exact_int big _).bind ?_
  exact (exact_word big _).last _

theorem Head.Fits.cut {h : Head} (f : h.Fits) : h.cut = h := by
  unfold Head.cut
  rw [bmod_fits f.step, bmod_fits f.kind, bmod_fits f.rank, bmod_fits f.nproc, bmod_fits f.sp]
  have : (fun c => (h.nout c).bmod (2 ^ 32)) = h.nout := funext fun c => bmod_fits (f.nout c)
  rw [this]

theorem exact_arrayHead (big : Bool) {elem : ℤ} {dim : List ℤ} (he : 0 ≤ elem ∧ elem < 2 ^ 31)
    (hl : dim.length < 2 ^ 31) (hd : ∀ x ∈ dim, -2 ^ 31 ≤ x ∧ x < 2 ^ 31) :
    Exact (rArrayHead big) (arrayHeader big elem dim) (elem, dim) := by
  unfold arrayHeader rArrayHead
  rw [List.append_assoc]
  refine (exact_int' big (by omega)).bind ?_
  refine (exact_int' big (by omega)).bind ?_
  exact (exact_times' (by simp) fun x hx => exact_int' big (hd x hx)).last _

end Verif.Dump
