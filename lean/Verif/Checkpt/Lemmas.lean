import Verif.Checkpt.Model
import Mathlib.Data.List.Forall2

/-!
# Checkpoint and restore: specification and lemmas
-/
namespace Verif.Checkpt

/-! ### Specification -/

/-- Spec: a file followed by arbitrary bytes. -/
def prepend (l : List Byte) (s : Src) : Src := fun k => if h : k < l.length then l[k] else s (k - l.length)

/-- Spec: the address a symbol of the old process has in the new one: if the old process could look it up by name, what the
new process finds for this name, otherwise the same number. -/
def resym (T T' : Syms) (a : ℕ) : ℕ :=
  if a = 0 then 0
  else match T.name a with
    | none => a
    | some nm => if T.find nm = a then T'.find nm else a

/-- Spec: the new process knows the symbol. -/
def SymKnown (T T' : Syms) (a : ℕ) : Prop := a ≠ 0 → resym T T' a ≠ 0

/-- Spec: symbol names are C strings. -/
structure Syms.Ok (T : Syms) : Prop where
  name : ∀ a b, T.name a = some b → 0 ∉ b ∧ b.length < 2 ^ 64
  fname : ∀ a b, T.fname a = some b → 0 ∉ b ∧ b.length < 2 ^ 64

/-- Spec: the restored block has the same layout and the bytes of the elements in use. -/
structure SameBlk (B B' : Blk) : Prop where
  sz : B'.sz = B.sz
  str : B'.str = B.str
  n : B'.n = B.n
  max : B'.max = B.max
  align : B'.align = B.align
  bytes : ∀ k < B.n, ∀ b < B.sz, B'.mem (k * B.str + b) = B.mem (k * B.str + b)

/-- Spec: the restored item: the same bytes, string or block; the object `σ a` for a pointer to `a`, the symbol `θ a` for the
symbol `a`. -/
def SameItem (σ τ θ : ℕ → ℕ) : Item → Item → Prop
  | .raw b, .raw b' => b' = b
  | .data B, .data B' => SameBlk B B'
  | .str s, .str s' => s' = s
  | .ptr a, .ptr a' => a' = σ a
  | .fptr a, .fptr a' => a' = τ a
  | .sym a, .sym a' => a' = θ a
  | _, _ => False

/-- Spec: what C can represent: sizes are below 2^64, blocks have a valid layout, strings end at the first 0. -/
def Item.Valid : Item → Prop
  | .raw _ => True
  | .data B => (B.null = true → B.n * B.sz = 0) ∧ B.n ≤ B.max ∧ B.sz ≤ B.str ∧ B.str < 2 ^ 64 ∧ B.max < 2 ^ 64 ∧
      B.max * B.str < 2 ^ 64 ∧ B.align < 2 ^ 64 ∧ B.align &&& (B.align - 1) = 0
  | .str s => ∀ b, s = some b → 0 ∉ b ∧ b.length < 2 ^ 64
  | .ptr _ => True
  | .fptr _ => True
  | .sym a => a < 2 ^ 64

/-- Spec: the restore function makes the calls that correspond to what was written, whatever the pointers and symbols become
and whatever the unused bytes of blocks are. -/
def Agrees : Reader → List Item → Prop
  | .ret, [] => True
  | .raw n k, .raw b :: l => b.length = n ∧ Agrees (k b) l
  | .data k, .data B :: l => ∀ B', SameBlk B B' → Agrees (k B') l
  | .str k, .str s :: l => Agrees (k s) l
  | .ptr k, .ptr _ :: l => ∀ a, Agrees (k a) l
  | .fptr k, .fptr _ :: l => ∀ a, Agrees (k a) l
  | .sym k, .sym _ :: l => ∀ a, Agrees (k a) l
  | _, _ => False

/-! ### Bytes -/

lemma le_length (n v : ℕ) : (le n v).length = n := by
  induction n generalizing v with
  | zero => rfl
  | succ n ih => simp [le, ih]

lemma deLE_le (n v : ℕ) : deLE (le n v) = v % 256 ^ n := by
  induction n generalizing v with
  | zero => simp [le, deLE, Nat.mod_one]
  | succ n ih =>
    rw [le, deLE, ih, pow_succ, Nat.mul_comm (256 ^ n) 256, Nat.mod_mul]
    rfl

lemma prepend_append (l m : List Byte) (s : Src) : prepend (l ++ m) s = prepend l (prepend m s) := by
  funext k
  unfold prepend
  by_cases h1 : k < l.length
  · simp [h1, Nat.lt_of_lt_of_le h1, List.getElem_append_left h1]
  · by_cases h2 : k - l.length < m.length
    · have h3 : k < (l ++ m).length := by simp; omega
      simp only [h1, h3, h2, dif_pos, dif_neg, not_false_iff]
      rw [List.getElem_append_right (by omega)]
    · have h3 : ¬ k < (l ++ m).length := by simp; omega
      simp only [h1, h3, h2, dif_neg, not_false_iff]
      congr 1
      simp; omega

lemma readRaw_prepend (n : ℕ) (l : List Byte) (s : Src) (h : l.length = n) : readRaw n (prepend l s) = (l, s) := by
  subst h
  unfold readRaw prepend
  ext1
  · apply List.ext_getElem
    · simp
    · intro i h1 h2
      simp [h2]
  · funext k
    simp

lemma readVal_prepend (v : ℕ) (s : Src) (hv : v < 2 ^ 64) : readVal (prepend (val v) s) = (v, s) := by
  unfold readVal val
  rw [readRaw_prepend 8 _ _ (le_length 8 v), deLE_le]
  simp only [Prod.mk.injEq, and_true]
  exact Nat.mod_eq_of_lt (by norm_num at hv ⊢; omega)

lemma prepend_nil (s : Src) : prepend [] s = s := by
  funext k; simp [prepend]

lemma readRaw_zero (s : Src) : (readRaw 0 s).2 = s := by
  funext k; simp [readRaw]

/-! ### Items -/

lemma restoreStr_prepend (x : Option (List Byte)) (s : Src) (hx : (Item.str x).Valid) :
    restoreStr (prepend (checkptStr x) s) = some (x, s) := by
  cases x with
  | none =>
    unfold checkptStr restoreStr
    rw [readVal_prepend _ _ (by norm_num)]
    rfl
  | some b =>
    obtain ⟨h1, h2⟩ := hx b rfl
    unfold checkptStr restoreStr
    rw [prepend_append, prepend_append, readVal_prepend _ _ (by norm_num)]
    dsimp only
    rw [readVal_prepend _ _ h2]
    dsimp only
    rw [readRaw_prepend _ _ _ rfl]
    simp [h1]

lemma restoreSym_prepend (T T' : Syms) (hT : T.Ok) (a : ℕ) (ha : a < 2 ^ 64) (hk : SymKnown T T' a) (s : Src) :
    restoreSym T' (prepend (checkptSym T a) s) = some (resym T T' a, s) := by
  unfold checkptSym restoreSym
  unfold SymKnown resym at hk
  unfold resym
  split_ifs with h0 h1
  · rw [readVal_prepend _ _ (by norm_num)]
    simp
  · rw [prepend_append, prepend_append, readVal_prepend _ _ (by norm_num)]
    cases hn : T.name a with
    | none => rw [hn] at h1; simp [findSaddr] at h1; omega
    | some nm =>
      rw [hn] at h1
      simp only [findSaddr] at h1
      have hkn := hk h0
      rw [if_neg h0, hn] at hkn
      simp only [h1.symm, if_true] at hkn
      have e1 : restoreStr (prepend (checkptStr (some nm)) (prepend (checkptStr (T.fname a)) s)) =
          some (some nm, prepend (checkptStr (T.fname a)) s) :=
        restoreStr_prepend _ _ fun b hb => by
          obtain rfl := Option.some.inj hb
          exact hT.name a _ hn
      have e2 : restoreStr (prepend (checkptStr (T.fname a)) s) = some (T.fname a, s) :=
        restoreStr_prepend _ _ fun b hb => hT.fname a b hb
      simp only [e1, e2, Option.bind_some, findSaddr, h1.symm, if_true]
      simp [hkn]
  · rw [prepend_append, readVal_prepend _ _ (by norm_num)]
    simp only [readVal_prepend _ _ ha]
    cases hn : T.name a with
    | none => simp
    | some nm =>
      rw [hn] at h1
      simp only [findSaddr] at h1
      simp [Ne.symm h1]

lemma restoreFptr_prepend (reg : List Node) (a : ℕ) (b : List Byte) (hb : checkptPtr reg a = some b)
    (hid : objectId reg a < 2 ^ 64) (s : Src) :
    restoreFptr (prepend b s) = some (if a = 0 then 0 else objectId reg a, s) := by
  unfold checkptPtr at hb
  split_ifs at hb with h0 h1
  · obtain rfl := Option.some.inj hb
    unfold restoreFptr
    rw [readVal_prepend _ _ (by norm_num)]
    simp [h0]
  · obtain rfl := Option.some.inj hb
    unfold restoreFptr
    rw [prepend_append, readVal_prepend _ _ (by norm_num)]
    simp only [readVal_prepend _ _ hid]
    simp [h0, h1]

lemma fill_prepend (B : Blk) (size : ℕ) (hs : B.sz ≤ B.str) (hsz : B.max * B.str ≤ size) (s : Src) :
    ∀ n k mem, k + n = B.n → B.n ≤ B.max → (∀ j < k, ∀ b < B.sz, mem (j * B.str + b) = B.mem (j * B.str + b)) →
    ∃ mem', fill B.sz B.str size n k mem
        (prepend ((List.range' k n).flatMap fun j => (List.range B.sz).map fun b => B.mem (j * B.str + b)) s) =
          some (mem', s) ∧ ∀ j < B.n, ∀ b < B.sz, mem' (j * B.str + b) = B.mem (j * B.str + b) := by
  intro n
  induction n with
  | zero =>
    intro k mem hk _ hm
    refine ⟨mem, ?_, ?_⟩
    · simp [fill, prepend_nil]
    · intro j hj; exact hm j (by omega)
  | succ n ih =>
    intro k mem hk hmax hm
    rw [List.range'_succ, List.flatMap_cons, prepend_append, fill]
    have hle : k * B.str + B.sz ≤ size := by
      have : (k + 1) * B.str ≤ B.max * B.str := Nat.mul_le_mul_right _ (by omega)
      rw [Nat.add_mul, one_mul] at this
      omega
    rw [if_neg (by omega), readRaw_prepend _ _ _ (by simp)]
    apply ih (k + 1) _ (by omega) hmax
    intro j hj b hb
    by_cases e : j = k
    · subst e
      have : j * B.str ≤ j * B.str + b ∧ j * B.str + b < j * B.str + B.sz := by omega
      simp only [this, and_self, if_true]
      unfold prepend
      simp [hb]
    · have h1 : (j + 1) * B.str ≤ k * B.str := Nat.mul_le_mul_right _ (by omega)
      rw [Nat.add_mul, one_mul] at h1
      have : ¬ (k * B.str ≤ j * B.str + b ∧ j * B.str + b < k * B.str + B.sz) := by omega
      simp only [this, if_false]
      exact hm j (by omega) b hb

lemma restoreData_prepend (fresh : ℕ → Byte) (B : Blk) (hB : (Item.data B).Valid) (b : List Byte)
    (hb : checkptData B = some b) (s : Src) :
    ∃ B', restoreData fresh (prepend b s) = some (B', s) ∧ SameBlk B B' := by
  obtain ⟨h1, h2, h3, h4, h5, h6, h7, h8⟩ := hB
  unfold checkptData at hb
  split_ifs at hb with c1 c2
  obtain rfl := Option.some.inj hb
  unfold restoreData
  simp only [prepend_append]
  rw [readVal_prepend _ _ (by norm_num)]
  simp only
  rw [readVal_prepend _ _ (by omega)]
  simp only
  rw [readVal_prepend _ _ (by omega)]
  simp only
  rw [readVal_prepend _ _ (by omega)]
  simp only
  rw [readVal_prepend _ _ (by omega)]
  simp only
  rw [readVal_prepend _ _ (by omega)]
  simp only
  rw [if_neg (by norm_num), if_neg c2, if_neg (by simp [h8]), Nat.mod_eq_of_lt h6]
  obtain ⟨mem', e, hm⟩ := fill_prepend B (B.max * B.str) h3 le_rfl s B.n 0 fresh (by omega) h2 (by omega)
  rw [List.range_eq_range' (n := B.n), e]
  exact ⟨_, rfl, rfl, rfl, rfl, rfl, rfl, hm⟩

/-- A restore function reads what the checkpoint function wrote. -/
lemma run_agrees (T T' : Syms) (hT : T.Ok) (reg reg' : List Node) (fresh : ℕ → Byte) (s : Src) :
    ∀ (items : List Item) (rd : Reader) (b : List Byte), Agrees rd items → (∀ it ∈ items, it.Valid) →
      (∀ a, Item.sym a ∈ items → SymKnown T T' a) → (∀ a, objectId reg a < 2 ^ 64) →
      (∀ a, Item.ptr a ∈ items → a ≠ 0 → objectPtr reg' (objectId reg a) ≠ 0) →
      checkptItems T reg items = some b →
      ∃ items', rd.run T' reg' fresh (prepend b s) = some (items', s) ∧
        List.Forall₂ (SameItem (fun a => if a = 0 then 0 else objectPtr reg' (objectId reg a))
          (fun a => if a = 0 then 0 else objectId reg a) (resym T T')) items items' := by
  intro items
  induction items with
  | nil =>
    intro rd b ha _ _ _ _ hb
    simp only [checkptItems, Option.some.injEq] at hb
    subst hb
    cases rd <;> simp only [Agrees] at ha
    exact ⟨[], by simp [Reader.run, prepend_nil], .nil⟩
  | cons it l ih =>
    intro rd b ha hv hs hid hp hb
    simp only [checkptItems] at hb
    cases h1 : checkptItem T reg it with
    | none => rw [h1] at hb; simp at hb
    | some b1 =>
      rw [h1] at hb
      cases h2 : checkptItems T reg l with
      | none => rw [h2] at hb; simp at hb
      | some b2 =>
        rw [h2] at hb
        simp only [Option.bind_some, Option.map_some, Option.some.injEq] at hb
        subst hb
        have hvl : ∀ it ∈ l, it.Valid := fun x hx => hv x (by simp [hx])
        have hsl : ∀ a, Item.sym a ∈ l → SymKnown T T' a := fun a hx => hs a (by simp [hx])
        have hpl : ∀ a, Item.ptr a ∈ l → a ≠ 0 → objectPtr reg' (objectId reg a) ≠ 0 := fun a hx => hp a (by simp [hx])
        have hv1 := hv it (by simp)
        rw [prepend_append]
        have next : ∀ rd, Agrees rd l → _ := fun rd hr => ih rd b2 hr hvl hsl hid hpl h2
        cases it with
        | raw bb =>
          cases rd <;> simp only [Agrees] at ha
          obtain ⟨ha1, ha2⟩ := ha
          simp only [checkptItem, Option.some.injEq] at h1
          subst h1
          obtain ⟨items', e, hF⟩ := next _ ha2
          refine ⟨.raw bb :: items', ?_, .cons rfl hF⟩
          simp only [Reader.run]
          rw [readRaw_prepend _ _ _ ha1]
          simp only [e, Option.map_some]
        | data B =>
          cases rd <;> simp only [Agrees] at ha
          obtain ⟨B', e1, hB⟩ := restoreData_prepend fresh B hv1 b1 h1 (prepend b2 s)
          obtain ⟨items', e, hF⟩ := next _ (ha B' hB)
          refine ⟨.data B' :: items', ?_, .cons hB hF⟩
          simp only [Reader.run, e1, Option.bind_some, e, Option.map_some]
        | str x =>
          cases rd <;> simp only [Agrees] at ha
          simp only [checkptItem, Option.some.injEq] at h1
          subst h1
          obtain ⟨items', e, hF⟩ := next _ ha
          refine ⟨.str x :: items', ?_, .cons rfl hF⟩
          simp only [Reader.run, restoreStr_prepend x _ hv1, Option.bind_some, e, Option.map_some]
        | ptr a =>
          cases rd <;> simp only [Agrees] at ha
          have e1 := restoreFptr_prepend reg a b1 h1 (hid a) (prepend b2 s)
          obtain ⟨items', e, hF⟩ := next _ (ha (if a = 0 then 0 else objectPtr reg' (objectId reg a)))
          refine ⟨.ptr (if a = 0 then 0 else objectPtr reg' (objectId reg a)) :: items', ?_, .cons rfl hF⟩
          have e2 : reanimateFptr reg' (if a = 0 then 0 else objectId reg a) =
              some (if a = 0 then 0 else objectPtr reg' (objectId reg a)) := by
            unfold reanimateFptr
            by_cases h0 : a = 0
            · simp [h0]
            · have h3 : objectId reg a ≠ 0 := by
                simp only [checkptItem, checkptPtr, if_neg h0] at h1
                intro h; rw [if_pos h] at h1; cases h1
              simp [h0, h3, hp a (by simp) h0]
          simp only [Reader.run, restorePtr, e1, Option.bind_some, e2, Option.map_some, e]
        | fptr a =>
          cases rd <;> simp only [Agrees] at ha
          have e1 := restoreFptr_prepend reg a b1 h1 (hid a) (prepend b2 s)
          obtain ⟨items', e, hF⟩ := next _ (ha (if a = 0 then 0 else objectId reg a))
          refine ⟨.fptr (if a = 0 then 0 else objectId reg a) :: items', ?_, .cons rfl hF⟩
          simp only [Reader.run, e1, Option.bind_some, Option.map_some, e]
        | sym a =>
          cases rd <;> simp only [Agrees] at ha
          simp only [checkptItem, Option.some.injEq] at h1
          subst h1
          obtain ⟨items', e, hF⟩ := next _ (ha (resym T T' a))
          refine ⟨.sym (resym T T' a) :: items', ?_, .cons rfl hF⟩
          simp only [Reader.run, restoreSym_prepend T T' hT a hv1 (hs a (by simp)), Option.bind_some, Option.map_some, e]

end Verif.Checkpt
