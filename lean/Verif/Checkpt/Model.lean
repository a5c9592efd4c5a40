import Mathlib.Data.Fin.Basic
import Mathlib.Data.List.Range
import Mathlib.Data.Int.Basic
import Mathlib.Tactic.Linarith

/-!
# The checkpoint service

Model of /repo/src/util/checkpt/checkpt.cc and of the macros of /repo/src/util/checkpt/checkpt.h:283-319.  A file is a list of
bytes.  `none` is `ERROR(( ))` or an access outside of allocated memory.  Addresses are numbers, 0 is `NULL`; `size_t` and
pointers take eight bytes, least significant byte first.  `fread` does not report the end of the file to its callers
(/repo/src/util/checkpt/checkpt_io.h:45-53), so what is read there is whatever the destination contained: a file being read
is an infinite sequence of bytes, the contents of the file followed by arbitrary bytes.
-/
namespace Verif.Checkpt

/-- A byte. -/
abbrev Byte := Fin 256

/-- The `n` bytes of an unsigned number. -/
def le : ℕ → ℕ → List Byte
  | 0, _ => []
  | n + 1, v => Fin.ofNat 256 v :: le n (v / 256)

/-- The number with these bytes. -/
def deLE : List Byte → ℕ
  | [] => 0
  | b :: l => b.val + 256 * deLE l

/-- A file being read: the bytes from the current position. -/
abbrev Src := ℕ → Byte

/-- `restore_raw`, checkpt.cc:364-376, and `fread`: the next `n` bytes and the new position. -/
def readRaw (n : ℕ) (s : Src) : List Byte × Src := ((List.range n).map s, fun k => s (n + k))

/-- `RESTORE_VAL( size_t, … )`, checkpt.h:307-311. -/
def readVal (s : Src) : ℕ × Src := (deLE (readRaw 8 s).1, (readRaw 8 s).2)

/-- `CHECKPT_VAL( size_t, … )`, checkpt.h:295-299. -/
def val (v : ℕ) : List Byte := le 8 v

/-- The arguments of `checkpt_data`, and the memory block `restore_data` returns: `max` elements, `str` bytes apart, of which
the first `n` are used, `sz` bytes each; the contents of the block by offset. -/
structure Blk where
  null : Bool
  sz : ℕ
  str : ℕ
  n : ℕ
  max : ℕ
  align : ℕ
  mem : ℕ → Byte

/-- What a checkpoint function writes with one call: raw bytes, a block, a string, a pointer to a registered object to be
restored at once or later, a symbol. -/
inductive Item
  | raw (b : List Byte)
  | data (B : Blk)
  | str (s : Option (List Byte))
  | ptr (a : ℕ)
  | fptr (a : ℕ)
  | sym (a : ℕ)

/-- The symbol table of a process: `dladdr` (name and file name, if any, of an address) and `dlsym` (the address of a
name; 0: not found).  Simplified: `dladdr` reports no error. -/
structure Syms where
  name : ℕ → Option (List Byte)
  fname : ℕ → Option (List Byte)
  find : List Byte → ℕ

/-- `registry_t`, checkpt.cc:31-38; `next` is the list. -/
structure Node where
  obj : ℕ
  ck : ℕ
  rs : ℕ
  an : ℕ
  id : ℕ
deriving DecidableEq

/-- The static variables `booted`, `registry`, `next_id`, checkpt.cc:17-45.  The streams `checkpt` and `restore` are open
only inside of `checkpt_objects` and `restore_objects`, whose callees must not register objects (checkpt.h:8-9,17-18); the
corresponding checks are not modelled. -/
structure Svc where
  booted : Bool
  reg : List Node
  nextId : ℕ

/-- `boot_checkpt`, checkpt.cc:94-112. -/
def boot (s : Svc) : Option Svc := if s.booted then none else some ⟨true, [], 1⟩

/-- `halt_checkpt`, checkpt.cc:114-130. -/
def halt (s : Svc) : Option Svc := if ¬ s.booted then none else if s.reg ≠ [] then none else some { s with booted := false }

/-- The search of `object_id`, checkpt.cc:132-148. -/
def objectId (reg : List Node) (a : ℕ) : ℕ :=
  match reg.find? fun nd => nd.obj = a with
  | some nd => nd.id
  | none => 0

/-- The search of `object_ptr`, checkpt.cc:150-166. -/
def objectPtr (reg : List Node) (id : ℕ) : ℕ :=
  match reg.find? fun nd => nd.id = id with
  | some nd => nd.obj
  | none => 0

/-- `register_object`, checkpt.cc:171-209. -/
def register (s : Svc) (obj ck rs an : ℕ) : Option Svc :=
  if ¬ s.booted then none
  else if obj = 0 then none
  else if (s.reg.find? fun nd => nd.obj = obj).isSome then none
  else some { s with reg := s.reg ++ [⟨obj, ck, rs, an, s.nextId⟩], nextId := (s.nextId + 1) % 2 ^ 64 }

/-- Removal of the first node with the object, checkpt.cc:221-236. -/
def removeFirst (obj : ℕ) : List Node → List Node
  | [] => []
  | nd :: l => if nd.obj = obj then l else nd :: removeFirst obj l

/-- `unregister_object`, checkpt.cc:211-237. -/
def unregister (s : Svc) (obj : ℕ) : Option Svc :=
  if ¬ s.booted then none
  else if (s.reg.find? fun nd => nd.obj = obj).isNone then none
  else some { s with reg := removeFirst obj s.reg }

/-! ### Writing -/

/-- `checkpt_str`, checkpt.cc:433-447. -/
def checkptStr : Option (List Byte) → List Byte
  | none => val 0x2c11577
  | some b => val 0x577 ++ val b.length ++ b

/-- `find_saddr`, checkpt.cc:602-645. -/
def findSaddr (T : Syms) : Option (List Byte) → ℕ
  | none => 0
  | some b => T.find b

/-- `checkpt_sym`, checkpt.cc:647-701. -/
def checkptSym (T : Syms) (a : ℕ) : List Byte :=
  if a = 0 then val 0x2C11513B
  else if a = findSaddr T (T.name a) then val 0x577513B ++ checkptStr (T.name a) ++ checkptStr (T.fname a)
  else val 0xADD7513B ++ val a

/-- `checkpt_fptr` and `checkpt_ptr`, checkpt.cc:476-491, 530-533. -/
def checkptPtr (reg : List Node) (a : ℕ) : Option (List Byte) :=
  if a = 0 then some (val 0x2c11977)
  else if objectId reg a = 0 then none
  else some (val 0x977 ++ val (objectId reg a))

/-- `checkpt_data`, checkpt.cc:380-405. -/
def checkptData (B : Blk) : Option (List Byte) :=
  if B.null ∧ 0 < B.n * B.sz then none
  else if B.max < B.n ∨ B.str < B.sz then none
  else some (val 0xDA7A ++ val B.sz ++ val B.str ++ val B.n ++ val B.max ++ val B.align ++
    (List.range B.n).flatMap fun k => (List.range B.sz).map fun b => B.mem (k * B.str + b))

/-- One call of a checkpoint function. -/
def checkptItem (T : Syms) (reg : List Node) : Item → Option (List Byte)
  | .raw b => some b
  | .data B => checkptData B
  | .str s => some (checkptStr s)
  | .ptr a => checkptPtr reg a
  | .fptr a => checkptPtr reg a
  | .sym a => some (checkptSym T a)

/-- All calls of a checkpoint function. -/
def checkptItems (T : Syms) (reg : List Node) : List Item → Option (List Byte)
  | [] => some []
  | it :: l => (checkptItem T reg it).bind fun b => (checkptItems T reg l).map fun b' => b ++ b'

/-- The bytes of a node, checkpt.cc:259; `nx` is its `next` pointer. -/
def nodeBytes (nx : ℕ) (nd : Node) : List Byte :=
  le 8 nd.obj ++ le 8 nd.ck ++ le 8 nd.rs ++ le 8 nd.an ++ le 8 nd.id ++ le 8 nx

/-- The loop of `checkpt_objects`, checkpt.cc:256-264.  `contents` are the calls the checkpoint function of the object
makes. -/
def checkptNodes (T : Syms) (reg : List Node) (contents : ℕ → List Item) (nx : ℕ → ℕ) : List Node → Option (List Byte)
  | [] => some []
  | nd :: l =>
    ((if nd.ck ≠ 0 then checkptItems T reg (contents nd.obj) else some []).bind fun b =>
      (checkptNodes T reg contents nx l).map fun b' =>
        val 0x600DF00D ++ nodeBytes (nx nd.obj) nd ++ checkptSym T nd.ck ++ checkptSym T nd.rs ++ checkptSym T nd.an ++ b ++ b')

/-- `checkpt_objects`, checkpt.cc:239-273: the contents of the file. -/
def checkptObjects (T : Syms) (contents : ℕ → List Item) (nx : ℕ → ℕ) (s : Svc) : Option (List Byte) :=
  if ¬ s.booted then none
  else (checkptNodes T s.reg contents nx s.reg).map fun b => val s.nextId ++ b ++ val 0xBADF00D

/-! ### Reading -/

/-- `restore_str`, checkpt.cc:449-474.  (`len+1` is not checked for overflow in the code.) -/
def restoreStr (s : Src) : Option (Option (List Byte) × Src) :=
  let (h, s) := readVal s
  if h = 0x2c11577 then some (none, s)
  else if h ≠ 0x577 then none
  else
    let (len, s) := readVal s
    let (b, s) := readRaw len s
    if 0 ∈ b then none else some (some b, s)

/-- `restore_sym`, checkpt.cc:703-784. -/
def restoreSym (T : Syms) (s : Src) : Option (ℕ × Src) :=
  let (h, s) := readVal s
  if h = 0x2C11513B then some (0, s)
  else if h = 0x577513B then
    (restoreStr s).bind fun (sname, s) =>
      (restoreStr s).bind fun (_, s) =>
        if findSaddr T sname = 0 then none else some (findSaddr T sname, s)
  else if h = 0xADD7513B then some (readVal s)
  else none

/-- `restore_fptr`, checkpt.cc:493-512: the id, as a pointer. -/
def restoreFptr (s : Src) : Option (ℕ × Src) :=
  let (h, s) := readVal s
  if h = 0x2c11977 then some (0, s)
  else if h ≠ 0x977 then none
  else
    let (id, s) := readVal s
    if id = 0 then none else some (id, s)

/-- `reanimate_fptr`, checkpt.cc:514-528. -/
def reanimateFptr (reg : List Node) (p : ℕ) : Option ℕ :=
  if p = 0 then some 0 else if objectPtr reg p = 0 then none else some (objectPtr reg p)

/-- `restore_ptr`, checkpt.cc:535-538. -/
def restorePtr (reg : List Node) (s : Src) : Option (ℕ × Src) :=
  (restoreFptr s).bind fun (p, s) => (reanimateFptr reg p).map fun a => (a, s)

/-- The loop over the elements of `restore_data`, checkpt.cc:429: element `k` and the following `n-1`.  `size` is the size of
the memory block. -/
def fill (sz str size : ℕ) : ℕ → ℕ → (ℕ → Byte) → Src → Option ((ℕ → Byte) × Src)
  | 0, _, mem, s => some (mem, s)
  | n + 1, k, mem, s =>
    if 0 < sz ∧ size < k * str + sz then none
    else fill sz str size n (k + 1) (fun i => if k * str ≤ i ∧ i < k * str + sz then s (i - k * str) else mem i)
      (readRaw sz s).2

/-- `restore_data`, checkpt.cc:407-431.  `fresh` is the contents of newly allocated memory; a block of size 0 is `NULL` and
an alignment has to be a power of two
(/repo/src/util/util_base.cc:155-215). -/
def restoreData (fresh : ℕ → Byte) (s : Src) : Option (Blk × Src) :=
  let (h, s) := readVal s
  if h ≠ 0xDA7A then none
  else
    let (sz, s) := readVal s
    let (str, s) := readVal s
    let (n, s) := readVal s
    let (max, s) := readVal s
    let (align, s) := readVal s
    if max < n ∨ str < sz then none
    else if align ≠ 0 ∧ align &&& (align - 1) ≠ 0 then none
    else (fill sz str (max * str % 2 ^ 64) n 0 fresh s).map fun (mem, s) =>
      (⟨max * str % 2 ^ 64 = 0, sz, str, n, max, align, mem⟩, s)

/-- A restore function: the sequence of calls it makes, which can depend on what the preceding ones returned; `fail` is an
`ERROR(( ))`. -/
inductive Reader
  | ret
  | fail
  | raw (n : ℕ) (k : List Byte → Reader)
  | data (k : Blk → Reader)
  | str (k : Option (List Byte) → Reader)
  | ptr (k : ℕ → Reader)
  | fptr (k : ℕ → Reader)
  | sym (k : ℕ → Reader)

/-- A call of a restore function, with the objects restored so far: what its calls returned. -/
def Reader.run (T : Syms) (reg : List Node) (fresh : ℕ → Byte) : Reader → Src → Option (List Item × Src)
  | .ret, s => some ([], s)
  | .fail, _ => none
  | .raw n k, s =>
    ((k (readRaw n s).1).run T reg fresh (readRaw n s).2).map fun (l, s') => (.raw (readRaw n s).1 :: l, s')
  | .data k, s => (restoreData fresh s).bind fun (B, s) => ((k B).run T reg fresh s).map fun (l, s) => (.data B :: l, s)
  | .str k, s => (restoreStr s).bind fun (x, s) => ((k x).run T reg fresh s).map fun (l, s) => (.str x :: l, s)
  | .ptr k, s => (restorePtr reg s).bind fun (a, s) => ((k a).run T reg fresh s).map fun (l, s) => (.ptr a :: l, s)
  | .fptr k, s => (restoreFptr s).bind fun (a, s) => ((k a).run T reg fresh s).map fun (l, s) => (.fptr a :: l, s)
  | .sym k, s => (restoreSym T s).bind fun (a, s) => ((k a).run T reg fresh s).map fun (l, s) => (.sym a :: l, s)

/-- What the process that restores provides: its symbol table, the restore function at an address, the address at which the
object with a given id is put (the value the restore function returns), and the contents of newly allocated memory. -/
structure Proc where
  T : Syms
  code : ℕ → Reader
  place : ℕ → ℕ
  fresh : ℕ → Byte

/-- Field `k` of the bytes of a node. -/
def word (b : List Byte) (k : ℕ) : ℕ := deLE ((b.drop (8 * k)).take 8)

/-- The loop of `restore_objects`, checkpt.cc:304-321: the registry and, for every object, what its restore function got.
`none` also if there are more than `fuel` objects. -/
def restoreLoop (P : Proc) : ℕ → List Node → List (List Item) → Src → Option (List Node × List (List Item) × Src)
  | 0, _, _, _ => none
  | fuel + 1, reg, cs, s =>
    let (pre, s) := readVal s
    if pre = 0xBADF00D then some (reg, cs, s)
    else if pre ≠ 0x600DF00D then none
    else
      let (b, s) := readRaw 48 s
      (restoreSym P.T s).bind fun (ck, s) =>
        (restoreSym P.T s).bind fun (rs, s) =>
          (restoreSym P.T s).bind fun (an, s) =>
            let nd : Node := ⟨word b 0, ck, rs, an, word b 4⟩
            if rs ≠ 0 then
              ((P.code rs).run P.T (reg ++ [nd]) P.fresh s).bind fun (l, s) =>
                restoreLoop P fuel (reg ++ [{ nd with obj := P.place nd.id }]) (cs ++ [l]) s
            else restoreLoop P fuel (reg ++ [nd]) (cs ++ [[]]) s

/-- `restore_objects`, checkpt.cc:275-328. -/
def restoreObjects (P : Proc) (fuel : ℕ) (s : Svc) (f : Src) : Option (Svc × List (List Item) × Src) :=
  if ¬ s.booted then none
  else
    let (nextId, f) := readVal f
    (restoreLoop P fuel [] [] f).map fun (reg, cs, f) => (⟨true, reg, nextId⟩, cs, f)

/-- A reanimate function replaces the pointers read with `restore_fptr`; the only one in the code is
`reanimate_vpic_simulation`, /repo/src/vpic/vpic.cc:60-70, which does this for all of them. -/
def reanimateItems (reg : List Node) : List Item → Option (List Item)
  | [] => some []
  | .fptr a :: l => (reanimateFptr reg a).bind fun a' => (reanimateItems reg l).map fun l' => .fptr a' :: l'
  | it :: l => (reanimateItems reg l).map fun l' => it :: l'

/-- The loop of `reanimate_objects`, checkpt.cc:330-346. -/
def reanimateLoop (reg : List Node) : List Node → List (List Item) → Option (List (List Item))
  | nd :: nds, c :: cs =>
    (if nd.an ≠ 0 then reanimateItems reg c else some c).bind fun c' => (reanimateLoop reg nds cs).map fun cs' => c' :: cs'
  | _, _ => some []

@[inherit_doc reanimateLoop] def reanimateObjects (s : Svc) (cs : List (List Item)) : Option (List (List Item)) :=
  if ¬ s.booted then none else reanimateLoop s.reg s.reg cs

end Verif.Checkpt
