import Verif.Threads.Props
import Verif.Checkpt.Sim

/-!
# Restarted runs: the property C88

The state of a simulation is written to one file per rank and read by new processes (`Verif.Checkpt`).  What is not in the
files has arbitrary values in the new processes: the storage of particles and movers that was not in use, the static `max_ci`
of /repo/src/boundary/boundary_p.cc, and all addresses.  The bytes of numbers are decoded by arbitrary functions.
-/
namespace Verif.Threads

open Grid MoveP Boundary Charge Torus
open Field (Pos FC FMem)
open AdvanceP (accBase)
open Checkpt (Byte Blk Item Obj Node Svc Syms Proc Layout Config Src SameBlk SameItem SimReg RegOk prepend renode relocate resym
  restart checkptObjects)

/-! ### Specification -/

/-- Spec: how bytes stand for numbers: the scalars of a species (charge, numbers of particles and movers, their limits), a
particle, a mover, the fields of a voxel, an interpolator, one number of an accumulator, and what the handlers of boundaries
remember, as a function of all bytes saved of the objects they use. -/
structure Coding (K : Type) (S : Type*) where
  head : List Byte → K × ℕ × ℕ × ℕ × ℕ
  part : List Byte → MoveP.Part K
  mover : List Byte → MoveP.Mover K
  field : List Byte → FC → K
  interp : List Byte → Boris.Interp K
  num : List Byte → K
  state : List (List Byte) → S

/-- Spec: the bytes of memory from an offset on. -/
def bytesAt (mem : ℕ → Byte) (off len : ℕ) : List Byte := (List.range len).map fun i => mem (off + i)

/-- Spec: memory as an array of elements of `sz` bytes. -/
def storage {α : Type*} (dec : List Byte → α) (sz : ℕ) (mem : ℕ → Byte) : ℤ → α := fun i => dec (bytesAt mem (i.toNat * sz) sz)

/-- Spec: the first `n` elements, all others being `out`. -/
def whole {α : Type*} (dec : List Byte → α) (sz n : ℕ) (out : α) (mem : ℕ → Byte) : ℤ → α :=
  fun i => if 0 ≤ i ∧ i < n then storage dec sz mem i else out

/-- Spec: all bytes of blocks among what an object contains. -/
def saved (l : List Item) : List (List Byte) := l.filterMap fun
  | .data B => some ((List.range B.n).flatMap fun k => bytesAt B.mem (k * B.str) B.sz)
  | _ => none

/-- Spec: under which ids a simulation has registered its species, field array, interpolators, accumulators and the objects
of its boundary handlers; the number of voxels and of numbers in the accumulators. -/
structure Names where
  sp : ℕ → ℕ
  fa : ℕ
  ia : ℕ
  aa : ℕ
  bc : List ℕ
  nv : ℕ
  na : ℕ

/-- Spec: the object registered under an id. -/
def objAt (object : ℕ → Obj) (reg : List Node) (id : ℕ) : Option Obj := (reg.find? fun nd => nd.id = id).map fun nd => object nd.obj

/-- Spec: what the restored object with an id contains. -/
def readAt (reg : List Node) (cs : List (List Item)) (id : ℕ) : Option (List Item) :=
  ((reg.zip cs).find? fun x => x.1.id = id).map Prod.snd

section
variable {K : Type} {S : Type*} [Field K] [LinearOrder K] [IsStrictOrderedRing K] {n : ℕ}

/-- Spec: the objects of one rank hold the state of the simulation.  Sizes as in
/repo/src/species_advance/species_advance.cc:18-24, sfa.cc:159-163, interpolator_array.cc:5-9, accumulator_array.cc:31-39. -/
structure Image (C : Coding K S) (L : Layout) (nsp : ℕ) (object : ℕ → Obj) (reg : List Node) (X : Names) (R : Rank K S)
    (st : ℤ → K) (m : FMem K) (fi : ℤ → Boris.Interp K) : Prop where
  species : ∀ id < nsp, ∃ r name p pm part nPart g next, objAt object reg (X.sp id) = some (.species r name p pm part (R.sp id).np
    (R.sp id).max_np (R.sp id).nm (R.sp id).max_nm nPart g next) ∧
    C.head (bytesAt r.mem 0 L.szSpecies) = ((R.sp id).q, (R.sp id).np, (R.sp id).max_np, (R.sp id).nm, (R.sp id).max_nm) ∧
    (R.sp id).p = storage C.part 32 p.mem ∧ (R.sp id).pm = storage C.mover 16 pm.mem
  fields : ∃ r f p mc g nMc kernel, objAt object reg X.fa = some (.fieldArray r f p mc X.nv g nMc kernel) ∧
    m = fun x => whole C.field L.szField X.nv 0 f.mem x.1 x.2
  interps : ∃ r i g, objAt object reg X.ia = some (.interpolator r i X.nv g) ∧ fi = whole C.interp L.szInterp X.nv (C.interp []) i.mem
  accs : ∃ r a N g, objAt object reg X.aa = some (.accumulator r a N g) ∧ X.na * 4 ≤ N * L.szAcc ∧ st = whole C.num 4 X.na 0 a.mem
  handlers : ∃ os, List.Forall₂ (fun id o => objAt object reg id = some o) X.bc os ∧
    R.st = C.state (os.flatMap fun o => saved (o.items L))

/-- Spec: the state that a restored process finds in its objects. -/
structure Reads (C : Coding K S) (L : Layout) (nsp : ℕ) (reg : List Node) (cs : List (List Item)) (X : Names) (R : Rank K S)
    (st : ℤ → K) (m : FMem K) (fi : ℤ → Boris.Interp K) : Prop where
  species : ∀ id < nsp, ∃ B name p pm rest, readAt reg cs (X.sp id) = some (.data B :: .str name :: .data p :: .data pm :: rest) ∧
    C.head (bytesAt B.mem 0 L.szSpecies) = ((R.sp id).q, (R.sp id).np, (R.sp id).max_np, (R.sp id).nm, (R.sp id).max_nm) ∧
    (R.sp id).p = storage C.part 32 p.mem ∧ (R.sp id).pm = storage C.mover 16 pm.mem
  fields : ∃ B f rest, readAt reg cs X.fa = some (.data B :: .data f :: rest) ∧
    m = fun x => whole C.field L.szField X.nv 0 f.mem x.1 x.2
  interps : ∃ B i rest, readAt reg cs X.ia = some (.data B :: .data i :: rest) ∧ fi = whole C.interp L.szInterp X.nv (C.interp []) i.mem
  accs : ∃ B a rest, readAt reg cs X.aa = some (.data B :: .data a :: rest) ∧ st = whole C.num 4 X.na 0 a.mem
  handlers : ∃ ls, List.Forall₂ (fun id l => readAt reg cs id = some l) X.bc ls ∧ R.st = C.state (ls.flatMap saved)

/-- Spec: one rank of a job that writes a checkpoint, and of the job that restores it: symbols, layout and objects of the
first, the processes before and after, the requirements of C38. -/
structure Files (L : Layout) (c : Config) where
  P : Proc
  T : Syms
  object : ℕ → Obj
  nx : ℕ → ℕ
  s : Svc
  s0 : Svc
  bytes : List Byte
  syms : T.Ok
  booted : s0.booted = true
  reg : RegOk s.reg
  sim : SimReg P T L c object s.reg
  config : ∀ nd ∈ s.reg, (object nd.obj).Compatible L c
  earlier : ∀ l1 nd l2, s.reg = l1 ++ nd :: l2 → ∀ a, Item.ptr a ∈ (object nd.obj).items L → a ≠ 0 → ∃ m ∈ l1, m.obj = a
  reanimates : ∀ nd ∈ s.reg, (object nd.obj).cls = .simulation → nd.an ≠ 0
  places : ∀ nd ∈ s.reg, P.place nd.id ≠ 0
  next : s.nextId < 2 ^ 64
  written : checkptObjects T (fun a => (object a).items L) nx s = some bytes

/-- Spec: the machine of the job that restored the checkpoint of a job in state `μ`.  The accumulators and bound charge inside
of `Rank` are copies of the model that every step overwrites before it looks at them (`entering_scratch`); `warn` counts the
warnings of both jobs.  There is no species with a larger id. -/
structure Restored (C : Coding K S) (L : Layout) (Z : Setup K S n) (X : Fin n → Names) (c : Fin n → Config)
    (J : ∀ r, Files L (c r)) (μ ν : Machine K S n) : Prop where
  reads : ∀ r, ∃ junk fuel svc cs rest, (J r).s.reg.length < fuel ∧
    restart (J r).P fuel (J r).s0 (prepend (J r).bytes junk) = some (svc, cs, rest) ∧
    Reads C L (Z.B r).nsp svc.reg cs (X r) (ν.R r) (ν.st r) (ν.m r) (ν.fi r)
  scratch : ∀ r, (ν.R r).a = (μ.R r).a ∧ (ν.R r).rhob = (μ.R r).rhob ∧ (ν.R r).warn = (μ.R r).warn
  others : ∀ r id, ¬ id < (Z.B r).nsp → (ν.R r).sp id = (μ.R r).sp id

/-! ### Lemmas -/

omit [Field K] [LinearOrder K] [IsStrictOrderedRing K] in
/-- The copies of accumulators and bound charge do not matter. -/
lemma entering_scratch (R : Rank K S) (a : Accum K) (rhob : ℤ → K) (sp : ℕ → Species K) (b : Accum K) (m : FMem K) :
    entering { R with a := a, rhob := rhob } sp b m = entering R sp b m := rfl

lemma bytesAt_congr {m m' : ℕ → Byte} {off len N : ℕ} (h : ∀ b < N, m' b = m b) (hle : off + len ≤ N) :
    bytesAt m' off len = bytesAt m off len := by
  refine List.map_congr_left fun i hi => ?_
  have := List.mem_range.mp hi
  exact h _ (by omega)

lemma storage_congr {α : Type*} (dec : List Byte → α) {sz N : ℕ} {m m' : ℕ → Byte} (h : ∀ b < N * sz, m' b = m b) (i : ℤ)
    (h0 : 0 ≤ i) (h1 : i < N) : storage dec sz m' i = storage dec sz m i := by
  unfold storage
  rw [bytesAt_congr (N := N * sz) h]
  have : i.toNat + 1 ≤ N := by omega
  calc i.toNat * sz + sz = (i.toNat + 1) * sz := by ring
    _ ≤ N * sz := Nat.mul_le_mul_right _ this

lemma whole_congr {α : Type*} (dec : List Byte → α) {sz N : ℕ} (out : α) {m m' : ℕ → Byte} (h : ∀ b < N * sz, m' b = m b) :
    whole dec sz N out m' = whole dec sz N out m := by
  funext i
  unfold whole
  split
  · rename_i hi
    exact storage_congr dec h i hi.1 hi.2
  · rfl

/-- What a block of one element keeps. -/
lemma sameBlk_one {null : Bool} {sz str al : ℕ} {mem : ℕ → Byte} {B : Blk} (h : SameBlk ⟨null, sz, str, 1, 1, al, mem⟩ B) :
    ∀ b < sz, B.mem b = mem b := fun b hb => by
  have := h.bytes 0 (by simp) b hb
  simpa using this

lemma sameItem_data {σ τ θ : ℕ → ℕ} {B : Blk} {y : Item} (h : SameItem σ τ θ (.data B) y) : ∃ B', y = .data B' ∧ SameBlk B B' := by
  cases y <;> simp only [SameItem] at h
  exact ⟨_, rfl, h⟩

lemma sameItem_str {σ τ θ : ℕ → ℕ} {s : Option (List Byte)} {y : Item} (h : SameItem σ τ θ (.str s) y) : y = .str s := by
  cases y <;> simp only [SameItem] at h
  rw [h]

lemma saved_same {σ τ θ : ℕ → ℕ} {l l' : List Item} (h : List.Forall₂ (SameItem σ τ θ) l l') : saved l' = saved l := by
  induction h with
  | nil => rfl
  | @cons x y l l' hxy _ ih =>
    cases x <;> cases y <;> simp only [SameItem] at hxy
    case data.data B B' =>
      simp only [saved, List.filterMap_cons] at ih ⊢
      rw [ih, hxy.n, hxy.sz, hxy.str]
      congr 1
      refine List.flatMap_congr fun k hk => ?_
      refine List.map_congr_left fun i hi => ?_
      exact hxy.bytes k (List.mem_range.mp hk) i (List.mem_range.mp hi)
    all_goals simpa [saved] using ih

lemma readAt_same {P : Proc} {T : Syms} {L : Layout} {object : ℕ → Obj} {σ τ θ : ℕ → ℕ} {reg : List Node} {cs : List (List Item)}
    (h : List.Forall₂ (fun nd cts => List.Forall₂ (SameItem σ τ θ) ((object nd.obj).items L) cts) reg cs) {id : ℕ} {o : Obj}
    (ho : objAt object reg id = some o) :
    ∃ l, readAt (reg.map (renode P T)) cs id = some l ∧ List.Forall₂ (SameItem σ τ θ) (o.items L) l := by
  induction h with
  | nil => simp [objAt] at ho
  | @cons nd cts reg cs h1 _ ih =>
    unfold objAt readAt at *
    by_cases e : nd.id = id
    · simp only [List.find?_cons, e, decide_true, Option.map_some, Option.some.injEq] at ho
      subst ho
      exact ⟨cts, by simp [renode, e], h1⟩
    · simp only [List.find?_cons, e, decide_false] at ho
      obtain ⟨l, k1, k2⟩ := ih ho
      refine ⟨l, ?_, k2⟩
      simpa [renode, e] using k1

/-- What a restored rank has in common with the one that wrote the checkpoint. -/
lemma reads_same {C : Coding K S} {P : Proc} {T : Syms} {L : Layout} {object : ℕ → Obj} {σ τ θ : ℕ → ℕ} {nsp : ℕ}
    {reg : List Node} {cs : List (List Item)}
    (h : List.Forall₂ (fun nd cts => List.Forall₂ (SameItem σ τ θ) ((object nd.obj).items L) cts) reg cs) {X : Names}
    {R R' : Rank K S} {st st' : ℤ → K} {m m' : FMem K} {fi fi' : ℤ → Boris.Interp K} (hI : Image C L nsp object reg X R st m fi)
    (hR : Reads C L nsp (reg.map (renode P T)) cs X R' st' m' fi') :
    (∀ id < nsp, SameSp (R.sp id) (R'.sp id)) ∧ st' = st ∧ m' = m ∧ fi' = fi ∧ R'.st = R.st := by
  refine ⟨fun id hid => ?_, ?_, ?_, ?_, ?_⟩
  · obtain ⟨r, name, p, pm, part, nPart, g, next, o, e1, e2, e3⟩ := hI.species id hid
    obtain ⟨B, name', p', pm', rest, o', f1, f2, f3⟩ := hR.species id hid
    obtain ⟨l, k1, k2⟩ := readAt_same (P := P) (T := T) h o
    rw [o', Option.some.injEq] at k1
    subst k1
    simp only [Obj.items, Checkpt.checkptAligned, List.forall₂_cons, SameItem] at k2
    obtain ⟨b1, -, b2, b3, -⟩ := k2
    rw [bytesAt_congr (N := L.szSpecies) (sameBlk_one b1) (by omega), e1] at f1
    simp only [Prod.mk.injEq] at f1
    obtain ⟨h1, h2, h3, h4, h5⟩ := f1
    refine ⟨h1, fun i i0 i1 => ?_, h2, h3, h4, h5, fun i i0 i1 => ?_⟩
    · rw [e2, f2, storage_congr C.part (sameBlk_one b2) i i0 i1]
    · rw [e3, f3, storage_congr C.mover (sameBlk_one b3) i i0 i1]
  · obtain ⟨r, a, N, g, o, le, rfl⟩ := hI.accs
    obtain ⟨B, a', rest, o', rfl⟩ := hR.accs
    obtain ⟨l, k1, k2⟩ := readAt_same (P := P) (T := T) h o
    rw [o', Option.some.injEq] at k1
    subst k1
    simp only [Obj.items, Checkpt.checkptAligned, List.forall₂_cons, SameItem] at k2
    obtain ⟨-, b2, -⟩ := k2
    exact whole_congr _ _ fun b hb => sameBlk_one b2 b (by omega)
  · obtain ⟨r, f, p, mc, g, nMc, kernel, o, rfl⟩ := hI.fields
    obtain ⟨B, f', rest, o', rfl⟩ := hR.fields
    obtain ⟨l, k1, k2⟩ := readAt_same (P := P) (T := T) h o
    rw [o', Option.some.injEq] at k1
    subst k1
    simp only [Obj.items, Checkpt.checkptAligned, List.cons_append, List.forall₂_cons, SameItem] at k2
    obtain ⟨-, b2, -⟩ := k2
    rw [whole_congr C.field 0 (sameBlk_one b2)]
  · obtain ⟨r, i, g, o, rfl⟩ := hI.interps
    obtain ⟨B, i', rest, o', rfl⟩ := hR.interps
    obtain ⟨l, k1, k2⟩ := readAt_same (P := P) (T := T) h o
    rw [o', Option.some.injEq] at k1
    subst k1
    simp only [Obj.items, Checkpt.checkptAligned, List.forall₂_cons, SameItem] at k2
    obtain ⟨-, b2, -⟩ := k2
    exact whole_congr _ _ (sameBlk_one b2)
  · obtain ⟨os, h1, e1⟩ := hI.handlers
    obtain ⟨ls, h2, e2⟩ := hR.handlers
    rw [e1, e2]
    congr 1
    clear e1 e2
    generalize X.bc = bc at h1 h2
    induction h1 generalizing ls with
    | nil => cases h2; rfl
    | @cons id o bc os ho _ ih =>
      cases h2 with
      | @cons _ l _ ls hl h2 =>
        obtain ⟨l', k1, k2⟩ := readAt_same (P := P) (T := T) h ho
        rw [hl, Option.some.injEq] at k1
        subst k1
        rw [List.flatMap_cons, List.flatMap_cons, ih ls h2, saved_same k2]

/-- A restored job is in the state of the job that wrote the checkpoint. -/
lemma restored_same {C : Coding K S} {L : Layout} (hL : L.Ok) {Z : Setup K S n} {X : Fin n → Names} {c : Fin n → Config}
    {J : ∀ r, Files L (c r)} {μ ν : Machine K S n}
    (hI : ∀ r, Image C L (Z.B r).nsp (J r).object (J r).s.reg (X r) (μ.R r) (μ.st r) (μ.m r) (μ.fi r))
    (hR : Restored C L Z X c J μ ν) : Same μ ν ∧ ν.st = μ.st := by
  have key : ∀ r, (∀ id < (Z.B r).nsp, SameSp ((μ.R r).sp id) ((ν.R r).sp id)) ∧ ν.st r = μ.st r ∧ ν.m r = μ.m r ∧
      ν.fi r = μ.fi r ∧ (ν.R r).st = (μ.R r).st := by
    intro r
    obtain ⟨junk, fuel, svc, cs, rest, hf, h1, h2⟩ := hR.reads r
    obtain ⟨cs', e, hF⟩ := Checkpt.simulation_roundtrip (J r).P (J r).T (J r).syms L hL (c r) (J r).object (J r).nx (J r).s (J r).s0
      (J r).booted (J r).reg (J r).sim (J r).config (J r).earlier (J r).reanimates (J r).places (J r).next (J r).bytes
      (J r).written junk fuel hf
    rw [h1, Option.some.injEq, Prod.mk.injEq, Prod.mk.injEq] at e
    obtain ⟨rfl, rfl, rfl⟩ := e
    exact reads_same hF (hI r) h2
  refine ⟨⟨fun r => ⟨fun id => ?_, (hR.scratch r).1.symm, (hR.scratch r).2.1.symm, (key r).2.2.2.2.symm, (hR.scratch r).2.2.symm⟩,
    funext fun r => (key r).2.2.1.symm, funext fun r => (key r).2.2.2.1.symm⟩, funext fun r => (key r).2.1⟩
  by_cases hid : id < (Z.B r).nsp
  · exact (key r).1 id hid
  · rw [hR.others r id hid]
    exact .refl _

/-- Restored ranks exist, with `max_ci` as in a new process. -/
lemma reads_exist {C : Coding K S} {P : Proc} {T : Syms} {L : Layout} {object : ℕ → Obj} {σ τ θ : ℕ → ℕ} {nsp : ℕ}
    {reg : List Node} {cs : List (List Item)}
    (h : List.Forall₂ (fun nd cts => List.Forall₂ (SameItem σ τ θ) ((object nd.obj).items L) cts) reg cs) {X : Names}
    {R : Rank K S} {st : ℤ → K} {m : FMem K} {fi : ℤ → Boris.Interp K} (hI : Image C L nsp object reg X R st m fi) :
    ∃ R' st' m' fi', Reads C L nsp (reg.map (renode P T)) cs X R' st' m' fi' ∧ R'.a = R.a ∧ R'.rhob = R.rhob ∧ R'.warn = R.warn ∧
      R'.maxCi = 0 ∧ ∀ id, ¬ id < nsp → R'.sp id = R.sp id := by
  have sp : ∀ id, ∃ s : Species K, (id < nsp → ∃ B name p pm rest, readAt (reg.map (renode P T)) cs (X.sp id) =
      some (.data B :: .str name :: .data p :: .data pm :: rest) ∧
      C.head (bytesAt B.mem 0 L.szSpecies) = (s.q, s.np, s.max_np, s.nm, s.max_nm) ∧
      s.p = storage C.part 32 p.mem ∧ s.pm = storage C.mover 16 pm.mem) ∧ (¬ id < nsp → s = R.sp id) := by
    intro id
    by_cases hid : id < nsp
    · obtain ⟨r, name, p, pm, part, nPart, g, next, o, e1, e2, e3⟩ := hI.species id hid
      obtain ⟨l, k1, k2⟩ := readAt_same (P := P) (T := T) h o
      simp only [Obj.items, Checkpt.checkptAligned, List.forall₂_cons_left_iff] at k2
      obtain ⟨x1, _, y1, ⟨x2, _, y2, ⟨x3, _, y3, ⟨x4, l4, y4, -, rfl⟩, rfl⟩, rfl⟩, rfl⟩ := k2
      obtain ⟨B1, rfl, b1⟩ := sameItem_data y1
      obtain rfl := sameItem_str y2
      obtain ⟨B3, rfl, b3⟩ := sameItem_data y3
      obtain ⟨B4, rfl, b4⟩ := sameItem_data y4
      refine ⟨⟨(R.sp id).q, storage C.part 32 B3.mem, (R.sp id).np, (R.sp id).max_np, storage C.mover 16 B4.mem, (R.sp id).nm,
        (R.sp id).max_nm⟩, fun _ => ⟨B1, name, B3, B4, l4, k1, ?_, rfl, rfl⟩, fun hn => absurd hid hn⟩
      rw [bytesAt_congr (N := L.szSpecies) (sameBlk_one b1) (by omega), e1]
    · exact ⟨R.sp id, fun h => absurd h hid, fun _ => rfl⟩
  choose sp hsp using sp
  obtain ⟨r1, a, N, g1, o1, -, -⟩ := hI.accs
  obtain ⟨l1, j1, k1⟩ := readAt_same (P := P) (T := T) h o1
  simp only [Obj.items, Checkpt.checkptAligned, List.forall₂_cons_left_iff] at k1
  obtain ⟨x1, _, y1, ⟨x2, l1, y2, -, rfl⟩, rfl⟩ := k1
  obtain ⟨B1, rfl, -⟩ := sameItem_data y1
  obtain ⟨A1, rfl, -⟩ := sameItem_data y2
  obtain ⟨r2, f, p, mc, g2, nMc, kernel, o2, -⟩ := hI.fields
  obtain ⟨l2, j2, k2⟩ := readAt_same (P := P) (T := T) h o2
  simp only [Obj.items, Checkpt.checkptAligned, List.cons_append, List.forall₂_cons_left_iff] at k2
  obtain ⟨x3, _, y3, ⟨x4, l2, y4, -, rfl⟩, rfl⟩ := k2
  obtain ⟨B2, rfl, -⟩ := sameItem_data y3
  obtain ⟨A2, rfl, -⟩ := sameItem_data y4
  obtain ⟨r3, i, g3, o3, -⟩ := hI.interps
  obtain ⟨l3, j3, k3⟩ := readAt_same (P := P) (T := T) h o3
  simp only [Obj.items, Checkpt.checkptAligned, List.forall₂_cons_left_iff] at k3
  obtain ⟨x5, _, y5, ⟨x6, l3, y6, -, rfl⟩, rfl⟩ := k3
  obtain ⟨B3, rfl, -⟩ := sameItem_data y5
  obtain ⟨A3, rfl, -⟩ := sameItem_data y6
  obtain ⟨os, h1, -⟩ := hI.handlers
  have hl : ∃ ls, List.Forall₂ (fun id l => readAt (reg.map (renode P T)) cs id = some l) X.bc ls := by
    generalize X.bc = bc at h1
    induction h1 with
    | nil => exact ⟨[], .nil⟩
    | cons ho _ ih =>
      obtain ⟨ls, e⟩ := ih
      obtain ⟨l', k1, -⟩ := readAt_same (P := P) (T := T) h ho
      exact ⟨l' :: ls, .cons k1 e⟩
  obtain ⟨ls, hls⟩ := hl
  refine ⟨⟨sp, R.a, R.rhob, C.state (ls.flatMap saved), 0, R.warn⟩, _, _, _,
    ⟨fun id hid => (hsp id).1 hid, ⟨B2, A2, l2, j2, rfl⟩, ⟨B3, A3, l3, j3, rfl⟩, ⟨B1, A1, l1, j1, rfl⟩, ls, hls, rfl⟩,
    rfl, rfl, rfl, rfl, fun id hid => (hsp id).2 hid⟩

/-- Every checkpoint can be restored. -/
lemma restored_exist {C : Coding K S} {L : Layout} (hL : L.Ok) {Z : Setup K S n} {X : Fin n → Names} {c : Fin n → Config}
    {J : ∀ r, Files L (c r)} {μ : Machine K S n}
    (hI : ∀ r, Image C L (Z.B r).nsp (J r).object (J r).s.reg (X r) (μ.R r) (μ.st r) (μ.m r) (μ.fi r)) :
    ∃ ν, Restored C L Z X c J μ ν ∧ ∀ r, (ν.R r).maxCi = 0 := by
  have key : ∀ r, ∃ (R' : Rank K S) (st' : ℤ → K) (m' : FMem K) (fi' : ℤ → Boris.Interp K),
      (∃ junk fuel svc cs rest, (J r).s.reg.length < fuel ∧
        restart (J r).P fuel (J r).s0 (prepend (J r).bytes junk) = some (svc, cs, rest) ∧
        Reads C L (Z.B r).nsp svc.reg cs (X r) R' st' m' fi') ∧ R'.a = (μ.R r).a ∧ R'.rhob = (μ.R r).rhob ∧
        R'.warn = (μ.R r).warn ∧ R'.maxCi = 0 ∧ ∀ id, ¬ id < (Z.B r).nsp → R'.sp id = (μ.R r).sp id := by
    intro r
    obtain ⟨cs, e, hF⟩ := Checkpt.simulation_roundtrip (J r).P (J r).T (J r).syms L hL (c r) (J r).object (J r).nx (J r).s (J r).s0
      (J r).booted (J r).reg (J r).sim (J r).config (J r).earlier (J r).reanimates (J r).places (J r).next (J r).bytes
      (J r).written (fun _ => 0) _ (Nat.lt_succ_self _)
    obtain ⟨R', st', m', fi', h1, h2⟩ := reads_exist (P := (J r).P) (T := (J r).T) hF (hI r)
    exact ⟨R', st', m', fi', ⟨_, _, _, _, _, Nat.lt_succ_self _, e, h1⟩, h2⟩
  choose R' st' m' fi' h using key
  exact ⟨⟨⟨R', st', m'⟩, fi'⟩, ⟨fun r => (h r).1, fun r => ⟨(h r).2.1, (h r).2.2.1, (h r).2.2.2.1⟩,
    fun r => (h r).2.2.2.2.2⟩, fun r => (h r).2.2.2.2.1⟩

omit [IsStrictOrderedRing K] in
lemma same_fit {Z : Setup K S n} {μ ν : Machine K S n} (h : Same μ ν) (hst : ν.st = μ.st) (hμ : Fit Z μ) : Fit Z ν := by
  refine ⟨fun r id hid => ?_, fun r id hid => ?_, fun r => by rw [hst]; exact hμ.tidy r⟩
  · have e := (h.ranks r).sp id
    have k := hμ.particles r id hid
    refine ⟨by rw [← e.np, ← e.max_np]; exact k.np, by rw [← e.np]; exact k.np31, by rw [← e.max_nm]; exact k.nm31,
      fun i h0 h1 => ?_⟩
    rw [← e.np] at h1
    rw [← e.p i h0 h1]
    exact k.within i h0 h1
  · have e := (h.ranks r).sp id
    have k := hμ.sized r id hid
    exact ⟨by rw [← e.max_np]; exact k.1, by rw [← e.max_nm]; exact k.2⟩

/-! ### C88 -/

/-- **C88.** A run restored from the checkpoint files of a run in state `μ` and the uninterrupted run, over the same steps,
under any two schedules, neither of them warning about ignored movers: all particles are the same and in the same order, all
fields and interpolators are the same, and the same errors are printed. -/
theorem restart_continues [Archimedean K] {C : Coding K S} {L : Layout} (hL : L.Ok) {Z : Setup K S n} {V : Drive K} (hZ : Sane Z V)
    {X : Fin n → Names} {c : Fin n → Config} {J : ∀ r, Files L (c r)} {A : Settings} {i j : ℤ} {μ μ1 ν ν1 : Machine K S n}
    {l k : List (Msg K)} (hμ : Fit Z μ)
    (hI : ∀ r, Image C L (Z.B r).nsp (J r).object (J r).s.reg (X r) (μ.R r) (μ.st r) (μ.m r) (μ.fi r))
    (hR : Restored C L Z X c J μ ν) (c1 : Cycles Z V A i μ j μ1 l) (c2 : Cycles Z V A i ν j ν1 k) : Same μ1 ν1 ∧ l = k := by
  obtain ⟨hS, hst⟩ := restored_same hL hI hR
  exact steps_any_threads hZ hZ rfl hμ (same_fit hS hst hμ) hS c1 c2

/-- C88, for runs from the beginning: a run of `j` steps, and a run of `i` steps whose checkpoint is restored and which then
goes on to `j` steps, end in the same state and have printed the same, whatever the schedules. -/
theorem interrupted_run [Archimedean K] {C : Coding K S} {L : Layout} (hL : L.Ok) {Z : Setup K S n} {V : Drive K} (hZ : Sane Z V)
    {X : Fin n → Names} {c : Fin n → Config} {J : ∀ r, Files L (c r)} {A : Settings} {i j : ℤ}
    {μ μ0 μ1 μ2 κ0 κ1 κ2 ν ν2 : Machine K S n} {l0 l1 l2 k0 k1 k2 : List (Msg K)} (hμ : Fit Z μ)
    (b : Begin Z V μ μ0 l0) (c1 : Cycles Z V A 0 μ0 i μ1 l1) (c2 : Cycles Z V A i μ1 j μ2 l2)
    (b' : Begin Z V μ κ0 k0) (d1 : Cycles Z V A 0 κ0 i κ1 k1)
    (hI : ∀ r, Image C L (Z.B r).nsp (J r).object (J r).s.reg (X r) (κ1.R r) (κ1.st r) (κ1.m r) (κ1.fi r))
    (hR : Restored C L Z X c J κ1 ν) (d2 : Cycles Z V A i ν j ν2 k2) :
    Same μ2 ν2 ∧ l0 ++ l1 ++ l2 = k0 ++ k1 ++ k2 := by
  obtain ⟨s0, rfl⟩ := begin_same hZ hZ rfl hμ ⟨fun _ => SameRank.refl _, rfl, rfl⟩ b b'
  obtain ⟨f1, s1⟩ := cycles_same hZ hZ rfl c1 (begin_fit hZ hμ b)
  obtain ⟨g1, s1, rfl⟩ := s1 (begin_fit hZ hμ b') s0 d1
  obtain ⟨hS, hst⟩ := restored_same hL hI hR
  have t : Same μ1 ν := ⟨fun r => (s1.ranks r).trans (hS.ranks r), s1.m.trans hS.m, s1.fi.trans hS.fi⟩
  obtain ⟨s2, rfl⟩ := steps_any_threads hZ hZ rfl f1 (same_fit hS hst g1) t c2 d2
  exact ⟨s2, rfl⟩

end

end Verif.Threads
