import Verif.Checkpt.Objects

/-!
# Checkpoints of simulations: the properties C38 and C40 for the objects of the code, and findings
-/
namespace Verif.Checkpt

/-! ### Specification -/

/-- Spec: the registry of a simulation: the object at an address, checkpoint and restore functions of its class, a reanimate
function for the simulation.  `c` is the configuration of the process that restores. -/
structure SimReg (P : Proc) (T : Syms) (L : Layout) (c : Config) (object : ℕ → Obj) (reg : List Node) : Prop where
  known : ∀ nd ∈ reg, SymKnown T P.T nd.ck ∧ SymKnown T P.T nd.rs ∧ SymKnown T P.T nd.an
  funcs : ∀ nd ∈ reg, nd.ck ≠ 0 ∧ nd.rs ≠ 0
  code : ∀ nd ∈ reg, P.code (resym T P.T nd.rs) = (object nd.obj).cls.restore L c
  ints : ∀ nd ∈ reg, (object nd.obj).Ints
  valid : ∀ nd ∈ reg, ∀ it ∈ (object nd.obj).items L, it.Valid
  symKnown : ∀ nd ∈ reg, ∀ a, Item.sym a ∈ (object nd.obj).items L → SymKnown T P.T a

/-- Spec: the kind of an item; bytes written with `checkpt_raw` have no header. -/
inductive Kind
  | raw | data | str | ptr | sym
deriving DecidableEq

/-- Spec: the kind of an item. -/
def Item.kind : Item → Kind
  | .raw _ => .raw
  | .data _ => .data
  | .str _ => .str
  | .ptr _ => .ptr
  | .fptr _ => .ptr
  | .sym _ => .sym

/-- Spec: the kind of the next call of a restore function. -/
def Reader.kind : Reader → Option Kind
  | .ret => none
  | .fail => none
  | .raw .. => some .raw
  | .data _ => some .data
  | .str _ => some .str
  | .ptr _ => some .ptr
  | .fptr _ => some .ptr
  | .sym _ => some .sym

/-! ### C38 -/

/-- C38: the only objects with pointers restored later are simulations. -/
lemma fptr_simulation (L : Layout) (o : Obj) (a : ℕ) (h : Item.fptr a ∈ o.items L) : o.cls = .simulation := by
  cases o with
  | simulation => rfl
  | grid r range neighbor nRange nNeighbor mp =>
    exfalso
    have e : (Obj.grid r range neighbor nRange nNeighbor mp).items L =
      [checkptAligned r L.szGrid 0] ++ (if ptrAt r.mem L.gridRange ≠ 0 then [checkptAligned range (nRange * 8) 16] else []) ++
      (if ptrAt r.mem L.gridNeighbor ≠ 0 then [checkptAligned neighbor (nNeighbor * 8) 128] else []) ++ [.ptr mp] := rfl
    rw [e] at h
    simp only [List.mem_append, checkptAligned] at h
    rcases h with ((h | h) | h) | h
    · simp at h
    · split_ifs at h <;> simp at h
    · split_ifs at h <;> simp at h
    · simp at h
  | _ =>
    exfalso
    simp [Obj.items, checkptAligned, checkptBc, checkptCop] at h

/-- **C38.** A simulation restarted from its checkpoint has the objects it had, with the same contents.  Pointers have to be
to objects registered before, except those of the simulation itself. -/
theorem simulation_roundtrip (P : Proc) (T : Syms) (hT : T.Ok) (L : Layout) (hL : L.Ok) (c : Config) (object : ℕ → Obj) (nx : ℕ → ℕ)
    (s s0 : Svc) (h0 : s0.booted = true) (hok : RegOk s.reg) (hs : SimReg P T L c object s.reg)
    (hc : ∀ nd ∈ s.reg, (object nd.obj).Compatible L c)
    (hearlier : ∀ l1 nd l2, s.reg = l1 ++ nd :: l2 → ∀ a, Item.ptr a ∈ (object nd.obj).items L → a ≠ 0 → ∃ m ∈ l1, m.obj = a)
    (hsim : ∀ nd ∈ s.reg, (object nd.obj).cls = .simulation → nd.an ≠ 0)
    (hpl : ∀ nd ∈ s.reg, P.place nd.id ≠ 0) (hn : s.nextId < 2 ^ 64)
    (bytes : List Byte) (hb : checkptObjects T (fun a => (object a).items L) nx s = some bytes) (junk : Src) (fuel : ℕ)
    (hf : s.reg.length < fuel) :
    ∃ cs, restart P fuel s0 (prepend bytes junk) = some (⟨true, s.reg.map (renode P T), s.nextId⟩, cs, junk) ∧
      List.Forall₂ (fun nd cts => List.Forall₂ (SameItem (relocate P s.reg) (relocate P s.reg) (resym T P.T))
        ((object nd.obj).items L) cts) s.reg cs := by
  have hw : ∀ nd ∈ s.reg, written (fun a => (object a).items L) nd = (object nd.obj).items L := by
    intro nd hnd
    unfold written
    rw [if_neg (hs.funcs nd hnd).1]
  have hr : Restorable P T (fun a => (object a).items L) s.reg := by
    refine ⟨hs.known, ?_, ?_, ?_, ?_, ?_, ?_, hpl⟩
    · intro nd hnd _
      rw [hs.code nd hnd, hw nd hnd]
      exact restore_agrees L hL c _ (hs.ints nd hnd) (hc nd hnd)
    · intro nd hnd h
      exact absurd h (hs.funcs nd hnd).2
    · intro nd hnd
      rw [hw nd hnd]
      exact hs.valid nd hnd
    · intro nd hnd
      rw [hw nd hnd]
      exact hs.symKnown nd hnd
    · intro l1 nd l2 e a ha
      rw [hw nd (by rw [e]; simp)] at ha
      exact hearlier l1 nd l2 e a ha
    · intro nd hnd a ha
      rw [hw nd hnd] at ha
      exact hsim nd hnd (fptr_simulation L _ a ha)
  obtain ⟨cs, e, hF⟩ := checkpoint_roundtrip P T hT _ nx s s0 h0 hok hr hn bytes hb junk fuel hf
  refine ⟨cs, e, ?_⟩
  have aux : ∀ (l : List Node) (cs : List (List Item)), (∀ nd ∈ l, nd ∈ s.reg) →
      List.Forall₂ (fun nd cts => List.Forall₂ (SameItem (relocate P s.reg) (relocate P s.reg) (resym T P.T))
        (written (fun a => (object a).items L) nd) cts) l cs →
      List.Forall₂ (fun nd cts => List.Forall₂ (SameItem (relocate P s.reg) (relocate P s.reg) (resym T P.T))
        ((object nd.obj).items L) cts) l cs := by
    intro l cs hsub hF
    induction hF with
    | nil => exact .nil
    | cons h _ ih =>
      rw [hw _ (hsub _ (by simp))] at h
      exact .cons h (ih fun x hx => hsub x (by simp [hx]))
  exact aux _ _ (fun _ h => h) hF

/-! ### C40 -/

/-- A matching restore function ends after what was written, or fails (because of a pointer). -/
lemma run_agrees_or (T T' : Syms) (hT : T.Ok) (reg reg' : List Node) (fresh : ℕ → Byte) (s : Src) :
    ∀ (items : List Item) (rd : Reader) (b : List Byte), Agrees rd items → (∀ it ∈ items, it.Valid) →
      (∀ a, Item.sym a ∈ items → SymKnown T T' a) → (∀ a, objectId reg a < 2 ^ 64) →
      checkptItems T reg items = some b →
      rd.run T' reg' fresh (prepend b s) = none ∨ ∃ items', rd.run T' reg' fresh (prepend b s) = some (items', s) := by
  intro items
  induction items with
  | nil =>
    intro rd b ha _ _ _ hb
    simp only [checkptItems, Option.some.injEq] at hb
    subst hb
    cases rd <;> simp only [Agrees] at ha
    exact .inr ⟨[], by simp [Reader.run, prepend_nil]⟩
  | cons it l ih =>
    intro rd b ha hv hs hid hb
    simp only [checkptItems] at hb
    cases h1 : checkptItem T reg it with
    | none => rw [h1] at hb; simp at hb
    | some b1 =>
      rw [h1] at hb
      cases h2 : checkptItems T reg l with
      | none => rw [h2] at hb; simp at hb
      | some b2 =>
        rw [h2] at hb
        simp only [Option.bind_some, Option.map_some, Option.some.injEq] at hb
        subst hb
        have hvl : ∀ it ∈ l, it.Valid := fun x hx => hv x (by simp [hx])
        have hsl : ∀ a, Item.sym a ∈ l → SymKnown T T' a := fun a hx => hs a (by simp [hx])
        have hv1 := hv it (by simp)
        rw [prepend_append]
        have next : ∀ rd, Agrees rd l → _ := fun rd hr => ih rd b2 hr hvl hsl hid h2
        cases it with
        | raw bb =>
          cases rd <;> simp only [Agrees] at ha
          obtain ⟨ha1, ha2⟩ := ha
          simp only [checkptItem, Option.some.injEq] at h1
          subst h1
          simp only [Reader.run]
          rw [readRaw_prepend _ _ _ ha1]
          rcases next _ ha2 with e | ⟨items', e⟩
          · exact .inl (by simp only [e, Option.map_none])
          · exact .inr ⟨_, by simp only [e, Option.map_some]; rfl⟩
        | data B =>
          cases rd <;> simp only [Agrees] at ha
          obtain ⟨B', e1, hB⟩ := restoreData_prepend fresh B hv1 b1 h1 (prepend b2 s)
          simp only [Reader.run, e1, Option.bind_some]
          rcases next _ (ha B' hB) with e | ⟨items', e⟩
          · exact .inl (by simp only [e, Option.map_none])
          · exact .inr ⟨_, by simp only [e, Option.map_some]; rfl⟩
        | str x =>
          cases rd <;> simp only [Agrees] at ha
          simp only [checkptItem, Option.some.injEq] at h1
          subst h1
          simp only [Reader.run, restoreStr_prepend x _ hv1, Option.bind_some]
          rcases next _ ha with e | ⟨items', e⟩
          · exact .inl (by simp only [e, Option.map_none])
          · exact .inr ⟨_, by simp only [e, Option.map_some]; rfl⟩
        | ptr a =>
          cases rd <;> simp only [Agrees] at ha
          have e1 := restoreFptr_prepend reg a b1 h1 (hid a) (prepend b2 s)
          simp only [Reader.run, restorePtr, e1, Option.bind_some]
          cases h : reanimateFptr reg' (if a = 0 then 0 else objectId reg a) with
          | none => exact .inl rfl
          | some a' =>
            simp only [Option.map_some, Option.bind_some]
            rcases next _ (ha a') with e | ⟨items', e⟩
            · exact .inl (by simp only [e, Option.map_none])
            · exact .inr ⟨_, by simp only [e, Option.map_some]; rfl⟩
        | fptr a =>
          cases rd <;> simp only [Agrees] at ha
          have e1 := restoreFptr_prepend reg a b1 h1 (hid a) (prepend b2 s)
          simp only [Reader.run, e1, Option.bind_some]
          rcases next _ (ha (if a = 0 then 0 else objectId reg a)) with e | ⟨items', e⟩
          · exact .inl (by simp only [e, Option.map_none])
          · exact .inr ⟨_, by simp only [e, Option.map_some]; rfl⟩
        | sym a =>
          cases rd <;> simp only [Agrees] at ha
          simp only [checkptItem, Option.some.injEq] at h1
          subst h1
          simp only [Reader.run, restoreSym_prepend T T' hT a hv1 (hs a (by simp)), Option.bind_some]
          rcases next _ (ha (resym T T' a)) with e | ⟨items', e⟩
          · exact .inl (by simp only [e, Option.map_none])
          · exact .inr ⟨_, by simp only [e, Option.map_some]; rfl⟩

lemma checkptItems_cons {T : Syms} {reg : List Node} {it : Item} {l : List Item} {b : List Byte}
    (h : checkptItems T reg (it :: l) = some b) :
    ∃ b1 b2, checkptItem T reg it = some b1 ∧ checkptItems T reg l = some b2 ∧ b = b1 ++ b2 := by
  simp only [checkptItems] at h
  cases h1 : checkptItem T reg it with
  | none => rw [h1] at h; simp at h
  | some b1 =>
    cases h2 : checkptItems T reg l with
    | none => rw [h1, h2] at h; simp at h
    | some b2 =>
      rw [h1, h2] at h
      exact ⟨b1, b2, rfl, rfl, by simpa using h.symm⟩

/-- An object of another configuration is rejected by its restore function. -/
lemma run_rejects (T T' : Syms) (reg reg' : List Node) (fresh : ℕ → Byte) (s : Src) (L : Layout) (hL : L.Ok) (c : Config)
    (o : Obj) (hi : o.Ints) (hv : ∀ it ∈ o.items L, it.Valid) (hc : ¬ o.Compatible L c) (b : List Byte)
    (hb : checkptItems T reg (o.items L) = some b) :
    (o.cls.restore L c).run T' reg' fresh (prepend b s) = none := by
  cases o with
  | serial n =>
    simp only [Obj.Compatible] at hc
    obtain ⟨b1, b2, h1, h2, rfl⟩ := checkptItems_cons hb
    simp only [checkptItem, Option.some.injEq] at h1
    subst h1
    simp only [Obj.cls, Class.restore, Reader.run, prepend_append]
    rw [readRaw_prepend 4 _ _ (int4_length n)]
    simp only [toInt_int4 n hi.1 hi.2]
    rw [if_pos (Ne.symm hc)]
    rfl
  | thread n =>
    simp only [Obj.Compatible] at hc
    obtain ⟨b1, b2, h1, h2, rfl⟩ := checkptItems_cons hb
    simp only [checkptItem, Option.some.injEq] at h1
    subst h1
    simp only [Obj.cls, Class.restore, Reader.run, prepend_append]
    rw [readRaw_prepend 4 _ _ (int4_length n)]
    simp only [toInt_int4 n hi.1 hi.2]
    rw [if_pos (Ne.symm hc)]
    rfl
  | collective r sz =>
    simp only [Obj.Compatible] at hc
    obtain ⟨b1, b2, h1, h2, rfl⟩ := checkptItems_cons hb
    obtain ⟨b3, b4, h3, h4, rfl⟩ := checkptItems_cons h2
    simp only [checkptItem, Option.some.injEq] at h1 h3
    subst h1 h3
    simp only [Obj.cls, Class.restore, Reader.run, prepend_append]
    rw [readRaw_prepend 4 _ _ (int4_length r)]
    simp only
    rw [readRaw_prepend 4 _ _ (int4_length sz)]
    simp only [toInt_int4 r hi.1.1 hi.1.2, toInt_int4 sz hi.2.1 hi.2.2]
    by_cases e1 : sz = c.size
    · rw [if_neg (by simp [e1]), if_pos fun e2 => hc ⟨e2, e1⟩]
      rfl
    · rw [if_pos e1]
      rfl
  | accumulator r a n g =>
    simp only [Obj.Compatible] at hc
    obtain ⟨b1, b2, h1, h2, rfl⟩ := checkptItems_cons hb
    obtain ⟨b3, b4, h3, h4, rfl⟩ := checkptItems_cons h2
    simp only [checkptAligned, checkptItem] at h1 h3
    obtain ⟨B, e1, hB⟩ := restoreData_prepend fresh _ (hv _ (by simp [Obj.items, checkptAligned])) b1 h1 (prepend b3 (prepend b4 s))
    obtain ⟨B2, e2, hB2⟩ := restoreData_prepend fresh ⟨a.null, n * L.szAcc, n * L.szAcc, 1, 1, 128, a.mem⟩
      (hv _ (by simp [Obj.items, checkptAligned])) b3 h3 (prepend b4 s)
    simp only [Obj.cls, Class.restore, Reader.run, prepend_append, e1, e2, Option.bind_some]
    rw [sameBlk_intAt hB _ hL.aa]
    simp only [ne_eq, hc, not_false_eq_true, if_true, Reader.run, Option.map_none]
    cases restorePtr reg' (prepend b4 s) <;> rfl
  | hydro r a n g =>
    simp only [Obj.Compatible] at hc
    obtain ⟨b1, b2, h1, h2, rfl⟩ := checkptItems_cons hb
    obtain ⟨b3, b4, h3, h4, rfl⟩ := checkptItems_cons h2
    simp only [checkptAligned, checkptItem] at h1 h3
    obtain ⟨B, e1, hB⟩ := restoreData_prepend fresh _ (hv _ (by simp [Obj.items, checkptAligned])) b1 h1 (prepend b3 (prepend b4 s))
    obtain ⟨B2, e2, hB2⟩ := restoreData_prepend fresh ⟨a.null, n * L.szHydro, n * L.szHydro, 1, 1, 128, a.mem⟩
      (hv _ (by simp [Obj.items, checkptAligned])) b3 h3 (prepend b4 s)
    simp only [Obj.cls, Class.restore, Reader.run, prepend_append, e1, e2, Option.bind_some]
    rw [sameBlk_intAt hB _ hL.ha]
    simp only [ne_eq, hc, not_false_eq_true, if_true, Reader.run, Option.map_none]
    cases restorePtr reg' (prepend b4 s) <;> rfl
  | _ => exact absurd (by simp [Obj.Compatible]) hc

lemma restoreLoop_rejects (P : Proc) (T : Syms) (hT : T.Ok) (L : Layout) (hL : L.Ok) (c : Config) (object : ℕ → Obj) (nx : ℕ → ℕ)
    (reg : List Node) (hid : ∀ a, objectId reg a < 2 ^ 64) (rest : Src) :
    ∀ (todo : List Node), (∀ nd ∈ todo, nd.obj < 2 ^ 64 ∧ nd.id < 2 ^ 64 ∧ nd.ck < 2 ^ 64 ∧ nd.rs < 2 ^ 64 ∧ nd.an < 2 ^ 64) →
      SimReg P T L c object todo → (∃ nd ∈ todo, ¬ (object nd.obj).Compatible L c) →
      ∀ (b : List Byte), checkptNodes T reg (fun a => (object a).items L) nx todo = some b →
      ∀ (fuel : ℕ) (reg' : List Node) (cs : List (List Item)), restoreLoop P fuel reg' cs (prepend b rest) = none := by
  intro todo
  induction todo with
  | nil => rintro _ _ ⟨nd, h, _⟩; cases h
  | cons nd l ih =>
    intro hlt hs hex b hb fuel reg' cs
    cases fuel with
    | zero => rfl
    | succ fuel =>
      have hfc := hs.funcs nd (by simp)
      simp only [checkptNodes] at hb
      rw [if_pos hfc.1] at hb
      cases h1 : checkptItems T reg ((object nd.obj).items L) with
      | none => rw [h1] at hb; simp at hb
      | some b1 =>
        cases h2 : checkptNodes T reg (fun a => (object a).items L) nx l with
        | none => rw [h1, h2] at hb; simp at hb
        | some b2 =>
          rw [h1, h2] at hb
          simp only [Option.bind_some, Option.map_some, Option.some.injEq] at hb
          subst hb
          obtain ⟨k1, k2, k3⟩ := hs.known nd (by simp)
          obtain ⟨y0, y4, y1, y2, y3⟩ := hlt nd (by simp)
          obtain ⟨w0, w4, wl⟩ := word_nodeBytes (nx nd.obj) nd y0 y4
          simp only [prepend_append, restoreLoop]
          rw [readVal_prepend _ _ (by norm_num)]
          simp only
          rw [readRaw_prepend 48 _ _ wl, restoreSym_prepend T P.T hT _ y1 k1]
          simp only [Option.bind_some]
          rw [restoreSym_prepend T P.T hT _ y2 k2]
          simp only [Option.bind_some]
          rw [restoreSym_prepend T P.T hT _ y3 k3]
          simp only [Option.bind_some, w0, w4]
          rw [if_neg (by norm_num), if_neg (by norm_num), if_pos ((resym_ne_zero k2).2 hfc.2), hs.code nd (by simp)]
          by_cases hc : (object nd.obj).Compatible L c
          · rcases run_agrees_or T P.T hT reg
              (reg' ++ [⟨nd.obj, resym T P.T nd.ck, resym T P.T nd.rs, resym T P.T nd.an, nd.id⟩]) P.fresh (prepend b2 rest)
              _ _ b1 (restore_agrees L hL c _ (hs.ints nd (by simp)) hc) (hs.valid nd (by simp)) (hs.symKnown nd (by simp)) hid h1
              with e | ⟨items', e⟩
            · rw [e]; rfl
            · rw [e]
              simp only [Option.bind_some]
              have hs' : SimReg P T L c object l := ⟨fun x hx => hs.known x (by simp [hx]), fun x hx => hs.funcs x (by simp [hx]),
                fun x hx => hs.code x (by simp [hx]), fun x hx => hs.ints x (by simp [hx]), fun x hx => hs.valid x (by simp [hx]),
                fun x hx => hs.symKnown x (by simp [hx])⟩
              refine ih (fun x hx => hlt x (by simp [hx])) hs' ?_ b2 h2 fuel _ _
              obtain ⟨x, hx, hxc⟩ := hex
              rcases List.mem_cons.1 hx with rfl | hx
              · exact absurd hc hxc
              · exact ⟨x, hx, hxc⟩
          · rw [run_rejects T P.T reg _ P.fresh _ L hL c _ (hs.ints nd (by simp)) (hs.valid nd (by simp)) hc b1 h1]
            rfl

/-- **C40.** A checkpoint made with another number of processes, by another rank, or with another number of serial or thread
pipelines is rejected: if the first objects of the file are the ones registered when the services are booted (in any order,
`objs`), and one of them is of another configuration, `restore_objects` fails, whatever follows in the file.  So the restore
functions of other objects are never called. -/
theorem incompatible_rejected (P : Proc) (T : Syms) (hT : T.Ok) (L : Layout) (hL : L.Ok) (c : Config) (object : ℕ → Obj) (nx : ℕ → ℕ)
    (s s0 : Svc) (boot rest : List Node) (hreg : s.reg = boot ++ rest) (hok : RegOk s.reg) (hs : SimReg P T L c object boot)
    (hex : ∃ nd ∈ boot, ¬ (object nd.obj).Compatible L c) (b : List Byte)
    (hb : checkptNodes T s.reg (fun a => (object a).items L) nx boot = some b) (remainder : Src) (fuel : ℕ) :
    restoreObjects P fuel s0 (prepend (val s.nextId ++ b) remainder) = none := by
  unfold restoreObjects
  by_cases h : s0.booted = true
  swap
  · simp [h]
  · simp only [h, not_true, if_false]
    rw [prepend_append]
    unfold readVal val
    rw [readRaw_prepend 8 _ _ (le_length 8 _)]
    simp only
    rw [restoreLoop_rejects P T hT L hL c object nx s.reg (objectId_lt hok) remainder boot ?_ hs hex b hb]
    · rfl
    · intro nd hnd
      have hm : nd ∈ s.reg := by rw [hreg]; simp [hnd]
      exact ⟨(hok.obj nd hm).2, (hok.id nd hm).2, hok.syms nd hm⟩

/-- C40: in particular the whole file is rejected if any object in it, also an accumulator or hydro array, was made with
another configuration. -/
theorem incompatible_file_rejected (P : Proc) (T : Syms) (hT : T.Ok) (L : Layout) (hL : L.Ok) (c : Config) (object : ℕ → Obj)
    (nx : ℕ → ℕ) (s s0 : Svc) (hok : RegOk s.reg) (hs : SimReg P T L c object s.reg)
    (hex : ∃ nd ∈ s.reg, ¬ (object nd.obj).Compatible L c) (bytes : List Byte)
    (hb : checkptObjects T (fun a => (object a).items L) nx s = some bytes) (junk : Src) (fuel : ℕ) :
    restart P fuel s0 (prepend bytes junk) = none := by
  unfold checkptObjects at hb
  split_ifs at hb with hbt
  cases hc : checkptNodes T s.reg (fun a => (object a).items L) nx s.reg with
  | none => rw [hc] at hb; simp at hb
  | some b =>
    rw [hc] at hb
    simp only [Option.map_some, Option.some.injEq] at hb
    subst hb
    unfold restart
    rw [prepend_append, incompatible_rejected P T hT L hL c object nx s s0 s.reg [] (by simp) hok hs hex b hc]
    rfl

/-- C40: a stream in which the next object does not begin with the marker of an object, nor ends, is rejected. -/
theorem object_header_checked (P : Proc) (s0 : Svc) (nextId h : ℕ) (hh : h < 2 ^ 64) (h1 : h ≠ 0x600DF00D) (h2 : h ≠ 0xBADF00D)
    (rest : Src) (fuel : ℕ) : restoreObjects P fuel s0 (prepend (val nextId ++ val h) rest) = none := by
  unfold restoreObjects
  by_cases hb : s0.booted = true
  swap
  · simp [hb]
  · simp only [hb, not_true, if_false]
    rw [prepend_append]
    unfold readVal val
    rw [readRaw_prepend 8 _ _ (le_length 8 _)]
    simp only
    have : restoreLoop P fuel [] [] (prepend (le 8 h) rest) = none := by
      cases fuel with
      | zero => rfl
      | succ fuel =>
        unfold restoreLoop
        have e : readVal (prepend (le 8 h) rest) = (h, rest) := readVal_prepend h rest hh
        rw [e]
        simp only
        rw [if_neg h2, if_pos h1]
    rw [this]
    rfl

/-- C40: a restore function that asks for a block, a string, a pointer or a symbol where something else was written is
stopped. -/
theorem item_header_checked (T T' : Syms) (reg reg' : List Node) (fresh : ℕ → Byte) (it : Item) (rd : Reader) (b : List Byte)
    (rest : Src) (hb : checkptItem T reg it = some b) (hi : it.kind ≠ .raw) (k : Kind) (hk : rd.kind = some k) (hr : k ≠ .raw)
    (hne : k ≠ it.kind) : rd.run T' reg' fresh (prepend b rest) = none := by
  have key : ∃ h b', b = val h ++ b' ∧ h < 2 ^ 64 ∧
      ((it.kind = .data ∧ h = 0xDA7A) ∨ (it.kind = .str ∧ (h = 0x2c11577 ∨ h = 0x577)) ∨
        (it.kind = .ptr ∧ (h = 0x2c11977 ∨ h = 0x977)) ∨
        (it.kind = .sym ∧ (h = 0x2C11513B ∨ h = 0x577513B ∨ h = 0xADD7513B))) := by
    cases it with
    | raw _ => exact absurd rfl hi
    | data B =>
      simp only [checkptItem, checkptData] at hb
      split_ifs at hb
      obtain rfl := Option.some.inj hb
      exact ⟨0xDA7A, _, by simp only [List.append_assoc]; rfl, by norm_num, .inl ⟨rfl, rfl⟩⟩
    | str x =>
      simp only [checkptItem, Option.some.injEq] at hb
      subst hb
      cases x with
      | none => exact ⟨0x2c11577, [], by simp [checkptStr], by norm_num, .inr (.inl ⟨rfl, .inl rfl⟩)⟩
      | some y => exact ⟨0x577, _, by simp only [checkptStr, List.append_assoc]; rfl, by norm_num, .inr (.inl ⟨rfl, .inr rfl⟩)⟩
    | ptr a =>
      simp only [checkptItem, checkptPtr] at hb
      split_ifs at hb
      · obtain rfl := Option.some.inj hb
        exact ⟨0x2c11977, [], by simp, by norm_num, .inr (.inr (.inl ⟨rfl, .inl rfl⟩))⟩
      · obtain rfl := Option.some.inj hb
        exact ⟨0x977, _, rfl, by norm_num, .inr (.inr (.inl ⟨rfl, .inr rfl⟩))⟩
    | fptr a =>
      simp only [checkptItem, checkptPtr] at hb
      split_ifs at hb
      · obtain rfl := Option.some.inj hb
        exact ⟨0x2c11977, [], by simp, by norm_num, .inr (.inr (.inl ⟨rfl, .inl rfl⟩))⟩
      · obtain rfl := Option.some.inj hb
        exact ⟨0x977, _, rfl, by norm_num, .inr (.inr (.inl ⟨rfl, .inr rfl⟩))⟩
    | sym a =>
      simp only [checkptItem, Option.some.injEq, checkptSym] at hb
      subst hb
      split_ifs
      · exact ⟨0x2C11513B, [], by simp, by norm_num, .inr (.inr (.inr ⟨rfl, .inl rfl⟩))⟩
      · exact ⟨0x577513B, _, by simp only [List.append_assoc]; rfl, by norm_num, .inr (.inr (.inr ⟨rfl, .inr (.inl rfl)⟩))⟩
      · exact ⟨0xADD7513B, _, rfl, by norm_num, .inr (.inr (.inr ⟨rfl, .inr (.inr rfl)⟩))⟩
  obtain ⟨h, b', rfl, hh, hcase⟩ := key
  rw [prepend_append]
  have e := readVal_prepend h (prepend b' rest) hh
  cases rd with
  | ret => simp [Reader.kind] at hk
  | fail => simp [Reader.kind] at hk
  | raw n k' => simp only [Reader.kind, Option.some.injEq] at hk; exact absurd hk.symm hr
  | data k' =>
    simp only [Reader.kind, Option.some.injEq] at hk
    subst hk
    have : h ≠ 0xDA7A := by
      rcases hcase with ⟨hk, _⟩ | ⟨_, e | e⟩ | ⟨_, e | e⟩ | ⟨_, e | e | e⟩
      · exact absurd hk.symm hne
      all_goals subst e; norm_num
    simp [Reader.run, restoreData, e, this]
  | str k' =>
    simp only [Reader.kind, Option.some.injEq] at hk
    subst hk
    have : h ≠ 0x2c11577 ∧ h ≠ 0x577 := by
      rcases hcase with ⟨_, e⟩ | ⟨hk, _⟩ | ⟨_, e | e⟩ | ⟨_, e | e | e⟩
      · subst e; norm_num
      · exact absurd hk.symm hne
      all_goals subst e; norm_num
    simp [Reader.run, restoreStr, e, this.1, this.2]
  | ptr k' =>
    simp only [Reader.kind, Option.some.injEq] at hk
    subst hk
    have : h ≠ 0x2c11977 ∧ h ≠ 0x977 := by
      rcases hcase with ⟨_, e⟩ | ⟨_, e | e⟩ | ⟨hk, _⟩ | ⟨_, e | e | e⟩
      · subst e; norm_num
      · subst e; norm_num
      · subst e; norm_num
      · exact absurd hk.symm hne
      all_goals subst e; norm_num
    simp [Reader.run, restorePtr, restoreFptr, e, this.1, this.2]
  | fptr k' =>
    simp only [Reader.kind, Option.some.injEq] at hk
    subst hk
    have : h ≠ 0x2c11977 ∧ h ≠ 0x977 := by
      rcases hcase with ⟨_, e⟩ | ⟨_, e | e⟩ | ⟨hk, _⟩ | ⟨_, e | e | e⟩
      · subst e; norm_num
      · subst e; norm_num
      · subst e; norm_num
      · exact absurd hk.symm hne
      all_goals subst e; norm_num
    simp [Reader.run, restoreFptr, e, this.1, this.2]
  | sym k' =>
    simp only [Reader.kind, Option.some.injEq] at hk
    subst hk
    have : h ≠ 0x2C11513B ∧ h ≠ 0x577513B ∧ h ≠ 0xADD7513B := by
      rcases hcase with ⟨_, e⟩ | ⟨_, e | e⟩ | ⟨_, e | e⟩ | ⟨hk, _⟩
      · subst e; norm_num
      · subst e; norm_num
      · subst e; norm_num
      · subst e; norm_num
      · subst e; norm_num
      · exact absurd hk.symm hne
    simp [Reader.run, restoreSym, e, this.1, this.2.1, this.2.2]

/-! ### Findings -/

/-- Finding: the end of the file is not noticed.  A file cut short anywhere can be restored like the complete one: what is
missing is whatever is found in memory. -/
theorem truncation_undetected (P : Proc) (fuel : ℕ) (s0 : Svc) (bytes : List Byte) (junk : Src) (k : ℕ) :
    ∃ junk', restoreObjects P fuel s0 (prepend (bytes.take k) junk') = restoreObjects P fuel s0 (prepend bytes junk) := by
  refine ⟨prepend (bytes.drop k) junk, ?_⟩
  rw [← prepend_append, List.take_append_drop]

/-- Finding: when the ids have been used up, an object gets the id 0, which means that it is not registered. -/
theorem id_wraps (s : Svc) (hb : s.booted = true) (h : s.nextId = 2 ^ 64 - 1) (a b : ℕ) (ha : a ≠ 0) (hb0 : b ≠ 0) (hab : a ≠ b)
    (hna : ∀ nd ∈ s.reg, nd.obj ≠ a) (hnb : ∀ nd ∈ s.reg, nd.obj ≠ b) :
    ∃ s', ((register s a 0 0 0).bind fun s => register s b 0 0 0) = some s' ∧ (∃ nd ∈ s'.reg, nd.obj = b) ∧ objectId s'.reg b = 0 := by
  have e1 : s.reg.find? (fun nd => nd.obj = a) = none := List.find?_eq_none.2 fun nd h => by simpa using hna nd h
  have e2 : s.reg.find? (fun nd => nd.obj = b) = none := List.find?_eq_none.2 fun nd h => by simpa using hnb nd h
  refine ⟨⟨true, s.reg ++ [⟨a, 0, 0, 0, 2 ^ 64 - 1⟩] ++ [⟨b, 0, 0, 0, 0⟩], 1⟩, ?_, ?_, ?_⟩
  · simp [register, hb, ha, hb0, hab, h, e1, e2, List.find?_append, List.find?_cons]
    exact hnb
  · exact ⟨⟨b, 0, 0, 0, 0⟩, by simp, rfl⟩
  · simp [objectId, List.find?_append, e2, List.find?_cons, hab]

/-- Finding: a pointer of an object to itself, read with `restore_ptr`, is the address the object had in the process that wrote
the checkpoint. -/
theorem self_pointer_stale (P : Proc) (T : Syms) (hT : T.Ok) (nd : Node) (hok : RegOk [nd]) (hk : SymKnown T P.T nd.ck)
    (hk2 : SymKnown T P.T nd.rs) (hk3 : SymKnown T P.T nd.an) (hc : nd.ck ≠ 0) (hr : nd.rs ≠ 0) (ha : nd.an = 0)
    (hcode : P.code (resym T P.T nd.rs) = .ptr fun _ => .ret) (nx : ℕ → ℕ) (junk : Src) :
    ∃ bytes s', checkptObjects T (fun _ => [.ptr nd.obj]) nx ⟨true, [nd], 2⟩ = some bytes ∧
      restart P 2 ⟨true, [], 1⟩ (prepend bytes junk) = some (s', [[.ptr nd.obj]], junk) ∧
      objectPtr s'.reg nd.id = P.place nd.id := by
  have hid : objectId [nd] nd.obj = nd.id := by simp [objectId]
  obtain ⟨o1, o2⟩ := hok.obj nd (by simp)
  obtain ⟨i1, i2⟩ := hok.id nd (by simp)
  obtain ⟨y1, y2, y3⟩ := hok.syms nd (by simp)
  obtain ⟨w0, w4, wl⟩ := word_nodeBytes (nx nd.obj) nd o2 i2
  refine ⟨val 2 ++ (val 0x600DF00D ++ nodeBytes (nx nd.obj) nd ++ checkptSym T nd.ck ++ checkptSym T nd.rs ++ checkptSym T nd.an ++
      (val 0x977 ++ val nd.id)) ++ val 0xBADF00D, ⟨true, [renode P T nd], 2⟩, ?_, ?_, ?_⟩
  · simp [checkptObjects, checkptNodes, hc, checkptItems, checkptItem, checkptPtr, hid, o1, i1]
  · have e2 : restorePtr [⟨nd.obj, resym T P.T nd.ck, resym T P.T nd.rs, resym T P.T nd.an, nd.id⟩]
        (prepend (val 0x977) (prepend (val nd.id) (prepend (val 0xBADF00D) junk))) = some (nd.obj, prepend (val 0xBADF00D) junk) := by
      unfold restorePtr restoreFptr
      rw [readVal_prepend _ _ (by norm_num)]
      simp only
      rw [readVal_prepend _ _ i2]
      simp [i1, reanimateFptr, objectPtr, o1]
    have e3 : resym T P.T nd.an = 0 := by rw [ha]; simp [resym]
    unfold restart restoreObjects
    simp only [not_true, if_false, prepend_append]
    rw [readVal_prepend _ _ (by norm_num)]
    simp only [restoreLoop]
    rw [readVal_prepend _ _ (by norm_num)]
    simp only
    rw [if_neg (by norm_num), if_neg (by norm_num), readRaw_prepend 48 _ _ wl, restoreSym_prepend T P.T hT _ y1 hk]
    simp only [Option.bind_some]
    rw [restoreSym_prepend T P.T hT _ y2 hk2]
    simp only [Option.bind_some]
    rw [restoreSym_prepend T P.T hT _ y3 hk3]
    simp only [Option.bind_some, w0, w4]
    rw [if_pos ((resym_ne_zero hk2).2 hr), hcode]
    simp only [Reader.run, List.nil_append, e2, Option.bind_some, Option.map_some]
    rw [readVal_prepend _ _ (by norm_num)]
    simp [reanimateObjects, reanimateLoop, renode, e3, hr]
  · simp [objectPtr, renode, hr]

/-- Finding: a pointer, read with `restore_ptr`, to an object that was registered later can be written but not restored: the
checkpoint succeeds and the restart fails.  This happens to boundary conditions and other lists in which an object is appended
after one that was created later. -/
theorem later_pointer_unrestorable (P : Proc) (T : Syms) (hT : T.Ok) (x y : Node) (hok : RegOk [x, y]) (hk : SymKnown T P.T x.ck)
    (hk2 : SymKnown T P.T x.rs) (hk3 : SymKnown T P.T x.an) (hc : x.ck ≠ 0) (hr : x.rs ≠ 0) (hy : y.ck = 0)
    (hcode : P.code (resym T P.T x.rs) = .ptr fun _ => .ret) (nx : ℕ → ℕ) :
    ∃ bytes, checkptObjects T (fun _ => [.ptr y.obj]) nx ⟨true, [x, y], 3⟩ = some bytes ∧
      ∀ junk fuel s0, restart P fuel s0 (prepend bytes junk) = none := by
  have hne : x.obj ≠ y.obj := by
    have := hok.objs
    simpa using this
  have hne2 : x.id ≠ y.id := by
    have := hok.ids
    simpa using this
  have hid : objectId [x, y] y.obj = y.id := by simp [objectId, List.find?_cons, hne]
  obtain ⟨o1, o2⟩ := hok.obj x (by simp)
  obtain ⟨i1, i2⟩ := hok.id x (by simp)
  obtain ⟨j1, j2⟩ := hok.id y (by simp)
  have o3 := (hok.obj y (by simp)).1
  obtain ⟨y1, y2, y3⟩ := hok.syms x (by simp)
  obtain ⟨w0, w4, wl⟩ := word_nodeBytes (nx x.obj) x o2 i2
  refine ⟨val 3 ++ (val 0x600DF00D ++ nodeBytes (nx x.obj) x ++ checkptSym T x.ck ++ checkptSym T x.rs ++ checkptSym T x.an ++
      (val 0x977 ++ val y.id) ++ (val 0x600DF00D ++ nodeBytes (nx y.obj) y ++ checkptSym T y.ck ++ checkptSym T y.rs ++
        checkptSym T y.an)) ++ val 0xBADF00D, ?_, ?_⟩
  · simp [checkptObjects, checkptNodes, hc, hy, checkptItems, checkptItem, checkptPtr, hid, o3, j1]
  · intro junk fuel s0
    unfold restart restoreObjects
    by_cases hb : s0.booted = true
    swap
    · simp [hb]
    · simp only [hb, not_true, if_false, prepend_append]
      rw [readVal_prepend _ _ (by norm_num)]
      cases fuel with
      | zero => rfl
      | succ fuel =>
        simp only [restoreLoop]
        rw [readVal_prepend _ _ (by norm_num)]
        simp only
        rw [if_neg (by norm_num), if_neg (by norm_num), readRaw_prepend 48 _ _ wl, restoreSym_prepend T P.T hT _ y1 hk]
        simp only [Option.bind_some]
        rw [restoreSym_prepend T P.T hT _ y2 hk2]
        simp only [Option.bind_some]
        rw [restoreSym_prepend T P.T hT _ y3 hk3]
        simp only [Option.bind_some, w0, w4]
        rw [if_pos ((resym_ne_zero hk2).2 hr), hcode]
        simp only [Reader.run, List.nil_append, restorePtr, restoreFptr]
        rw [readVal_prepend _ _ (by norm_num)]
        simp only
        rw [readVal_prepend _ _ j2]
        simp [j1, reanimateFptr, objectPtr, List.find?_cons, hne2]

end Verif.Checkpt
