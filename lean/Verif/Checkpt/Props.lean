import Verif.Checkpt.LoopLemmas
import Mathlib.Data.List.Nodup

/-!
# Checkpoint and restore: the properties C38, C39

Specifications: `prepend`, `resym`, `SameBlk`, `SameItem`, `Agrees`, `Item.Valid` in `Lemmas`, `RegOk`, `Restorable`, `renode`,
`newAddr`, `written` in `LoopLemmas`.
-/
namespace Verif.Checkpt

/-! ### C38 -/

/-- Spec: `restore_objects` followed by `reanimate_objects`, as in /repo/deck/main.cc:70-90: the service, what the objects
contain, the rest of the file. -/
def restart (P : Proc) (fuel : ℕ) (s : Svc) (f : Src) : Option (Svc × List (List Item) × Src) :=
  (restoreObjects P fuel s f).bind fun (s', cs, f') => (reanimateObjects s' cs).map fun cs' => (s', cs', f')

/-- Spec: where a pointer points after the restart: the restored copy of the same object. -/
def relocate (P : Proc) (reg : List Node) (a : ℕ) : ℕ := if a = 0 then 0 else newAddr P reg a

/-- **C38.** A checkpoint that was written can be restored by a process with restore functions that match, whatever follows in
the file.  The file is read exactly to its end, the objects have the same ids in the same order and the next id is the same,
functions are the same symbols, and every object has the contents it had: the same bytes and strings, the same symbols, and
pointers to the restored copies of the same objects. -/
theorem checkpoint_roundtrip (P : Proc) (T : Syms) (hT : T.Ok) (contents : ℕ → List Item) (nx : ℕ → ℕ) (s s0 : Svc)
    (h0 : s0.booted = true) (hok : RegOk s.reg) (hr : Restorable P T contents s.reg) (hn : s.nextId < 2 ^ 64)
    (bytes : List Byte) (hb : checkptObjects T contents nx s = some bytes) (junk : Src) (fuel : ℕ) (hf : s.reg.length < fuel) :
    ∃ cs, restart P fuel s0 (prepend bytes junk) = some (⟨true, s.reg.map (renode P T), s.nextId⟩, cs, junk) ∧
      List.Forall₂ (fun nd c => List.Forall₂ (SameItem (relocate P s.reg) (relocate P s.reg) (resym T P.T))
        (written contents nd) c) s.reg cs := by
  unfold checkptObjects at hb
  split_ifs at hb with hbt
  cases hc : checkptNodes T s.reg contents nx s.reg with
  | none => rw [hc] at hb; simp at hb
  | some b =>
    rw [hc] at hb
    simp only [Option.map_some, Option.some.injEq] at hb
    subst hb
    obtain ⟨cs, e, hF⟩ := restoreLoop_prepend P T hT contents nx s.reg hok hr junk s.reg [] [] fuel b rfl hf hc
    have hitems := checkptNodes_items T s.reg contents nx s.reg b hc
    have step : ∀ (l : List Node) (cs : List (List Item)), (∀ nd ∈ l, nd ∈ s.reg) →
        List.Forall₂ (fun nd c => List.Forall₂ (SameItem (fun a => if a = 0 then 0 else newAddr P s.reg a)
          (fun a => if a = 0 then 0 else objectId s.reg a) (resym T P.T)) (written contents nd) c) l cs →
        ∃ cs', reanimateLoop (s.reg.map (renode P T)) (l.map (renode P T)) cs = some cs' ∧
          List.Forall₂ (fun nd c => List.Forall₂ (SameItem (relocate P s.reg) (relocate P s.reg) (resym T P.T))
            (written contents nd) c) l cs' := by
      intro l
      induction l with
      | nil =>
        intro cs _ hF
        cases hF
        exact ⟨[], rfl, .nil⟩
      | cons nd l ih =>
        intro cs hsub hF
        cases hF with
        | @cons _ c _ cs hc1 hF =>
          obtain ⟨cs', e', hF'⟩ := ih cs (fun x hx => hsub x (by simp [hx])) hF
          have hm := hsub nd (by simp)
          obtain ⟨b', hb'⟩ := hitems nd hm
          have hreg := fptr_registered T s.reg _ b' hb'
          by_cases ha : nd.an = 0
          · refine ⟨c :: cs', ?_, .cons ?_ hF'⟩
            · have : resym T P.T nd.an = 0 := by rw [ha]; simp [resym]
              simp [reanimateLoop, renode, this, e']
            · have hno : ∀ a, Item.fptr a ∉ written contents nd := fun a h => hr.fptr nd hm a h ha
              revert hc1 hno
              generalize written contents nd = ws
              intro hc1
              induction hc1 with
              | nil => intro _; exact .nil
              | cons hxy _ ih2 =>
                intro hno
                refine .cons (sameItem_mono hxy (fun _ _ => rfl) ?_) (ih2 fun a h => hno a (by simp [h]))
                rintro a rfl
                exact absurd (by simp) (hno a)
          · obtain ⟨c', ec, hc'⟩ := reanimateItems_spec P T s.reg hok hr.place (resym T P.T) (written contents nd) c
              (fun a h => hreg a (.inl h)) hc1
            refine ⟨c' :: cs', ?_, .cons hc' hF'⟩
            have : resym T P.T nd.an ≠ 0 := (resym_ne_zero (hr.known nd hm).2.2).2 ha
            have e2 : reanimateItems (s.reg.map (renode P T)) c = some c' := ec
            have e3 : reanimateLoop (s.reg.map (renode P T)) (l.map (renode P T)) cs = some cs' := e'
            have e4 : (if resym T P.T nd.an ≠ 0 then reanimateItems (s.reg.map (renode P T)) c else some c) = some c' := by
              rw [if_pos this, e2]
            show ((if resym T P.T nd.an ≠ 0 then reanimateItems (s.reg.map (renode P T)) c else some c).bind fun c' =>
              (reanimateLoop (s.reg.map (renode P T)) (l.map (renode P T)) cs).map fun cs' => c' :: cs') = _
            rw [e4, e3]
            rfl
    obtain ⟨cs', e', hF'⟩ := step s.reg cs (fun _ h => h) hF
    refine ⟨cs', ?_, hF'⟩
    unfold restart restoreObjects
    simp only [h0, not_true, if_false, prepend_append]
    rw [readVal_prepend _ _ hn]
    simp only [List.map_nil, List.nil_append] at e
    simp only [e, Option.map_some, Option.bind_some, reanimateObjects, not_true, if_false, e']

/-- C38: two pointers are equal after the restart exactly if they were before, and `NULL` exactly if they were, when the
restored objects are at different addresses. -/
theorem restored_graph (P : Proc) (reg : List Node) (hok : RegOk reg)
    (hplace : ∀ nd ∈ reg, P.place nd.id ≠ 0)
    (hdist : (reg.map (renode P T)).Pairwise fun x y => x.obj ≠ y.obj) (a b : ℕ)
    (ha : a = 0 ∨ ∃ nd ∈ reg, nd.obj = a) (hb : b = 0 ∨ ∃ nd ∈ reg, nd.obj = b) :
    (relocate P reg a = relocate P reg b ↔ a = b) ∧ (relocate P reg a = 0 ↔ a = 0) := by
  have nz : ∀ nd ∈ reg, (renode P T nd).obj ≠ 0 := by
    intro nd hnd
    simp only [renode]
    split_ifs
    · exact (hok.obj nd hnd).1
    · exact hplace nd hnd
  have re : ∀ nd ∈ reg, relocate P reg nd.obj = (renode P T nd).obj := by
    intro nd hnd
    unfold relocate
    rw [if_neg (hok.obj nd hnd).1, newAddr_mem P hok.objs hnd T]
  have z : relocate P reg 0 = 0 := if_pos rfl
  have inj : ∀ x ∈ reg, ∀ y ∈ reg, (renode P T x).obj = (renode P T y).obj → x = y := by
    have hd : ((reg.map (renode P T)).map Node.obj).Nodup := List.pairwise_map.2 hdist
    rw [List.map_map] at hd
    intro x hx y hy e
    exact List.inj_on_of_nodup_map hd hx hy e
  rcases ha with rfl | ⟨x, hx, rfl⟩ <;> rcases hb with rfl | ⟨y, hy, rfl⟩
  · simp [z]
  · rw [z, re y hy]
    have := nz y hy
    have h2 := (hok.obj y hy).1
    exact ⟨⟨fun e => absurd e.symm this, fun e => absurd e.symm h2⟩, by simp⟩
  · rw [z, re x hx]
    have := nz x hx
    have h2 := (hok.obj x hx).1
    exact ⟨⟨fun e => absurd e this, fun e => absurd e h2⟩, ⟨fun e => absurd e this, fun e => absurd e h2⟩⟩
  · rw [re x hx, re y hy]
    refine ⟨⟨fun e => by rw [inj x hx y hy e], fun e => ?_⟩, ⟨fun e => absurd e (nz x hx), fun e => absurd e (hok.obj x hx).1⟩⟩
    rw [List.inj_on_of_nodup_map hok.objs hx hy e]

/-! ### C39 -/

/-- Spec: what can happen to the objects of a run: an object is registered or unregistered, or a checkpoint is written and
another process is started from it, in which the objects are at different addresses. -/
inductive Step : Svc → Svc → Prop
  | register {s s' obj ck rs an} : register s obj ck rs an = some s' → obj < 2 ^ 64 → ck < 2 ^ 64 → rs < 2 ^ 64 → an < 2 ^ 64 →
      s.nextId + 1 < 2 ^ 64 → Step s s'
  | unregister {s s' obj} : unregister s obj = some s' → Step s s'
  | restart {s s0 s' : Svc} {P : Proc} {T contents nx bytes junk fuel cs f} : s0.booted = true → T.Ok →
      Restorable P T contents s.reg → (∀ nd ∈ s.reg, (renode P T nd).obj < 2 ^ 64 ∧ (renode P T nd).ck < 2 ^ 64 ∧
        (renode P T nd).rs < 2 ^ 64 ∧ (renode P T nd).an < 2 ^ 64) →
      ((s.reg.map (renode P T)).Pairwise fun x y => x.obj ≠ y.obj) →
      checkptObjects T contents nx s = some bytes → s.reg.length < fuel →
      restart P fuel s0 (prepend bytes junk) = some (s', cs, f) → Step s s'

/-- Spec: the histories of a run from `boot_checkpt`; with fewer than 2^64-1 registrations. -/
inductive Reachable : Svc → Prop
  | boot {s s'} : boot s = some s' → Reachable s'
  | step {s s'} : Reachable s → Step s s' → Reachable s'

/-- Spec: several steps. -/
inductive Steps : Svc → Svc → Prop
  | refl (s) : Steps s s
  | step {s s' s''} : Steps s s' → Step s' s'' → Steps s s''

lemma removeFirst_sublist (a : ℕ) (l : List Node) : (removeFirst a l).Sublist l := by
  induction l with
  | nil => exact .slnil
  | cons x l ih =>
    unfold removeFirst
    split
    · exact List.sublist_cons_self _ _
    · exact ih.cons₂ _

lemma mem_removeFirst {a : ℕ} {l : List Node} (h : (l.map Node.obj).Nodup) (nd : Node) :
    nd ∈ removeFirst a l ↔ nd ∈ l ∧ nd.obj ≠ a := by
  induction l with
  | nil => simp [removeFirst]
  | cons x l ih =>
    simp only [List.map_cons, List.nodup_cons] at h
    unfold removeFirst
    split
    · next hx =>
      constructor
      · intro hm
        exact ⟨by simp [hm], fun e => h.1 (by rw [hx, ← e]; exact List.mem_map_of_mem hm)⟩
      · rintro ⟨hm, hne⟩
        rcases List.mem_cons.1 hm with rfl | hm
        · exact absurd hx hne
        · exact hm
    · next hx =>
      rw [List.mem_cons, List.mem_cons, ih h.2]
      constructor
      · rintro (rfl | ⟨h1, h2⟩)
        · exact ⟨.inl rfl, hx⟩
        · exact ⟨.inr h1, h2⟩
      · rintro ⟨rfl | h1, h2⟩
        · exact .inl rfl
        · exact .inr ⟨h1, h2⟩

lemma RegOk.sublist {l l' : List Node} (h : RegOk l) (hs : l'.Sublist l) : RegOk l' where
  objs := h.objs.sublist (hs.map _)
  ids := h.ids.sublist (hs.map _)
  obj := fun nd hn => h.obj nd (hs.subset hn)
  id := fun nd hn => h.id nd (hs.subset hn)
  syms := fun nd hn => h.syms nd (hs.subset hn)

/-- Spec: the state of the service in a run. -/
structure SvcOk (s : Svc) : Prop where
  booted : s.booted = true
  reg : RegOk s.reg
  lt : ∀ nd ∈ s.reg, nd.id < s.nextId
  next : 0 < s.nextId ∧ s.nextId < 2 ^ 64

lemma restart_svc {s s0 s' : Svc} {P : Proc} {T contents nx bytes junk fuel cs f} (hs : SvcOk s) (h0 : s0.booted = true) (hT : T.Ok)
    (hr : Restorable P T contents s.reg) (hb : checkptObjects T contents nx s = some bytes) (hf : s.reg.length < fuel)
    (h : restart P fuel s0 (prepend bytes junk) = some (s', cs, f)) : s' = ⟨true, s.reg.map (renode P T), s.nextId⟩ := by
  obtain ⟨cs', e, _⟩ := checkpoint_roundtrip P T hT contents nx s s0 h0 hs.reg hr hs.next.2 bytes hb junk fuel hf
  rw [e] at h
  simp only [Option.some.injEq, Prod.mk.injEq] at h
  exact h.1.symm

lemma step_ok {s s' : Svc} (hs : SvcOk s) (h : Step s s') : SvcOk s' ∧ s.nextId ≤ s'.nextId := by
  cases h with
  | @register _ obj ck rs an h h1 h2 h3 h4 h5 =>
    unfold Checkpt.register at h
    split_ifs at h with c1 c2 c3
    obtain rfl := Option.some.inj h
    have hnew : obj ∉ s.reg.map Node.obj := by
      intro hm
      obtain ⟨nd, hnd, rfl⟩ := List.mem_map.1 hm
      exact c3 (by rw [find_obj hs.reg.objs hnd]; rfl)
    have hid : s.nextId ∉ s.reg.map Node.id := by
      intro hm
      obtain ⟨nd, hnd, e⟩ := List.mem_map.1 hm
      have := hs.lt nd hnd
      omega
    have hmod : (s.nextId + 1) % 2 ^ 64 = s.nextId + 1 := Nat.mod_eq_of_lt h5
    refine ⟨⟨hs.booted, ⟨?_, ?_, ?_, ?_, ?_⟩, ?_, ?_⟩, ?_⟩
    · rw [List.map_append]
      exact List.nodup_append.2 ⟨hs.reg.objs, by simp, by
        intro a ha b hb e
        simp at hb
        exact hnew (hb ▸ e ▸ ha)⟩
    · rw [List.map_append]
      exact List.nodup_append.2 ⟨hs.reg.ids, by simp, by
        intro a ha b hb e
        simp at hb
        exact hid (hb ▸ e ▸ ha)⟩
    · intro nd hnd
      rcases List.mem_append.1 hnd with hnd | hnd
      · exact hs.reg.obj nd hnd
      · simp at hnd; subst hnd; exact ⟨c2, h1⟩
    · intro nd hnd
      rcases List.mem_append.1 hnd with hnd | hnd
      · exact hs.reg.id nd hnd
      · simp at hnd; subst hnd; exact ⟨hs.next.1.ne', hs.next.2⟩
    · intro nd hnd
      rcases List.mem_append.1 hnd with hnd | hnd
      · exact hs.reg.syms nd hnd
      · simp at hnd; subst hnd; exact ⟨h2, h3, h4⟩
    · intro nd hnd
      show nd.id < (s.nextId + 1) % 2 ^ 64
      rw [hmod]
      rcases List.mem_append.1 hnd with hnd | hnd
      · have := hs.lt nd hnd; omega
      · simp at hnd; subst hnd; simp
    · show 0 < (s.nextId + 1) % 2 ^ 64 ∧ (s.nextId + 1) % 2 ^ 64 < 2 ^ 64
      rw [hmod]
      exact ⟨by omega, h5⟩
    · show s.nextId ≤ (s.nextId + 1) % 2 ^ 64
      rw [hmod]
      omega
  | @unregister _ obj h =>
    unfold Checkpt.unregister at h
    split_ifs at h with c1 c2
    obtain rfl := Option.some.inj h
    have hsub := removeFirst_sublist obj s.reg
    exact ⟨⟨hs.booted, hs.reg.sublist hsub, fun nd hn => hs.lt nd (hsub.subset hn), hs.next⟩, le_rfl⟩
  | @restart s0 _ P T contents nx bytes junk fuel cs f h0 hT hr haddr hd hb hf h =>
    obtain rfl := restart_svc hs h0 hT hr hb hf h
    refine ⟨⟨rfl, ⟨?_, ?_, ?_, ?_, ?_⟩, ?_, hs.next⟩, le_rfl⟩
    · exact List.pairwise_map.2 hd
    · rw [renode_ids]; exact hs.reg.ids
    · intro nd hnd
      obtain ⟨x, hx, rfl⟩ := List.mem_map.1 hnd
      refine ⟨?_, (haddr x hx).1⟩
      simp only [renode]
      split_ifs
      · exact (hs.reg.obj x hx).1
      · exact hr.place x hx
    · intro nd hnd
      obtain ⟨x, hx, rfl⟩ := List.mem_map.1 hnd
      exact hs.reg.id x hx
    · intro nd hnd
      obtain ⟨x, hx, rfl⟩ := List.mem_map.1 hnd
      exact (haddr x hx).2
    · intro nd hnd
      obtain ⟨x, hx, rfl⟩ := List.mem_map.1 hnd
      exact hs.lt x hx

/-- **C39.** In every history, the registered objects are different and have different nonzero ids, all of them below the next
id to be given. -/
theorem history_ids {s : Svc} (h : Reachable s) : SvcOk s := by
  induction h with
  | @boot s s' h =>
    unfold boot at h
    split_ifs at h
    obtain rfl := Option.some.inj h
    exact ⟨rfl, ⟨by simp, by simp, by simp, by simp, by simp⟩, by simp, by norm_num⟩
  | step _ hst ih => exact (step_ok ih hst).1

/-- C39: ids are never used again: an id below the next id that is not in use stays unused for ever, in particular the id of
an object that was unregistered. -/
theorem ids_not_reused {s s' : Svc} (h : Reachable s) (hst : Steps s s') (k : ℕ) (hk : k < s.nextId) (hno : ∀ nd ∈ s.reg, nd.id ≠ k) :
    ∀ nd ∈ s'.reg, nd.id ≠ k := by
  suffices H : Reachable s' ∧ k < s'.nextId ∧ ∀ nd ∈ s'.reg, nd.id ≠ k from H.2.2
  induction hst with
  | refl => exact ⟨h, hk, hno⟩
  | step _ hst ih =>
    obtain ⟨h1, h2, h3⟩ := ih
    have hok := history_ids h1
    have hm := (step_ok hok hst).2
    refine ⟨h1.step hst, by omega, ?_⟩
    cases hst with
    | register h' _ _ _ _ _ =>
      unfold Checkpt.register at h'
      split_ifs at h' with c1 c2 c3
      obtain rfl := Option.some.inj h'
      intro nd hnd
      rcases List.mem_append.1 hnd with hnd | hnd
      · exact h3 nd hnd
      · simp at hnd; subst hnd; simp; omega
    | unregister h' =>
      unfold Checkpt.unregister at h'
      split_ifs at h' with c1 c2
      obtain rfl := Option.some.inj h'
      exact fun nd hnd => h3 nd ((removeFirst_sublist _ _).subset hnd)
    | restart h0 hT hr haddr hd hb hf h' =>
      obtain rfl := restart_svc hok h0 hT hr hb hf h'
      intro nd hnd
      obtain ⟨x, hx, rfl⟩ := List.mem_map.1 hnd
      exact h3 x hx

/-- C39: looking up an object gives its id, or 0 if it is not registered; looking up an id gives the object, or `NULL`. -/
theorem lookup_spec {s : Svc} (h : Reachable s) :
    (∀ nd ∈ s.reg, objectId s.reg nd.obj = nd.id ∧ objectPtr s.reg nd.id = nd.obj) ∧
    (∀ a, objectId s.reg a = 0 ↔ ∀ nd ∈ s.reg, nd.obj ≠ a) ∧ (∀ k, objectPtr s.reg k = 0 ↔ ∀ nd ∈ s.reg, nd.id ≠ k) := by
  have hok := history_ids h
  refine ⟨fun nd hn => ⟨objectId_mem hok.reg.objs hn, objectPtr_mem hok.reg.ids hn⟩, fun a => ⟨?_, ?_⟩, fun k => ⟨?_, ?_⟩⟩
  · rintro h0 nd hn rfl
    rw [objectId_mem hok.reg.objs hn] at h0
    exact (hok.reg.id nd hn).1 h0
  · intro hno
    by_contra h0
    obtain ⟨nd, hn, h1, _⟩ := objectId_ne_zero h0
    exact hno nd hn h1
  · rintro h0 nd hn rfl
    rw [objectPtr_mem hok.reg.ids hn] at h0
    exact (hok.reg.obj nd hn).1 h0
  · intro hno
    unfold objectPtr
    have : s.reg.find? (fun nd => nd.id = k) = none := by
      rw [List.find?_eq_none]
      intro nd hn
      simpa using hno nd hn
    rw [this]

/-- C39: registering an object succeeds exactly if it is not `NULL` and not registered yet; all other objects keep their ids
and the new one gets an id that no object has. -/
theorem register_spec {s : Svc} (h : Reachable s) (hn : s.nextId + 1 < 2 ^ 64) (obj ck rs an : ℕ) :
    ((register s obj ck rs an).isSome ↔ obj ≠ 0 ∧ ∀ nd ∈ s.reg, nd.obj ≠ obj) ∧
    ∀ s', register s obj ck rs an = some s' → (∀ a, a ≠ obj → objectId s'.reg a = objectId s.reg a) ∧
      objectId s'.reg obj = s.nextId ∧ (∀ nd ∈ s.reg, nd.id ≠ s.nextId) ∧ s'.nextId = s.nextId + 1 ∧
      s'.reg = s.reg ++ [⟨obj, ck, rs, an, s.nextId⟩] := by
  have hok := history_ids h
  unfold register
  simp only [hok.booted, not_true, if_false]
  constructor
  · by_cases c2 : obj = 0
    · simp [c2]
    · simp only [c2, if_false]
      split_ifs with c3
      · simp only [Option.isSome_none, Bool.false_eq_true, ne_eq, not_false_eq_true, true_and, false_iff]
        rintro ⟨-, hno⟩
        rw [List.find?_isSome] at c3
        obtain ⟨nd, hnd, e⟩ := c3
        exact hno nd hnd (by simpa using e)
      · simp only [Option.isSome_some, ne_eq, not_false_eq_true, true_and, true_iff]
        refine ⟨c2, fun nd hnd e => ?_⟩
        exact c3 (by rw [List.find?_isSome]; exact ⟨nd, hnd, by simpa using e⟩)
  · intro s' hs'
    split_ifs at hs' with c2 c3
    obtain rfl := Option.some.inj hs'
    refine ⟨?_, ?_, fun nd hnd e => ?_, Nat.mod_eq_of_lt hn, rfl⟩
    · intro a ha
      unfold objectId
      rw [List.find?_append]
      have : [(⟨obj, ck, rs, an, s.nextId⟩ : Node)].find? (fun nd => nd.obj = a) = none := by
        simp [Ne.symm ha]
      rw [this, Option.or_none]
    · unfold objectId
      rw [List.find?_append]
      have : s.reg.find? (fun nd => nd.obj = obj) = none := by simpa using c3
      rw [this]
      simp
    · have := hok.lt nd hnd
      omega

/-- C39: unregistering succeeds exactly if the object is registered; it is then absent, and all other objects keep their
ids. -/
theorem unregister_spec {s : Svc} (h : Reachable s) (obj : ℕ) :
    ((unregister s obj).isSome ↔ ∃ nd ∈ s.reg, nd.obj = obj) ∧
    ∀ s', unregister s obj = some s' → objectId s'.reg obj = 0 ∧ (∀ a, a ≠ obj → objectId s'.reg a = objectId s.reg a) ∧
      (∀ nd, nd ∈ s'.reg ↔ nd ∈ s.reg ∧ nd.obj ≠ obj) ∧ s'.nextId = s.nextId := by
  have hok := history_ids h
  have hiff : (s.reg.find? fun nd => nd.obj = obj).isNone = true ↔ ¬ ∃ nd ∈ s.reg, nd.obj = obj := by
    simp
  constructor
  · unfold unregister
    simp only [hok.booted, not_true, if_false]
    split_ifs with c
    · rw [hiff] at c; simp [c]
    · rw [hiff, not_not] at c
      simp [c]
  · intro s' hs'
    have hr : Reachable s' := h.step (.unregister hs')
    unfold unregister at hs'
    split_ifs at hs' with c1 c2
    obtain rfl := Option.some.inj hs'
    have hm := fun nd => mem_removeFirst (a := obj) hok.reg.objs nd
    refine ⟨?_, ?_, hm, rfl⟩
    · rw [(lookup_spec hr).2.1]
      exact fun nd hnd => ((hm nd).1 hnd).2
    · intro a ha
      by_cases hx : ∃ nd ∈ s.reg, nd.obj = a
      · obtain ⟨nd, hnd, rfl⟩ := hx
        rw [((lookup_spec h).1 nd hnd).1]
        exact ((lookup_spec hr).1 nd ((hm nd).2 ⟨hnd, ha⟩)).1
      · have e1 : objectId s.reg a = 0 := ((lookup_spec h).2.1 a).2 fun nd hnd e => hx ⟨nd, hnd, e⟩
        rw [e1]
        exact ((lookup_spec hr).2.1 a).2 fun nd hnd e => hx ⟨nd, ((hm nd).1 hnd).1, e⟩

/-- C39: after a restart every object has the id it had, at its new address. -/
theorem restart_ids {s s0 s' : Svc} {P : Proc} {T contents nx bytes junk fuel cs f} (hs : Reachable s) (h0 : s0.booted = true)
    (hT : T.Ok) (hr : Restorable P T contents s.reg) (hb : checkptObjects T contents nx s = some bytes) (hf : s.reg.length < fuel)
    (hd : (s.reg.map (renode P T)).Pairwise fun x y => x.obj ≠ y.obj)
    (h : restart P fuel s0 (prepend bytes junk) = some (s', cs, f)) :
    s'.nextId = s.nextId ∧ ∀ nd ∈ s.reg, objectId s'.reg (relocate P s.reg nd.obj) = objectId s.reg nd.obj ∧
      objectPtr s'.reg nd.id = relocate P s.reg nd.obj := by
  have hok := history_ids hs
  obtain rfl := restart_svc hok h0 hT hr hb hf h
  refine ⟨rfl, fun nd hnd => ?_⟩
  have e : relocate P s.reg nd.obj = (renode P T nd).obj := by
    unfold relocate
    rw [if_neg (hok.reg.obj nd hnd).1, newAddr_mem P hok.reg.objs hnd T]
  rw [e, objectId_mem hok.reg.objs hnd]
  constructor
  · exact objectId_mem (nd := renode P T nd) (List.pairwise_map.2 hd) (List.mem_map_of_mem hnd)
  · exact objectPtr_mem (nd := renode P T nd) (by rw [renode_ids]; exact hok.reg.ids) (List.mem_map_of_mem hnd)

end Verif.Checkpt
