import Verif.Checkpt.Lemmas

/-!
# Checkpoint and restore: the loop over the objects
-/
namespace Verif.Checkpt

/-! ### Specification -/

/-- Spec: the restored entry of an object. -/
def renode (P : Proc) (T : Syms) (nd : Node) : Node :=
  ⟨if nd.rs = 0 then nd.obj else P.place nd.id, resym T P.T nd.ck, resym T P.T nd.rs, resym T P.T nd.an, nd.id⟩

/-- Spec: where the object that was at address `a` is in the new process. -/
def newAddr (P : Proc) (reg : List Node) (a : ℕ) : ℕ :=
  match reg.find? fun nd => nd.obj = a with
  | some nd => if nd.rs = 0 then nd.obj else P.place nd.id
  | none => 0

/-- Spec: what the checkpoint function of an object writes. -/
def written (contents : ℕ → List Item) (nd : Node) : List Item := if nd.ck = 0 then [] else contents nd.obj

/-- Spec: the objects are distinct and not `NULL`, their ids too, and fit in 64 bits. -/
structure RegOk (reg : List Node) : Prop where
  objs : (reg.map Node.obj).Nodup
  ids : (reg.map Node.id).Nodup
  obj : ∀ nd ∈ reg, nd.obj ≠ 0 ∧ nd.obj < 2 ^ 64
  id : ∀ nd ∈ reg, nd.id ≠ 0 ∧ nd.id < 2 ^ 64
  syms : ∀ nd ∈ reg, nd.ck < 2 ^ 64 ∧ nd.rs < 2 ^ 64 ∧ nd.an < 2 ^ 64

/-- Spec: what the code of the objects and the new process have to provide: symbols that can be found, restore functions that
read what the checkpoint functions wrote, pointers read with `restore_ptr` only to objects registered before, a reanimate
function for objects with other pointers. -/
structure Restorable (P : Proc) (T : Syms) (contents : ℕ → List Item) (reg : List Node) : Prop where
  known : ∀ nd ∈ reg, SymKnown T P.T nd.ck ∧ SymKnown T P.T nd.rs ∧ SymKnown T P.T nd.an
  agrees : ∀ nd ∈ reg, nd.rs ≠ 0 → Agrees (P.code (resym T P.T nd.rs)) (written contents nd)
  nors : ∀ nd ∈ reg, nd.rs = 0 → written contents nd = []
  valid : ∀ nd ∈ reg, ∀ it ∈ written contents nd, it.Valid
  symKnown : ∀ nd ∈ reg, ∀ a, Item.sym a ∈ written contents nd → SymKnown T P.T a
  earlier : ∀ l1 nd l2, reg = l1 ++ nd :: l2 → ∀ a, Item.ptr a ∈ written contents nd → a ≠ 0 → ∃ m ∈ l1, m.obj = a
  fptr : ∀ nd ∈ reg, ∀ a, Item.fptr a ∈ written contents nd → nd.an ≠ 0
  place : ∀ nd ∈ reg, P.place nd.id ≠ 0

/-! ### Lemmas -/

lemma resym_ne_zero {T T' : Syms} {a : ℕ} (h : SymKnown T T' a) : resym T T' a ≠ 0 ↔ a ≠ 0 := by
  constructor
  · intro h1 h2; subst h2; exact h1 (by simp [resym])
  · exact h

lemma word_nodeBytes (nx : ℕ) (nd : Node) (h1 : nd.obj < 2 ^ 64) (h2 : nd.id < 2 ^ 64) :
    word (nodeBytes nx nd) 0 = nd.obj ∧ word (nodeBytes nx nd) 4 = nd.id ∧ (nodeBytes nx nd).length = 48 := by
  unfold word nodeBytes
  refine ⟨?_, ?_, ?_⟩
  · have : (List.take 8 (le 8 nd.obj ++ le 8 nd.ck ++ le 8 nd.rs ++ le 8 nd.an ++ le 8 nd.id ++ le 8 nx)) = le 8 nd.obj := by
      simp only [List.append_assoc]
      exact List.take_left' (le_length 8 _)
    simp only [Nat.mul_zero, List.drop_zero]
    rw [this, deLE_le]
    exact Nat.mod_eq_of_lt (by norm_num at h1 ⊢; omega)
  · have e : (le 8 nd.obj ++ le 8 nd.ck ++ le 8 nd.rs ++ le 8 nd.an ++ le 8 nd.id ++ le 8 nx) =
        (le 8 nd.obj ++ le 8 nd.ck ++ le 8 nd.rs ++ le 8 nd.an) ++ (le 8 nd.id ++ le 8 nx) := by simp
    rw [e, List.drop_left' (by simp [le_length]), List.take_left' (le_length 8 _), deLE_le]
    exact Nat.mod_eq_of_lt (by norm_num at h2 ⊢; omega)
  · simp [le_length]

lemma find_obj {reg : List Node} (h : (reg.map Node.obj).Nodup) {nd : Node} (hm : nd ∈ reg) :
    reg.find? (fun m => m.obj = nd.obj) = some nd := by
  induction reg with
  | nil => cases hm
  | cons x l ih =>
    rw [List.find?_cons]
    simp only [List.map_cons, List.nodup_cons] at h
    rcases List.mem_cons.1 hm with rfl | hm'
    · simp
    · have : x.obj ≠ nd.obj := fun e => h.1 (e ▸ List.mem_map_of_mem hm')
      simp only [this, decide_false]
      exact ih h.2 hm'

lemma find_id {reg : List Node} (h : (reg.map Node.id).Nodup) {nd : Node} (hm : nd ∈ reg) :
    reg.find? (fun m => m.id = nd.id) = some nd := by
  induction reg with
  | nil => cases hm
  | cons x l ih =>
    rw [List.find?_cons]
    simp only [List.map_cons, List.nodup_cons] at h
    rcases List.mem_cons.1 hm with rfl | hm'
    · simp
    · have : x.id ≠ nd.id := fun e => h.1 (e ▸ List.mem_map_of_mem hm')
      simp only [this, decide_false]
      exact ih h.2 hm'

lemma objectId_mem {reg : List Node} (h : (reg.map Node.obj).Nodup) {nd : Node} (hm : nd ∈ reg) :
    objectId reg nd.obj = nd.id := by
  unfold objectId; rw [find_obj h hm]

lemma objectPtr_mem {reg : List Node} (h : (reg.map Node.id).Nodup) {nd : Node} (hm : nd ∈ reg) :
    objectPtr reg nd.id = nd.obj := by
  unfold objectPtr; rw [find_id h hm]

lemma newAddr_mem (P : Proc) {reg : List Node} (h : (reg.map Node.obj).Nodup) {nd : Node} (hm : nd ∈ reg) (T : Syms) :
    newAddr P reg nd.obj = (renode P T nd).obj := by
  unfold newAddr; rw [find_obj h hm]; rfl

lemma objectId_lt {reg : List Node} (h : RegOk reg) (a : ℕ) : objectId reg a < 2 ^ 64 := by
  unfold objectId
  split
  · next nd hf => exact (h.id nd (List.mem_of_find?_eq_some hf)).2
  · norm_num

lemma objectId_ne_zero {reg : List Node} {a : ℕ} (h : objectId reg a ≠ 0) : ∃ nd ∈ reg, nd.obj = a ∧ nd.id = objectId reg a := by
  unfold objectId at h ⊢
  split at h
  · next nd hf =>
    exact ⟨nd, List.mem_of_find?_eq_some hf, by simpa using List.find?_some hf, rfl⟩
  · exact absurd rfl h

lemma renode_ids (P : Proc) (T : Syms) (reg : List Node) : (reg.map (renode P T)).map Node.id = reg.map Node.id := by
  simp [renode, Function.comp_def]

/-- Looking up a restored object in the restored entries followed by anything without this id. -/
lemma objectPtr_renode (P : Proc) (T : Syms) {reg : List Node} (h : RegOk reg) {l1 : List Node} {nd : Node} (hm : nd ∈ l1)
    (hsub : l1 <+: reg) (ext : List Node) :
    objectPtr (l1.map (renode P T) ++ ext) nd.id = (renode P T nd).obj := by
  unfold objectPtr
  have hnd : (l1.map Node.id).Nodup := h.ids.sublist (hsub.sublist.map _)
  have : (l1.map (renode P T)).find? (fun m => m.id = nd.id) = some (renode P T nd) := by
    have := find_id (reg := l1.map (renode P T)) (by rw [renode_ids]; exact hnd) (List.mem_map_of_mem hm)
    exact this
  rw [List.find?_append, this]
  rfl

lemma sameItem_mono {σ σ' τ τ' θ : ℕ → ℕ} {x y : Item} (h : SameItem σ τ θ x y) (hσ : ∀ a, x = .ptr a → σ a = σ' a)
    (hτ : ∀ a, x = .fptr a → τ a = τ' a) : SameItem σ' τ' θ x y := by
  cases x <;> cases y <;> simp only [SameItem] at h ⊢
  · exact h
  · exact h
  · exact h
  · rw [← hσ _ rfl]; exact h
  · rw [← hτ _ rfl]; exact h
  · exact h

/-- The loop of `restore_objects` on what the loop of `checkpt_objects` wrote. -/
lemma restoreLoop_prepend (P : Proc) (T : Syms) (hT : T.Ok) (contents : ℕ → List Item) (nx : ℕ → ℕ) (reg : List Node)
    (hok : RegOk reg) (hr : Restorable P T contents reg) (junk : Src) :
    ∀ (todo done : List Node) (cs : List (List Item)) (fuel : ℕ) (b : List Byte), reg = done ++ todo → todo.length < fuel →
      checkptNodes T reg contents nx todo = some b →
      ∃ cs', restoreLoop P fuel (done.map (renode P T)) cs (prepend b (prepend (val 0xBADF00D) junk)) =
          some (reg.map (renode P T), cs ++ cs', junk) ∧
        List.Forall₂ (fun nd c => List.Forall₂ (SameItem (fun a => if a = 0 then 0 else newAddr P reg a)
          (fun a => if a = 0 then 0 else objectId reg a) (resym T P.T)) (written contents nd) c) todo cs' := by
  intro todo
  induction todo with
  | nil =>
    intro done cs fuel b hreg hfuel hb
    obtain ⟨fuel, rfl⟩ : ∃ k, fuel = k + 1 := ⟨fuel - 1, by simp at hfuel; omega⟩
    simp only [checkptNodes, Option.some.injEq] at hb
    subst hb
    refine ⟨[], ?_, .nil⟩
    simp only [restoreLoop, prepend_nil]
    rw [readVal_prepend _ _ (by norm_num)]
    simp [hreg]
  | cons nd l ih =>
    intro done cs fuel b hreg hfuel hb
    obtain ⟨fuel, rfl⟩ : ∃ k, fuel = k + 1 := ⟨fuel - 1, by simp at hfuel; omega⟩
    have hmem : nd ∈ reg := by rw [hreg]; simp
    have hck : (if nd.ck ≠ 0 then checkptItems T reg (contents nd.obj) else some []) = checkptItems T reg (written contents nd) := by
      unfold written
      by_cases h : nd.ck = 0 <;> simp [h, checkptItems]
    simp only [checkptNodes] at hb
    rw [hck] at hb
    cases h1 : checkptItems T reg (written contents nd) with
    | none => rw [h1] at hb; simp at hb
    | some b1 =>
      cases h2 : checkptNodes T reg contents nx l with
      | none => rw [h1, h2] at hb; simp at hb
      | some b2 =>
        rw [h1, h2] at hb
        simp only [Option.bind_some, Option.map_some, Option.some.injEq] at hb
        subst hb
        obtain ⟨k1, k2, k3⟩ := hr.known nd hmem
        obtain ⟨y1, y2, y3⟩ := hok.syms nd hmem
        obtain ⟨w0, w4, wl⟩ := word_nodeBytes (nx nd.obj) nd (hok.obj nd hmem).2 (hok.id nd hmem).2
        simp only [prepend_append, restoreLoop]
        rw [readVal_prepend _ _ (by norm_num)]
        simp only
        rw [readRaw_prepend 48 _ _ wl, restoreSym_prepend T P.T hT _ y1 k1]
        simp only [Option.bind_some]
        rw [restoreSym_prepend T P.T hT _ y2 k2]
        simp only [Option.bind_some]
        rw [restoreSym_prepend T P.T hT _ y3 k3]
        simp only [Option.bind_some, w0, w4]
        rw [if_neg (by norm_num), if_neg (by norm_num)]
        have hpre : done <+: reg := ⟨nd :: l, hreg.symm⟩
        have hreg' : reg = (done ++ [nd]) ++ l := by rw [hreg]; simp
        have hf' : l.length < fuel := by simp at hfuel; omega
        by_cases h0 : nd.rs = 0
        · have e0 : written contents nd = [] := hr.nors nd hmem h0
          have e1 : b1 = [] := by
            rw [e0] at h1
            simpa [checkptItems] using h1.symm
          have e2 : resym T P.T nd.rs = 0 := by rw [h0]; simp [resym]
          rw [if_neg (by simp [e2]), e1, prepend_nil]
          obtain ⟨cs', e, hF⟩ := ih (done ++ [nd]) (cs ++ [[]]) fuel b2 hreg' hf' h2
          refine ⟨[] :: cs', ?_, .cons (by rw [e0]; exact .nil) hF⟩
          have : (done ++ [nd]).map (renode P T) = done.map (renode P T) ++
              [⟨nd.obj, resym T P.T nd.ck, resym T P.T nd.rs, resym T P.T nd.an, nd.id⟩] := by
            simp [renode, h0]
          rw [← this, e]
          simp
        · rw [if_pos ((resym_ne_zero k2).2 h0)]
          have hp : ∀ a, Item.ptr a ∈ written contents nd → a ≠ 0 →
              objectPtr (done.map (renode P T) ++ [⟨nd.obj, resym T P.T nd.ck, resym T P.T nd.rs, resym T P.T nd.an, nd.id⟩])
                (objectId reg a) = newAddr P reg a ∧ newAddr P reg a ≠ 0 := by
            intro a ha ha0
            obtain ⟨m, hm, rfl⟩ := hr.earlier done nd l hreg a ha ha0
            have hmr : m ∈ reg := hpre.subset hm
            rw [objectId_mem hok.objs hmr, objectPtr_renode P T hok hm hpre, newAddr_mem P hok.objs hmr T]
            refine ⟨rfl, ?_⟩
            simp only [renode]
            split_ifs
            · exact (hok.obj m hmr).1
            · exact hr.place m hmr
          obtain ⟨items', er, hF1⟩ := run_agrees T P.T hT reg
            (done.map (renode P T) ++ [⟨nd.obj, resym T P.T nd.ck, resym T P.T nd.rs, resym T P.T nd.an, nd.id⟩]) P.fresh
            (prepend b2 (prepend (val 0xBADF00D) junk)) (written contents nd) (P.code (resym T P.T nd.rs)) b1
            (hr.agrees nd hmem h0) (hr.valid nd hmem) (hr.symKnown nd hmem) (objectId_lt hok)
            (fun a ha ha0 => by rw [(hp a ha ha0).1]; exact (hp a ha ha0).2) h1
          rw [er]
          simp only [Option.bind_some]
          obtain ⟨cs', e, hF⟩ := ih (done ++ [nd]) (cs ++ [items']) fuel b2 hreg' hf' h2
          refine ⟨items' :: cs', ?_, .cons ?_ hF⟩
          · have : (done ++ [nd]).map (renode P T) = done.map (renode P T) ++
                [⟨P.place nd.id, resym T P.T nd.ck, resym T P.T nd.rs, resym T P.T nd.an, nd.id⟩] := by
              simp [renode, h0]
            rw [← this, e]
            simp
          · have key : ∀ x ∈ written contents nd, ∀ a, x = Item.ptr a →
                (if a = 0 then 0 else objectPtr (done.map (renode P T) ++ [⟨nd.obj, resym T P.T nd.ck, resym T P.T nd.rs, resym T P.T nd.an, nd.id⟩])
                (objectId reg a)) = if a = 0 then 0 else newAddr P reg a := by
              rintro x hx a rfl
              by_cases ha : a = 0
              · simp [ha]
              · simp only [ha, if_false]; exact (hp a hx ha).1
            clear er e h1
            revert key hF1
            generalize written contents nd = ws
            intro hF1
            induction hF1 with
            | nil => intro _; exact .nil
            | cons hab _ ih' =>
              intro key
              exact .cons (sameItem_mono hab (key _ (by simp)) fun _ _ => rfl) (ih' fun x hx => key x (by simp [hx]))

/-- Reanimation of what one object read. -/
lemma reanimateItems_spec (P : Proc) (T : Syms) (reg : List Node) (hok : RegOk reg)
    (hpl : ∀ nd ∈ reg, P.place nd.id ≠ 0) (θ : ℕ → ℕ) :
    ∀ (items items' : List Item), (∀ a, Item.fptr a ∈ items → a ≠ 0 → objectId reg a ≠ 0) →
      List.Forall₂ (SameItem (fun a => if a = 0 then 0 else newAddr P reg a)
        (fun a => if a = 0 then 0 else objectId reg a) θ) items items' →
      ∃ items'', reanimateItems (reg.map (renode P T)) items' = some items'' ∧
        List.Forall₂ (SameItem (fun a => if a = 0 then 0 else newAddr P reg a)
          (fun a => if a = 0 then 0 else newAddr P reg a) θ) items items'' := by
  intro items items' hf hF
  induction hF with
  | nil => exact ⟨[], rfl, .nil⟩
  | @cons x y l l' hxy _ ih =>
    obtain ⟨items'', e, hF'⟩ := ih fun a ha => hf a (by simp [ha])
    cases y with
    | fptr a' =>
      cases x <;> simp only [SameItem] at hxy
      rename_i a
      refine ⟨.fptr (if a = 0 then 0 else newAddr P reg a) :: items'', ?_, .cons rfl hF'⟩
      simp only [reanimateItems, e, Option.map_some]
      have : reanimateFptr (reg.map (renode P T)) a' = some (if a = 0 then 0 else newAddr P reg a) := by
        unfold reanimateFptr
        subst hxy
        by_cases h0 : a = 0
        · simp [h0]
        · obtain ⟨m, hm, h1, h2⟩ := objectId_ne_zero (hf a (by simp) h0)
          subst h1
          have h3 := objectPtr_renode P T hok hm (List.prefix_refl reg) []
          rw [List.append_nil] at h3
          have h4 : (renode P T m).obj ≠ 0 := by
            simp only [renode]
            split_ifs
            · exact (hok.obj m hm).1
            · exact hpl m hm
          simp only [h0, if_false, ← h2, (hok.id m hm).1, h3, h4, newAddr_mem P hok.objs hm T]
      rw [this]; rfl
    | raw _ =>
      cases x <;> simp only [SameItem] at hxy
      refine ⟨_ :: items'', by simp only [reanimateItems, e, Option.map_some]; rfl, .cons ?_ hF'⟩
      exact hxy
    | data _ =>
      cases x <;> simp only [SameItem] at hxy
      refine ⟨_ :: items'', by simp only [reanimateItems, e, Option.map_some]; rfl, .cons ?_ hF'⟩
      exact hxy
    | str _ =>
      cases x <;> simp only [SameItem] at hxy
      refine ⟨_ :: items'', by simp only [reanimateItems, e, Option.map_some]; rfl, .cons ?_ hF'⟩
      exact hxy
    | ptr _ =>
      cases x <;> simp only [SameItem] at hxy
      refine ⟨_ :: items'', by simp only [reanimateItems, e, Option.map_some]; rfl, .cons ?_ hF'⟩
      exact hxy
    | sym _ =>
      cases x <;> simp only [SameItem] at hxy
      refine ⟨_ :: items'', by simp only [reanimateItems, e, Option.map_some]; rfl, .cons ?_ hF'⟩
      exact hxy

/-- A checkpoint that could be written has only pointers to registered objects. -/
lemma fptr_registered (T : Syms) (reg : List Node) : ∀ (items : List Item) (b : List Byte), checkptItems T reg items = some b →
    ∀ a, (Item.fptr a ∈ items ∨ Item.ptr a ∈ items) → a ≠ 0 → objectId reg a ≠ 0 := by
  intro items
  induction items with
  | nil => intro b _ a ha; simp at ha
  | cons it l ih =>
    intro b hb a ha ha0
    simp only [checkptItems] at hb
    cases h1 : checkptItem T reg it with
    | none => rw [h1] at hb; simp at hb
    | some b1 =>
      cases h2 : checkptItems T reg l with
      | none => rw [h1, h2] at hb; simp at hb
      | some b2 =>
        by_cases hi : it = .fptr a ∨ it = .ptr a
        · have h3 : checkptPtr reg a = some b1 := by
            rcases hi with rfl | rfl <;> exact h1
          intro h
          simp only [checkptPtr, if_neg ha0, if_pos h] at h3
          cases h3
        · refine ih b2 h2 a ?_ ha0
          rcases ha with ha | ha
          · rcases List.mem_cons.1 ha with h | h
            · exact absurd (.inl h.symm) hi
            · exact .inl h
          · rcases List.mem_cons.1 ha with h | h
            · exact absurd (.inr h.symm) hi
            · exact .inr h

lemma checkptNodes_items (T : Syms) (reg : List Node) (contents : ℕ → List Item) (nx : ℕ → ℕ) : ∀ (l : List Node) (b : List Byte),
    checkptNodes T reg contents nx l = some b → ∀ nd ∈ l, ∃ b', checkptItems T reg (written contents nd) = some b' := by
  intro l
  induction l with
  | nil => intro b _ nd h; cases h
  | cons x l ih =>
    intro b hb nd hnd
    have hck : (if x.ck ≠ 0 then checkptItems T reg (contents x.obj) else some []) = checkptItems T reg (written contents x) := by
      unfold written
      by_cases h : x.ck = 0 <;> simp [h, checkptItems]
    simp only [checkptNodes] at hb
    rw [hck] at hb
    cases h1 : checkptItems T reg (written contents x) with
    | none => rw [h1] at hb; simp at hb
    | some b1 =>
      cases h2 : checkptNodes T reg contents nx l with
      | none => rw [h1, h2] at hb; simp at hb
      | some b2 =>
        rcases List.mem_cons.1 hnd with rfl | h
        · exact ⟨b1, h1⟩
        · exact ih b2 h2 nd h

end Verif.Checkpt
