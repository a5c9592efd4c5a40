import Verif.Checkpt.Sim
import Mathlib.Tactic.FinCases

/-!
# Checkpoints: when they can be written, a criterion for the order of objects, and a concrete case
-/
namespace Verif.Checkpt

/-- Spec: the pointers of an object. -/
def Item.target : Item → Option ℕ
  | .ptr a => some a
  | .fptr a => some a
  | _ => none

/-- C38: a checkpoint can be written if all pointers are `NULL` or to registered objects. -/
theorem checkpt_succeeds (T : Syms) (contents : ℕ → List Item) (nx : ℕ → ℕ) (s : Svc) (hb : s.booted = true)
    (hid : ∀ nd ∈ s.reg, nd.id ≠ 0)
    (hv : ∀ nd ∈ s.reg, ∀ it ∈ written contents nd, it.Valid)
    (hp : ∀ nd ∈ s.reg, ∀ it ∈ written contents nd, ∀ a, it.target = some a → a ≠ 0 → ∃ m ∈ s.reg, m.obj = a) :
    ∃ bytes, checkptObjects T contents nx s = some bytes := by
  have item : ∀ nd ∈ s.reg, ∀ it ∈ written contents nd, ∃ b, checkptItem T s.reg it = some b := by
    intro nd hnd it hit
    have hptr : ∀ a, it.target = some a → ∃ b, checkptPtr s.reg a = some b := by
      intro a ha
      unfold checkptPtr
      by_cases h0 : a = 0
      · exact ⟨_, if_pos h0⟩
      · obtain ⟨m, hm, e⟩ := hp nd hnd it hit a ha h0
        have : objectId s.reg a ≠ 0 := by
          unfold objectId
          cases hf : s.reg.find? (fun nd => nd.obj = a) with
          | none => exact absurd e (by simpa using List.find?_eq_none.1 hf m hm)
          | some x => exact hid x (List.mem_of_find?_eq_some hf)
        exact ⟨_, by rw [if_neg h0, if_neg this]⟩
    cases it with
    | raw b => exact ⟨_, rfl⟩
    | data B =>
      obtain ⟨h1, h2, h3, _⟩ := hv nd hnd _ hit
      have c1 : ¬ (B.null = true ∧ 0 < B.n * B.sz) := fun ⟨a, b⟩ => by have := h1 a; omega
      have c2 : ¬ (B.max < B.n ∨ B.str < B.sz) := by omega
      exact ⟨_, by simp only [checkptItem, checkptData, if_neg c1, if_neg c2]; rfl⟩
    | str x => exact ⟨_, rfl⟩
    | ptr a => exact hptr a rfl
    | fptr a => exact hptr a rfl
    | sym a => exact ⟨_, rfl⟩
  have items : ∀ l : List Item, (∀ it ∈ l, ∃ b, checkptItem T s.reg it = some b) → ∃ b, checkptItems T s.reg l = some b := by
    intro l
    induction l with
    | nil => exact fun _ => ⟨[], rfl⟩
    | cons it l ih =>
      intro h
      obtain ⟨b1, e1⟩ := h it (by simp)
      obtain ⟨b2, e2⟩ := ih fun x hx => h x (by simp [hx])
      exact ⟨b1 ++ b2, by simp [checkptItems, e1, e2]⟩
  have nodes : ∀ l : List Node, (∀ nd ∈ l, nd ∈ s.reg) → ∃ b, checkptNodes T s.reg contents nx l = some b := by
    intro l
    induction l with
    | nil => exact fun _ => ⟨[], rfl⟩
    | cons nd l ih =>
      intro h
      obtain ⟨b1, e1⟩ := items (written contents nd) (item nd (h nd (by simp)))
      obtain ⟨b2, e2⟩ := ih fun x hx => h x (by simp [hx])
      have hck : (if nd.ck ≠ 0 then checkptItems T s.reg (contents nd.obj) else some []) = some b1 := by
        rw [← e1]
        unfold written
        by_cases h : nd.ck = 0 <;> simp [h, checkptItems]
      exact ⟨_, by rw [checkptNodes, hck, e2]; rfl⟩
  obtain ⟨b, e⟩ := nodes s.reg fun _ h => h
  exact ⟨_, by simp only [checkptObjects, hb, not_true, if_false, e]; rfl⟩

/-- Spec: the pointers read with `restore_ptr`. -/
def earlyPtrs (l : List Item) : List ℕ := l.filterMap fun it => match it with | .ptr a => some a | _ => none

/-- Spec: all of them are to objects before. -/
def inOrder (contents : ℕ → List Item) : List ℕ → List Node → Bool
  | _, [] => true
  | seen, nd :: l => (earlyPtrs (contents nd.obj)).all (fun a => a == 0 || seen.contains a) && inOrder contents (seen ++ [nd.obj]) l

lemma inOrder_spec (contents : ℕ → List Item) : ∀ (l : List Node) (done : List Node), inOrder contents (done.map Node.obj) l = true →
    ∀ l1 nd l2, l = l1 ++ nd :: l2 → ∀ a, Item.ptr a ∈ contents nd.obj → a ≠ 0 → ∃ m ∈ done ++ l1, m.obj = a := by
  intro l
  induction l with
  | nil => intro done _ l1 nd l2 h; simp at h
  | cons x l ih =>
    intro done h l1 nd l2 e a ha h0
    simp only [inOrder, Bool.and_eq_true, List.all_eq_true, Bool.or_eq_true, beq_iff_eq] at h
    cases l1 with
    | nil =>
      simp only [List.nil_append, List.cons.injEq] at e
      obtain ⟨rfl, rfl⟩ := e
      have hm : a ∈ earlyPtrs (contents x.obj) := List.mem_filterMap.2 ⟨_, ha, rfl⟩
      rcases h.1 a hm with h | h
      · exact absurd h h0
      · simpa using h
    | cons y l1 =>
      simp only [List.cons_append, List.cons.injEq] at e
      obtain ⟨rfl, rfl⟩ := e
      have := ih (done ++ [x]) (by simpa using h.2) l1 nd l2 rfl a ha h0
      simpa using this

/-- C38: a criterion for the order of the objects. -/
theorem earlier_of_inOrder (contents : ℕ → List Item) (reg : List Node) (h : inOrder contents [] reg = true) :
    ∀ l1 nd l2, reg = l1 ++ nd :: l2 → ∀ a, Item.ptr a ∈ contents nd.obj → a ≠ 0 → ∃ m ∈ l1, m.obj = a := by
  intro l1 nd l2 e a ha h0
  simpa using inOrder_spec contents reg [] h l1 nd l2 e a ha h0

/-! ### A concrete case -/

namespace Sample

/-- Example: the symbols of the first process. -/
def T : Syms where
  name a := if a = 0 ∨ 256 ≤ a then none else some [Fin.ofNat 256 1, Fin.ofNat 256 (a - 1 + 1)]
  fname _ := none
  find b := match b with
    | [_, x] => x.val
    | _ => 0

/-- Example: the symbols of the second one are elsewhere. -/
def T' : Syms where
  name _ := none
  fname _ := none
  find b := match b with
    | [_, x] => x.val + 4096
    | _ => 0

/-- Example. -/
def L : Layout := ⟨100, 0, 8, 512, 16, 8, 200, 0, 8, 96, 128, 64, 80, 64, 52, 16, 72, 32, 8, 48, 32, 8, 56, 40, 40, 40⟩

/-- Example. -/
def c : Config := ⟨1, 4, 1, 8⟩

/-- Example: some memory. -/
def R : Region := ⟨false, fun k => Fin.ofNat 256 k⟩

/-- Example: the objects, by address: dispatchers and world, two materials, of which one is created after the simulation, a
generator and the main program. -/
def object : ℕ → Obj
  | 16 => .serial 1
  | 32 => .thread 8
  | 48 => .collective 1 4
  | 64 => .rng R
  | 80 => .material R (some [97, 98]) 0
  | 96 => .simulation R 300 64 0 0 fun k => if k = 0 then 112 else 0
  | 112 => .material R (some []) 80
  | _ => .main 96

/-- Example: the restore function at an address. -/
def code (a : ℕ) : Reader :=
  if a = 4096 + 101 then Class.serial.restore L c
  else if a = 4096 + 102 then Class.thread.restore L c
  else if a = 4096 + 103 then Class.collective.restore L c
  else if a = 4096 + 104 then Class.rng.restore L c
  else if a = 4096 + 105 then Class.material.restore L c
  else if a = 4096 + 106 then Class.simulation.restore L c
  else Class.main.restore L c

/-- Example: the second process. -/
def P : Proc := ⟨T', code, fun id => 1000 * id, fun _ => 0⟩

/-- Example: the registry; one object was unregistered. -/
def reg : List Node :=
  [⟨16, 1, 101, 0, 1⟩, ⟨32, 2, 102, 0, 2⟩, ⟨48, 3, 103, 0, 3⟩, ⟨64, 4, 104, 0, 4⟩, ⟨80, 5, 105, 0, 6⟩, ⟨96, 6, 106, 206, 7⟩,
    ⟨112, 5, 105, 0, 8⟩, ⟨128, 7, 107, 0, 9⟩]

lemma T_ok : T.Ok := by
  constructor
  · intro a b h
    simp only [T] at h
    split_ifs at h with h1
    simp only [Option.some.injEq] at h
    subst h
    constructor
    · intro h2
      simp only [List.mem_cons, List.not_mem_nil, or_false] at h2
      rcases h2 with h2 | h2
      · simp [Fin.ext_iff] at h2
      · simp only [Fin.ext_iff, Fin.ofNat] at h2
        push Not at h1
        simp at h2
        omega
    · simp
  · intro a b h; simp [T] at h

lemma resym_eq (a : ℕ) (h : a ≠ 0) (h2 : a < 256) : resym T T' a = a + 4096 := by
  unfold resym
  rw [if_neg h]
  have h3 : ¬ (a = 0 ∨ 256 ≤ a) := by omega
  have e : a - 1 + 1 = a := by omega
  simp only [T, if_neg h3, e, Fin.ofNat, Nat.mod_eq_of_lt h2, if_true, T']

lemma known (a : ℕ) (h2 : a < 256) : SymKnown T T' a := by
  intro h
  rw [resym_eq a h h2]
  omega

lemma regOk : RegOk reg := by
  refine ⟨by decide, by decide, ?_, ?_, ?_⟩ <;> decide

lemma valid_aligned (n al : ℕ) (hn : n < 2 ^ 64) (ha : al < 2 ^ 64) (h : al &&& (al - 1) = 0) : (checkptAligned R n al).Valid := by
  simp [checkptAligned, Item.Valid, R, h]
  exact ⟨hn, ha⟩

lemma valid : ∀ nd ∈ reg, ∀ it ∈ (object nd.obj).items L, it.Valid := by
  have v0 : ∀ n, n < 2 ^ 64 → (checkptAligned R n 0).Valid := fun n h => valid_aligned n 0 h (by norm_num) (by decide)
  have v1 : ∀ n, n < 2 ^ 64 → (checkptAligned R n 128).Valid := fun n h => valid_aligned n 128 h (by norm_num) (by decide)
  intro nd hnd
  simp only [reg, List.mem_cons, List.not_mem_nil, or_false] at hnd
  rcases hnd with rfl | rfl | rfl | rfl | rfl | rfl | rfl | rfl <;> intro it hit
  · simp [object, Obj.items] at hit; subst hit; trivial
  · simp [object, Obj.items] at hit; subst hit; trivial
  · simp [object, Obj.items] at hit; rcases hit with rfl | rfl <;> trivial
  · simp only [object, Obj.items, List.mem_cons, List.not_mem_nil, or_false] at hit; subst hit; exact v1 _ (by decide)
  · simp only [object, Obj.items, List.mem_cons, List.not_mem_nil, or_false] at hit
    rcases hit with rfl | rfl | rfl
    · exact v0 _ (by decide)
    · intro b hb
      obtain rfl := Option.some.inj hb
      decide
    · trivial
  · simp only [object, Obj.items, List.mem_cons, List.mem_append, List.not_mem_nil, or_false, List.mem_map] at hit
    rcases hit with (rfl | rfl | rfl | rfl) | ⟨k, _, rfl⟩
    · exact v0 _ (by decide)
    all_goals trivial
  · simp only [object, Obj.items, List.mem_cons, List.not_mem_nil, or_false] at hit
    rcases hit with rfl | rfl | rfl
    · exact v0 _ (by decide)
    · intro b hb
      obtain rfl := Option.some.inj hb
      decide
    · trivial
  · simp only [object, Obj.items, List.mem_cons, List.not_mem_nil, or_false] at hit; subst hit; trivial

lemma noSym : ∀ nd ∈ reg, ∀ a, Item.sym a ∉ (object nd.obj).items L := by
  intro nd hnd a
  simp only [reg, List.mem_cons, List.not_mem_nil, or_false] at hnd
  rcases hnd with rfl | rfl | rfl | rfl | rfl | rfl | rfl | rfl <;> simp [object, Obj.items, checkptAligned]

lemma simReg : SimReg P T L c object reg where
  known := by
    have h : ∀ nd ∈ reg, nd.ck < 256 ∧ nd.rs < 256 ∧ nd.an < 256 := by decide
    exact fun nd hnd => ⟨known _ (h nd hnd).1, known _ (h nd hnd).2.1, known _ (h nd hnd).2.2⟩
  funcs := by decide
  code := by
    intro nd hnd
    have h : ∀ nd ∈ reg, nd.rs < 256 ∧ nd.rs ≠ 0 := by decide
    have e : resym T P.T nd.rs = nd.rs + 4096 := resym_eq _ (h nd hnd).2 (h nd hnd).1
    rw [e]
    simp only [reg, List.mem_cons, List.not_mem_nil, or_false] at hnd
    rcases hnd with rfl | rfl | rfl | rfl | rfl | rfl | rfl | rfl <;> rfl
  ints := by
    intro nd hnd
    simp only [reg, List.mem_cons, List.not_mem_nil, or_false] at hnd
    rcases hnd with rfl | rfl | rfl | rfl | rfl | rfl | rfl | rfl <;> simp [object, Obj.Ints]
  valid := valid
  symKnown := fun nd hnd a ha => absurd ha (noSym nd hnd a)

lemma compatible : ∀ nd ∈ reg, (object nd.obj).Compatible L c := by
  intro nd hnd
  simp only [reg, List.mem_cons, List.not_mem_nil, or_false] at hnd
  rcases hnd with rfl | rfl | rfl | rfl | rfl | rfl | rfl | rfl <;> simp [object, Obj.Compatible, c]

lemma order : inOrder (fun a => (object a).items L) [] reg = true := by
  simp [reg, inOrder, earlyPtrs, object, Obj.items, checkptAligned, List.finRange, List.filterMap_cons, List.filterMap_append]

/-- Example: the checkpoint of these objects can be written, and a process at other addresses restores them. -/
theorem sample_roundtrip : ∃ bytes, checkptObjects T (fun a => (object a).items L) (fun _ => 77) ⟨true, reg, 10⟩ = some bytes ∧
    ∀ junk, ∃ cs, restart P 9 ⟨true, [], 1⟩ (prepend bytes junk) = some (⟨true, reg.map (renode P T), 10⟩, cs, junk) ∧
      List.Forall₂ (fun nd cts => List.Forall₂ (SameItem (relocate P reg) (relocate P reg) (resym T P.T))
        ((object nd.obj).items L) cts) reg cs := by
  have hw : ∀ nd ∈ reg, written (fun a => (object a).items L) nd = (object nd.obj).items L := by
    intro nd hnd
    unfold written
    rw [if_neg (simReg.funcs nd hnd).1]
  obtain ⟨bytes, hb⟩ := checkpt_succeeds T (fun a => (object a).items L) (fun _ => 77) ⟨true, reg, 10⟩ rfl
    (fun nd h => (regOk.id nd h).1) (by
      intro nd h
      rw [hw nd h]
      exact valid nd h) (by
      intro nd h it hit a ha h0
      rw [hw nd h] at hit
      have key : ∀ b ∈ ([0, 64, 80, 96, 112] : List ℕ), b ≠ 0 → ∃ m ∈ reg, m.obj = b := by decide
      refine key a ?_ h0
      simp only [reg, List.mem_cons, List.not_mem_nil, or_false] at h
      rcases h with rfl | rfl | rfl | rfl | rfl | rfl | rfl | rfl
      · simp [object, Obj.items] at hit; subst hit; simp [Item.target] at ha
      · simp [object, Obj.items] at hit; subst hit; simp [Item.target] at ha
      · simp [object, Obj.items] at hit; rcases hit with rfl | rfl <;> simp [Item.target] at ha
      · simp [object, Obj.items, checkptAligned] at hit; subst hit; simp [Item.target] at ha
      · simp [object, Obj.items, checkptAligned] at hit
        rcases hit with rfl | rfl | rfl <;> simp [Item.target] at ha <;> simp [← ha]
      · simp [object, Obj.items, checkptAligned] at hit
        rcases hit with rfl | rfl | rfl | ⟨k, rfl⟩ <;> simp [Item.target] at ha
        · simp [← ha]
        · simp [← ha]
        · rw [← ha]; split_ifs <;> simp
      · simp [object, Obj.items, checkptAligned] at hit
        rcases hit with rfl | rfl | rfl <;> simp [Item.target] at ha <;> simp [← ha]
      · simp [object, Obj.items] at hit; subst hit; simp [Item.target] at ha; simp [← ha])
  refine ⟨bytes, hb, fun junk => ?_⟩
  exact simulation_roundtrip P T T_ok L (by constructor <;> decide) c object (fun _ => 77) ⟨true, reg, 10⟩ ⟨true, [], 1⟩ rfl regOk
    simReg compatible (earlier_of_inOrder _ reg order) (by
      intro nd hnd h
      change nd ∈ reg at hnd
      simp only [reg, List.mem_cons, List.not_mem_nil, or_false] at hnd
      rcases hnd with rfl | rfl | rfl | rfl | rfl | rfl | rfl | rfl <;> first | exact Nat.succ_ne_zero _ | (simp [object, Obj.cls] at h)) (by
      intro nd hnd
      have : ∀ nd ∈ reg, nd.id ≠ 0 := by decide
      have := this nd hnd
      simp [P]
      exact this) (by norm_num) bytes hb junk 9 (by simp [reg])

/-- Example: pointers of this registry in the second process. -/
example : relocate P reg 64 = 4000 ∧ relocate P reg 112 = 8000 ∧ relocate P reg 0 = 0 := by decide

/-- Example: a process with seven thread pipelines. -/
def P7 : Proc :=
  { P with code := fun a => if a = 4096 + 102 then Class.thread.restore L ⟨1, 4, 1, 7⟩ else
      if a = 4096 + 101 then Class.serial.restore L ⟨1, 4, 1, 7⟩ else
      if a = 4096 + 103 then Class.collective.restore L ⟨1, 4, 1, 7⟩ else
      if a = 4096 + 104 then Class.rng.restore L ⟨1, 4, 1, 7⟩ else
      if a = 4096 + 105 then Class.material.restore L ⟨1, 4, 1, 7⟩ else
      if a = 4096 + 106 then Class.simulation.restore L ⟨1, 4, 1, 7⟩ else Class.main.restore L ⟨1, 4, 1, 7⟩ }

/-- Example: the same checkpoint is rejected by it. -/
theorem sample_rejected (bytes : List Byte)
    (hb : checkptObjects T (fun a => (object a).items L) (fun _ => 77) ⟨true, reg, 10⟩ = some bytes) (junk : Src) (fuel : ℕ) (s0 : Svc) :
    restart P7 fuel s0 (prepend bytes junk) = none := by
  refine incompatible_file_rejected P7 T T_ok L (by constructor <;> decide) ⟨1, 4, 1, 7⟩ object (fun _ => 77) ⟨true, reg, 10⟩ s0 regOk
    ⟨simReg.known, simReg.funcs, ?_, simReg.ints, simReg.valid, simReg.symKnown⟩ ⟨⟨32, 2, 102, 0, 2⟩, by simp [reg], ?_⟩ bytes hb junk fuel
  · intro nd hnd
    change nd ∈ reg at hnd
    have h : ∀ nd ∈ reg, nd.rs < 256 ∧ nd.rs ≠ 0 := by decide
    have e : resym T P7.T nd.rs = nd.rs + 4096 := resym_eq _ (h nd hnd).2 (h nd hnd).1
    rw [e]
    simp only [reg, List.mem_cons, List.not_mem_nil, or_false] at hnd
    rcases hnd with rfl | rfl | rfl | rfl | rfl | rfl | rfl | rfl <;> rfl
  · simp [object, Obj.Compatible]

/-- Example: a history in which the first object is unregistered; its id is not used again. -/
theorem sample_history : Reachable ⟨true, [⟨32, 2, 102, 0, 2⟩, ⟨16, 1, 101, 0, 3⟩], 4⟩ := by
  refine .step (s := ⟨true, [⟨32, 2, 102, 0, 2⟩], 3⟩) ?_ (.register (obj := 16) (ck := 1) (rs := 101) (an := 0) (by rfl) (by norm_num)
    (by norm_num) (by norm_num) (by norm_num) (by norm_num))
  refine .step (s := ⟨true, [⟨16, 1, 101, 0, 1⟩, ⟨32, 2, 102, 0, 2⟩], 3⟩) ?_ (.unregister (obj := 16) (by rfl))
  refine .step (s := ⟨true, [⟨16, 1, 101, 0, 1⟩], 2⟩) ?_ (.register (obj := 32) (ck := 2) (rs := 102) (an := 0) (by rfl) (by norm_num)
    (by norm_num) (by norm_num) (by norm_num) (by norm_num))
  refine .step (s := ⟨true, [], 1⟩) ?_ (.register (obj := 16) (ck := 1) (rs := 101) (an := 0) (by rfl) (by norm_num)
    (by norm_num) (by norm_num) (by norm_num) (by norm_num))
  exact .boot (s := ⟨false, [], 1⟩) rfl

end Sample

end Verif.Checkpt
