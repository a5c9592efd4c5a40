import Verif.Checkpt.Props

/-! # C39: the service can be halted exactly if every object that was registered has been unregistered -/
namespace Verif.Checkpt

/-- Spec: a call of `register_object` or `unregister_object`. -/
inductive Call
  | reg (obj ck rs an : ℕ)
  | unreg (obj : ℕ)

/-- Spec: what a call does. -/
def Call.run (s : Svc) : Call → Option Svc
  | .reg obj ck rs an => register s obj ck rs an
  | .unreg obj => unregister s obj

/-- Spec: whether the call registers the object, whether it unregisters it. -/
def Call.isReg (a : ℕ) : Call → Bool
  | .reg obj _ _ _ => obj = a
  | .unreg _ => false

@[inherit_doc Call.isReg] def Call.isUnreg (a : ℕ) : Call → Bool
  | .reg _ _ _ _ => false
  | .unreg obj => obj = a

/-- How often the object is in the registry. -/
def occ (a : ℕ) (reg : List Node) : ℕ := reg.countP fun nd => nd.obj = a

theorem occ_remove (a b : ℕ) : ∀ l : List Node, (l.find? fun nd => nd.obj = b).isNone = false →
    occ a l = occ a (removeFirst b l) + if b = a then 1 else 0
  | [], h => by simp at h
  | nd :: l, h => by
    unfold removeFirst
    by_cases hb : nd.obj = b
    · rw [if_pos hb]
      subst hb
      simp [occ, List.countP_cons]
    · rw [if_neg hb]
      have h' : (l.find? fun nd => nd.obj = b).isNone = false := by
        rw [List.find?_cons_of_neg (by simpa using hb)] at h
        exact h
      have := occ_remove a b l h'
      unfold occ at this ⊢
      rw [List.countP_cons, List.countP_cons, this]
      omega

theorem calls_occ : ∀ (cs : List Call) (s s' : Svc), cs.foldlM Call.run s = some s' → s.booted = true →
    s'.booted = true ∧ ∀ a, occ a s'.reg + cs.countP (Call.isUnreg a) = occ a s.reg + cs.countP (Call.isReg a)
  | [], s, s', h, hb => by cases h; exact ⟨hb, fun a => rfl⟩
  | c :: cs, s, s', h, hb => by
    rw [List.foldlM_cons] at h
    simp only [Option.bind_eq_bind, Option.bind_eq_some_iff] at h
    obtain ⟨s1, h1, h2⟩ := h
    have hs1 : s1.booted = true ∧ ∀ a, occ a s1.reg + (if Call.isUnreg a c then 1 else 0) = occ a s.reg + if Call.isReg a c then 1 else 0 := by
      cases c with
      | reg obj ck rs an =>
        simp only [Call.run, register] at h1
        split_ifs at h1
        cases h1
        refine ⟨hb, fun a => ?_⟩
        simp [occ, Call.isReg, Call.isUnreg, List.countP_append, List.countP_cons]
      | unreg obj =>
        simp only [Call.run, unregister] at h1
        split_ifs at h1 with h4
        cases h1
        refine ⟨hb, fun a => ?_⟩
        have := occ_remove a obj s.reg (by simpa using h4)
        simp only [Call.isReg, Call.isUnreg, decide_eq_true_eq]
        simp only [Bool.false_eq_true, if_false]
        omega
    obtain ⟨h3, h4⟩ := calls_occ cs s1 s' h2 hs1.1
    refine ⟨h3, fun a => ?_⟩
    have := h4 a
    have := hs1.2 a
    rw [List.countP_cons, List.countP_cons]
    omega

/-- **C39**: after any series of calls that succeeded, the service can be halted exactly if each object was unregistered as often as it was registered;
nothing is left then, and the service can be started again. -/
theorem halt_iff {s0 s s' : Svc} (h0 : boot s0 = some s) (cs : List Call) (h : cs.foldlM Call.run s = some s') :
    ((halt s').isSome ↔ ∀ a, cs.countP (Call.isReg a) = cs.countP (Call.isUnreg a)) ∧
      ∀ s'', halt s' = some s'' → (∀ a, objectId s''.reg a = 0) ∧ ∃ s3, boot s'' = some s3 := by
  unfold boot at h0
  split_ifs at h0
  cases h0
  obtain ⟨hb, ho⟩ := calls_occ cs _ s' h rfl
  have hz : ∀ a, occ a ([] : List Node) = 0 := fun a => rfl
  refine ⟨?_, ?_⟩
  · unfold halt
    rw [if_neg (by simp [hb])]
    by_cases hr : s'.reg = []
    · rw [if_neg (by simp [hr])]
      refine ⟨fun _ a => ?_, fun _ => rfl⟩
      have := ho a
      rw [hr] at this
      simp only [hz] at this
      omega
    · rw [if_pos hr]
      refine ⟨fun h => by simp at h, fun hall => ?_⟩
      exfalso
      obtain ⟨nd, l, e⟩ := List.exists_cons_of_ne_nil hr
      have h1 := ho nd.obj
      have h2 := hall nd.obj
      simp only [hz] at h1
      have h3 : occ nd.obj s'.reg ≥ 1 := by rw [e]; simp [occ, List.countP_cons]
      omega
  · intro s'' hh
    unfold halt at hh
    split_ifs at hh with h2
    cases hh
    simp only [ne_eq, not_not] at h2
    exact ⟨fun a => by simp [objectId, h2], ⟨true, [], 1⟩, rfl⟩

/-- The service cannot be halted, nor used, before it is started, and not started twice. -/
theorem not_booted {s : Svc} (h : s.booted = false) (c : Call) : halt s = none ∧ c.run s = none ∧ ∀ s', boot s = some s' → boot s' = none := by
  refine ⟨by simp [halt, h], ?_, ?_⟩
  · cases c <;> simp [Call.run, register, unregister, h]
  · intro s' hs
    simp only [boot, h] at hs
    cases hs
    rfl

/-- Example: two objects registered and unregistered. -/
example : (do let s ← boot ⟨false, [], 7⟩; let s ← [Call.reg 16 1 101 0, .reg 32 2 102 0, .unreg 16, .unreg 32].foldlM Call.run s; halt s).isSome := by
  decide

end Verif.Checkpt
