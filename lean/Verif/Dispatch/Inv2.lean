import Verif.Dispatch.Inv

/-!
# Invariant of the dispatcher: which jobs have been executed
-/
namespace Verif.Dispatch

/-- Which jobs have been handed out, executed and reported. -/
structure Inv2 (n D : ℕ) (s : St) : Prop where
  act : ∀ i, Active (s.ws i) → 0 < s.epoch ∧ (s.ws i).job < dispd (n - D) s.host ∧ (s.ws i).job < n - D ∧
    (s.ws i).ep = s.epoch ∧ (s.ws i).flag = (s.ws i).job ∧ s.done (s.ws i).job = false ∧
    ((s.ws i).pc = .flagging → s.runs s.epoch (s.ws i).job = 1) ∧
    ((s.ws i).pc ≠ .flagging → s.runs s.epoch (s.ws i).job = 0)
  inj : ∀ i k, Active (s.ws i) → Active (s.ws k) → (s.ws i).job = (s.ws k).job → i = k
  pend : ∀ j, 0 < s.epoch → j < dispd (n - D) s.host → j < n - D → s.done j = false →
    ∃ i, i < n - D ∧ Active (s.ws i) ∧ (s.ws i).job = j
  once : ∀ j, 0 < s.epoch → j < dispd (n - D) s.host → j < n - D → s.done j = true → s.runs s.epoch j = 1
  todo : ∀ j, 0 < s.epoch → dispd (n - D) s.host ≤ j → j < n - D → s.runs s.epoch j = 0
  own0 : 0 < s.epoch → D = 1 → hostRan s.host = false → s.runs s.epoch (n - D) = 0
  own1 : 0 < s.epoch → D = 1 → hostRan s.host = true → s.runs s.epoch (n - D) = 1
  ownf : 0 < s.epoch → D = 1 → hostFlagged s.host = true → s.done (n - D) = true
  none : ∀ e j, n ≤ j ∨ s.epoch < e ∨ e = 0 → s.runs e j = 0
  past : ∀ e j, 0 < e → e < s.epoch → j < n → s.runs e j = 1
  fin : s.busy = false → 0 < s.epoch → ∀ j < n, s.done j = true
  wait : ∀ id, s.host = .waitAt id → ∀ j < id, j < n → s.done j = true
  ep0 : s.epoch = 0 → ¬ working s.host ∧ s.busy = false
  clear : ∀ id, s.host = .pe id ∨ (∃ i, s.host = .tryl id i) ∨ (∃ i, s.host = .locked id i) →
    s.done id = false

set_option maxHeartbeats 2000000 in
lemma inv2_worker {n D : ℕ} (hD : D ≤ 1) (hn : D ≤ n) {s s' : St} (h1 : Inv1 n D s) (h : Inv2 n D s)
    (i : ℕ) (hi : i < n - D) (hs : workerStep s i = some s') : Inv2 n D s' := by
  have k1 := h1.ownW i
  have k3 := h1.noAck i
  have k4 := h1.wait i
  have k5 := h1.run i
  have k6 := h1.toS i
  have k7 := h1.toW i
  clear h1
  obtain ⟨a1, a2, a3, a4, a5, a6, a7, a8, a9, a10, a11, a12, a13, a14⟩ := h
  have e1 := a1 i
  have d1 : ∀ id, s.host = .pe id ∨ (∃ i, s.host = .tryl id i) ∨ (∃ i, s.host = .locked id i) →
      dispd (n - D) s.host = id := by
    rintro id (h | ⟨_, h⟩ | ⟨_, h⟩) <;> rw [h] <;> rfl
  unfold workerStep at hs
  split at hs
  all_goals try (split at hs)
  all_goals cases hs
  all_goals constructor
  all_goals try simp only [upd, ran]
  all_goals try grind [Active, upd]

set_option maxHeartbeats 2000000 in
lemma inv2_host {n D : ℕ} (hD : D ≤ 1) (hn : D ≤ n) {s s' : St} (h1 : Inv1 n D s) (h : Inv2 n D s)
    (hs : hostStep n D s = some s') : Inv2 n D s' := by
  obtain ⟨k1, k2, k3, k4, k5, k6, k7, k8, k9, -, k11, k12, k13, k14, k15, k16, -, k18, k19, k20⟩ := h1
  obtain ⟨a1, a2, a3, a4, a5, a6, a7, a8, a9, a10, a11, a12, a13, a14⟩ := h
  obtain ⟨ws, done, Id, busy, host, epoch, runs⟩ := s
  cases host
  all_goals simp only [hostStep] at hs
  all_goals try (split at hs)
  all_goals try (split at hs)
  all_goals cases hs
  all_goals simp [dispd, hostRan, hostFlagged, holds, working, halting] at k1 k2 k3 k4 k5 k6 k7 k8 k9 k11 k12 k13 k14 k15 k16 k18 k19 k20 a1 a2 a3 a4 a5 a6 a7 a8 a9 a10 a11 a12 a13 a14
  all_goals constructor
  all_goals try simp [upd, ran, signal, dispd, hostRan, hostFlagged, working, halting]
  all_goals try grind [Active, upd]

set_option maxHeartbeats 1000000 in
lemma inv2_call {n D : ℕ} (hD : D ≤ 1) (hn : D ≤ n) {s s' : St} (h : Inv2 n D s) (c : Call)
    (hs : callStep s c = some s') : Inv2 n D s' := by
  obtain ⟨a1, a2, a3, a4, a5, a6, a7, a8, a9, a10, a11, a12, a13, a14⟩ := h
  cases c <;> simp only [callStep] at hs
  all_goals split at hs
  all_goals cases hs
  all_goals split
  all_goals constructor
  all_goals try grind [Active, upd, dispd, hostRan, hostFlagged, holds, working, halting]

set_option maxHeartbeats 1000000 in
lemma inv2_spurious {n D : ℕ} {s : St} (h : Inv2 n D s) (i : ℕ) (hi : i < n - D)
    (hp : (s.ws i).pc = .waiting) :
    Inv2 n D { s with ws := upd s.ws i { s.ws i with pc := .waking } } := by
  obtain ⟨a1, a2, a3, a4, a5, a6, a7, a8, a9, a10, a11, a12, a13, a14⟩ := h
  constructor
  all_goals try simp only [upd]
  all_goals try grind [Active, upd, dispd, hostRan, hostFlagged, holds, working, halting]

end Verif.Dispatch
