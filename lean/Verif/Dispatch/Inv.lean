import Verif.Dispatch.Model
import Mathlib.Tactic.Ring

/-!
# Invariant of the dispatcher
-/
namespace Verif.Dispatch

/-- The worker has a job it has not reported as done. -/
def Active (w : Worker) : Prop :=
  w.state = .execute ∧ w.pc ≠ .toSleep ∧ w.pc ≠ .toWait ∧ w.pc ≠ .exited

/-- Number of jobs handed to workers in the current dispatch. -/
def dispd (W : ℕ) : HPc → ℕ
  | .disp id => id
  | .pe id => id
  | .tryl id _ => id
  | .locked id _ => id
  | .assigned id _ => id + 1
  | .signalled id _ => id + 1
  | _ => W

/-- The host has executed its own job of the current dispatch. -/
def hostRan : HPc → Bool
  | .disp _ => false
  | .pe _ => false
  | .tryl _ _ => false
  | .locked _ _ => false
  | .assigned _ _ => false
  | .signalled _ _ => false
  | .hostRun _ => false
  | _ => true

/-- The host has set the flag of its own job. -/
def hostFlagged : HPc → Bool
  | .hostFlag _ => false
  | h => hostRan h

/-- The host holds the mutex of worker `i`. -/
def holds (i : ℕ) : HPc → Prop
  | .locked _ k => k = i
  | .assigned _ k => k = i
  | .signalled _ k => k = i
  | .haltLocked k => k = i
  | .haltSet k => k = i
  | .haltSignalled k => k = i
  | _ => False

/-- The host is in `thread_halt`. -/
def halting : HPc → Prop
  | .halted => True
  | .haltAt _ => True
  | .haltLocked _ => True
  | .haltSet _ => True
  | .haltSignalled _ => True
  | .haltJoin _ => True
  | _ => False

/-- The host is in `thread_dispatch` or `thread_wait`. -/
def working : HPc → Prop
  | .idle => False
  | .error => False
  | h => ¬ halting h

/-- The part of the invariant about mutexes and states. -/
structure Inv1 (n D : ℕ) (s : St) : Prop where
  ownW : ∀ i, (s.ws i).owner = .worker ↔ (s.ws i).pc = .top ∨ (s.ws i).pc = .running ∨
    (s.ws i).pc = .flagging ∨ (s.ws i).pc = .toSleep ∨ (s.ws i).pc = .toWait
  ownH : ∀ i, (s.ws i).owner = .host ↔ holds i s.host
  noAck : ∀ i, (s.ws i).state = .sleep ∨ (s.ws i).state = .execute ∨ (s.ws i).state = .terminate
  wait : ∀ i, (s.ws i).pc = .waiting → (s.ws i).state = .sleep ∨
    ((s.ws i).state = .execute ∧ ∃ id, s.host = .assigned id i) ∨
    ((s.ws i).state = .terminate ∧ s.host = .haltSet i)
  run : ∀ i, (s.ws i).pc = .running ∨ (s.ws i).pc = .flagging → (s.ws i).state = .execute
  toS : ∀ i, (s.ws i).pc = .toSleep → (s.ws i).state = .sleep ∨ (s.ws i).state = .execute
  toW : ∀ i, (s.ws i).pc = .toWait → (s.ws i).state = .sleep
  exit : ∀ i, (s.ws i).pc = .exited → (s.ws i).state = .terminate
  term : ∀ i, (s.ws i).state = .terminate → halting s.host
  halt : ∀ i, s.host = .haltSet i ∨ s.host = .haltSignalled i ∨ s.host = .haltJoin i →
    (s.ws i).state = .terminate
  idle : ∀ i, n - D ≤ i → (s.ws i).pc = .toWait ∧ (s.ws i).state = .sleep
  IdLt : s.Id = 0 ∨ s.Id < n - D
  hid : ∀ id i, (s.host = .tryl id i ∨ s.host = .locked id i ∨ s.host = .assigned id i ∨
    s.host = .signalled id i → id < n - D ∧ i < n - D)
  hpe : ∀ id, s.host = .pe id → id < n - D
  hdisp : ∀ id, s.host = .disp id → id ≤ n - D
  hhost : ∀ id, s.host = .hostRun id ∨ s.host = .hostFlag id → id = n - D ∧ D ≠ 0
  hhalt : ∀ id, s.host = .haltLocked id ∨ s.host = .haltSet id ∨ s.host = .haltSignalled id ∨
    s.host = .haltJoin id → id < n - D
  busyW : working s.host → s.busy = true
  busyH : halting s.host → s.busy = false
  asg : ∀ id i, s.host = .assigned id i → (s.ws i).state = .execute

set_option maxHeartbeats 1000000 in
lemma inv1_worker {n D : ℕ} {s s' : St} (h : Inv1 n D s) (i : ℕ) (hi : i < n - D)
    (hs : workerStep s i = some s') : Inv1 n D s' := by
  obtain ⟨h1, h2, h3, h4, h5, h6, h7, h8, h9, h10, h11, h12, h13, h14, h15, h16, h17, h18, h19, h20⟩ := h
  unfold workerStep at hs
  have e1 := h1 i
  have e2 := h2 i
  have e3 := h3 i
  have e4 := h4 i
  have e5 := h5 i
  have e6 := h6 i
  have e7 := h7 i
  have e8 := h8 i
  have e9 := h9 i
  split at hs
  all_goals try (split at hs)
  all_goals cases hs
  all_goals constructor
  all_goals simp only [upd]
  all_goals grind [holds, halting]

set_option maxHeartbeats 1000000 in
lemma inv1_host {n D : ℕ} {s s' : St} (h : Inv1 n D s) (hs : hostStep n D s = some s') :
    Inv1 n D s' := by
  obtain ⟨h1, h2, h3, h4, h5, h6, h7, h8, h9, h10, h11, h12, h13, h14, h15, h16, h17, h18, h19, h20⟩ := h
  unfold hostStep at hs
  split at hs
  all_goals try (split at hs)
  all_goals try (split at hs)
  all_goals cases hs
  all_goals constructor
  all_goals try simp only [upd, signal]
  all_goals grind [holds, halting, working]

lemma inv1_call {n D : ℕ} {s s' : St} (h : Inv1 n D s) (c : Call) (hs : callStep s c = some s') :
    Inv1 n D s' := by
  obtain ⟨h1, h2, h3, h4, h5, h6, h7, h8, h9, h10, h11, h12, h13, h14, h15, h16, h17, h18, h19, h20⟩ := h
  cases c <;> simp only [callStep] at hs
  all_goals split at hs
  all_goals cases hs
  all_goals split
  all_goals constructor
  all_goals grind [holds, halting, working]

lemma inv1_spurious {n D : ℕ} {s : St} (h : Inv1 n D s) (i : ℕ) (hi : i < n - D)
    (hp : (s.ws i).pc = .waiting) :
    Inv1 n D { s with ws := upd s.ws i { s.ws i with pc := .waking } } := by
  obtain ⟨h1, h2, h3, h4, h5, h6, h7, h8, h9, h10, h11, h12, h13, h14, h15, h16, h17, h18, h19, h20⟩ := h
  constructor
  all_goals simp only [upd]
  all_goals grind [holds, halting, working]

end Verif.Dispatch
