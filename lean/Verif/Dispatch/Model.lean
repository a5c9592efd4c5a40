import Mathlib.Data.Nat.Basic

/-!
# The thread dispatcher

Model of /repo/src/util/pipelines/pipelines_thread.cc as a transition system of the host and the worker
threads.  Every access to shared variables and every pthread call is a step of its own, except that
the fields of a job are written in one step (lines 409-414, the host holds the mutex).  Memory is
sequentially consistent.  A job function is one step (it may be arbitrarily long, it returns).
`n` is `thread.n_pipeline`, `D` is `Dispatch_To_Host`.
-/
namespace Verif.Dispatch

/-- Lines 49-54. -/
inductive PState | sleep | execute | terminate | ack
deriving DecidableEq

/-- Holder of a mutex. -/
inductive Owner | free | worker | host
deriving DecidableEq

/-- Where a worker is in `pipeline_mgr`, lines 461-517: in `pthread_cond_wait` (508), woken up and about
to lock the mutex (508), at the switch (477), in the job function (494), setting the flag (495),
setting the state (507), calling `pthread_cond_wait` (508), returned (485). -/
inductive WPc | waiting | waking | top | running | flagging | toSleep | toWait | exited
deriving DecidableEq

/-- `pipeline_state_t`, lines 56-66, and the position of the thread.  `ep` stands for `func` and `args`:
the number of the dispatch that gave the job. -/
structure Worker where
  pc : WPc
  state : PState
  owner : Owner
  ep : ℕ
  job : ℕ
  flag : ℕ
deriving DecidableEq

/-- Where the host is: outside of the dispatcher; in `thread_dispatch` (`disp`: lines 534-535 and
543-544, `hostRun`: 545, `hostFlag`: 546), in `parallel_execute` (`pe`: line 391, `tryl`: 393,
`locked`: 399, `assigned`: 415, `signalled`: 416), in `thread_wait` (lines 562-563), in `thread_halt`
(`haltAt`: lines 282-288, `haltLocked`: 289, `haltSet`: 290, `haltSignalled`: 291, `haltJoin`: 299),
stopped. -/
inductive HPc
  | idle | error | halted
  | disp (id : ℕ) | hostRun (id : ℕ) | hostFlag (id : ℕ)
  | pe (id : ℕ) | tryl (id i : ℕ) | locked (id i : ℕ) | assigned (id i : ℕ) | signalled (id i : ℕ)
  | waitAt (id : ℕ)
  | haltAt (id : ℕ) | haltLocked (id : ℕ) | haltSet (id : ℕ) | haltSignalled (id : ℕ) | haltJoin (id : ℕ)
deriving DecidableEq

/-- All shared variables, lines 68-73.  `epoch` (number of dispatch calls) and `runs` (how often job `j`
of dispatch `e` has been executed) are only there to state the properties. -/
structure St where
  ws : ℕ → Worker
  done : ℕ → Bool
  Id : ℕ
  busy : Bool
  host : HPc
  epoch : ℕ
  runs : ℕ → ℕ → ℕ

/-- Assignment to one element. -/
def upd {α : Type*} (f : ℕ → α) (i : ℕ) (a : α) : ℕ → α := fun x => if x = i then a else f x

/-- A job has been executed once more. -/
def ran (runs : ℕ → ℕ → ℕ) (e j : ℕ) : ℕ → ℕ → ℕ :=
  fun e' j' => if e' = e ∧ j' = j then runs e' j' + 1 else runs e' j'

/-- A step of worker `i`, lines 461-517.  `none`: blocked or ended. -/
def workerStep (s : St) (i : ℕ) : Option St :=
  match (s.ws i).pc with
  | .waiting => none
  | .waking =>
    if (s.ws i).owner = .free then
      some { s with ws := upd s.ws i { s.ws i with owner := .worker, pc := .top } }
    else none
  | .top =>
    match (s.ws i).state with
    | .terminate => some { s with ws := upd s.ws i { s.ws i with owner := .free, pc := .exited } }
    | .execute => some { s with ws := upd s.ws i { s.ws i with pc := .running } }
    | _ => some { s with ws := upd s.ws i { s.ws i with pc := .toSleep } }
  | .running => some { s with ws := upd s.ws i { s.ws i with pc := .flagging },
                              runs := ran s.runs (s.ws i).ep (s.ws i).job }
  | .flagging => some { s with ws := upd s.ws i { s.ws i with pc := .toSleep },
                               done := upd s.done (s.ws i).flag true }
  | .toSleep => some { s with ws := upd s.ws i { s.ws i with state := .sleep, pc := .toWait } }
  | .toWait => some { s with ws := upd s.ws i { s.ws i with owner := .free, pc := .waiting } }
  | .exited => none

/-- `pthread_cond_signal`: wakes the worker if it is waiting. -/
def signal (w : Worker) : Worker := if w.pc = .waiting then { w with pc := .waking } else w

/-- A step of the host inside of a call.  `none`: blocked or not inside of a call. -/
def hostStep (n D : ℕ) (s : St) : Option St :=
  match s.host with
  | .idle => none
  | .error => none
  | .halted => none
  | .disp id =>
    if id < n - D then some { s with done := upd s.done id false, host := .pe id }
    else if D ≠ 0 then some { s with done := upd s.done id false, host := .hostRun id }
    else some { s with host := .idle }
  | .hostRun id => some { s with host := .hostFlag id, runs := ran s.runs s.epoch id }
  | .hostFlag id => some { s with host := .idle, done := upd s.done id true }
  | .pe id => some { s with host := .tryl id s.Id, Id := if s.Id + 1 ≥ n - D then 0 else s.Id + 1 }
  | .tryl id i =>
    if (s.ws i).owner = .free then
      some { s with host := .locked id i, ws := upd s.ws i { s.ws i with owner := .host } }
    else some { s with host := .pe id }
  | .locked id i =>
    match (s.ws i).state with
    | .sleep => some { s with host := .assigned id i, ws := upd s.ws i { s.ws i with
        state := .execute, ep := s.epoch, job := id, flag := id } }
    | .terminate => some { s with host := .error, ws := upd s.ws i { s.ws i with owner := .free } }
    | _ => some { s with host := .pe id, ws := upd s.ws i { s.ws i with owner := .free } }
  | .assigned id i => some { s with host := .signalled id i, ws := upd s.ws i (signal (s.ws i)) }
  | .signalled id i =>
    some { s with host := .disp (id + 1), ws := upd s.ws i { s.ws i with owner := .free } }
  | .waitAt id =>
    if id < n then
      if s.done id then some { s with host := .waitAt (id + 1) } else some s
    else some { s with host := .idle, busy := false }
  | .haltAt id =>
    if id < n - D then
      if (s.ws id).owner = .free then
        some { s with host := .haltLocked id, ws := upd s.ws id { s.ws id with owner := .host } }
      else none
    else some { s with host := .halted }
  | .haltLocked id =>
    some { s with host := .haltSet id, ws := upd s.ws id { s.ws id with state := .terminate } }
  | .haltSet id => some { s with host := .haltSignalled id, ws := upd s.ws id (signal (s.ws id)) }
  | .haltSignalled id =>
    some { s with host := .haltJoin id, ws := upd s.ws id { s.ws id with owner := .free } }
  | .haltJoin id => if (s.ws id).pc = .exited then some { s with host := .haltAt (id + 1) } else none

/-- The calls the host can make. -/
inductive Call | dispatch | wait | halt
deriving DecidableEq

/-- Beginning of a call: lines 524-531, 554-561, 267-281. -/
def callStep (s : St) : Call → Option St
  | .dispatch => if s.host = .idle then
      some (if s.busy then { s with host := .error }
        else { s with busy := true, host := .disp 0, epoch := s.epoch + 1 }) else none
  | .wait => if s.host = .idle then
      some (if s.busy then { s with host := .waitAt 0 } else { s with host := .error }) else none
  | .halt => if s.host = .idle then
      some (if s.busy then { s with host := .error } else { s with host := .haltAt 0 }) else none

/-- Who makes a step.  `spurious i`: worker `i` returns from `pthread_cond_wait` without a signal. -/
inductive Act | worker (i : ℕ) | host | call (c : Call) | spurious (i : ℕ)
deriving DecidableEq

/-- The effect of an action; `none` when it is not possible. -/
def act (n D : ℕ) (s : St) : Act → Option St
  | .worker i => if i < n - D then workerStep s i else none
  | .host => hostStep n D s
  | .call c => callStep s c
  | .spurious i => if i < n - D ∧ (s.ws i).pc = .waiting then
      some { s with ws := upd s.ws i { s.ws i with pc := .waking } } else none

/-- The state when `thread_boot` returns (lines 188-232): every worker has set its state to sleep, holds
its mutex and is about to call `pthread_cond_wait`. -/
structure Booted (s : St) : Prop where
  ws : ∀ i, (s.ws i).pc = .toWait ∧ (s.ws i).state = .sleep ∧ (s.ws i).owner = .worker
  Id : s.Id = 0
  busy : s.busy = false
  host : s.host = .idle
  epoch : s.epoch = 0
  runs : ∀ e j, s.runs e j = 0

/-- States reachable after boot. -/
inductive Reachable (n D : ℕ) : St → Prop
  | boot {s} : Booted s → Reachable n D s
  | step {s s'} (a : Act) : Reachable n D s → act n D s a = some s' → Reachable n D s'

end Verif.Dispatch
