import Mathlib.Data.Nat.Basic
import Mathlib.Logic.Relation

/-!
# Turnstile

Model of `BEGIN_TURNSTILE`/`END_TURNSTILE`, /repo/src/util/mp/mp.h:37-46, as a transition system of
`N` ranks.  `mp_send_i`/`mp_recv_i` are the blocking `MPI_Send`/`MPI_Recv`
(/repo/src/util/mp/DMPPolicy.h:200-214): MPI may buffer a message, or block the sender until the
receiver takes it, and may choose differently for each message.
-/
namespace Verif.Turnstile

/-- Where a rank is: before the section (waiting for the baton if it needs one), in the section,
sending the baton, behind the section. -/
inductive Pc | start | inside | sending | done
deriving DecidableEq

/-- State of all ranks; `mail r` counts the buffered messages from rank `r - n` to rank `r`. -/
structure St where
  pc : ℕ → Pc
  mail : ℕ → ℕ

/-- All ranks in front of the section, no messages. -/
def init : St := ⟨fun _ => .start, fun _ => 0⟩

/-- Update of one rank. -/
def upd {α : Type*} (f : ℕ → α) (r : ℕ) (a : α) : ℕ → α := fun x => if x = r then a else f x

/-- One step of a rank among `N` ranks, with `n` turnstiles, /repo/src/util/mp/mp.h:37-46. -/
inductive Step (n N : ℕ) : St → St → Prop
  /-- line 39 is false: no baton needed. -/
  | enter (s : St) (r : ℕ) : r < N → ¬ n ≤ r → s.pc r = .start →
      Step n N s { s with pc := upd s.pc r .inside }
  /-- line 40: take a buffered baton. -/
  | recv (s : St) (r : ℕ) : r < N → n ≤ r → s.pc r = .start → 0 < s.mail r →
      Step n N s ⟨upd s.pc r .inside, upd s.mail r (s.mail r - 1)⟩
  /-- line 44: leave the section. -/
  | leave (s : St) (r : ℕ) : r < N → s.pc r = .inside →
      Step n N s { s with pc := upd s.pc r (if r + n < N then .sending else .done) }
  /-- line 45, MPI buffers the message. -/
  | send (s : St) (r : ℕ) : r < N → s.pc r = .sending →
      Step n N s ⟨upd s.pc r .done, upd s.mail (r + n) (s.mail (r + n) + 1)⟩
  /-- line 45 and line 40 of the receiver, MPI does not buffer the message. -/
  | rendezvous (s : St) (r : ℕ) : r < N → r + n < N → s.pc r = .sending → s.pc (r + n) = .start →
      n ≤ r + n → r ≠ r + n → s.mail (r + n) = 0 →
      Step n N s { s with pc := upd (upd s.pc r .done) (r + n) .inside }

/-- Runs of `k` steps. -/
inductive Run (n N : ℕ) : ℕ → St → Prop
  | zero : Run n N 0 init
  | succ {k s s'} : Run n N k s → Step n N s s' → Run n N (k + 1) s'

end Verif.Turnstile
