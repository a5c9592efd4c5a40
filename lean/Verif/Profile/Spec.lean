import Verif.Profile.Model
import Mathlib.Data.List.DropRight

/-!
# Specification of C120

What the columns of the table mean, from the history of a run alone.
-/
namespace Verif.Profile
open Step (Task)
variable {K : Type} [Field K] [LinearOrder K] [FloorRing K]

/-- The time between the clock readings of the blocks of a timer in a history. -/
def time (h : List (Ev K)) (i : Timer) : K :=
  (h.map fun e => match e with
    | .block j a b _ => if j = i then b - a else 0
    | .update _ => 0).sum

/-- The calls the blocks of a timer stand for. -/
def calls (h : List (Ev K)) (i : Timer) : ℤ :=
  (h.map fun e => match e with
    | .block j _ _ n => if j = i then n else 0
    | .update _ => 0).sum

/-- The part of a history after its last update. -/
def recent (h : List (Ev K)) : List (Ev K) :=
  h.rtakeWhile fun e => match e with
    | .block _ _ _ _ => true
    | .update _ => false

/-- The time of all timers. -/
def allTime (h : List (Ev K)) : K := ∑ i, time h i

/-- The events without clock readings. -/
def shape : Ev K → Shape
  | .block i _ _ n => .block i n
  | .update d => .update d

/-- The timers that appear in the table after a history: those that stand for calls. -/
def shown (h : List (Ev K)) : List Timer :=
  timers.filter fun i => decide (calls (recent h) i ≠ 0 ∨ calls h i ≠ 0)

/-- The timer that a task of a time step belongs to; dropping the movers and printing the status are not timed. -/
def timerOf : Task → Option Timer
  | .sort _ => some .sort_p
  | .clearAcc => some .clear_accumulators
  | .collisions => some .collision_model
  | .userCollisions => some .user_particle_collisions
  | .advanceP _ => some .advance_p
  | .emitters => some .emission_model
  | .userInjection => some .user_particle_injection
  | .reduceAcc => some .reduce_accumulators
  | .boundaryP => some .boundary_p
  | .dropMovers _ => none
  | .clearJf => some .clear_jf
  | .unload => some .unload_accumulator
  | .syncJf => some .synchronize_jf
  | .userCurrent => some .user_current_injection
  | .advanceB _ => some .advance_b
  | .advanceE _ => some .advance_e
  | .userField => some .user_field_injection
  | .clearRhof => some .clear_rhof
  | .accumulateRho _ => some .accumulate_rho_p
  | .syncRho => some .synchronize_rho
  | .computeDivE => some .compute_div_e_err
  | .rmsDivE => some .compute_rms_div_e_err
  | .cleanDivE => some .clean_div_e
  | .computeDivB => some .compute_div_b_err
  | .rmsDivB => some .compute_rms_div_b_err
  | .cleanDivB => some .clean_div_b
  | .syncShared => some .synchronize_tang_e_norm_b
  | .loadInterp => some .load_interpolator
  | .status _ => none
  | .userDiagnostics => some .user_diagnostics

/-- How often the tasks of a timer are done. -/
def done (log : List Task) (i : Timer) : ℤ := log.countP fun t => timerOf t = some i

end Verif.Profile
