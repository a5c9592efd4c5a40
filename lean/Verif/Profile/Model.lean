import Mathlib.Algebra.Order.Floor.Defs
import Mathlib.Algebra.Order.Field.Basic
import Mathlib.Algebra.BigOperators.Fin
import Mathlib.Data.Fintype.Basic
import Verif.Step.Model

/-!
# The profile of a run

Model of /repo/src/util/profile/profile.h and profile.cc: the timers, the blocks `TIC ... TOC` that feed them and
`update_profile`, which adds them to the totals, prints the table and starts the next interval; and of the blocks of
`vpic_simulation::advance`, /repo/src/vpic/advance.cc.  Times are exact; counts are `int`, whose overflow is undefined
(`none`).  How the numbers of a row are printed as text is left out, apart from the conversion of the percentages to `int`.
-/
namespace Verif.Profile

/-- The timers, in the order of `PROFILE_TIMERS`, profile.h:11-44. -/
inductive Timer where
  | clear_accumulators | sort_p | collision_model | advance_p | reduce_accumulators | emission_model | boundary_p
  | clear_jf | unload_accumulator | synchronize_jf | advance_b | advance_e | clear_rhof | accumulate_rho_p
  | synchronize_rho | compute_div_e_err | compute_rms_div_e_err | clean_div_e | compute_div_b_err
  | compute_rms_div_b_err | clean_div_b | synchronize_tang_e_norm_b | load_interpolator | compute_curl_b | compute_rhob
  | center_p | uncenter_p | user_initialization | user_particle_collisions | user_particle_injection
  | user_current_injection | user_field_injection | user_diagnostics
  deriving DecidableEq, Repr

/-- The array `profile_internal_use_only` without its end mark, profile.cc:4-9: one entry for each line of
`PROFILE_TIMERS`. -/
def timers : List Timer :=
  [.clear_accumulators, .sort_p, .collision_model, .advance_p, .reduce_accumulators, .emission_model, .boundary_p,
   .clear_jf, .unload_accumulator, .synchronize_jf, .advance_b, .advance_e, .clear_rhof, .accumulate_rho_p,
   .synchronize_rho, .compute_div_e_err, .compute_rms_div_e_err, .clean_div_e, .compute_div_b_err,
   .compute_rms_div_b_err, .clean_div_b, .synchronize_tang_e_norm_b, .load_interpolator, .compute_curl_b, .compute_rhob,
   .center_p, .uncenter_p, .user_initialization, .user_particle_collisions, .user_particle_injection,
   .user_current_injection, .user_field_injection, .user_diagnostics]

instance : Fintype Timer := ⟨⟨timers, by decide⟩, fun i => by cases i <;> decide⟩

/-- The numbers of `profile_internal_use_only_timer_t`, profile.h:76-80. -/
structure Entry (K : Type) where
  t : K
  tTotal : K
  n : ℤ
  nTotal : ℤ

/-- One line of the table, the arguments of `log_printf`, profile.cc:51-59. -/
structure Row (K : Type) where
  name : Timer
  pct : ℤ
  t : K
  n : ℤ
  per : K
  pctTotal : ℤ
  tTotal : K
  nTotal : ℤ
  perTotal : K

/-- What a program does with the profile: a block `TIC ... TOC( timer, n_calls )` that reads the clock at `tic` and at `toc`,
and `update_profile( dump )`. -/
inductive Ev (K : Type) where
  | block (i : Timer) (tic toc : K) (calls : ℤ)
  | update (dump : Bool)

/-- Values of `int`. -/
def IsInt (z : ℤ) : Prop := -2 ^ 31 ≤ z ∧ z < 2 ^ 31

instance (z : ℤ) : Decidable (IsInt z) := by unfold IsInt; infer_instance

variable {K : Type} [Field K] [LinearOrder K] [FloorRing K]

/-- The initial values, profile.cc:5. -/
def start : Timer → Entry K := fun _ => ⟨0, 0, 0, 0⟩

/-- `DBL_EPSILON`. -/
def eps : K := 1 / 2 ^ 52

/-- The conversion of a finite `double` to `int`: the fraction is cut off; a value out of range is undefined. -/
def toInt (x : K) : Option ℤ :=
  let z := if 0 ≤ x then ⌊x⌋ else ⌈x⌉
  if IsInt z then some z else none

/-- `(int)( 100.*t/sum + 0.5 )`, profile.cc:53, 56; with `sum` zero the quotient is no number or infinite and its conversion
undefined. -/
def percent (t sum : K) : Option ℤ :=
  if sum = 0 then none else toInt (100 * t / sum + 1 / 2)

/-- One line, profile.cc:51-59. -/
def row (e : Entry K) (i : Timer) (sum sumTotal : K) : Option (Row K) :=
  match percent e.t sum, percent e.tTotal sumTotal with
  | some p, some q => some ⟨i, p, e.t, e.n, e.t / (eps + e.n), q, e.tTotal, e.nTotal, e.tTotal / (eps + e.nTotal)⟩
  | _, _ => none

/-- The loop over the timers, profile.cc:46-60. -/
def rows (s : Timer → Entry K) (sum sumTotal : K) : List Timer → Option (List (Row K))
  | [] => some []
  | i :: l =>
    if (s i).n = 0 ∧ (s i).nTotal = 0 then rows s sum sumTotal l
    else match row (s i) i sum sumTotal, rows s sum sumTotal l with
      | some r, some rs => some (r :: rs)
      | _, _ => none

/-- `TOC`, profile.h:58-64. -/
def block (s : Timer → Entry K) (i : Timer) (tic toc : K) (calls : ℤ) : Option (Timer → Entry K) :=
  if IsInt ((s i).n + calls) then
    some fun j => if j = i then { s i with t := (s i).t + (toc - tic), n := (s i).n + calls } else s j
  else none

/-- `update_profile`, profile.cc:11-68: the state after it and the table it prints, if it does.  Each loop visits every
timer once, so they are written as operations on all timers; in exact arithmetic the order of the sums does not matter. -/
def update (s : Timer → Entry K) (dump : Bool) : Option ((Timer → Entry K) × List (List (Row K))) :=
  if ∀ i ∈ timers, IsInt ((s i).nTotal + (s i).n) then
    -- 16-21
    let s1 := fun i => { s i with tTotal := (s i).tTotal + (s i).t, nTotal := (s i).nTotal + (s i).n }
    let sum := (timers.map fun i => (s i).t).sum
    let sumTotal := (timers.map fun i => (s1 i).tTotal).sum
    -- 25
    let sum := if sum = 0 then 1 else sum
    -- 64-67
    let s2 := fun i => { s1 i with t := 0, n := 0 }
    if dump then (rows s1 sum sumTotal timers).map fun r => (s2, [r])
    else some (s2, [])
  else none

/-- One event. -/
def ev (s : Timer → Entry K) : Ev K → Option ((Timer → Entry K) × List (List (Row K)))
  | .block i a b c => (block s i a b c).map fun s => (s, [])
  | .update d => update s d

/-- A history: the state after it and the tables printed, in order. -/
def run (s : Timer → Entry K) : List (Ev K) → Option ((Timer → Entry K) × List (List (Row K)))
  | [] => some (s, [])
  | e :: h =>
    match ev s e with
    | none => none
    | some (s, r) => (run s h).map fun q => (q.1, r ++ q.2)

/-! ## The blocks of a time step -/

/-- An event without its clock readings. -/
inductive Shape where
  | block (i : Timer) (calls : ℤ)
  | update (dump : Bool)
  deriving DecidableEq, Repr

open Step (Cfg due) in
/-- The rounds of the divergence cleaners, advance.cc:148-155, 163-170. -/
def roundBlocks (n : ℤ) (compute rms clean : Timer) : List Shape :=
  ((List.range n.toNat).map fun (r : ℕ) =>
    Shape.block compute 1 :: ((if r = 0 ∨ (r : ℤ) = n - 1 then [Shape.block rms 1] else []) ++ [Shape.block clean 1])).flatten

open Step (Cfg due) in
/-- The blocks of `advance`, advance.cc:24-198, on a rank that is rank 0 or not.  In line 145 the number of calls is the `id`
of the head of the species list, which is the number of species less one (`append_species`,
/repo/src/species_advance/species_advance.cc:104-106). -/
def stepBlocks (c : Cfg) (rank0 : Bool) (step : ℤ) : List Shape :=
  if c.numStep > 0 ∧ step ≥ c.numStep then []
  else
  -- 24-29
  (c.sorts.map fun iv => if due iv step then [Shape.block .sort_p 1] else []).flatten
  -- 36-37, 45-47
  ++ (if c.sorts ≠ [] then [.block .clear_accumulators 1] else [])
  ++ (if c.hasCollisions then [.block .collision_model 1] else [])
  ++ [.block .user_particle_collisions 1]
  -- 49-50, 58-60, 65-66
  ++ c.sorts.map (fun _ => Shape.block .advance_p 1)
  ++ (if c.hasEmitters then [.block .emission_model 1] else [])
  ++ [.block .user_particle_injection 1]
  ++ (if c.sorts ≠ [] then [.block .reduce_accumulators 1] else [])
  -- 73-77
  ++ [.block .boundary_p c.numCommRound]
  -- 107-110
  ++ [.block .clear_jf 1]
  ++ (if c.sorts ≠ [] then [.block .unload_accumulator 1] else [])
  -- 110-137
  ++ [.block .synchronize_jf 1, .block .user_current_injection 1, .block .advance_b 1, .block .advance_e 1,
      .block .user_field_injection 1, .block .advance_b 1]
  -- 141-156
  ++ (if due c.cleanDivEInterval step then
        [.block .clear_rhof 1]
        ++ (if c.sorts ≠ [] then [.block .accumulate_rho_p ((c.sorts.length : ℤ) - 1)] else [])
        ++ [.block .synchronize_rho 1]
        ++ roundBlocks c.numDivERound .compute_div_e_err .compute_rms_div_e_err .clean_div_e
      else [])
  -- 160-171
  ++ (if due c.cleanDivBInterval step then
        roundBlocks c.numDivBRound .compute_div_b_err .compute_rms_div_b_err .clean_div_b
      else [])
  -- 175-179, 185
  ++ (if due c.syncSharedInterval step then [.block .synchronize_tang_e_norm_b 1] else [])
  ++ (if c.sorts ≠ [] then [.block .load_interpolator 1] else [])
  -- 191-198
  ++ (if due c.statusInterval (step + 1) then [.update rank0] else [])
  ++ [.block .user_diagnostics 1]

/-- The blocks of `n` consecutive steps from `step`. -/
def stepsBlocks (c : Step.Cfg) (rank0 : Bool) (step : ℤ) (n : ℕ) : List Shape :=
  ((List.range n).map fun (k : ℕ) => stepBlocks c rank0 (step + k)).flatten

end Verif.Profile
