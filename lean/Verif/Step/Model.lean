import Mathlib.Data.Int.Basic
import Mathlib.Data.Rat.Defs

/-!
# The time step

Model of `vpic_simulation::advance` (/repo/src/vpic/advance.cc:15-207) and of the main loop
(/repo/deck/main.cc:121).  A step is the list of kernels it calls, in order; the kernels themselves
are modelled elsewhere.  User hooks appear as tasks and are assumed not to change `step`, `num_step`
and the intervals; profiling and messages are left out.
-/
namespace Verif.Step

/-- The kernels and hooks called by `advance`. -/
inductive Task where
  | sort (sp : ℕ)
  | clearAcc
  | collisions
  | userCollisions
  | advanceP (sp : ℕ)
  | emitters
  | userInjection
  | reduceAcc
  | boundaryP
  | dropMovers (sp : ℕ)
  | clearJf
  | unload
  | syncJf
  | userCurrent
  | advanceB (frac : ℚ)
  | advanceE (frac : ℚ)
  | userField
  | clearRhof
  | accumulateRho (sp : ℕ)
  | syncRho
  | computeDivE
  | rmsDivE
  | cleanDivE
  | computeDivB
  | rmsDivB
  | cleanDivB
  | syncShared
  | loadInterp
  | status (step : ℤ)
  | userDiagnostics
  deriving DecidableEq, Repr

/-- What `advance` reads apart from the step, /repo/src/vpic/vpic.h:130-146.  `sorts` lists the sort
intervals of the species in the order of `species_list`. -/
structure Cfg where
  numStep : ℤ
  sorts : List ℤ
  hasCollisions : Bool
  hasEmitters : Bool
  numCommRound : ℤ
  cleanDivEInterval : ℤ
  numDivERound : ℤ
  cleanDivBInterval : ℤ
  numDivBRound : ℤ
  syncSharedInterval : ℤ
  statusInterval : ℤ

/-- `(interval>0) && ((step() % interval)==0)`; `%` is the C remainder, which truncates. -/
def due (interval step : ℤ) : Bool := decide (interval > 0) && decide (step.tmod interval = 0)

/-- `LIST_FOR_EACH( sp, species_list )`. -/
def forSpecies (c : Cfg) (f : ℕ → ℤ → List Task) : List Task :=
  (c.sorts.zipIdx.map fun q => f q.2 q.1).flatten

/-- `for( int round=0; round<n; round++ )` of the divergence cleaners, advance.cc:141-148 and
156-163. -/
def rounds (n : ℤ) (compute rms clean : Task) : List Task :=
  ((List.range n.toNat).map fun (r : ℕ) =>
    compute :: ((if r = 0 ∨ (r : ℤ) = n - 1 then [rms] else []) ++ [clean])).flatten

/-- Lines 24-168 and 187: everything up to and including `load_interpolator_array`. -/
def body (c : Cfg) (step : ℤ) : List Task :=
  forSpecies c (fun sp iv => if due iv step then [.sort sp] else [])
  ++ (if c.sorts ≠ [] then [.clearAcc] else [])
  ++ (if c.hasCollisions then [.collisions] else [])
  ++ [.userCollisions]
  ++ forSpecies c (fun sp _ => [.advanceP sp])
  ++ (if c.hasEmitters then [.emitters] else [])
  ++ [.userInjection]
  ++ (if c.sorts ≠ [] then [.reduceAcc] else [])
  ++ List.replicate c.numCommRound.toNat .boundaryP
  ++ forSpecies c (fun sp _ => [.dropMovers sp])
  ++ [.clearJf]
  ++ (if c.sorts ≠ [] then [.unload] else [])
  ++ [.syncJf, .userCurrent, .advanceB (1 / 2), .advanceE 1, .userField, .advanceB (1 / 2)]
  ++ (if due c.cleanDivEInterval step then
        [.clearRhof] ++ forSpecies c (fun sp _ => [.accumulateRho sp]) ++ [.syncRho]
        ++ rounds c.numDivERound .computeDivE .rmsDivE .cleanDivE
      else [])
  ++ (if due c.cleanDivBInterval step then
        rounds c.numDivBRound .computeDivB .rmsDivB .cleanDivB
      else [])
  ++ (if due c.syncSharedInterval step then [.syncShared] else [])
  ++ (if c.sorts ≠ [] then [.loadInterp] else [])

/-- Result of a call. -/
structure Out where
  ret : Bool
  step : ℤ
  log : List Task

/-- `advance`, advance.cc:15-207.  `step()` is 64 bit and is not expected to overflow: the model
uses unbounded integers. -/
def advance (c : Cfg) (step : ℤ) : Out :=
  if c.numStep > 0 ∧ step ≥ c.numStep then ⟨false, step, []⟩
  else
    let b := body c step
    let step := step + 1
    ⟨true, step, b ++ (if due c.statusInterval step then [.status step] else [])
      ++ [.userDiagnostics]⟩

/-- `while( simulation->advance() );`, /repo/deck/main.cc:121, cut off after `fuel` calls; `none`
when the loop has not ended by then. -/
def mainLoop (c : Cfg) : ℕ → ℤ → Option (List Task × ℤ)
  | 0, _ => none
  | fuel + 1, step =>
    let o := advance c step
    if o.ret then (mainLoop c fuel o.step).map fun r => (o.log ++ r.1, r.2)
    else some (o.log, o.step)

end Verif.Step
