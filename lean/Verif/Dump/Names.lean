import Mathlib.Data.Nat.Digits.Lemmas

/-!
The names of the dump files (/repo/src/vpic/dump.cc), as `sprintf` puts them together. A string is its list of characters.
-/
namespace Verif.Dump

/-- `%i`, `%d`, `%li`, `%ld`: sign and decimal digits. -/
def dec (v : ℤ) : List Char :=
  (if v < 0 then ['-'] else []) ++
    if v = 0 then ['0'] else ((Nat.digits 10 v.natAbs).map Nat.digitChar).reverse

/-- `sprintf` into an array of `cap` characters: undefined if the characters and the terminating zero do not fit. -/
def sprintf (cap : ℕ) (l : List Char) : Option (List Char) := if l.length < cap then some l else none

/-- The name of a file of `dump_grid` (/repo/src/vpic/dump.cc:140, 147), and of `dump_fields`, `dump_hydro`, `dump_particles` without tag (194-195,
250-251, 295-296). -/
def nameOf (base : List Char) (rank : ℤ) : Option (List Char) := sprintf 256 (base ++ '.' :: dec rank)

/-- The name of a file of `dump_fields`, `dump_hydro`, `dump_particles` with tag (the same lines). -/
def taggedName (base : List Char) (step rank : ℤ) : Option (List Char) := sprintf 256 (base ++ '.' :: dec step ++ '.' :: dec rank)

/-- The step that `field_dump` and `hydro_dump` use, /repo/src/vpic/dump.cc:538, 714. -/
def dumpStep (step userStep : ℤ) : ℤ := if userStep = -1 then step else userStep

/-- The name of a file of `field_dump` and `hydro_dump`, /repo/src/vpic/dump.cc:541-558, 716-734. -/
def timeName (dir base : List Char) (step rank : ℤ) : Option (List Char) :=
  sprintf 300 (dir ++ '/' :: 'T' :: '.' :: dec step ++ '/' :: base ++ '.' :: dec step ++ '.' :: dec rank)

/-- The directory they make for it, /repo/src/vpic/dump.cc:541-548. -/
def timeDir (dir : List Char) (step : ℤ) : Option (List Char) := sprintf 256 (dir ++ '/' :: 'T' :: '.' :: dec step)

end Verif.Dump
