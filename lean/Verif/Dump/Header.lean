import Verif.Util.Model

/-!
The global header that describes the files of `field_dump` and `hydro_dump` (/repo/src/vpic/dump.cc:342-530, /repo/src/vpic/vpic.h:39-85).
-/
namespace Verif.Dump

/-- `FieldInfo`, `HydroInfo`: name, number of elements and bytes of an element as they are printed, /repo/src/vpic/vpic.h:58-64, 81-87. -/
structure Info where
  name : String
  elements : ℕ
  bytes : ℕ
deriving DecidableEq

/-- `field_indeces` (/repo/src/vpic/vpic.h:56) beside `fieldInfo` (/repo/src/vpic/dump.cc:343-360); a `material_id` has two bytes. -/
def fieldGroups : List (ℕ × Info) :=
  [(0, ⟨"Electric Field", 3, 4⟩), (3, ⟨"Electric Field Divergence Error", 1, 4⟩), (4, ⟨"Magnetic Field", 3, 4⟩),
   (7, ⟨"Magnetic Field Divergence Error", 1, 4⟩), (8, ⟨"TCA Field", 3, 4⟩), (11, ⟨"Bound Charge Density", 1, 4⟩),
   (12, ⟨"Free Current Field", 3, 4⟩), (15, ⟨"Charge Density", 1, 4⟩), (16, ⟨"Edge Material", 3, 2⟩), (19, ⟨"Node Material", 1, 2⟩),
   (20, ⟨"Face Material", 3, 2⟩), (23, ⟨"Cell Material", 1, 2⟩)]

/-- `hydro_indeces` (/repo/src/vpic/vpic.h:79) beside `hydroInfo` (/repo/src/vpic/dump.cc:362-373). -/
def hydroGroups : List (ℕ × Info) :=
  [(0, ⟨"Current Density", 3, 4⟩), (3, ⟨"Charge Density", 1, 4⟩), (4, ⟨"Momentum Density", 3, 4⟩), (7, ⟨"Kinetic Energy Density", 1, 4⟩),
   (8, ⟨"Stress Tensor", 6, 4⟩)]

/-- The lines of variables in the global header, /repo/src/vpic/dump.cc:472-490 (fields), 498-521 (moments): `numvars` is counted first, `varlist` filled
(beyond its end, undefined) and read (an entry that was not filled, undefined). -/
def announce (table : List (ℕ × Info)) (vars : BitVec 32) : Option (List Info) :=
  match Util.bitsumOf vars (table.map (·.1)) 0 with
  | none => none
  | some sum =>
    let numvars := min sum table.length
    let set := table.filter fun g => Util.bitset vars g.1 == some true
    if set.length = numvars then some (set.map (·.2)) else none

/-- The loop of `create_field_list` and `create_hydro_list`, /repo/src/vpic/dump.cc:375-397: `i` the index, `pass` the flag, `s` the string so far. -/
def createLoop (vars : BitVec 32) : List (ℕ × Info) → ℕ → Bool → List Char → List Char
  | [], _, _, s => s
  | (b, g) :: l, i, pass, s =>
    if Util.bitset vars b == some true then
      if i > 0 ∧ pass = true then createLoop vars l (i + 1) pass (s ++ [',', ' '] ++ g.name.toList)
      else createLoop vars l (i + 1) true (s ++ g.name.toList)
    else createLoop vars l (i + 1) pass s

/-- `create_field_list`, `create_hydro_list`; the array given is large enough. -/
def createList (table : List (ℕ × Info)) (vars : BitVec 32) : List Char := createLoop vars table 0 false []

end Verif.Dump
