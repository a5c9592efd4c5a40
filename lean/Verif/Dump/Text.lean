import Verif.Dump.Names

/-!
The text dumps (/repo/src/vpic/dump.cc:37-117). A string is its list of characters; `fe` is what `%e` prints for a number. Only rank 0 writes; a file
is the characters printed to it; the open and close that fail end the run and are left out.
-/
namespace Verif.Dump

/-- What `dump_energies` reads: step, time step, and the energies of the field and of each species, as rank 0 gets them from `energy_f` and `energy_p`. -/
structure Energies (E : Type) where
  step : ℤ
  dt : E
  field : Fin 6 → E
  species : List (List Char × E)

variable {E : Type} (fe : E → List Char)

/-- The lines of a new file, /repo/src/vpic/dump.cc:51-57. -/
def layout (S : Energies E) : List Char :=
  "% Layout\n% step ex ey ez bx by bz".toList ++ (S.species.flatMap fun s => [' ', '"'] ++ s.1 ++ ['"']) ++ ['\n'] ++
    ("% timestep = ".toList ++ fe S.dt ++ ['\n'])

/-- The line of this step, /repo/src/vpic/dump.cc:58-75. -/
def energyRow (S : Energies E) : List Char :=
  dec S.step ++ [' '] ++
    (fe (S.field 0) ++ [' '] ++ fe (S.field 1) ++ [' '] ++ fe (S.field 2) ++ [' '] ++ fe (S.field 3) ++ [' '] ++ fe (S.field 4) ++ [' '] ++ fe (S.field 5)) ++
    (S.species.flatMap fun s => ' ' :: fe s.2) ++ ['\n']

/-- `vpic_simulation::dump_energies`, /repo/src/vpic/dump.cc:37-77: with `append` the file is opened at its end, otherwise emptied. -/
def dumpEnergies (append : Bool) (S : Energies E) (file : List Char) : List Char :=
  (if append then file else layout fe S) ++ energyRow fe S

/-- A series of calls for the same file. -/
def dumpSeries : List (Bool × Energies E) → List Char → List Char
  | [], file => file
  | (append, S) :: l, file => dumpSeries l (dumpEnergies fe append S file)

/-- The members of `species_t` that `dump_species` prints. -/
structure SpeciesLine (E : Type) where
  name : List Char
  id : ℤ
  q : E
  m : E

/-- `vpic_simulation::dump_species`, /repo/src/vpic/dump.cc:81-94. -/
def dumpSpecies (l : List (SpeciesLine E)) : List Char :=
  l.flatMap fun s => s.name ++ [' '] ++ dec s.id ++ [' '] ++ fe s.q ++ [' '] ++ fe s.m

/-- The members of `material_t` that `dump_materials` prints. -/
structure MaterialLine (E : Type) where
  name : List Char
  id : ℤ
  eps : Fin 3 → E
  mu : Fin 3 → E
  sigma : Fin 3 → E

/-- `"%e %e %e\n"`. -/
def threeE (v : Fin 3 → E) : List Char := fe (v 0) ++ [' '] ++ fe (v 1) ++ [' '] ++ fe (v 2) ++ ['\n']

/-- `vpic_simulation::dump_materials`, /repo/src/vpic/dump.cc:96-113. -/
def dumpMaterials (l : List (MaterialLine E)) : List Char :=
  l.flatMap fun m => m.name ++ ['\n'] ++ dec m.id ++ ['\n'] ++ threeE fe m.eps ++ threeE fe m.mu ++ threeE fe m.sigma

end Verif.Dump
