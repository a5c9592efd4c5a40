import Mathlib.Data.Int.Basic

/-!
# Linked lists of species, materials, boundary handlers, emitters, collision operators

Model of /repo/src/species_advance/species_advance.cc:58-108, /repo/src/material/material.cc:40-92,
/repo/src/boundary/boundary.cc:53-86, /repo/src/emitter/emitter.cc:52-88 and
/repo/src/collision/collision.cc:50-86 on a heap of nodes addressed by natural numbers (0 is null).
-/
namespace Verif.Registry

/-- The members of the nodes that the list functions use.  (Boundary handlers, emitters and collision
operators have no name; emitters and collision operators have no id.) -/
structure Node where
  name : String
  id : ℤ
  next : ℕ
  g : ℕ
deriving DecidableEq

/-- The heap. -/
abbrev Heap := ℕ → Node

/-- Assignment to a node. -/
def setNode (h : Heap) (a : ℕ) (v : Node) : Heap := fun x => if x = a then v else h x

/-- `LIST_FIND_FIRST`, /repo/src/util/util_base.h:223-226.  `none`: more than `fuel` nodes. -/
def findFirst (h : Heap) (cond : Node → Bool) : ℕ → ℕ → Option ℕ
  | 0, _ => none
  | f + 1, p => if p = 0 then some 0 else if cond (h p) then some p else findFirst h cond f (h p).next

/-- Walk of a list, `LIST_FOR_EACH`, /repo/src/util/util_base.h:220-221, counting the nodes
(`num_emitter`, /repo/src/emitter/emitter.cc:52-58). -/
def countNodes (h : Heap) : ℕ → ℕ → Option ℕ
  | 0, _ => none
  | f + 1, p => if p = 0 then some 0 else (countNodes h f (h p).next).map (· + 1)

/-- `num_species`, /repo/src/species_advance/species_advance.cc:58-62, and `num_material`,
/repo/src/material/material.cc:40-43. -/
def numById (h : Heap) (head : ℕ) : ℤ := if head = 0 then 0 else (h head).id + 1

/-- `find_species_id`, /repo/src/species_advance/species_advance.cc:75-82; `find_material_id`,
/repo/src/material/material.cc:64-70. -/
def findId (h : Heap) (fuel : ℕ) (head : ℕ) (id : ℤ) : Option ℕ :=
  findFirst h (fun n => n.id == id) fuel head

/-- `find_species_name`, /repo/src/species_advance/species_advance.cc:84-92; `find_material_name`,
/repo/src/material/material.cc:55-62. -/
def findName (h : Heap) (fuel : ℕ) (head : ℕ) (name : String) : Option ℕ :=
  findFirst h (fun n => n.name == name) fuel head

/-- `append_species`, /repo/src/species_advance/species_advance.cc:94-108: new heap and list.  `none`:
`ERROR` (or a list longer than `fuel`). -/
def appendSpecies (fuel : ℕ) (h : Heap) (head sp : ℕ) : Option (Heap × ℕ) :=
  if sp = 0 then none
  else if (h sp).next ≠ 0 then none
  else match findName h fuel head (h sp).name with
    | none => none
    | some r =>
      if r ≠ 0 then none
      else if head ≠ 0 ∧ (h sp).g ≠ (h head).g then none
      else some (setNode h sp { h sp with id := numById h head, next := head }, sp)

/-- `max_material`, /repo/src/material/material.h:7. -/
def maxMaterial : ℤ := 32768

/-- `append_material`, /repo/src/material/material.cc:77-92. -/
def appendMaterial (fuel : ℕ) (h : Heap) (head m : ℕ) : Option (Heap × ℕ) :=
  if m = 0 then none
  else if (h m).next ≠ 0 then none
  else match findName h fuel head (h m).name with
    | none => none
    | some r =>
      if r ≠ 0 then none
      else if numById h head ≥ maxMaterial then none
      else some (setNode h m { h m with id := numById h head, next := head }, m)

/-- `num_particle_bc`, /repo/src/boundary/boundary.cc:53-56. -/
def numBc (h : Heap) (head : ℕ) : ℤ := if head = 0 then 0 else -(h head).id - 2

/-- `append_particle_bc`, /repo/src/boundary/boundary.cc:68-78. -/
def appendBc (h : Heap) (head pbc : ℕ) : Option (Heap × ℕ) :=
  if pbc = 0 then none
  else if (h pbc).next ≠ 0 then none
  else some (setNode h pbc { h pbc with id := -3 - numBc h head, next := head }, pbc)

/-- `append_emitter`, /repo/src/emitter/emitter.cc:77-88. -/
def appendEmitter (fuel : ℕ) (h : Heap) (head e : ℕ) : Option (Heap × ℕ) :=
  if e = 0 then none
  else match inList fuel h head e with
    | none => none
    | some true => some (h, head)
    | some false =>
      if (h e).next ≠ 0 then none
      else some (setNode h e { h e with next := head }, e)
where
  /-- the loop of line 82 -/
  inList : ℕ → Heap → ℕ → ℕ → Option Bool
    | 0, _, _, _ => none
    | f + 1, h, p, e => if p = 0 then some false else if p = e then some true
        else inList f h (h p).next e

/-- `append_collision_op`, /repo/src/collision/collision.cc:79-86. -/
def appendCop (h : Heap) (head cop : ℕ) : Option (Heap × ℕ) :=
  if cop = 0 ∨ (h cop).next ≠ 0 then none
  else some (setNode h cop { h cop with next := head }, cop)

/-- A sequence of append calls on a list; `none` if one of them fails. -/
def appendAll (app : Heap → ℕ → ℕ → Option (Heap × ℕ)) : List ℕ → Heap → ℕ → Option (Heap × ℕ)
  | [], h, head => some (h, head)
  | a :: as, h, head => (app h head a).bind fun r => appendAll app as r.1 r.2

end Verif.Registry
