import Verif.Region.Model

/-!
# What the region macros should do

Places of the mesh, written from the layout of the staggered mesh (/repo/src/field_advance/field_advance.h:41-56) and the
explanation of regions in /repo/deck/wrapper.h:71-109, without reference to the macros.
-/
namespace Verif.Region

open Grid (LGrid)
open Field (Pos FC)
open Inject (Geom)

/-- The axes along which the place of a material member is at the middle of a cell: that of an edge, all but the normal of a
face, none at a node, all at a cell. -/
def matMid : MatC → Fin 3 → Bool
  | .e a, b => b = a
  | .f a, b => b ≠ a
  | .n, _ => false
  | .c, _ => true

/-- The same for a component of the electric field (on an edge) and of the magnetic field (on a face). -/
def eMid (a b : Fin 3) : Bool := b = a
@[inherit_doc eMid] def bMid (a b : Fin 3) : Bool := b ≠ a

/-- A place of a cell touches the cells `c'` that contain it: `c` itself, and the previous one along the axes where the place is
at the boundary of the cell. -/
def Touches (mid : Fin 3 → Bool) (c c' : Pos) : Prop := ∀ a, c' a = c a ∨ (mid a = false ∧ c' a = c a - 1)

variable {K : Type*} [Field K]

/-- Position in space of the place `mid` of cell `c`: cell 1 begins at `x0`, and the cells have the size `d`. -/
def spot (G : Geom K) (c : Pos) (mid : Fin 3 → Bool) : Fin 3 → K := fun a =>
  G.x0 a + G.d a * ((c a : K) - 1 + if mid a then 1 / 2 else 0)

/-- The centre of a cell is in the region. -/
def Inside (G : Geom K) (rgn : (Fin 3 → K) → Bool) (c : Pos) : Prop := rgn (spot G c fun _ => true) = true

/-- All cells that the place touches are in the region. -/
def Interior (G : Geom K) (rgn : (Fin 3 → K) → Bool) (mid : Fin 3 → Bool) (c : Pos) : Prop :=
  ∀ c', Touches mid c c' → Inside G rgn c'

/-- Some cell that the place touches is in the region. -/
def Meets (G : Geom K) (rgn : (Fin 3 → K) → Bool) (mid : Fin 3 → Bool) (c : Pos) : Prop :=
  ∃ c', Touches mid c c' ∧ Inside G rgn c'

end Verif.Region
