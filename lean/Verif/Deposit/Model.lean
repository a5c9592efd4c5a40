import Verif.MoveP.Model

/-!
# Charge deposition on the nodes

Model of `accumulate_rho_p` and `accumulate_rhob`
(/repo/src/species_advance/standard/rho_p.cc), exact arithmetic in a field `K`.  Only the `rhof` or
`rhob` component of the field array is modelled.
-/
namespace Verif.Deposit

open Grid (LGrid)
open MoveP (Part nvox)

variable {K : Type*} [Field K]

/-- `FMA(x,y,z)` and `FNMS(x,y,z)`, /repo/src/species_advance/standard/rho_p.cc:69-70. -/
def FMA (x y z : K) : K := z + x * y
@[inherit_doc FMA] def FNMS (x y z : K) : K := z - x * y

/-- The eight trilinear weights, /repo/src/species_advance/standard/rho_p.cc:71-76 (same text
:144-149), from `dx`, `dy`, `dz` and the initial `w7`. -/
def triWeights (d : Fin 3 → K) (w7 : K) : Fin 8 → K :=
  let w0 := d 0
  let w1 := d 1
  let dz := d 2
  let w6 := FNMS w0 w7 w7
  let w7 := FMA w0 w7 w7
  let w4 := FNMS w1 w6 w6
  let w5 := FNMS w1 w7 w7
  let w6 := FMA w1 w6 w6
  let w7 := FMA w1 w7 w7
  let w0 := FNMS dz w4 w4
  let w1 := FNMS dz w5 w5
  let w2 := FNMS dz w6 w6
  let w3 := FNMS dz w7 w7
  let w4 := FMA dz w4 w4
  let w5 := FMA dz w5 w5
  let w6 := FMA dz w6 w6
  let w7 := FMA dz w7 w7
  ![w0, w1, w2, w3, w4, w5, w6, w7]

/-- Offsets of the eight nodes updated, /repo/src/species_advance/standard/rho_p.cc:82-85
(:169-172): `sy = nx+2`, `sz = (nx+2)(ny+2)` (/repo/src/grid/ops.cc:28-30). -/
def nodeOff (g : LGrid) : Fin 8 → ℤ :=
  let sy := g.nx + 2
  let sz := (g.ny + 2) * sy
  ![0, 1, sy, sy + 1, sz, sz + 1, sz + sy, sz + sy + 1]

/-- `f[v+off].rho += w` for the eight nodes in turn; `none` if a node is outside of the array. -/
def addNodes (g : LGrid) (v : ℤ) (w : Fin 8 → K) (rho : ℤ → K) : Option (ℤ → K) :=
  if v < 0 ∨ nvox g ≤ v + nodeOff g 7 then none else
    some ((List.finRange 8).foldl (fun r k => put r (v + nodeOff g k) (r (v + nodeOff g k) + w k)) rho)

/-- Body of the loop of `accumulate_rho_p`, /repo/src/species_advance/standard/rho_p.cc:58-85. -/
def rhoP (g : LGrid) (q8V : K) (p : Part K) (rhof : ℤ → K) : Option (ℤ → K) :=
  addNodes g p.i (triWeights p.d (p.w * q8V)) rhof

/-- `accumulate_rho_p`, /repo/src/species_advance/standard/rho_p.cc:22-113, for the particle list of
one species of charge `q`. -/
def accumulateRhoP (g : LGrid) (r8V q : K) : List (Part K) → (ℤ → K) → Option (ℤ → K)
  | [], rhof => some rhof
  | p :: ps, rhof => (rhoP g (q * r8V) p rhof).bind (accumulateRhoP g r8V q ps)

/-- The doubling of the weights at the edge of the local domain,
/repo/src/species_advance/standard/rho_p.cc:157-165. -/
def rhobAdjust (g : LGrid) (v : ℤ) (w : Fin 8 → K) : Fin 8 → K :=
  let sy := g.nx + 2
  let sz := (g.ny + 2) * sy
  let x := v
  let z := x / sz
  let dbl (c : Prop) [Decidable c] (ks : List (Fin 8)) (w : Fin 8 → K) : Fin 8 → K :=
    if c then fun k => if k ∈ ks then w k + w k else w k else w
  let w := dbl (z = 1) [0, 1, 2, 3] w
  let w := dbl (z = g.nz) [4, 5, 6, 7] w
  let x := x - sz * z
  let y := x / sy
  let w := dbl (y = 1) [0, 1, 4, 5] w
  let w := dbl (y = g.ny) [2, 3, 6, 7] w
  let x := x - sy * y
  let w := dbl (x = 1) [0, 2, 4, 6] w
  dbl (x = g.nx) [1, 3, 5, 7] w

/-- `accumulate_rhob`, /repo/src/species_advance/standard/rho_p.cc:126-173. -/
def accumulateRhob (g : LGrid) (r8V qsp : K) (p : Part K) (rhob : ℤ → K) : Option (ℤ → K) :=
  addNodes g p.i (rhobAdjust g p.i (triWeights p.d ((qsp * r8V) * p.w))) rhob

end Verif.Deposit
