import Verif.Field.Model

/-!
# Wall conditions

/repo/src/field_advance/standard/local.cc.  The six functions that fill ghosts or adjust fields at the
walls of the local mesh, as lists of elementary steps, `none` when `ERROR` is called.
-/
namespace Verif.Field

open Grid

variable {K : Type*} [Field K]

/-- The faces in the order of the macro calls: -x, -y, -z, +x, +y, +z (`true` = negative side),
e.g. local.cc:117-122. -/
def sides : List (Fin 3 × Bool) :=
  [(0, true), (1, true), (2, true), (0, false), (1, false), (2, false)]

/-- `BOUNDARY(i,j,k)` of a face. -/
def sidePort (s : Fin 3 × Bool) : ℤ :=
  let u : ℤ := if s.2 then -1 else 1
  match s.1 with
  | 0 => BOUNDARY u 0 0
  | 1 => BOUNDARY 0 u 0
  | 2 => BOUNDARY 0 0 u

/-- `g->bc[BOUNDARY(i,j,k)]`. -/
def sideBC (g : LGrid) (s : Fin 3 × Bool) : ℤ := g.bc (sidePort s)

/-- `f(x-i,y-j,z-k)`: one step away from the face, into the mesh. -/
def inward (s : Fin 3 × Bool) (c : Pos) : Pos := if s.2 then up s.1 c else dn s.1 c

/-- `Y##Z##_EDGE_LOOP(w)` (edges along `o = Y`) and `Z##Y##_EDGE_LOOP(w)` (edges along `o = Z`) in the plane
`X = w`, local.cc:29-35. -/
def edgePlane (g : LGrid) (X o : Fin 3) (w : ℤ) : List Pos :=
  box (fun b => if b = X then w else 1)
    (fun b => if b = X then w else if b = o then dims g b else dims g b + 1)

/-- `X##_NODE_LOOP(w)`, local.cc:37-39. -/
def nodePlane (g : LGrid) (X : Fin 3) (w : ℤ) : List Pos :=
  box (fun b => if b = X then w else 1) (fun b => if b = X then w else dims g b + 1)

/-- `X##_FACE_LOOP(w)`, local.cc:41-43. -/
def facePlane (g : LGrid) (X : Fin 3) (w : ℤ) : List Pos :=
  box (fun b => if b = X then w else 1) (fun b => if b = X then w else dims g b)

/-- `(i+j+k)<0 ? 0 : n##X+1`. -/
def ghostOf (g : LGrid) (s : Fin 3 × Bool) : ℤ := if s.2 then 0 else dims g s.1 + 1

/-- `(i+j+k)<0 ? 1 : n##X+1`. -/
def wallOf (g : LGrid) (s : Fin 3 × Bool) : ℤ := if s.2 then 1 else dims g s.1 + 1

/-- The six macro calls of one of the functions: on each face whose boundary code is not a rank, the
action of the `switch`; `none` is its `default`, `ERROR`. -/
def localPass (E : Env K) (act : Fin 3 × Bool → ℤ → Option (List (Step K))) :
    Option (List (Step K)) :=
  (sides.mapM fun s =>
    if sideBC E.g s < 0 ∨ E.ws ≤ sideBC E.g s then act s (sideBC E.g s) else some []).map List.flatten

/-- `higend`, local.cc:65. -/
def higend (E : Env K) : K :=
  if 1 < dims E.g 0 ∨ 1 < dims E.g 1 ∨ 1 < dims E.g 2 then 103527618 / 100000000 else 1

/-- One ghost of the absorbing condition, local.cc:82-107.  For `cbY` (`first`) `T` is `Z`, for `cbZ` it is
`Y`, and the signs of `t1` and `t2` are exchanged. -/
def absorbB (E : Env K) (s : Fin 3 × Bool) (B T : Fin 3) (first : Bool) (c : Pos) : Step K :=
  let X := s.1
  let cdt := E.cvac * E.dt * E.rd X
  let drive0 := cdt * higend E
  let decay := (1 - drive0) / (1 + drive0)
  let drive := 2 * drive0 / (1 + drive0)
  let vg := vox E.g c
  let h := inward s c
  let vh := vox E.g h
  let cf : Pos := Function.update c X (wallOf E.g s)
  setAt (vg, .cb B) fun m =>
    let t1 := cdt * (m (vox E.g (inward s cf), .e T) - m (vox E.g cf, .e T))
    let t1 := if s.2 then t1 else -t1
    let t2 := E.cvac * E.dt * E.rd T * (m (vox E.g (up T h), .e X) - m (vh, .e X))
    if first then decay * m (vg, .cb B) + drive * m (vh, .cb B) - t1 + t2
    else decay * m (vg, .cb B) + drive * m (vh, .cb B) + t1 - t2

/-- `local_ghost_tang_b`, local.cc:48-123. -/
def localGhostTangB (E : Env K) : Option (List (Step K)) :=
  localPass E fun s bc =>
    let X := s.1
    let Y := X + 1
    let Z := X + 2
    let gh := ghostOf E.g s
    let mirror := fun (B : Fin 3) (k : K) (c : Pos) =>
      setAt (vox E.g c, .cb B) fun m => k * m (vox E.g (inward s c), .cb B)
    if bc = antiSymmetricFields then
      some ((edgePlane E.g X Z gh).map (mirror Y 1) ++ (edgePlane E.g X Y gh).map (mirror Z 1))
    else if bc = symmetricFields ∨ bc = pmcFields then
      some ((edgePlane E.g X Z gh).map (mirror Y (-1)) ++ (edgePlane E.g X Y gh).map (mirror Z (-1)))
    else if bc = absorbFields then
      some ((edgePlane E.g X Z gh).map (absorbB E s Y Z true) ++
        (edgePlane E.g X Y gh).map (absorbB E s Z Y false))
    else none

/-- `local_ghost_norm_e`, local.cc:129-178. -/
def localGhostNormE (E : Env K) : Option (List (Step K)) :=
  localPass E fun s bc =>
    let X := s.1
    let gh := ghostOf E.g s
    let mirror := fun (k : K) (c : Pos) =>
      [setAt (vox E.g c, .e X) fun m => k * m (vox E.g (inward s c), .e X),
       setAt (vox E.g c, .tca X) fun m => k * m (vox E.g (inward s c), .tca X)]
    let extrap := fun (c : Pos) =>
      [setAt (vox E.g c, .e X) fun m => 2 * m (vox E.g (inward s c), .e X) -
         m (vox E.g (inward s (inward s c)), .e X),
       setAt (vox E.g c, .tca X) fun m => 2 * m (vox E.g (inward s c), .tca X) -
         m (vox E.g (inward s (inward s c)), .tca X)]
    if bc = antiSymmetricFields then some ((nodePlane E.g X gh).flatMap (mirror 1))
    else if bc = symmetricFields ∨ bc = pmcFields then some ((nodePlane E.g X gh).flatMap (mirror (-1)))
    else if bc = absorbFields then some ((nodePlane E.g X gh).flatMap extrap)
    else none

/-- `local_ghost_div_b`, local.cc:180-213. -/
def localGhostDivB (E : Env K) : Option (List (Step K)) :=
  localPass E fun s bc =>
    let X := s.1
    let gh := ghostOf E.g s
    let mirror := fun (k : K) (c : Pos) =>
      setAt (vox E.g c, .divB) fun m => k * m (vox E.g (inward s c), .divB)
    if bc = antiSymmetricFields then some ((facePlane E.g X gh).map (mirror 1))
    else if bc = symmetricFields ∨ bc = pmcFields then some ((facePlane E.g X gh).map (mirror (-1)))
    else if bc = absorbFields then
      some ((facePlane E.g X gh).map fun c => setAt (vox E.g c, .divB) fun _ => 0)
    else none

/-- `local_adjust_tang_e`, local.cc:222-264. -/
def localAdjustTangE (E : Env K) : Option (List (Step K)) :=
  localPass E fun s bc =>
    let X := s.1
    let Y := X + 1
    let Z := X + 2
    let w := wallOf E.g s
    let clear := fun (B : Fin 3) (c : Pos) =>
      [setAt (vox E.g c, .e B) fun _ => (0 : K), setAt (vox E.g c, .tca B) fun _ => 0]
    if bc = antiSymmetricFields then
      some ((edgePlane E.g X Y w).flatMap (clear Y) ++ (edgePlane E.g X Z w).flatMap (clear Z))
    else if bc = symmetricFields ∨ bc = pmcFields ∨ bc = absorbFields then some []
    else none

/-- `local_adjust_norm_b`, local.cc:266-296. -/
def localAdjustNormB (E : Env K) : Option (List (Step K)) :=
  localPass E fun s bc =>
    if bc = antiSymmetricFields ∨ bc = pmcFields ∨ bc = absorbFields then some []
    else if bc = symmetricFields then
      some ((facePlane E.g s.1 (wallOf E.g s)).map fun c => setAt (vox E.g c, .cb s.1) fun _ => 0)
    else none

/-- `local_adjust_div_e`, local.cc:298-328. -/
def localAdjustDivE (E : Env K) : Option (List (Step K)) :=
  localPass E fun s bc =>
    if bc = antiSymmetricFields ∨ bc = absorbFields then
      some ((nodePlane E.g s.1 (wallOf E.g s)).map fun c => setAt (vox E.g c, .divE) fun _ => 0)
    else if bc = symmetricFields ∨ bc = pmcFields then some []
    else none

/-- `local_adjust_jf`, local.cc:335-369. -/
def localAdjustJf (E : Env K) : Option (List (Step K)) :=
  localPass E fun s bc =>
    let X := s.1
    let Y := X + 1
    let Z := X + 2
    let w := wallOf E.g s
    let scale := fun (B : Fin 3) (k : K) (c : Pos) =>
      setAt (vox E.g c, .jf B) fun m => m (vox E.g c, .jf B) * k
    let clear := fun (B : Fin 3) (c : Pos) => setAt (vox E.g c, .jf B) fun _ => (0 : K)
    if bc = antiSymmetricFields then
      some ((edgePlane E.g X Y w).map (clear Y) ++ (edgePlane E.g X Z w).map (clear Z))
    else if bc = symmetricFields ∨ bc = pmcFields ∨ bc = absorbFields then
      some ((edgePlane E.g X Y w).map (scale Y 2) ++ (edgePlane E.g X Z w).map (scale Z 2))
    else none

/-- `local_adjust_rhof`, local.cc:377-409. -/
def localAdjustRhof (E : Env K) : Option (List (Step K)) :=
  localPass E fun s bc =>
    if bc = antiSymmetricFields then
      some ((nodePlane E.g s.1 (wallOf E.g s)).map fun c => setAt (vox E.g c, .rhof) fun _ => 0)
    else if bc = symmetricFields ∨ bc = pmcFields ∨ bc = absorbFields then
      some ((nodePlane E.g s.1 (wallOf E.g s)).map fun c =>
        setAt (vox E.g c, .rhof) fun m => m (vox E.g c, .rhof) * 2)
    else none

/-- `local_adjust_rhob`, local.cc:416-445. -/
def localAdjustRhob (E : Env K) : Option (List (Step K)) :=
  localPass E fun s bc =>
    if bc = antiSymmetricFields then
      some ((nodePlane E.g s.1 (wallOf E.g s)).map fun c => setAt (vox E.g c, .rhob) fun _ => 0)
    else if bc = symmetricFields ∨ bc = pmcFields ∨ bc = absorbFields then some []
    else none

end Verif.Field
