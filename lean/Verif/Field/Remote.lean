import Verif.Field.Local

/-!
# Ghost exchange

/repo/src/field_advance/standard/remote.cc:47-277: the messages of one rank.  The values of a face are
packed and unpacked in the order of the same loops, described here by the list of mesh positions and
members a loop over the plane `X = w` visits.
-/
namespace Verif.Field

open Grid

variable {K : Type*} [Field K]

/-- What a loop over the plane `X = w` of a mesh visits. -/
abbrev Slots := LGrid → Fin 3 → ℤ → List (Pos × FC)

/-- `Z##Y##_EDGE_LOOP … cb##Y`, `Y##Z##_EDGE_LOOP … cb##Z`, remote.cc:79-80. -/
def slotsTangB : Slots := fun g X w =>
  (edgePlane g X (X + 2) w).map (fun c => (c, .cb (X + 1))) ++
  (edgePlane g X (X + 1) w).map (fun c => (c, .cb (X + 2)))

/-- `X##_NODE_LOOP … e##X`, remote.cc:156. -/
def slotsNormE : Slots := fun g X w => (nodePlane g X w).map fun c => (c, .e X)

/-- `X##_FACE_LOOP … div_b_err`, remote.cc:229. -/
def slotsDivB : Slots := fun g X w => (facePlane g X w).map fun c => (c, .divB)

/-- `1+n##Y*(n##Z+1)+n##Z*(n##Y+1)`, remote.cc:61 and 73. -/
def sizeTangB (g : LGrid) (X : Fin 3) : ℤ :=
  1 + dims g (X + 1) * (dims g (X + 2) + 1) + dims g (X + 2) * (dims g (X + 1) + 1)

/-- `1+(n##Y+1)*(n##Z+1)`, remote.cc:139 and 150. -/
def sizeNormE (g : LGrid) (X : Fin 3) : ℤ := 1 + (dims g (X + 1) + 1) * (dims g (X + 2) + 1)

/-- `1+n##Y*n##Z`, remote.cc:212 and 223. -/
def sizeDivB (g : LGrid) (X : Fin 3) : ℤ := 1 + dims g (X + 1) * dims g (X + 2)

/-- `BEGIN_SEND` of a ghost exchange through side `s`: `g->d##X` and the values of the plane
`face = (i+j+k)<0 ? 1 : n##X`, remote.cc:72-83. -/
def packGhost (E : Env K) (slots : Slots) (s : Fin 3 × Bool) (m : FMem K) : List K :=
  E.d s.1 :: (slots E.g s.1 (if s.2 then 1 else dims E.g s.1)).map fun q => m (vox E.g q.1, q.2)

/-- `field(x+i,y+j,z+k)`. -/
def along (s : Fin 3 × Bool) (c : Pos) : Pos := if s.2 then dn s.1 c else up s.1 c

/-- The plane a ghost exchange fills: `face = (i+j+k)<0 ? n##X+1 : 0`, remote.cc:104. -/
def fillPlane (g : LGrid) (s : Fin 3 × Bool) : ℤ := if s.2 then dims g s.1 + 1 else 0

/-- `END_RECV` of a ghost exchange for the message sent in direction `s`, remote.cc:98-110; `none` when
the loop would read past the end of the message. -/
def unpackGhost (E : Env K) (slots : Slots) (s : Fin 3 × Bool) (msg : List K) :
    Option (List (Step K)) :=
  match msg with
  | [] => none
  | r :: vals =>
    let l := slots E.g s.1 (fillPlane E.g s)
    let rw' := 2 * E.d s.1 / (r + E.d s.1)
    let lw := (r - E.d s.1) / (r + E.d s.1)
    if vals.length < l.length then none else
    some (List.zipWith (fun q v => setAt (vox E.g q.1, q.2) fun m =>
      rw' * v + lw * m (vox E.g (along s q.1), q.2)) l vals)

/-- One `END_RECV`, given what `end_recv_port` returns: `NULL` when the neighbour is not a rank. -/
def recvSide (E : Env K) (slots : Slots) (recv : Fin 3 × Bool → Option (List K)) (s : Fin 3 × Bool) :
    Option (List (Step K)) :=
  match recv s with
  | none => some []
  | some msg => unpackGhost E slots s msg

/-- `end_remote_ghost_…`: the six `END_RECV`, remote.cc:88-126. -/
def endRemote (E : Env K) (slots : Slots) (recv : Fin 3 × Bool → Option (List K)) :
    Option (List (Step K)) :=
  (sides.mapM (recvSide E slots recv)).map List.flatten

end Verif.Field
