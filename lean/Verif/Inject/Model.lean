import Verif.Deposit.Model
import Mathlib.Algebra.Order.Floor.Ring
import Mathlib.Algebra.Order.Round

/-!
# Injection and emission of particles

Model of `inject_particle` (/repo/src/vpic/misc.cc:12-97), `inject_particle_raw` (/repo/src/vpic/vpic.h:550-576) and
`emit_child_langmuir` (/repo/src/emitter/child_langmuir.cc:35-143).  `float` and `double` are a linearly ordered field `K` (exact
arithmetic), `sqrt` is a function `rt`.
-/
namespace Verif.Inject

open Grid (LGrid Decomp BOUNDARY VOXEL rankToIndex)
open MoveP (Part Mover MState Accum moveP)
open Deposit (accumulateRhob)

variable {K : Type*} [Field K] [LinearOrder K]

/-- The global box given to `partition_periodic_box`, /repo/src/grid/partition.cc:35-40: `gx0 .. gz0` and `gx1 .. gz1`. -/
structure Box (K : Type*) where
  lo : Fin 3 → K
  hi : Fin 3 → K

/-- The parts of `grid_t` used here, /repo/src/grid/grid.h: `x0..z0`, `x1..z1`, `dx..dz`, `rdx..rdz`, `r8V` and `cvac*dt`. -/
structure Geom (K : Type*) where
  x0 : Fin 3 → K
  x1 : Fin 3 → K
  d : Fin 3 → K
  rd : Fin 3 → K
  r8V : K
  cdt : K

/-- The geometry of a rank, /repo/src/grid/partition.cc:55-80. -/
def geomOf (B : Box K) (D : Decomp) (rank : ℤ) (cdt : K) : Geom K :=
  let r := rankToIndex D.gpx D.gpy rank
  let p : Fin 3 → ℤ := ![r.1, r.2.1, r.2.2]
  let gp : Fin 3 → ℤ := ![D.gpx, D.gpy, D.gpz]
  let gn : Fin 3 → ℤ := ![D.gnx, D.gny, D.gnz]
  { x0 := fun k => let f := (p k : K) / gp k; B.lo k * (1 - f) + B.hi k * f
    x1 := fun k => let f := ((p k + 1 : ℤ) : K) / gp k; B.lo k * (1 - f) + B.hi k * f
    d := fun k => (B.hi k - B.lo k) / gn k
    rd := fun k => gn k / (B.hi k - B.lo k)
    r8V := gn 0 / (B.hi 0 - B.lo 0) * (gn 1 / (B.hi 1 - B.lo 1)) * (gn 2 / (B.hi 2 - B.lo 2)) * (1 / 8)
    cdt := cdt }

/-- `species_t`, /repo/src/species_advance/species_advance.h: charge and mass, the `np` particles with their storage
`max_np`, the `nm` movers with their storage `max_nm`. -/
structure Species (K : Type*) where
  q : K
  m : K
  p : List (Part K)
  maxNp : ℕ
  pm : List (Mover K)
  maxNm : ℕ

/-- What the functions change: the species, `rhob` of the fields and the accumulators. -/
structure Sim (K : Type*) where
  sp : Species K
  rhob : ℤ → K
  a : Accum K

/-- `ERROR`, or a memory access outside of an array (also a mover which takes more than `fuel` passes). -/
inductive Fault | error | overrun
deriving DecidableEq

/-- The conversion to `int`, towards zero. -/
def trunc [FloorRing K] (x : K) : ℤ := if 0 ≤ x then ⌊x⌋ else ⌈x⌉

/-- The cell and the coordinate in it along an axis, /repo/src/vpic/misc.cc:52-58 (the same text :60-66, :68-74). -/
def place [FloorRing K] (n : ℤ) (x x0 x1 : K) : ℤ × K :=
  let x := (n : K) * ((x - x0) / (x1 - x0))
  let ix := trunc x
  let x := x - ix
  let x := (x + x) - 1
  let x := if ix = n then 1 else x
  let ix := if ix = n then n - 1 else ix
  (ix + 1, x)

/-- The test whether this rank does not inject, along an axis, /repo/src/vpic/misc.cc:35-37. -/
def skip (x x0 x1 : K) (bc : ℤ) : Prop := x < x0 ∨ x > x1 ∨ (x = x1 ∧ bc ≥ 0)

instance (x x0 x1 : K) (bc : ℤ) : Decidable (skip x x0 x1 bc) := by unfold skip; infer_instance

/-- Writing the mover `pm[nm]`, moving the particle and keeping the mover if it is unfinished, /repo/src/vpic/misc.cc:88-94 and
/repo/src/vpic/vpic.h:570-575.  The particle is the last one, `p[np-1]`. -/
def age (g : LGrid) (fuel : ℕ) (s : Sim K) (q : Part K) (disp : Fin 3 → K) : Except Fault (Sim K) :=
  if s.sp.maxNm ≤ s.sp.pm.length then .error .overrun else
    match moveP g s.sp.q fuel { p := q, disp := disp, a := s.a } with
    | none => .error .overrun
    | some (r, s') =>
      .ok { s with
        sp := { s.sp with p := s.sp.p ++ [s'.p], pm := if r then s.sp.pm ++ [{ disp := s'.disp, i := s.sp.p.length }] else s.sp.pm }
        a := s'.a }

/-- `inject_particle`, /repo/src/vpic/misc.cc:12-97; the checks for `NULL` are left out.  `WARNING` prints a message. -/
def injectParticle [FloorRing K] (g : LGrid) (G : Geom K) (rt : K → K) (fuel : ℕ) (s : Sim K) (x u : Fin 3 → K) (w a : K)
    (updateRhob : Bool) : Except Fault (Sim K) :=
  if w < 0 then .error .error
  else if skip (x 0) (G.x0 0) (G.x1 0) (g.bc (BOUNDARY 1 0 0)) then .ok s
  else if skip (x 1) (G.x0 1) (G.x1 1) (g.bc (BOUNDARY 0 1 0)) then .ok s
  else if skip (x 2) (G.x0 2) (G.x1 2) (g.bc (BOUNDARY 0 0 1)) then .ok s
  else if s.sp.p.length ≥ s.sp.maxNp then .error .error
  else
    let cx := place g.nx (x 0) (G.x0 0) (G.x1 0)
    let cy := place g.ny (x 1) (G.x0 1) (G.x1 1)
    let cz := place g.nz (x 2) (G.x0 2) (G.x1 2)
    let q : Part K := { d := ![cx.2, cy.2, cz.2], i := VOXEL g.nx g.ny cx.1 cy.1 cz.1, u := u, w := w }
    match (if updateRhob then accumulateRhob g G.r8V (-s.sp.q) q s.rhob else some s.rhob) with
    | none => .error .overrun
    | some rhob =>
      let s := { s with rhob := rhob }
      if a ≠ 0 then
        let a := a * (G.cdt / rt (u 0 * u 0 + u 1 * u 1 + u 2 * u 2 + 1))
        age g fuel s q fun k => u k * a * G.rd k
      else .ok { s with sp := { s.sp with p := s.sp.p ++ [q] } }

/-- `inject_particle_raw` without movement, /repo/src/vpic/vpic.h:550-558. -/
def injectRaw (s : Sim K) (q : Part K) : Except Fault (Sim K) :=
  if s.sp.maxNp ≤ s.sp.p.length then .error .overrun else .ok { s with sp := { s.sp with p := s.sp.p ++ [q] } }

/-- `inject_particle_raw` with movement, /repo/src/vpic/vpic.h:562-576. -/
def injectRawMove (g : LGrid) (G : Geom K) (fuel : ℕ) (s : Sim K) (q : Part K) (disp : Fin 3 → K) (updateRhob : Bool) :
    Except Fault (Sim K) :=
  if s.sp.maxNp ≤ s.sp.p.length then .error .overrun else
    match (if updateRhob then accumulateRhob g G.r8V (-s.sp.q) q s.rhob else some s.rhob) with
    | none => .error .overrun
    | some rhob => age g fuel { s with rhob := rhob } q disp

/-! ### The emitter -/

/-- `child_langmuir_t`, /repo/src/emitter/child_langmuir.cc:8-19, without the pointers. -/
structure Params (K : Type*) where
  nEmit : ℕ
  utPara : K
  utPerp : K
  thresh : K
  norm : K

/-- The random numbers of one emission in the order they are drawn, /repo/src/emitter/child_langmuir.cc:90-108: `frande`, two
`frandn`, two `frand_c0`, and the `frand_c0` for the age. -/
structure Draw (K : Type*) where
  e : K
  n1 : K
  n2 : K
  c1 : K
  c2 : K
  age : K

/-- The local variables of `emit_child_langmuir`: the state, `w` and the numbers of skipped particles and movers. -/
structure EState (K : Type*) where
  s : Sim K
  w : K
  npSkipped : ℕ
  nmSkipped : ℕ

/-- One pass of the inner loop of `EMIT_PARTICLES(X,Y,Z,dir)`, /repo/src/emitter/child_langmuir.cc:88-117; `dir` is `+1` or
`-1`.  The particle is written before it is moved; the model appends it in its final state. -/
def emitOne (g : LGrid) (G : Geom K) (rt : K → K) (fuel : ℕ) (cl : Params K) (i : ℤ) (X Y Z : Fin 3) (dir : K) (r : Draw K)
    (t : EState K) : Except Fault (EState K) :=
  if t.s.sp.p.length ≥ t.s.sp.maxNp then .ok { t with npSkipped := t.npSkipped + 1 } else
    let uX := dir * (cl.utPara * rt (2 * r.e))
    let uY := cl.utPerp * r.n1
    let uZ := cl.utPerp * r.n2
    let u : Fin 3 → K := fun k => if k = X then uX else if k = Y then uY else uZ
    let d : Fin 3 → K := fun k => if k = X then -dir else if k = Y then 2 * r.c1 - 1 else 2 * r.c2 - 1
    let q : Part K := { d := d, i := i, u := u, w := t.w }
    match accumulateRhob g G.r8V (-t.s.sp.q) q t.s.rhob with
    | none => .error .overrun
    | some rhob =>
      let s : Sim K := { t.s with rhob := rhob }
      if s.sp.pm.length ≥ s.sp.maxNm then
        .ok { t with s := { s with sp := { s.sp with p := s.sp.p ++ [q] } }, nmSkipped := t.nmSkipped + 1 }
      else
        let w := r.age * G.cdt / rt (uX * uX + uY * uY + (uZ * uZ + 1))
        match moveP g s.sp.q fuel { p := q, disp := fun k => w * u k * G.rd k, a := s.a } with
        | none => .error .overrun
        | some (b, s') =>
          .ok { t with
            s := { s with
              sp := { s.sp with p := s.sp.p ++ [s'.p], pm := if b then s.sp.pm ++ [{ disp := s'.disp, i := s.sp.p.length }] else s.sp.pm }
              a := s'.a }
            w := w }

/-- The inner loop, /repo/src/emitter/child_langmuir.cc:84, with the random numbers of each pass. -/
def emitMany (g : LGrid) (G : Geom K) (rt : K → K) (fuel : ℕ) (cl : Params K) (i : ℤ) (X Y Z : Fin 3) (dir : K) :
    List (Draw K) → EState K → Except Fault (EState K)
  | [], t => .ok t
  | r :: rs, t => (emitOne g G rt fuel cl i X Y Z dir r t).bind (emitMany g G rt fuel cl i X Y Z dir rs)

/-- `norm_x` and so on, /repo/src/emitter/child_langmuir.cc:59-63. -/
def normOf (G : Geom K) (rt : K → K) (eps0dt : K) (cl : Params K) (q m : K) (X Y Z : Fin 3) : K :=
  cl.norm * eps0dt / (rt |q * m| * (cl.nEmit : K)) * rt (G.rd X) * G.d Y * G.d Z

/-- `EMIT_PARTICLES(X,Y,Z,dir)`, /repo/src/emitter/child_langmuir.cc:80-118; `e` is the field `fi[i].eX`, `draws` the random
numbers. -/
def emitFace (g : LGrid) (G : Geom K) (rt : K → K) (fuel : ℕ) (eps0dt : K) (cl : Params K) (e : K) (i : ℤ) (X Y Z : Fin 3) (dir : K)
    (draws : ℕ → Draw K) (t : EState K) : Except Fault (EState K) :=
  if dir * (t.s.sp.q * e) > |t.s.sp.q| * cl.thresh then
    emitMany g G rt fuel cl i X Y Z dir ((List.range cl.nEmit).map draws)
      { t with w := normOf G rt eps0dt cl t.s.sp.q t.s.sp.m X Y Z * rt |e * e * e| }
  else .ok { t with w := e }

/-- The body of the loop over the components, /repo/src/emitter/child_langmuir.cc:74-130: `cc>>5` is the voxel, `cc&31` the kind
of component.  `fi` are the cell-averaged fields of the interpolators. -/
def emitComponent (g : LGrid) (G : Geom K) (rt : K → K) (fuel : ℕ) (eps0dt : K) (cl : Params K) (fi : ℤ → Fin 3 → K) (cc : ℕ)
    (draws : ℕ → Draw K) (t : EState K) : Except Fault (EState K) :=
  let i : ℤ := (cc / 32 : ℕ)
  let kind : ℤ := (cc % 32 : ℕ)
  if kind = BOUNDARY (-1) 0 0 then emitFace g G rt fuel eps0dt cl (fi i 0) i 0 1 2 1 draws t
  else if kind = BOUNDARY 0 (-1) 0 then emitFace g G rt fuel eps0dt cl (fi i 1) i 1 2 0 1 draws t
  else if kind = BOUNDARY 0 0 (-1) then emitFace g G rt fuel eps0dt cl (fi i 2) i 2 0 1 1 draws t
  else if kind = BOUNDARY 1 0 0 then emitFace g G rt fuel eps0dt cl (fi i 0) i 0 1 2 (-1) draws t
  else if kind = BOUNDARY 0 1 0 then emitFace g G rt fuel eps0dt cl (fi i 1) i 1 2 0 (-1) draws t
  else if kind = BOUNDARY 0 0 1 then emitFace g G rt fuel eps0dt cl (fi i 2) i 2 0 1 (-1) draws t
  else .ok t

/-- The loop over the components, /repo/src/emitter/child_langmuir.cc:72; `draws` are the random numbers of each component. -/
def emitLoop (g : LGrid) (G : Geom K) (rt : K → K) (fuel : ℕ) (eps0dt : K) (cl : Params K) (fi : ℤ → Fin 3 → K) :
    List (ℕ × (ℕ → Draw K)) → EState K → Except Fault (EState K)
  | [], t => .ok t
  | c :: cs, t => (emitComponent g G rt fuel eps0dt cl fi c.1 c.2 t).bind (emitLoop g G rt fuel eps0dt cl fi cs)

/-- `emit_child_langmuir`, /repo/src/emitter/child_langmuir.cc:35-143; also returned are the numbers reported by the two
`WARNING`s. -/
def emitChildLangmuir (g : LGrid) (G : Geom K) (rt : K → K) (fuel : ℕ) (eps0dt : K) (cl : Params K) (fi : ℤ → Fin 3 → K)
    (components : List (ℕ × (ℕ → Draw K))) (s : Sim K) : Except Fault (Sim K × ℕ × ℕ) :=
  (emitLoop g G rt fuel eps0dt cl fi components ⟨s, 0, 0, 0⟩).map fun t => (t.s, t.npSkipped, t.nmSkipped)

end Verif.Inject
