import Verif.AdvanceP.Model

/-!
# Vector builds: short vectors and `advance_p`

Model of the short-vector classes (/repo/src/util/v4/v4_portable.h, v8/v8_portable.h,
v16/v16_portable.h), of the vector `move_p` (/repo/src/species_advance/standard/move_p.cc:24-211) and
of the vector pipelines of `advance_p`
(/repo/src/species_advance/standard/pipeline/advance_p_pipeline_v4.cc, _v8.cc, _v16.cc and
move_outbnd_v4.inc).  Exact arithmetic over a linearly ordered field, as in the scalar model.  The
implementations by intrinsics (v4_sse.h, v4_avx.h, v8_avx.h, v16_avx512.h, …) are not modelled.
-/
namespace Verif.Simd

open MoveP Boris Grid AdvanceP

/-! ## Short vectors -/

/-- `v4float`, `v8float`, `v16float` and the integer classes: `w` lanes.
/repo/src/util/v4/v4_portable.h:118-126. -/
abbrev Vec (w : ℕ) (α : Type*) := Fin w → α

section
variable {K : Type*} [Field K] {w : ℕ} {α : Type*}

/-- Initialisation from a scalar, /repo/src/util/v4/v4_portable.h:860-866. -/
def splat (x : K) : Vec w K := fun _ => x

/-- `fma`, /repo/src/util/v4/v4_portable.h:1152-1162. -/
def fma (a b c : Vec w K) : Vec w K := fun k => a k * b k + c k

/-- `fms`, /repo/src/util/v4/v4_portable.h:1164-1174. -/
def fms (a b c : Vec w K) : Vec w K := fun k => a k * b k - c k

/-- `fnms`, /repo/src/util/v4/v4_portable.h:1176-1186. -/
def fnms (a b c : Vec w K) : Vec w K := fun k => c k - a k * b k

/-- `rsqrt`, /repo/src/util/v4/v4_portable.h:1116-1126; `rt` stands for `sqrt`. -/
def rsqrt (rt : K → K) (a : Vec w K) : Vec w K := fun k => rt (1 / a k)

/-- `rcp`, /repo/src/util/v4/v4_portable.h:1140-1150. -/
def rcp (a : Vec w K) : Vec w K := fun k => 1 / a k

/-- `merge`, /repo/src/util/v4/v4_portable.h:751-762 (masks are all ones or all zeros). -/
def merge (c : Vec w Bool) (t f : Vec w α) : Vec w α := fun k => if c k then t k else f k

/-- `czero`, /repo/src/util/v4/v4_portable.h:727-737. -/
def czero (c : Vec w Bool) (a : Vec w K) : Vec w K := fun k => if c k then 0 else a k

/-- `sw( a_i[j], a_j[i] )` on the lanes of `w` vectors,
/repo/src/util/v4/v4_portable.h:178, 191-193. -/
def swapAt (M : Fin w → Vec w α) (ij : Fin w × Fin w) : Fin w → Vec w α := fun a b =>
  if (a, b) = ij then M b a else if (b, a) = ij then M b a else M a b

/-- The pairs exchanged by `transpose`, in order: row by row, above the diagonal.
/repo/src/util/v4/v4_portable.h:191-193, v8/v8_portable.h:248-254, v16/v16_portable.h:454-468. -/
def swPairs (w : ℕ) : List (Fin w × Fin w) :=
  (List.finRange w).flatMap fun i => ((List.finRange w).filter fun j => i < j).map fun j => (i, j)

/-- `transpose`, /repo/src/util/v4/v4_portable.h:189-194. -/
def transpose (M : Fin w → Vec w α) : Fin w → Vec w α := (swPairs w).foldl swapAt M

/-! ## Accumulators as arrays of floats -/

/-- `increment_Nx1( vp+off, v )`, /repo/src/util/v4/v4_portable.h:1224-1231: add the elements `vals`
to the floats of accumulator `v` from number `off` on. -/
structure Incr (K : Type*) where
  v : ℤ
  off : ℕ
  vals : List K

/-- One increment, for accumulators of `S` floats.  Floats 12 to `S - 1` are padding
(`pad2`, /repo/src/sf_interface/sf_interface.h:115-123), which nothing reads: they are not
represented.  `none`: an access outside of the accumulator. -/
def doIncr (S : ℕ) (a : Accum K) (x : Incr K) : Option (Accum K) :=
  if x.off + x.vals.length ≤ S then
    some fun v k => if v = x.v then a v k + (if x.off ≤ (k : ℕ) then
      (match x.vals[(k : ℕ) - x.off]? with | some y => y | none => 0) else 0) else a v k
  else none

/-- Increments one after the other. -/
def doIncrs (S : ℕ) (l : List (Incr K)) (a : Accum K) : Option (Accum K) :=
  l.foldlM (doIncr S) a

/-! ## Particles of a block -/

/-- The floats of an interpolator in the order of
/repo/src/sf_interface/sf_interface.h:62-70 (without padding). -/
def word (f : Interp K) : Fin 18 → K :=
  ![f.ex, f.dexdy, f.dexdz, f.d2exdydz, f.ey, f.deydz, f.deydx, f.d2eydzdx,
    f.ez, f.dezdx, f.dezdy, f.d2ezdxdy, f.cbx, f.dcbxdx, f.cby, f.dcbydy, f.cbz, f.dcbzdz]

/-- Float `o` of the interpolators of the lanes, as loaded by `load_4x4_tr( vp+…, … )`
(advance_p_pipeline_v4.cc:106-141; load_8x8_tr and load_8x2_tr, advance_p_pipeline_v8.cc:115-141;
load_16x16_tr and load_16x2_tr, advance_p_pipeline_v16.cc:144-168).  The `_tr` loads of the portable
classes move element `j` of pointer `k` to lane `k` of vector `j`. -/
def gather (f0 : ℤ → Interp K) (ii : Vec w ℤ) (o : Fin 18) : Vec w K := fun k => word (f0 (ii k)) o

/-- `hax, hay, haz` and `cbx, cby, cbz` of a block,
/repo/src/species_advance/standard/pipeline/advance_p_pipeline_v4.cc:106-143 (the same expressions
in _v8.cc and _v16.cc). -/
def fieldsV (qdt_2mc : K) (f0 : ℤ → Interp K) (ii : Vec w ℤ) (dx dy dz : Vec w K) :
    (Vec w K × Vec w K × Vec w K) × (Vec w K × Vec w K × Vec w K) :=
  let g := gather f0 ii
  let hax := splat qdt_2mc * fma (fma (g 3) dy (g 2)) dz (fma (g 1) dy (g 0))
  let hay := splat qdt_2mc * fma (fma (g 7) dz (g 6)) dx (fma (g 5) dz (g 4))
  let haz := splat qdt_2mc * fma (fma (g 11) dx (g 10)) dy (fma (g 9) dx (g 8))
  let cbx := fma (g 13) dx (g 12)
  let cby := fma (g 15) dy (g 14)
  let cbz := fma (g 17) dz (g 16)
  ((hax, hay, haz), (cbx, cby, cbz))

/-- The rotation, /repo/src/species_advance/standard/pipeline/advance_p_pipeline_v4.cc:163-176
(`h = qdt_2mc`); the same expressions in center_p_pipeline_v4.cc:119-131 and
uncenter_p_pipeline_v4.cc:114-126 up to the order of factors (`h = qdt_4mc`). -/
def rotateV (rt : K → K) (h : K) (ux uy uz cbx cby cbz : Vec w K) : Vec w K × Vec w K × Vec w K :=
  let one : Vec w K := splat 1
  let v00 := splat h * rsqrt rt (one + fma ux ux (fma uy uy (uz * uz)))
  let v01 := fma cbx cbx (fma cby cby (cbz * cbz))
  let v02 := (v00 * v00) * v01
  let v03 := v00 * fma (fma (splat (2 / 15)) v02 (splat (1 / 3))) v02 one
  let v04 := v03 * rcp (fma (v03 * v03) v01 one)
  let v04 := v04 + v04
  let v00 := fma (fms uy cbz (uz * cby)) v03 ux
  let v01 := fma (fms uz cbx (ux * cbz)) v03 uy
  let v02 := fma (fms ux cby (uy * cbx)) v03 uz
  (fma (fms v01 cbz (v02 * cby)) v04 ux,
   fma (fms v02 cbx (v00 * cbz)) v04 uy,
   fma (fms v00 cby (v01 * cbx)) v04 uz)

/-- `ACCUMULATE_J(X,Y,Z,…)` up to the transposition,
/repo/src/species_advance/standard/pipeline/advance_p_pipeline_v4.cc:248-262
(advance_p_pipeline_v8.cc:247-293, advance_p_pipeline_v16.cc:284-341): the vectors `v00…v03`. -/
def accJ (q uX dY dZ v5 : Vec w K) : Fin 4 → Vec w K :=
  let one : Vec w K := splat 1
  let v04 := q * uX
  let v01 := v04 * dY
  let v00 := v04 - v01
  let v01 := v01 + v04
  let v04 := one + dZ
  let v02 := v00 * v04
  let v03 := v01 * v04
  let v04 := one - dZ
  let v00 := v00 * v04
  let v01 := v01 * v04
  let v00 := v00 + v5
  let v01 := v01 - v5
  let v02 := v02 - v5
  let v03 := v03 + v5
  ![v00, v01, v02, v03]

end

/-! ## Widths -/

/-- The three vector builds. -/
inductive Width | v4 | v8 | v16
deriving DecidableEq, Repr

/-- Particles per block: `nq >>= 2`, `3`, `4`
(advance_p_pipeline_v4.cc:55, _v8.cc:59, _v16.cc:80). -/
@[reducible] def Width.lanes : Width → ℕ
  | .v4 => 4
  | .v8 => 8
  | .v16 => 16

/-- Floats of an accumulator: 12, and `PAD_SIZE_ACCUMULATOR` more,
/repo/src/sf_interface/sf_interface.h:27-53, 115-123. -/
def Width.accFloats : Width → ℕ
  | .v4 => 12
  | .v8 => 16
  | .v16 => 16

variable {K : Type*} [Field K] [LinearOrder K]

/-- The increments of a block of four particles: `Jx`, `Jy`, `Jz` one after the other,
/repo/src/species_advance/standard/pipeline/advance_p_pipeline_v4.cc:263-271. -/
def increments4 (ii : Vec 4 ℤ) (jx jy jz : Fin 4 → Vec 4 K) : List (Incr K) :=
  ((List.finRange 4).map fun k => ⟨ii k, 0, List.ofFn (transpose jx k)⟩) ++
  (((List.finRange 4).map fun k => ⟨ii k, 4, List.ofFn (transpose jy k)⟩) ++
  ((List.finRange 4).map fun k => ⟨ii k, 8, List.ofFn (transpose jz k)⟩))

/-- The increments of a block of eight particles: `Jx` and `Jy` together, then `Jz` with four vectors
of zeros, /repo/src/species_advance/standard/pipeline/advance_p_pipeline_v8.cc:296-338. -/
def increments8 (ii : Vec 8 ℤ) (jx jy jz : Fin 4 → Vec 8 K) : List (Incr K) :=
  ((List.finRange 8).map fun k => ⟨ii k, 0, List.ofFn (transpose
    ![jx 0, jx 1, jx 2, jx 3, jy 0, jy 1, jy 2, jy 3] k)⟩) ++
  ((List.finRange 8).map fun k => ⟨ii k, 8, List.ofFn (transpose
    ![jz 0, jz 1, jz 2, jz 3, splat 0, splat 0, splat 0, splat 0] k)⟩)

/-- The increments of a block of sixteen particles: all with four vectors of zeros,
/repo/src/species_advance/standard/pipeline/advance_p_pipeline_v16.cc:343-373. -/
def increments16 (ii : Vec 16 ℤ) (jx jy jz : Fin 4 → Vec 16 K) : List (Incr K) :=
  (List.finRange 16).map fun k => ⟨ii k, 0, List.ofFn (transpose
    ![jx 0, jx 1, jx 2, jx 3, jy 0, jy 1, jy 2, jy 3, jz 0, jz 1, jz 2, jz 3,
      splat 0, splat 0, splat 0, splat 0] k)⟩

/-- The increments of a block. -/
def increments : (W : Width) → (ii : Vec W.lanes ℤ) → (jx jy jz : Fin 4 → Vec W.lanes K) →
    List (Incr K)
  | .v4, ii, jx, jy, jz => increments4 ii jx jy jz
  | .v8, ii, jx, jy, jz => increments8 ii jx jy jz
  | .v16, ii, jx, jy, jz => increments16 ii jx jy jz

/-- What the straight-line part of a block leaves: the stored particles, the accumulators, the mask
of particles out of bounds and the displacements in `ux, uy, uz`. -/
structure BlockOut (w : ℕ) (K : Type*) where
  parts : Vec w (MoveP.Part K)
  acc : Accum K
  out : Vec w Bool
  disp : Vec w (Fin 3 → K)

/-- The straight-line part of a block: load, momentum update, new positions, `outbnd`, store and
deposition of the particles that stay in their cells.
/repo/src/species_advance/standard/pipeline/advance_p_pipeline_v4.cc:89-273,
advance_p_pipeline_v8.cc:91-346, advance_p_pipeline_v16.cc:112-377.  `none`: an access outside of the
interpolators or accumulators. -/
def block (W : Width) (A : Args K) (ps : Vec W.lanes (MoveP.Part K)) (a : Accum K) :
    Option (BlockOut W.lanes K) :=
  let ii : Vec W.lanes ℤ := fun k => (ps k).i
  if ∃ k, ii k < 0 ∨ nvox A.g ≤ ii k then none else
    let one : Vec W.lanes K := splat 1
    let dx : Vec W.lanes K := fun k => (ps k).d 0
    let dy : Vec W.lanes K := fun k => (ps k).d 1
    let dz : Vec W.lanes K := fun k => (ps k).d 2
    let ux : Vec W.lanes K := fun k => (ps k).u 0
    let uy : Vec W.lanes K := fun k => (ps k).u 1
    let uz : Vec W.lanes K := fun k => (ps k).u 2
    let q : Vec W.lanes K := fun k => (ps k).w
    let fl := fieldsV A.qdt_2mc A.f0 ii dx dy dz
    let hax := fl.1.1
    let hay := fl.1.2.1
    let haz := fl.1.2.2
    let ux := ux + hax
    let uy := uy + hay
    let uz := uz + haz
    let u := rotateV A.rt A.qdt_2mc ux uy uz fl.2.1 fl.2.2.1 fl.2.2.2
    let ux := u.1 + hax
    let uy := u.2.1 + hay
    let uz := u.2.2 + haz
    let su : Vec W.lanes (Fin 3 → K) := fun k => ![ux k, uy k, uz k]
    let v00 := rsqrt A.rt (one + fma ux ux (fma uy uy (uz * uz)))
    let ux := ux * splat (A.cdt_d 0)
    let uy := uy * splat (A.cdt_d 1)
    let uz := uz * splat (A.cdt_d 2)
    let ux := ux * v00
    let uy := uy * v00
    let uz := uz * v00
    let v00 := dx + ux
    let v01 := dy + uy
    let v02 := dz + uz
    let v03 := v00 + ux
    let v04 := v01 + uy
    let v05 := v02 + uz
    let out : Vec W.lanes Bool := fun k =>
      decide (v03 k > 1) || decide (v03 k < -1) || decide (v04 k > 1) || decide (v04 k < -1) ||
      decide (v05 k > 1) || decide (v05 k < -1)
    let v03 := merge out dx v03
    let v04 := merge out dy v04
    let v05 := merge out dz v05
    let st : Vec W.lanes (MoveP.Part K) := fun k => ⟨![v03 k, v04 k, v05 k], ii k, su k, q k⟩
    let q := czero out (q * splat A.qsp)
    let c := q * ux * uy * uz * splat (1 / 3)
    (doIncrs W.accFloats (increments W ii (accJ q ux v01 v02 c) (accJ q uy v02 v00 c)
      (accJ q uz v00 v01 c)) a).map fun a' =>
        ⟨st, a', out, fun k => ![ux k, uy k, uz k]⟩

/-! ## The vector `move_p` -/

/-- How the short-vector class treats the two places where exact arithmetic does not say what a
`float` does: `z` is `copysign( 1, 0 )` (1 in the portable class, which tests `b < 0`,
/repo/src/util/v4/v4_portable.h:1078-1100; the sign bit decides in the others), and `den x` is the
computed value of `(x+x) + copysign( tiny, x )`, /repo/src/species_advance/standard/move_p.cc:90-91. -/
structure V4Env (K : Type*) where
  z : K
  den : K → K

/-- `copysign( one, x )`, /repo/src/species_advance/standard/move_p.cc:89. -/
def sgn (E : V4Env K) (x : K) : K := if x < 0 then -1 else if x = 0 then E.z else 1

/-- `r = shuffle<0,1,2,2>( r )`, /repo/src/species_advance/standard/move_p.cc:59-60. -/
def lift4 (x : Fin 3 → K) : Vec 4 K := ![x 0, x 1, x 2, x 2]

/-- The choice of the streak end, /repo/src/species_advance/standard/move_p.cc:92-95; `none` is
type 3. -/
def pickV (v0 v1 v2 : K) : K × Option (Fin 3) :=
  let r : K × Option (Fin 3) := (1, none)
  let r := if v0 < r.1 then (v0, some 0) else r
  let r := if v1 < r.1 then (v1, some 1) else r
  if v2 < r.1 then (v2, some 2) else r

/-- The twelve amounts of a streak: the vectors `v0…v3` before the transposition,
/repo/src/species_advance/standard/move_p.cc:119-140. -/
def streakV (q : K) (mid sdr : Vec 4 K) : Fin 4 → Vec 4 K :=
  let one : Vec 4 K := splat 1
  let v4 := splat q * sdr
  let v1 := v4 * (![mid 1, mid 2, mid 0, mid 3] : Vec 4 K)
  let v0 := v4 - v1
  let v1 := v1 + v4
  let v5 : Vec 4 K := ![mid 2, mid 0, mid 1, mid 3]
  let v4 := one + v5
  let v2 := v0 * v4
  let v3 := v1 * v4
  let v4 := one - v5
  let v0 := v0 * v4
  let v1 := v1 * v4
  let v4 := ((splat (1 / 3) * splat q) * splat (sdr 0)) * splat (sdr 1) * splat (sdr 2)
  let v0 := v0 + v4
  let v1 := v1 - v4
  let v2 := v2 - v4
  let v3 := v3 + v4
  ![v0, v1, v2, v3]

/-- One pass of the loop of the vector `move_p`,
/repo/src/species_advance/standard/move_p.cc:62-208.  Lane 3 of `r`, `dr` is "D/C" in the code and
is recomputed here in every pass.  `none`: an accumulator or neighbour access outside of the
arrays. -/
def passV (E : V4Env K) (g : LGrid) (q : K) (s : MState K) : Option (Next × MState K) :=
  if s.p.i < 0 ∨ nvox g ≤ s.p.i then none else
    let dr := lift4 s.disp
    let r := lift4 s.p.d
    let sg : Vec 4 K := fun k => sgn E (dr k)
    let fr : Vec 4 K := fun k => (sg k - r k) / E.den (dr k)
    let st := pickV (fr 0) (fr 1) (fr 2)
    let sdr : Vec 4 K := splat st.1 * dr
    let v5 := r + sdr
    let dr' := dr - sdr
    let r' := r + (sdr + sdr)
    let v := transpose (streakV q v5 sdr)
    match doIncrs 12 [⟨s.p.i, 0, List.ofFn (v 0)⟩, ⟨s.p.i, 4, List.ofFn (v 1)⟩,
        ⟨s.p.i, 8, List.ofFn (v 2)⟩] s.a with
    | none => none
    | some a =>
      let disp : Fin 3 → K := ![dr' 0, dr' 1, dr' 2]
      let d : Fin 3 → K := ![r' 0, r' 1, r' 2]
      match st.2 with
      | none => some (.finished, { p := { s.p with d := d }, disp := disp, a := a })
      | some axis =>
        let v0 := sgn E (s.disp axis)
        let d := Function.update d axis v0
        let face : ℤ := if v0 > 0 then (axis : ℕ) + 3 else (axis : ℕ)
        let neighbor := g.neighbor (6 * s.p.i + face)
        if neighbor = Grid.reflectParticles then
          some (.again, { p := { s.p with d := d, u := Function.update s.p.u axis (-(s.p.u axis)) },
                          disp := Function.update disp axis (-(disp axis)), a := a })
        else if neighbor < g.rangel ∨ neighbor > g.rangeh then
          some (.boundary, { p := { s.p with d := d, i := 8 * s.p.i + face }, disp := disp, a := a })
        else
          some (.again, { p := { s.p with d := Function.update d axis (-(d axis)),
                                          i := neighbor - g.rangel }, disp := disp, a := a })

/-- The loop of the vector `move_p`. -/
def loopV (E : V4Env K) (g : LGrid) (q : K) : ℕ → MState K → Option (Bool × MState K)
  | 0, _ => none
  | fuel + 1, s =>
    match passV E g q s with
    | none => none
    | some (.finished, s') => some (false, s')
    | some (.boundary, s') => some (true, s')
    | some (.again, s') => loopV E g q fuel s'

/-- The vector `move_p( p0, pm, a0, g, qsp )`,
/repo/src/species_advance/standard/move_p.cc:30-211. -/
def movePV (E : V4Env K) (g : LGrid) (qsp : K) (fuel : ℕ) (s : MState K) :
    Option (Bool × MState K) :=
  loopV E g (qsp * s.p.w) fuel s

/-! ## Pipelines -/

variable {K : Type} [Field K] [LinearOrder K]

/-- The accumulators of a pipeline starting at `ab` replaced by `a`. -/
def setAcc (g : LGrid) (ab : ℤ) (a : Accum K) (acc : ℤ → Fin 12 → K) : ℤ → Fin 12 → K :=
  fun j => if ab ≤ j ∧ j < ab + nvox g then a (j - ab) else acc j

/-- An invalid access by pipeline `r`. -/
def failStep (r : ℕ) (m : Mem K) : Mem K :=
  .mk m.part m.acc m.mover fun r' => if r' = r then { m.segm r with ok := false } else m.segm r'

/-- `MOVE_OUTBND(N)` for a particle out of bounds,
/repo/src/species_advance/standard/pipeline/move_outbnd_v4.inc:6-30, and the same statements of the
scalar pipeline, advance_p_pipeline.cc:214-239. -/
def moveLane (E : V4Env K) (A : Args K) (ab pb cap : ℤ) (r : ℕ) (i : ℤ) (disp : Fin 3 → K)
    (m : Mem K) : Mem K :=
  let sg := m.segm r
  match movePV E A.g A.qsp A.fuel ⟨m.part i, disp, fun v => m.acc (ab + v)⟩ with
  | none => failStep r m
  | some (false, s') => .mk (put m.part i s'.p) (setAcc A.g ab s'.a m.acc) m.mover m.segm
  | some (true, s') =>
    if (sg.nm : ℤ) < cap then
      .mk (put m.part i s'.p) (setAcc A.g ab s'.a m.acc) (put m.mover (pb + sg.nm) ⟨s'.disp, i⟩)
        fun r' => if r' = r then { sg with nm := sg.nm + 1 } else m.segm r'
    else
      .mk (put m.part i { s'.p with i := s'.p.i / 8 }) (setAcc A.g ab s'.a m.acc) m.mover
        fun r' => if r' = r then { sg with ign := sg.ign + 1 } else m.segm r'

/-- One pass of the loop of a vector pipeline, on the particles from `i` on,
/repo/src/species_advance/standard/pipeline/advance_p_pipeline_v4.cc:87-288 (_v8.cc:91-361,
_v16.cc:112-400). -/
def blockStep (W : Width) (E : V4Env K) (A : Args K) (ab pb cap : ℤ) (r : ℕ) (i : ℤ) (m : Mem K) :
    Mem K :=
  match block W A (fun k => m.part (i + (k : ℕ))) (fun v => m.acc (ab + v)) with
  | none => failStep r m
  | some o =>
    let m1 : Mem K := .mk ((List.finRange W.lanes).foldl (fun p (k : Fin W.lanes) => put p (i + (k : ℕ)) (o.parts k))
      m.part) (setAcc A.g ab o.acc m.acc) m.mover m.segm
    (List.finRange W.lanes).foldl (fun m (k : Fin W.lanes) =>
      if o.out k then moveLane E A ab pb cap r (i + (k : ℕ)) (o.disp k) m else m) m1

/-- Push of one particle by the host, which runs the scalar pipeline with the vector `move_p`
(pipelines_exec_pth.h:21-52, advance_p_pipeline.cc:89-239). -/
def hostStep (E : V4Env K) (A : Args K) (ab pb cap : ℤ) (r : ℕ) (i : ℤ) (m : Mem K) : Mem K :=
  let p := m.part i
  if p.i < 0 ∨ nvox A.g ≤ p.i then failStep r m else
    let u := pushU A.rt A.qdt_2mc (A.f0 p.i) p.d p.u
    let s := normDisp A u
    let mid : Fin 3 → K := fun k => p.d k + s k
    let new : Fin 3 → K := fun k => mid k + s k
    if inBounds new then
      .mk (put m.part i { p with d := new, u := u })
        (setAcc A.g ab (accAdd (fun v => m.acc (ab + v)) p.i (inCellJ (p.w * A.qsp) mid s)) m.acc)
        m.mover m.segm
    else moveLane E A ab pb cap r i s (.mk (put m.part i { p with u := u }) m.acc m.mover m.segm)

/-- First particles of the blocks of a pipeline with particles `first … first + n - 1`,
advance_p_pipeline_v4.cc:51-55, 87. -/
def blockStarts (W : Width) (first n : ℤ) : List ℤ :=
  (List.range (n / (W.lanes : ℤ)).toNat).map fun b => first + (W.lanes : ℤ) * (b : ℕ)

/-- What pipeline `r` of a vector build does: the vector pipeline, or, on the host, the scalar
pipeline.  /repo/src/util/pipelines/pipelines_exec_pth.h:21-52. -/
def threadV (W : Width) (E : V4Env K) (R : Distribute.Rounding) (A : Args K) (P r : ℕ) :
    Option (List (Mem K → Mem K)) :=
  match Distribute.distribute R A.np 16 r P, moverShare R A P r with
  | some (first, n), some (pb, cap) =>
    if r = P then
      (Distribute.items (some (first, n))).map fun l =>
        initStep r :: l.map (hostStep E A (accBase A.g P r) pb cap r)
    else
      some (initStep r :: (blockStarts W first n).map (blockStep W E A (accBase A.g P r) pb cap r))
  | _, _ => none

/-- `advance_p` of a vector build with `P` pipelines: any interleaving of the pipelines and the host,
then the compaction.  /repo/src/species_advance/standard/pipeline/advance_p_pipeline.cc:252-340. -/
def AdvanceV (W : Width) (E : V4Env K) (R : Distribute.Rounding) (A : Args K) (P : ℕ) (m m' : Mem K)
    (res : Option ((ℤ → Mover K) × ℕ)) : Prop :=
  ∃ ts, (List.range (P + 1)).mapM (threadV W E R A P) = some ts ∧ Runs ts m m' ∧
    res = compact R A P m'.segm (List.range (P + 1)) m'.mover 0

end Verif.Simd
