import Verif.Rng.Model
import Verif.Grid.Model
import Mathlib.Algebra.Order.Field.Basic
import Mathlib.Data.Fin.VecNotation

/-!
# Collision operators

Model of /repo/src/collision: pair selection and update rule of the binary operator, the pairing of the
Takizuka-Abe operator, and the scattering kernels.  Floating point numbers are replaced by an
arbitrary linearly ordered field, `sqrtf` by a function `rt`, the random numbers by arguments.  Rate
constants and fluid backgrounds are not modelled.
-/
namespace Verif.Collision

/-! ## Striping of the voxels over pipelines -/

/-- The loop `for( ; v<v1; v+=n_pipeline )`, binary_pipeline.cc:51 and takizuka_abe_pipeline.cc:111: the
voxels visited.  The fuel bounds the number of iterations. -/
def stripeLoop (v1 P : ℕ) : ℕ → ℕ → Option (List ℕ)
  | 0, _ => none
  | fuel + 1, v => if v < v1 then (stripeLoop v1 P fuel (v + P)).map (v :: ·) else some []

/-- Voxels of pipeline `rank`, binary_pipeline.cc:48-51, takizuka_abe_pipeline.cc:109-111: from
`VOXEL(0,0,0) + rank` to `VOXEL(nx,ny,nz)`, voxel numbers as in grid.h:136. -/
def stripe (nx ny nz P rank fuel : ℕ) : Option (List ℕ) :=
  stripeLoop (nx + (nx + 2) * (ny + (ny + 2) * nz) + 1) P fuel rank

/-! ## Selection of pairs, binary operator -/

/-- `do { k = (int)(uirand(rng)/rk); } while( k==nk );` with `rk = UINT_MAX/nk`, binary_pipeline.cc:63,119-120;
the raw 32-bit numbers come from a list, `none` when it is used up. -/
def selectOne (n : ℕ) : List ℕ → Option (ℕ × List ℕ)
  | [] => none
  | a :: as => if a / ((2 ^ 32 - 1) / n) = n then selectOne n as else some (a / ((2 ^ 32 - 1) / n), as)

/-- One candidate pair, binary_pipeline.cc:119-120: particle numbers in the two species. -/
def selectPair (k0 nk l0 nl : ℕ) (as : List ℕ) : Option ((ℕ × ℕ) × List ℕ) :=
  match selectOne nk as with
  | none => none
  | some (k, as) =>
    match selectOne nl as with
    | none => none
    | some (l, as) => some ((k + k0, l + l0), as)

/-- Candidate pairs of one voxel, binary_pipeline.cc:110-153, `nc` of them. -/
def selectPairs (k0 nk l0 nl : ℕ) : ℕ → List ℕ → Option (List (ℕ × ℕ) × List ℕ)
  | 0, as => some ([], as)
  | nc + 1, as =>
    match selectPair k0 nk l0 nl as with
    | none => none
    | some (kl, as) => (selectPairs k0 nk l0 nl nc as).map fun r => (kl :: r.1, r.2)

variable {K : Type*}

/-- Which particles of a colliding pair are updated, binary_pipeline.cc:149-151: bit 0 for the first, bit 1 for
the second; `r` is the random number of line 151 (drawn only if the weights differ). -/
def updateType [Mul K] [LinearOrder K] (wk wl r : K) : ℕ :=
  let wMax := if wk > wl then wk else wl
  let wMin := if wk > wl then wl else wk
  let type := if wl = wMin then 2 else 1
  if wMax = wMin ∨ wMax * r < wMin then 3 else type

/-! ## Takizuka-Abe pairing -/

/-- Nested loops of takizuka_abe_pipeline.cc:183-187 (and 189-193, 200-204, 206-210): `m` outer iterations, each
advancing `l` by one and pairing it with `w` successive values of `k`. -/
def pairLoop : ℕ → ℕ → ℕ → ℕ → List (ℕ × ℕ)
  | 0, _, _, _ => []
  | m + 1, w, k, l => (List.range w).map (fun j => (k + j, l)) ++ pairLoop m w (k + w) (l + 1)

/-- The collision loop, takizuka_abe_pipeline.cc:178-212: pairs (particle of species i, particle of species j). -/
def taPairs (k0 nk l0 nl : ℕ) : List (ℕ × ℕ) :=
  if nk > nl then
    let ii := nk / nl
    let rn := nk - ii * nl
    pairLoop rn (ii + 1) k0 l0 ++ pairLoop (nl - rn) ii (k0 + rn * (ii + 1)) (l0 + rn)
  else
    let ii := nl / nk
    let rn := nl - ii * nk
    (pairLoop rn (ii + 1) l0 k0 ++ pairLoop (nk - rn) ii (l0 + rn * (ii + 1)) (k0 + rn)).map Prod.swap

/-- Collisions within one species in a voxel, takizuka_abe_pipeline.cc:122,137-159,178-212. -/
def taIntra (k0 nk : ℕ) : List (ℕ × ℕ) :=
  if nk = 0 then []
  else
    let odd := nk % 2 = 1 ∧ nk ≥ 3
    let first := if odd then [(k0, k0 + 1), (k0, k0 + 2), (k0 + 1, k0 + 2)] else []
    let nk' := (if odd then nk - 3 else nk) / 2
    let k0' := if odd then k0 + 3 else k0
    if nk' = 0 then first else first ++ taPairs k0' nk' (k0' + nk') nk'

/-- Collisions between two species in a voxel, takizuka_abe_pipeline.cc:122,159-163,178-212. -/
def taInter (k0 nk l0 nl : ℕ) : List (ℕ × ℕ) :=
  if nk = 0 then [] else if nl = 0 then [] else taPairs k0 nk l0 nl

/-- The shuffle of the particles `k0..k1-1`, takizuka_abe_pipeline.cc:127-135, with the sum of the weights; raw
32-bit numbers from a list.  `m` iterations from `i`. -/
def taShuffle {P : Type*} [Add K] (w : P → K) (k1 : ℕ) : ℕ → ℕ → (ℕ → P) → K → List ℕ → Option ((ℕ → P) × K × List ℕ)
  | 0, i, x, dens, as => some (x, dens + w (x i), as)
  | m + 1, i, x, dens, as =>
    match Rng.pick ((2 ^ 32 - 1) / (k1 - i)) i k1 as with
    | none => none
    | some (j, as) => let x := Rng.swap x i j; taShuffle w k1 m (i + 1) x (dens + w (x i)) as

/-! ## Scattering kernels -/

section kernels

variable [Field K] [LinearOrder K]

/-- Indices `d0`, `d1`, `d2` chosen by the conditional moves, takizuka_abe_pipeline.cc:29-31, hard_sphere.cc:257-259,
large_angle_coulomb.cc:100-102. -/
def axes (u : Fin 3 → K) : Fin 3 × Fin 3 × Fin 3 :=
  let t1 := u 0 * u 0
  let d := if u 1 * u 1 < t1 then ((1, 2, 0) : Fin 3 × Fin 3 × Fin 3) else (0, 1, 2)
  let t1 := if u 1 * u 1 < t1 then u 1 * u 1 else t1
  if u 2 * u 2 < t1 then (2, 0, 1) else d

/-- The vector T perpendicular to `u`, takizuka_abe_pipeline.cc:34-45, hard_sphere.cc:262-273,
large_angle_coulomb.cc:105-116; `eps` is FLT_MIN. -/
def tvec (rt : K → K) (eps : K) (u : Fin 3 → K) : Fin 3 → K :=
  let d := axes u
  let t1 := u d.2.1
  let t2 := u d.2.2
  let t0 := 1 / rt (t1 * t1 + t2 * t2 + eps)
  fun i => if i = d.2.2 then -t0 * t1 else if i = d.2.1 then t0 * t2 else 0

/-- `u x t` as written in the kernels, e.g. hard_sphere.cc:280-282. -/
def cross (u t : Fin 3 → K) : Fin 3 → K :=
  ![u 1 * t 2 - u 2 * t 1, u 2 * t 0 - u 0 * t 2, u 0 * t 1 - u 1 * t 0]

/-- Sum of squares in the order of the code. -/
def normSq (u : Fin 3 → K) : K := u 0 * u 0 + u 1 * u 1 + u 2 * u 2

/-- `COMPUTE_MOMENTUM_TRANSFER` of the hard sphere model, hard_sphere.cc:242-283, after the impact
parameter `(bcs, bsn)` has been accepted. -/
def hsTransfer (rt : K → K) (eps bcs bsn : K) (u : Fin 3 → K) : Fin 3 → K :=
  let b2 := bcs * bcs + bsn * bsn
  let ur := rt (normSq u)
  let t := tvec rt eps u
  let t0 := 1 - b2
  let t2 := rt t0
  let t1 := t2 * bcs * ur
  let t2 := t2 * bsn
  fun i => (t0 * u i - t1 * t i) - t2 * cross u t i

/-- `COMPUTE_MOMENTUM_TRANSFER` of the large angle Coulomb model, large_angle_coulomb.cc:85-128. -/
def lacTransfer (rt : K → K) (eps cc bcs bsn : K) (u : Fin 3 → K) : Fin 3 → K :=
  let b2 := bcs * bcs + bsn * bsn
  let ur2 := normSq u
  let ur := rt ur2
  let t := tvec rt eps u
  let t1 := cc * ur2
  let t0 := 1 / (1 + (t1 * t1) * b2)
  let t2 := t0 * t1
  let t1 := t2 * bcs * ur
  let t2 := t2 * bsn
  fun i => (t0 * u i - t1 * t i) - t2 * cross u t i

/-- Update of a pair, hard_sphere.cc:320-344, large_angle_coulomb.cc:161-192, with the weights `twomu_mi` and
`twomu_mj` of hard_sphere.cc:422-423 and large_angle_coulomb.cc:278-279; `type` selects the particles. -/
def applyTransfer (mi mj : K) (type : ℕ) (a ui uj : Fin 3 → K) : (Fin 3 → K) × (Fin 3 → K) :=
  (if type % 2 = 1 then fun k => ui k - 2 * mj / (mi + mj) * a k else ui,
   if type / 2 % 2 = 1 then fun k => uj k + 2 * mi / (mi + mj) * a k else uj)

/-- The hard sphere collision of a pair, hard_sphere.cc:313-344. -/
def hardSphere (rt : K → K) (eps mi mj bcs bsn : K) (type : ℕ) (ui uj : Fin 3 → K) : (Fin 3 → K) × (Fin 3 → K) :=
  applyTransfer mi mj type (hsTransfer rt eps bcs bsn fun k => ui k - uj k) ui uj

/-- The large angle Coulomb collision of a pair, large_angle_coulomb.cc:161-192. -/
def largeAngle (rt : K → K) (eps cc mi mj bcs bsn : K) (type : ℕ) (ui uj : Fin 3 → K) : (Fin 3 → K) × (Fin 3 → K) :=
  applyTransfer mi mj type (lacTransfer rt eps cc bcs bsn fun k => ui k - uj k) ui uj

/-- `takizuka_abe_collision`, takizuka_abe_pipeline.cc:14-78.  `std` is the scale of the angle, `g` the normal random
number, `cs`, `sn` the cosine and sine of the azimuth, `r` the random number of line 65. -/
def takizukaAbe (rt : K → K) (eps mi mj std g cs sn r wi wj : K) (ui uj : Fin 3 → K) :
    (Fin 3 → K) × (Fin 3 → K) :=
  let u : Fin 3 → K := fun k => ui k - uj k
  let ur := rt (normSq u)
  let t := tvec rt eps u
  let t2 := 1 / ur
  let t1 := std * rt t2 * t2
  let t1 := if 1 < t1 then 1 else t1
  let dd := t1 * g
  let t0 := 2 * dd / (1 + dd * dd)
  let t2 := t0 * sn
  let t1 := t0 * ur * cs
  let t0 := t0 * -dd
  let s : Fin 3 → K := fun i => (t0 * u i + t1 * t i) + t2 * cross u t i
  let m1 := if wj < wi ∧ wi * r > wj then 0 else mj / (mi + mj)
  let m2 := if wi < wj ∧ wj * r > wi then 0 else mi / (mi + mj)
  (fun k => ui k + m1 * s k, fun k => uj k - m2 * s k)

end kernels

end Verif.Collision
