import Verif.Flow.Lemmas

/-!
# Charge density of particles, with rounding to single precision

Model of `accumulate_rho_p`, /repo/src/species_advance/standard/rho_p.cc:22-86.  Every operation is rounded to nearest (products and sums
are not contracted); overflow and underflow are left out.
-/
namespace Verif.Flow
open Verif.Place Verif.Streak

/-- `FNMS(x,y,z)`, rho_p.cc:70. -/
def fnms (x y z : ℚ) : ℚ := rnd32 (z - rnd32 (x * y))

/-- `FMA(x,y,z)`, rho_p.cc:69. -/
def fma (x y z : ℚ) : ℚ := rnd32 (z + rnd32 (x * y))

/-- `w0` to `w7`, rho_p.cc:57-75, for a particle with offsets `d`; `c` is `p[n].w*q_8V`. -/
def weights (c : ℚ) (d : Fin 3 → ℚ) : Fin 8 → ℚ :=
  let w0 := d 0
  let w1 := d 1
  let dz := d 2
  let w7 := c
  let w6 := fnms w0 w7 w7
  let w7 := fma w0 w7 w7
  let w4 := fnms w1 w6 w6
  let w5 := fnms w1 w7 w7
  let w6 := fma w1 w6 w6
  let w7 := fma w1 w7 w7
  let w0 := fnms dz w4 w4
  let w1 := fnms dz w5 w5
  let w2 := fnms dz w6 w6
  let w3 := fnms dz w7 w7
  let w4 := fma dz w4 w4
  let w5 := fma dz w5 w5
  let w6 := fma dz w6 w6
  let w7 := fma dz w7 w7
  ![w0, w1, w2, w3, w4, w5, w6, w7]

/-- A particle: offsets, voxel and weight. -/
structure Part where
  d : Fin 3 → ℚ
  i : ℕ
  w : ℚ

/-- The nodes to which the eight are added, rho_p.cc:81-84. -/
def nodes (sy sz v : ℕ) : Fin 8 → ℕ := ![v, v + 1, v + sy, v + sy + 1, v + sz, v + sz + 1, v + sz + sy, v + sz + sy + 1]

/-- One particle, rho_p.cc:55-84: the eight are added one after the other. -/
def addPart (q8V : ℚ) (sy sz : ℕ) (f : ℕ → ℚ) (p : Part) : ℕ → ℚ :=
  (List.finRange 8).foldl (fun f k => let n := nodes sy sz p.i k
    Function.update f n (rnd32 (f n + weights (rnd32 (p.w * q8V)) p.d k))) f

/-- `accumulate_rho_p`, rho_p.cc:22-86: `rhof` of all nodes. -/
def accumulateRho (q r8V : ℚ) (sy sz : ℕ) (f : ℕ → ℚ) (ps : List Part) : ℕ → ℚ := ps.foldl (addPart (rnd32 (q * r8V)) sy sz) f

end Verif.Flow
