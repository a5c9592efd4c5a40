import Mathlib.Analysis.SpecialFunctions.Log.Basic

/-!
# Normal and exponential random numbers

`frandn`, `drandn`, `frande`, `drande`, /repo/src/util/rng/rng.cc:150-450.
-/
namespace Verif.Normal

/-- `FRANDN_N`, `frandn_zig_x`, `frandn_zig_y`, `FRANDN_R` (/repo/src/util/rng/frandn_table.h,
frandn_table.cc), resp. the double precision tables (drandn_table.h, drandn_table.cc). -/
structure Table where
  N : ℕ
  x : ℕ → ℝ
  y : ℕ → ℝ
  R : ℝ

/-- A raw number of the generator: its sign bit, its index bits (6 of 32, 8 of 64) and the number in
(0,1] that the other bits stand for.  The code takes bits 0, 1-6 and 7-31 of a raw number for the
first number of a trip (rng.cc:307-311) and all bits for the others (`conv_frand_c`, `conv_frand_c1`).
Simplified: the number in (0,1] is real, and the bits of the others are not shared with sign and index
(what the bits do is in `Rng.ziggurat_indices` and `Rng.ziggurat_wraps`). -/
abbrev Raw (N : ℕ) := Bool × Fin N × ℝ

/-- The raw numbers that a generator is going to give. -/
abbrev Raws (N : ℕ) := ℕ → Raw N

/-- `RNG_NEXT`: the generator after one raw number. -/
def next {N : ℕ} (ω : Raws N) : Raws N := fun k => ω (k + 1)

/-- `sgn[s]`, rng.cc:297. -/
def sgn (s : Bool) : ℝ := if s then -1 else 1

open Real in
/-- One trip of the loop, /repo/src/util/rng/rng.cc:299-331 (`frandn`) and 358-390 (`drandn`): `some x`
if it ends the loop with `sgn[s]*x`, and the generator afterwards. -/
noncomputable def trip (T : Table) (ω : Raws T.N) : Option ℝ × Raws T.N :=
  let s := (ω 0).1
  let i : ℕ := (ω 0).2.1
  let x := (ω 0).2.2 * T.x (i + 1)
  if x < T.x i then (some (sgn s * x), next ω)
  else
    let y := (next ω 0).2.2
    if i ≠ T.N - 1 then
      let y := T.y i + (T.y (i + 1) - T.y i) * y
      (if y < exp (-(1 / 2) * x * x) then some (sgn s * x) else none, next (next ω))
    else
      let x := T.R - (1 / T.R) * log (next (next ω) 0).2.2
      let y := y * exp (-T.R * (x - (1 / 2) * T.R))
      (if y < exp (-(1 / 2) * x * x) then some (sgn s * x) else none, next (next (next ω)))

/-- `frandn`/`drandn` with at most `fuel` trips of its loop: the number and the generator
afterwards. -/
noncomputable def randn (T : Table) : ℕ → Raws T.N → Option (ℝ × Raws T.N)
  | 0, _ => none
  | n + 1, ω =>
    match trip T ω with
    | (some x, ω') => some (x, ω')
    | (none, ω') => randn T n ω'

/-- `frandn_fill`/`drandn_fill`, rng.cc:336-346: `k` numbers, at most `fuel` trips for each. -/
noncomputable def fill (T : Table) (fuel : ℕ) : (k : ℕ) → Raws T.N → Option ((Fin k → ℝ) × Raws T.N)
  | 0, ω => some (Fin.elim0, ω)
  | k + 1, ω =>
    (randn T fuel ω).bind fun q =>
      (fill T fuel k q.2).map fun l => (Fin.cons q.1 l.1, l.2)

/-- `frande`/`drande`, rng.cc:411-415, 430-434, of the number in (0,1] of a raw number. -/
noncomputable def rande (u : ℝ) : ℝ := -Real.log u

end Verif.Normal
