import Mathlib.Analysis.SpecialFunctions.ExpDeriv
import Mathlib.Analysis.SpecialFunctions.Trigonometric.DerivHyp
import Verif.Field.Model

/-!
# Materials

Model of `create_sfa_params`, /repo/src/field_advance/standard/sfa.cc:48-151, which turns the list of materials into the table
of coefficients the field solver uses.  Numbers are real, `exp` and `sinh` the true functions.
-/
namespace Verif.Material

open Field (MC)

/-- `material_t`, /repo/src/material/material.h:12-20, without the name. -/
structure Mat where
  id : ℕ
  eps : Fin 3 → ℝ
  mu : Fin 3 → ℝ
  sigma : Fin 3 → ℝ
  zeta : Fin 3 → ℝ

/-- The members of the grid that are used: `nx, ny, nz`, `cvac`, `dt`, `eps0`, `rdx, rdy, rdz`. -/
structure GridPar where
  n : Fin 3 → ℤ
  cvac : ℝ
  dt : ℝ
  eps0 : ℝ
  rd : Fin 3 → ℝ

/-- What ends the construction: a division by zero (which in IEEE arithmetic gives infinities, not modelled), a `printf` with
too few arguments, a store past the end of the table. -/
inductive Fault | divZero | undef | overrun
deriving DecidableEq

/-- The warnings: active medium along an axis, imaginary speed of light along an axis with the electric field along another
one, Courant condition. -/
inductive Warn
  | active (a : Fin 3)
  | imaginary (a e : Fin 3)
  | courant
deriving DecidableEq

/-- `minf`, sfa.cc:48-53. -/
noncomputable def minf (a b : ℝ) : ℝ := if a < b then a else b

/-- `ax, ay, az` of sfa.cc:68-70. -/
noncomputable def cdt2 (g : GridPar) (k : Fin 3) : ℝ :=
  let a := if g.n k > 1 then g.cvac * g.dt * g.rd k else 0
  a * a

/-- `cg2`, sfa.cc:91-93. -/
noncomputable def cg2 (g : GridPar) (m : Mat) : ℝ :=
  cdt2 g 0 / minf (m.eps 1 * m.mu 2) (m.eps 2 * m.mu 1) +
  cdt2 g 1 / minf (m.eps 2 * m.mu 0) (m.eps 0 * m.mu 2) +
  cdt2 g 2 / minf (m.eps 0 * m.mu 1) (m.eps 1 * m.mu 0)

open Classical in
/-- The warnings for a material, sfa.cc:73-97.  The last one has a `%s` and no argument for it (line 97). -/
noncomputable def check (g : GridPar) (m : Mat) : Except Fault (List Warn) :=
  if ∃ k, m.eps k = 0 ∨ m.mu k = 0 then .error .divZero
  else if m.zeta 0 ≠ 0 ∨ m.zeta 1 ≠ 0 ∨ m.zeta 2 ≠ 0 then .error .undef
  else .ok (
    (if m.sigma 0 / m.eps 0 < 0 then [.active 0] else []) ++
    (if m.eps 1 * m.mu 2 < 0 then [.imaginary 0 1] else []) ++
    (if m.eps 2 * m.mu 1 < 0 then [.imaginary 0 2] else []) ++
    (if m.sigma 1 / m.eps 1 < 0 then [.active 1] else []) ++
    (if m.eps 2 * m.mu 0 < 0 then [.imaginary 1 2] else []) ++
    (if m.eps 0 * m.mu 2 < 0 then [.imaginary 1 0] else []) ++
    (if m.sigma 2 / m.eps 2 < 0 then [.active 2] else []) ++
    (if m.eps 0 * m.mu 1 < 0 then [.imaginary 2 0] else []) ++
    (if m.eps 1 * m.mu 0 < 0 then [.imaginary 2 1] else []) ++
    (if cg2 g m ≥ 1 then [.courant] else []))

/-- `ax`, sfa.cc:119-121. -/
noncomputable def lossOf (g : GridPar) (m : Mat) (k : Fin 3) : ℝ := (m.sigma k * g.dt) / (m.eps k * g.eps0)

/-- `mc->drivex`, sfa.cc:125-127. -/
noncomputable def driveOf (a eps : ℝ) : ℝ :=
  if a = 0 then 1 / eps
  else if Real.exp (-a) = 0 then 0
  else 2 * Real.exp (-(1 / 2) * a) * Real.sinh (1 / 2 * a) / (a * eps)

/-- The coefficients of a material, sfa.cc:119-147. -/
noncomputable def coefOf (g : GridPar) (m : Mat) : MC ℝ where
  decay k := Real.exp (-lossOf g m k)
  drive k := driveOf (lossOf g m k) (m.eps k)
  rmu k := 1 / m.mu k
  nonconductive := if lossOf g m 0 = 0 ∧ lossOf g m 1 = 0 ∧ lossOf g m 2 = 0 then 1 else 0
  eps k := m.eps k

/-- The loop over the list, sfa.cc:112-148, storing into a table of `size` entries; entries nothing was stored to are `none`. -/
noncomputable def fill (g : GridPar) (size : ℕ) : List Mat → (ℕ → Option (MC ℝ)) → Except Fault (ℕ → Option (MC ℝ))
  | [], t => .ok t
  | m :: l, t => if m.id < size then fill g size l (Function.update t m.id (some (coefOf g m))) else .error .overrun

/-- The first loop over the list, sfa.cc:72-99. -/
noncomputable def checkAll (g : GridPar) : List Mat → Except Fault (List Warn)
  | [] => .ok []
  | m :: l => do
    let w ← check g m
    let w' ← checkAll g l
    pure (w ++ w')

/-- `sfa_params_t`, /repo/src/field_advance/standard/sfa_private.h:25-30. -/
structure Params where
  mc : ℕ → Option (MC ℝ)
  n_mc : ℕ
  damp : ℝ

/-- `create_sfa_params`, sfa.cc:55-151, with the division by `eps0`. -/
noncomputable def createSfaParams (g : GridPar) (l : List Mat) (damp : ℝ) : Except Fault (List Warn × Params) :=
  if g.eps0 = 0 then .error .divZero
  else do
    let w ← checkAll g l
    let t ← fill g (l.length + 2) l (fun _ => none)
    pure (w, ⟨t, l.length, damp⟩)

end Verif.Material
