import Verif.Charge.Currents

/-!
# The Yee scheme on one periodic mesh

What the field solver of all ranks together should do, written for the global mesh without ranks, voxels, ghosts or
threads.
-/
namespace Verif.Torus

open Grid
open Field (Pos FC FMem World MC EntOn fieldExt InArray vox ranksOf)
open Charge (cellsOf siteAt)

section
variable {K : Type}

/-- Cells of the global mesh along each axis. -/
def sizeOf (D : Decomp) : Pos := fun a => ranksOf D a * cellsOf D a

/-- The next place along `a`. -/
def next (N : Pos) (a : Fin 3) (s : Pos) : Pos := fun b => if b = a then (s b + 1) % N b else s b

/-- The previous place along `a`. -/
def prev (N : Pos) (a : Fin 3) (s : Pos) : Pos := fun b => if b = a then (s b - 1) % N b else s b

/-- A place of the global mesh. -/
def Site (N : Pos) (s : Pos) : Prop := ∀ a, 0 ≤ s a ∧ s a < N a

/-- Fields on the global mesh: a number for each member and place. -/
abbrev Fields (K : Type) := FC → Pos → K

/-- The constants of a run. -/
structure Consts (K : Type) where
  cvac : K
  dt : K
  eps0 : K
  damp : K
  rd : Fin 3 → K

/-- The material coefficients at the edges, faces and nodes of the global mesh. -/
structure Medium (K : Type) where
  edge : Fin 3 → Pos → MC K
  face : Fin 3 → Pos → MC K
  node : Pos → MC K

variable [Field K]

/-- Faraday's law: `cB -= frac c dt curl E`. -/
def yeeB (N : Pos) (C : Consts K) (frac : K) (G : Fields K) : Fields K := fun k s =>
  match k with
  | .cb a => G (.cb a) s - frac * C.cvac * C.dt *
      (C.rd (a + 1) * (G (.e (a + 2)) (next N (a + 1) s) - G (.e (a + 2)) s) -
        C.rd (a + 2) * (G (.e (a + 1)) (next N (a + 2) s) - G (.e (a + 1)) s))
  | k => G k s

/-- `cB/mu` on a face. -/
def hOf (M : Medium K) (G : Fields K) (b : Fin 3) (s : Pos) : K := G (.cb b) s * (M.face b s).rmu b

/-- `curl (cB/mu)` on an edge. -/
def curlH (N : Pos) (C : Consts K) (M : Medium K) (G : Fields K) (a : Fin 3) (s : Pos) : K :=
  C.rd (a + 1) * (hOf M G (a + 2) s - hOf M G (a + 2) (prev N (a + 1) s)) -
    C.rd (a + 2) * (hOf M G (a + 1) s - hOf M G (a + 1) (prev N (a + 2) s))

/-- The damped curl: `tca = (1+damp) c dt curl (cB/mu) - damp tca`. -/
def tcaNew (N : Pos) (C : Consts K) (M : Medium K) (G : Fields K) (a : Fin 3) (s : Pos) : K :=
  (1 + C.damp) * C.cvac * C.dt * curlH N C M G a s - C.damp * G (.tca a) s

/-- Ampère's law: `E = decay E + drive (tca - dt/eps0 J)`. -/
def yeeE (N : Pos) (C : Consts K) (M : Medium K) (G : Fields K) : Fields K := fun k s =>
  match k with
  | .tca a => tcaNew N C M G a s
  | .e a => (M.edge a s).decay a * G (.e a) s +
      (M.edge a s).drive a * (tcaNew N C M G a s - C.dt / C.eps0 * G (.jf a) s)
  | k => G k s

/-- The error of Gauss's law at a node. -/
def gaussErr (N : Pos) (C : Consts K) (M : Medium K) (G : Fields K) (s : Pos) : K :=
  (M.node s).nonconductive * (∑ a, C.rd a * ((M.edge a s).eps a * G (.e a) s -
    (M.edge a (prev N a s)).eps a * G (.e a) (prev N a s)) - 1 / C.eps0 * (G .rhof s + G .rhob s))

/-! ### Ranks that hold the global fields -/

/-- The memories of all ranks hold member `k` of the global fields `G`: every rank has the value of `G` at each position of
its mesh where it keeps the member; so all copies of a shared position agree. -/
def Holds {n : ℕ} (D : Decomp) (F : World K n) (m : Fin n → FMem K) (G : Fields K) (k : FC) : Prop :=
  ∀ r c, EntOn (F r).g fieldExt k c → m r (vox (F r).g c, k) = G k (siteAt D r c)

/-- The ranks use the same constants. -/
structure SameConsts {n : ℕ} (F : World K n) (C : Consts K) : Prop where
  cvac : ∀ r, (F r).cvac = C.cvac
  dt : ∀ r, (F r).dt = C.dt
  eps0 : ∀ r, (F r).eps0 = C.eps0
  damp : ∀ r, (F r).damp = C.damp
  rd : ∀ r, (F r).rd = C.rd

/-- The materials of the ranks, ghost layer included, are those of the medium. -/
structure MadeOf {n : ℕ} (D : Decomp) (F : World K n) (M : Medium K) : Prop where
  edge : ∀ r a c, InArray (F r).g c → (F r).mc ((F r).emat a (vox (F r).g c)) = M.edge a (siteAt D r c)
  face : ∀ r a c, InArray (F r).g c → (F r).mc ((F r).fmat a (vox (F r).g c)) = M.face a (siteAt D r c)
  node : ∀ r c, InArray (F r).g c → (F r).mc ((F r).nmat (vox (F r).g c)) = M.node (siteAt D r c)

/-- An axis that is cut has at least two cells on each rank. -/
def Resolved (D : Decomp) : Prop := ∀ a, 1 < cellsOf D a ∨ ranksOf D a = 1

end

end Verif.Torus
