import Verif.Model.PhiBoundary

/-!
# Radial boundaries of the vector potential, and restarts

`src/electromagnetic.cxx` with `const_gradient`, and the `restartVars` of `vorticity` and `electromagnetic`.  Indices are local, of one processor.
The Laplacian solver is a parameter.
-/

namespace Hermes

/-- Members `Apar` and `last_time`. -/
structure AparState where
  last : ℝ
  Apar : XYZ

/-- `apar_boundary_timescale` and the coordinates. -/
structure AparOpts where
  timescale : ℝ
  g_11 : ℕ → ℕ → ℝ
  dx : ℕ → ℕ → ℝ

/-- Right-hand side in the guard cells, `src/electromagnetic.cxx:153-173`.  (`zstart … zend` is `0 … LocalNz - 1`.) -/
noncomputable def aparRhs (m : XMesh) (o : AparOpts) (weight : ℝ) (rhs Apar : XYZ) : XYZ :=
  let rhs := if m.firstX then
      let x := m.xstart - 1
      m.js.foldl (fun rhs y => m.ks.foldl (fun rhs z =>
        rhs.put x y z ((weight * (Apar (x + 1) y z - Apar x y z) + (1 - weight) * (Apar (x + 2) y z - Apar (x + 1) y z))
          / (Real.sqrt (o.g_11 x y) * o.dx x y))) rhs) rhs
    else rhs
  if m.lastX then
    let x := m.xend + 1
    m.js.foldl (fun rhs y => m.ks.foldl (fun rhs z =>
      rhs.put x y z ((weight * (Apar x y z - Apar (x - 1) y z) + (1 - weight) * (Apar (x - 1) y z - Apar (x - 2) y z))
        / Real.sqrt (o.g_11 x y) / o.dx x y)) rhs) rhs
  else rhs

/-- What one evaluation brings: time, `(-beta_em) * Ajpar`, and `aparSolver->solve(rhs, guess)`. -/
structure AparCall where
  time : ℝ
  source : XYZ
  solve : XYZ → XYZ → XYZ

/-- One evaluation with `const_gradient`, lines 137-176. -/
noncomputable def aparCall (m : XMesh) (o : AparOpts) (s : AparState) (c : AparCall) : AparState :=
  let weight := if c.time > s.last then Real.exp ((s.last - c.time) / o.timescale) else 1
  { last := c.time, Apar := c.solve (aparRhs m o weight c.source s.Apar) s.Apar }

/-- One evaluation without it, line 178. -/
def aparPlainCall (s : AparState) (c : AparCall) : AparState := { s with Apar := c.solve c.source s.Apar }

/-- One call of `restartVars`, `include/vorticity.hxx:88-104`, `src/electromagnetic.cxx:80-99`, with the saved value in the options if there is one: the
flag `first`, the options and the member after the call. -/
def restartField (first : Bool) (saved : Option XYZ) (field : XYZ) : Bool × Option XYZ × XYZ :=
  match first, saved with
  | true, some v => (false, some v, v)
  | _, _ => (first, some field, field)

/-- A new process that gets the saved options: the constructor sets `phi = 0` and `phi_boundary_last_update = -1` (`src/vorticity.cxx:145`, `162`); then
the first call of `restartVars`. -/
def PhiState.start (saved : Option XYZ) : PhiState := { last := -1, phi := (restartField true saved fun _ _ _ => 0).2.2 }

/-- The same for `electromagnetic`: `Apar = 0` (`src/electromagnetic.cxx:44`), `last_time = 0` (line 50). -/
def AparState.start (saved : Option XYZ) : AparState := { last := 0, Apar := (restartField true saved fun _ _ _ => 0).2.2 }

end Hermes
