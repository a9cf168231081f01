import Mathlib.Analysis.SpecialFunctions.Exp
import Mathlib.Analysis.SpecialFunctions.Log.Basic
import Mathlib.Analysis.Real.Sqrt
import Mathlib.Analysis.SpecialFunctions.Trigonometric.Basic

/-!
# The X boundaries of the potential (`src/vorticity.cxx`)

`Vorticity::transform` from line 258 to line 482: boundary values of `phi`, solution for `phi + Pi`, outer guard cells.  Indices are local,
of one processor.  The Laplacian solver of BOUT++ (with `mesh->communicate`) is a parameter.  The average along Y over the processors of the
core is modelled by the sum `others` that the other processors of `getYcomm` contribute and by their number `np`.
-/

namespace Hermes

/-- A field with local indices x, y, z. -/
abbrev XYZ := ℕ → ℕ → ℕ → ℝ

/-- `f(x, j, k) = v`. -/
def XYZ.put (f : XYZ) (x j k : ℕ) (v : ℝ) : XYZ := fun x' j' k' => if x' = x ∧ j' = j ∧ k' = k then v else f x' j' k'

/-- The part of `Mesh` that is used. -/
structure XMesh where
  xstart : ℕ
  xend : ℕ
  ystart : ℕ
  yend : ℕ
  LocalNx : ℕ
  LocalNy : ℕ
  LocalNz : ℕ
  firstX : Bool
  lastX : Bool

/-- `for (int j = mesh->ystart; j <= mesh->yend; j++)`. -/
def XMesh.js (m : XMesh) : List ℕ := List.range' m.ystart (m.yend + 1 - m.ystart)

/-- `for (int k = 0; k < mesh->LocalNz; k++)`. -/
def XMesh.ks (m : XMesh) : List ℕ := List.range m.LocalNz

/-- Options, `src/vorticity.cxx:128-170`. -/
structure PhiOpts where
  phi_boundary_relax : Bool
  phi_core_averagey : Bool
  phi_boundary_timescale : ℝ

/-- Members: `phi_boundary_last_update` and `phi`. -/
structure PhiState where
  last : ℝ
  phi : XYZ

/-- Average over Z of a field in `(x, j)`: lines 298-302, 326-330, 376-380, 395-399. -/
noncomputable def phiAverageZ (m : XMesh) (f : XYZ) (x j : ℕ) : ℝ := (m.ks.foldl (fun s k => s + f x j k) 0) / m.LocalNz

/-- Average over the core: lines 279-293.  The divisor has `LocalNy`, guard cells included. -/
noncomputable def averageCore (m : XMesh) (np : ℕ) (others : ℝ) (f : XYZ) : ℝ :=
  (m.js.foldl (fun s j => m.ks.foldl (fun s k => s + f m.xstart j k) s) 0 + others) / (np * m.LocalNz * m.LocalNy)

/-- Loops that put `value` on the boundary between cell `x` and guard cell `g`; `g2` is the second guard cell.
Lines 313-320, 339-346, 382-389, 401-408. -/
def writeBoundary (m : XMesh) (g g2 x : ℕ) (value : ℝ) (f : XYZ) (j : ℕ) : XYZ :=
  m.ks.foldl (fun f k =>
    let f := f.put g j k (2 * value - f x j k)
    f.put g2 j k (f g j k)) f

/-- One value of `j` of the relaxation: lines 304-320 and 332-346. -/
noncomputable def relaxLine (m : XMesh) (g g2 x : ℕ) (weight : ℝ) (target : XYZ → ℕ → ℝ) (f : XYZ) (j : ℕ) : XYZ :=
  let phivalue := target f j
  let oldvalue := 0.5 * (f g j 0 + f x j 0)
  let newvalue := weight * oldvalue + (1 - weight) * phivalue
  writeBoundary m g g2 x newvalue f j

/-- The update of the two boundaries: lines 277-349. -/
noncomputable def relaxBoundaries (m : XMesh) (o : PhiOpts) (np : ℕ) (others weight : ℝ) (phi : XYZ) : XYZ :=
  let phi := if m.firstX then
      let core := averageCore m np others phi
      m.js.foldl (relaxLine m (m.xstart - 1) (m.xstart - 2) m.xstart weight
        (fun f j => if o.phi_core_averagey then core else phiAverageZ m f m.xstart j)) phi
    else phi
  if m.lastX then
    m.js.foldl (relaxLine m (m.xend + 1) (m.xend + 2) m.xend weight (fun f j => phiAverageZ m f m.xend j)) phi
  else phi

/-- Relaxation of the boundaries: lines 260-350. -/
noncomputable def relaxPhi (m : XMesh) (o : PhiOpts) (np : ℕ) (others time : ℝ) (s : PhiState) : PhiState :=
  if s.last < 0 then { s with last := time }
  else if time > s.last then
    let weight := Real.exp (-(time - s.last) / o.phi_boundary_timescale)
    { last := time, phi := relaxBoundaries m o np others weight s.phi }
  else s

/-- Fixed boundaries: lines 351-410.  `Me_Mp` is the mass of the electrons, `Te` their temperature or 0. -/
noncomputable def fixedPhi (m : XMesh) (sheath_boundary : Bool) (Me_Mp : ℝ) (Te phi : XYZ) : XYZ :=
  let sheathmult : ℝ := if sheath_boundary then Real.log (0.5 * Real.sqrt (1 / (Me_Mp * Real.pi))) else 0
  let phi := if m.firstX then
      m.js.foldl (fun f j => writeBoundary m (m.xstart - 1) (m.xstart - 2) m.xstart (sheathmult * phiAverageZ m Te m.xstart j) f j) phi
    else phi
  if m.lastX then
    m.js.foldl (fun f j => writeBoundary m (m.xend + 1) (m.xend + 2) m.xend (sheathmult * phiAverageZ m Te m.xend j) f j) phi
  else phi

/-- Average of guard cell and cell into the guard cell: lines 421-441. -/
noncomputable def shiftBoundary (m : XMesh) (g x : ℕ) (f : XYZ) : XYZ :=
  m.js.foldl (fun f j => m.ks.foldl (fun f k => f.put g j k (0.5 * (f g j k + f x j k))) f) f

/-- Lines 421-441 for both ends. -/
noncomputable def shiftBoundaries (m : XMesh) (f : XYZ) : XYZ :=
  let f := if m.firstX then shiftBoundary m (m.xstart - 1) m.xstart f else f
  if m.lastX then shiftBoundary m (m.xend + 1) m.xend f else f

/-- Copy column `src` into column `dst`: bodies of the loops in lines 468-472 and 477-481. -/
def copyColumn (m : XMesh) (dst src : ℕ) (f : XYZ) : XYZ :=
  m.js.foldl (fun f j => m.ks.foldl (fun f k => f.put dst j k (f src j k)) f) f

/-- Outer guard cells: lines 465-482. -/
def outerGuards (m : XMesh) (f : XYZ) : XYZ :=
  let f := if m.firstX then ((List.range (m.xstart - 1)).reverse).foldl (fun f i => copyColumn m i (i + 1) f) f else f
  if m.lastX then (List.range' (m.xend + 2) (m.LocalNx - (m.xend + 2))).foldl (fun f i => copyColumn m i (i - 1) f) f else f

/-- The calculation of the potential: lines 412-482.  `solve x0` is `phiSolver->solve(Vort * (Bsq / average_atomic_mass), x0)` with
`mesh->communicate`, or the sum of the two solutions for `split_n0`. -/
noncomputable def solvePhi (m : XMesh) (solve : XYZ → XYZ) (Pi_hat phi : XYZ) : XYZ :=
  let phi_plus_pi : XYZ := fun x j k => phi x j k + Pi_hat x j k
  let phi_plus_pi := shiftBoundaries m phi_plus_pi
  let phi : XYZ := fun x j k => solve phi_plus_pi x j k - Pi_hat x j k
  outerGuards m phi

/-- What one evaluation of the right-hand side brings: time, ion pressure, solver with its right-hand side, contribution of the other processors. -/
structure PhiCall where
  time : ℝ
  Pi_hat : XYZ
  solve : XYZ → XYZ
  others : ℝ

/-- One evaluation with `phi_boundary_relax`: lines 258-482. -/
noncomputable def phiCall (m : XMesh) (o : PhiOpts) (np : ℕ) (s : PhiState) (c : PhiCall) : PhiState :=
  let s := relaxPhi m o np c.others c.time s
  { s with phi := solvePhi m c.solve c.Pi_hat s.phi }

end Hermes
