import Verif.Model.NeutralMixed
import Verif.Model.Anomalous

/-!
# `neutral_mixed` on the mesh

`Model/NeutralMixed.lean` has the operators as parameters.  Here they are the operators of `src/div_ops.cxx` and `include/div_ops.hxx` on a grid.
What remains of BOUT++ are the boundary conditions, `Grad_par`, `Div_par`, `|Grad|` and the shift to field-aligned coordinates.
-/

namespace Hermes

section
variable {nz : ℕ}

/-- Cell `(x, y, z)` of the grid. -/
abbrev Cell (nz : ℕ) := ℤ × ℤ × Fin nz

/-- A field as a function of three indices and as a function of the cell. -/
def F3.cells (f : F3 nz) : Fld (Cell nz) := fun p => f p.1 p.2.1 p.2.2
def asF3 (f : Fld (Cell nz)) : F3 nz := fun i j k => f (i, j, k)

/-- `Div_a_Grad_perp_flows(a, f, flow_xlow, flow_ylow)`, `src/div_ops.cxx:795-1023`, without parallel slices.  The flows are set in the cells of the
loops and zero elsewhere. -/
noncomputable def Grid.perpFlows [NeZero nz] (g : Grid) (B : BoutOps nz) (a f : F3 nz) : PerpOut nz :=
  let r := g.divPerpFlows a f (B.toFA a) (B.toFA f)
  { source := r.1 + B.fromFA r.2
    flow_xlow := fun i j k => if (g.xstart ≤ i ∧ i ≤ g.xend + 1) ∧ g.ystart ≤ j ∧ j ≤ g.yend then g.flowX (g.flowsX a f) i j k else 0
    flow_ylow := B.fromFA fun i j k => if (g.xstart ≤ i ∧ i ≤ g.xend) ∧ g.ystart ≤ j ∧ j ≤ g.yend then
      g.flowY (g.flowsYdown (B.toFA a) (B.toFA f)) i j k else 0 }

/-- `flow_ylow` of `Div_par_K_Grad_par_mod`, `src/div_ops.cxx:1577-1593`. -/
noncomputable def Grid.conductionFlow3 (g : Grid) (B : RhsOps nz) (K f : F3 nz) (bndry_flux : Bool) : F3 nz :=
  B.fromFA fun i j k => (g.line B i).condFlow (alongY (B.toFA K) i k) (alongY (B.toFA f) i k) bndry_flux j

/-- The boundary conditions `Tn`, `Pn`, `Dnn` read from the input (`src/neutral_mixed.cxx:133-159`), `applyBoundary("neumann")` and `abs(Grad(f))`. -/
structure NMBoundaries (nz : ℕ) where
  T : F3 nz → F3 nz
  P : F3 nz → F3 nz
  D : F3 nz → F3 nz
  neumann : F3 nz → F3 nz
  absGrad : F3 nz → F3 nz

/-- The cells next to the lower and upper end of the lines: `iterateBndryLowerY`, `iterateBndryUpperY`, all `z`. -/
def Grid.endCells (g : Grid) (nz : ℕ) (ends : ℤ → Bool) (j : ℤ) : List (Cell nz) :=
  ((forRange g.xstart g.xend).filter ends ×ˢ List.finRange nz).map fun p => (p.1, j, p.2)

/-- What `NeutralMixed` uses on the grid `g`; the parallel limiter is `FV::Upwind` (`src/neutral_mixed.cxx:14`), `fixflux` has its default value. -/
noncomputable def Grid.nmMesh [NeZero nz] (g : Grid) (B : RhsOps nz) (b : NMBoundaries nz) : NMMesh (Cell nz) where
  m := { ym := fun p => (p.1, p.2.1 - 1, p.2.2), yp := fun p => (p.1, p.2.1 + 1, p.2.2),
         lower := g.endCells nz g.firstY g.ystart, upper := g.endCells nz g.lastY g.yend,
         J := fun p => g.J p.1 p.2.1, g22 := fun p => B.g_22 p.1 p.2.1, dx := fun p => g.dx p.1 p.2.1, dy := fun p => g.dy p.1 p.2.1,
         dz := fun p => g.dz p.1 p.2.1 }
  dom := fun p => decide (g.xstart ≤ p.1 ∧ p.1 ≤ g.xend ∧ g.ystart ≤ p.2.1 ∧ p.2.1 ≤ g.yend)
  communicate := fun f => (B.communicate (asF3 f)).cells
  bndryT := fun f => (b.T (asF3 f)).cells
  bndryP := fun f => (b.P (asF3 f)).cells
  bndryD := fun f => (b.D (asF3 f)).cells
  neumann := fun f => (b.neumann (asF3 f)).cells
  absGrad := fun f => (b.absGrad (asF3 f)).cells
  divPar := fun f => (B.divPar (asF3 f)).cells
  gradPar := fun f => (B.gradPar (asF3 f)).cells
  divParFvv := fun f v w => (g.divParFvv3 B upwind (asF3 f) (asF3 v) (asF3 w) true).cells
  divParMod := fun f v w => ((g.divParMod3 B upwind (asF3 f) (asF3 v) (asF3 w) true).cells,
    (g.divParModFlow3 B upwind (asF3 f) (asF3 v) (asF3 w) true).cells)
  divPerp := fun a f => let r := g.perpFlows B.toBoutOps (asF3 a) (asF3 f); (r.source.cells, r.flow_xlow.cells, r.flow_ylow.cells)
  divParK := fun K f => ((g.conduction3 B (asF3 K) (asF3 f) false).cells, (g.conductionFlow3 B (asF3 K) (asF3 f) false).cells)

end
end Hermes
