import Verif.Model.RhsEnergy

/-!
# Preconditioner of `neutral_mixed`
-/

namespace Hermes
noncomputable section

variable {nz : ℕ}

/-- The time derivatives of the neutral gas. -/
structure NeutralDerivs (nz : ℕ) where
  Nn : F3 nz
  NVn : F3 nz
  Pn : F3 nz

/-- `NeutralMixed::precon`, `src/neutral_mixed.cxx:786-807`.  `solve D r` is the solution `x` of `D Delp2(x) + x = r` by `Laplacian` with
`setCoefA(1.0)` (line 97) and zero gradient at the radial edges (94-95). -/
def neutralPrecon (precondition evolve_momentum : Bool) (solve : F3 nz → F3 nz → F3 nz) (Dnn : F3 nz) (f : FieldsIn nz) (gamma : ℝ)
    (d : NeutralDerivs nz) : NeutralDerivs nz :=
  if precondition then
    let coef := scaled f fun i j k => -gamma * Dnn i j k
    let Nn := solve coef d.Nn
    let NVn := if evolve_momentum then solve coef d.NVn else d.NVn
    { Nn := Nn, NVn := NVn, Pn := solve coef d.Pn }
  else d

end
end Hermes
