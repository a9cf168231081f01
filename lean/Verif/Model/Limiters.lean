import Mathlib.Data.Real.Basic
import Mathlib.Algebra.Order.Group.MinMax

/-!
# Slope limiters and cell averages

Model of the limiters of `src/div_ops.cxx:88-132`, of `FV::Superbee`
(`include/div_ops.hxx:105-124`) and of `include/integrate.hxx`.

`FV::Upwind`, `FV::MinMod` and `FV::MC`, which the header operators use, are part of BOUT++ and
not visible in /repo; they are assumed to be the same formulas as the functions of the same name in
`src/div_ops.cxx` (which carry the same comments).
-/

namespace Hermes

/-- A limiter: from the values in the cell below, the cell itself and the cell above (`m`, `c`, `p`) to
the left and right edge values (`L`, `R`). -/
abbrev Limiter := ℝ → ℝ → ℝ → ℝ × ℝ

/-- `SIGN(a)` of BOUT++. -/
noncomputable def SIGN (a : ℝ) : ℝ := if 0 ≤ a then 1 else -1

/-- `minmod(a, b)`, `src/div_ops.cxx:99-106`. -/
noncomputable def minmod2 (a b : ℝ) : ℝ :=
  if a * b ≤ 0 then 0 else if |a| < |b| then a else b

/-- `minmod(a, b, c)`, `src/div_ops.cxx:108-116`. -/
noncomputable def minmod3 (a b c : ℝ) : ℝ :=
  if a * b ≤ 0 ∨ a * c ≤ 0 then 0 else SIGN a * min |a| (min |b| |c|)

/-- `Upwind`, `src/div_ops.cxx:88-89`. -/
def upwind : Limiter := fun _ c _ => (c, c)

/-- `Fromm`, `src/div_ops.cxx:91-95`. -/
noncomputable def fromm : Limiter := fun m c p => (c - 0.25 * (p - m), c + 0.25 * (p - m))

/-- `MinMod`, `src/div_ops.cxx:118-124`. -/
noncomputable def minMod : Limiter := fun m c p =>
  let slope := minmod2 (p - c) (c - m)
  (c - 0.5 * slope, c + 0.5 * slope)

/-- `MC`, `src/div_ops.cxx:126-132`. -/
noncomputable def mc : Limiter := fun m c p =>
  let slope := minmod3 (2 * (p - c)) (0.5 * (p - m)) (2 * (c - m))
  (c - 0.5 * slope, c + 0.5 * slope)

/-! ## Superbee -/

/-- `FV::Stencil1D`: the edge values `L`, `R` have no value until a limiter assigns them. -/
structure Stencil where
  c : ℝ
  m : ℝ
  p : ℝ
  L : Option ℝ
  R : Option ℝ

/-- `FV::Superbee::operator()`, `include/div_ops.hxx:106-123`.  `none` = a value that was never assigned is
read (indeterminate value: undefined behaviour).  Lines 107-108 read `n.L` and `n.R`. -/
noncomputable def superbee (n : Stencil) : Option Stencil :=
  match n.L, n.R with
  | some nL, some nR =>
    let gL := n.c - nL
    let gR := nR - n.c
    if gL * gR < 0 then some { n with L := some n.c, R := some n.c }
    else
      let sign := SIGN gL
      let gL := |gL|
      let gR := |gR|
      let halfSlope := sign * max (min gL (0.5 * gR)) (min gR (0.5 * gL))
      some { n with L := some (n.c - halfSlope), R := some (n.c + halfSlope) }
  | _, _ => none

/-- The stencil as set up by every caller in `include/div_ops.hxx` (e.g. lines 609-614): only `c`, `m`, `p`
are assigned before the limiter is called. -/
def callerStencil (m c p : ℝ) : Stencil := ⟨c, m, p, none, none⟩

/-- The stencil as set up by `cellLeft`/`cellRight` (`include/integrate.hxx:25,35`): aggregate
initialisation with designators, so that the members not mentioned are zero. -/
def integrateStencil (m c p : ℝ) : Stencil := ⟨c, m, p, some 0, some 0⟩

/-! ## Cell averages -/

/-- One cell of `cellAverage` (`include/integrate.hxx:71-83`) for a function of a vector of arguments.
`a k`, `am k`, `ap k` are the values of argument number `k` in the cell and its two neighbours,
`Ji`, `Jm`, `Jp` the Jacobians. -/
noncomputable def cellAverage {κ : Type} (lim : Limiter) (func : (κ → ℝ) → ℝ) (a am ap : κ → ℝ)
    (Ji Jm Jp : ℝ) : ℝ :=
  4 / 6 * func a
    + (Ji + Jm) / (12 * Ji) * func (fun k => (lim (am k) (a k) (ap k)).1)
    + (Ji + Jp) / (12 * Ji) * func (fun k => (lim (am k) (a k) (ap k)).2)

end Hermes
