import Mathlib.Analysis.Real.Sqrt

/-!
# `full_velocity`: axisymmetric neutral gas with three velocity components

Fields are functions of the two indices.  The operators of BOUT++ (`Div`, `Grad`, `V_dot_Grad`, `Laplace_FV`, `communicate`, `applyBoundary`) are
parameters.
-/

namespace Hermes.FullVelocity

/-- `Field2D`. -/
abbrev F2 := ℤ → ℤ → ℝ

/-- `Vector2D` in covariant components. -/
structure Vec where
  x : F2
  y : F2
  z : F2

/-- Local mesh: cells `0 … nx - 1` in x, `ystart … yend` in y; `lower i`, `upper i`: column `i` ends at a boundary (`iterateBndryLowerY`,
`iterateBndryUpperY`). -/
structure Mesh where
  nx : ℤ
  ystart : ℤ
  yend : ℤ
  lower : ℤ → Bool
  upper : ℤ → Bool
  dx : F2
  dy : F2
  J : F2
  g_22 : F2
  Bxy : F2

/-! ## Transformation to cylindrical coordinates -/

/-- Arrays read from the grid, lines 49-76, normalised. -/
structure Geometry where
  Rxy : F2
  Zxy : F2
  hthe : F2
  Bpxy : F2
  etaxy : F2

/-- `∂/∂θ` of a coordinate, lines 95-106: central, one-sided in the first and last cell. -/
noncomputable def dtheta (m : Mesh) (F : F2) (i j : ℤ) : ℝ :=
  if j = m.ystart then (F i (j + 1) - F i j) / m.dy i j
  else if j = m.yend then (F i j - F i (j - 1)) / m.dy i j
  else (F i (j + 1) - F i (j - 1)) / (2 * m.dy i j)

/-- `∂/∂ψ` of a coordinate, lines 114-127. -/
noncomputable def dpsi (m : Mesh) (F : F2) (i j : ℤ) : ℝ :=
  if i = 0 then (F (i + 1) j - F i j) / m.dx i j
  else if i = m.nx - 1 then (F i j - F (i - 1) j) / m.dx i j
  else (F (i + 1) j - F (i - 1) j) / (2 * m.dx i j)

/-- Transformation matrices of one cell. -/
structure Rotation where
  Urx : ℝ
  Ury : ℝ
  Uzx : ℝ
  Uzy : ℝ
  Txr : ℝ
  Txz : ℝ
  Tyr : ℝ
  Tyz : ℝ

/-- Constructor, `src/full_velocity.cxx:92-148`. -/
noncomputable def rotation (m : Mesh) (q : Geometry) (i j : ℤ) : Rotation :=
  let dRdtheta := dtheta m q.Rxy i j
  let dZdtheta := dtheta m q.Zxy i j
  let h := Real.sqrt (dRdtheta ^ 2 + dZdtheta ^ 2)
  let grady := 1 / q.hthe i j
  let dRdtheta := dRdtheta / grady / h
  let dZdtheta := dZdtheta / grady / h
  let dRdpsi := dpsi m q.Rxy i j
  let dZdpsi := dpsi m q.Zxy i j
  let cosbeta := Real.sqrt (1 - q.etaxy i j ^ 2)
  let dldpsi := Real.sqrt (dRdpsi ^ 2 + dZdpsi ^ 2) * cosbeta
  let dRdpsi := dRdpsi / (dldpsi * q.Bpxy i j * q.Rxy i j)
  let dZdpsi := dZdpsi / (dldpsi * q.Bpxy i j * q.Rxy i j)
  let J := dRdpsi * dZdtheta - dZdpsi * dRdtheta
  { Urx := dRdpsi, Ury := dRdtheta, Uzx := dZdpsi, Uzy := dZdtheta,
    Txr := dZdtheta / J, Txz := -dRdtheta / J, Tyr := -dZdpsi / J, Tyz := dRdpsi / J }

/-! ## `transform` -/

/-- Evolving variables. -/
structure Gas where
  N : F2
  P : F2
  V : Vec

/-- `floor(f, lo)`. -/
noncomputable def floor2 (f : F2) (lo : ℝ) : F2 := fun i j => if f i j < lo then lo else f i j

/-- Guard cells of one field. -/
def setLower (m : Mesh) (f : F2) (value : ℤ → ℝ) : F2 := fun i j => if j = m.ystart - 1 ∧ m.lower i = true then value i else f i j

/-- Outflow boundary, lines 177-200. -/
noncomputable def outflow (m : Mesh) (g : Gas) : Gas where
  N := setLower m g.N fun i => g.N i m.ystart
  P := setLower m g.P fun i => g.P i m.ystart
  V :=
    { x := setLower m g.V.x fun i => g.V.x i m.ystart
      y := setLower m g.V.y fun i => if g.V.y i m.ystart < 0 then g.V.y i m.ystart else -g.V.y i m.ystart
      z := setLower m g.V.z fun i => g.V.z i m.ystart }

/-- What is put into the state of the species (`none`: not set). -/
structure Published where
  density : Option F2 := none
  pressure : Option F2 := none
  momentum : Option F2 := none
  velocity : Option F2 := none
  temperature : Option F2 := none
  AA : Option ℝ := none
  charge : Option ℝ := none

/-- Options. -/
structure Opts where
  AA : ℝ := 2
  gamma_ratio : ℝ := 5 / 3
  neutral_viscosity : ℝ := 1e-2
  neutral_bulk : ℝ := 1e-2
  neutral_conduction : ℝ := 1e-2
  outflow_ydown : Bool := false
  neutral_gamma : ℝ := 5 / 4
  Tnorm : ℝ

/-- `transform`, `src/full_velocity.cxx:160-216`, after `communicate`: the variables with their guard cells, the unfloored temperature `Tn2D`, and what
is published. -/
noncomputable def transform (o : Opts) (m : Mesh) (g : Gas) : Gas × F2 × Published :=
  let Tn2D : F2 := fun i j => g.P i j / g.N i j
  let Nn := floor2 g.N 1e-8
  let Tn := floor2 Tn2D (0.01 / o.Tnorm)
  let g := if o.outflow_ydown then outflow m g else g
  let Vnpar : F2 := fun i j => g.V.y i j / (m.J i j * m.Bxy i j)
  (g, Tn2D, { density := some Nn, pressure := some g.P, momentum := some fun i j => Vnpar i j * Nn i j * o.AA, velocity := some Vnpar,
              temperature := some Tn })

/-! ## `finally` -/

/-- Operators of BOUT++.  `div V f`: `Div(V, f)`; `divV V`: `Div(V)`; `adv V f`: `V_dot_Grad(V, f)`; `laplace a f`: `Laplace_FV(a, f)`;
`bc`: `applyBoundary` and `communicate`. -/
structure Ops where
  div : Vec → F2 → F2
  divV : Vec → F2
  grad : F2 → Vec
  adv : Vec → F2 → F2
  laplace : ℝ → F2 → F2
  bc : F2 → F2

/-- Sources of other components. -/
structure Sources where
  density_source : Option F2 := none
  momentum_source : Option F2 := none
  energy_source : Option F2 := none

/-- Cylindrical components, lines 236-237. -/
def toR (T : ℤ → ℤ → Rotation) (V : Vec) : F2 := fun i j => (T i j).Txr * V.x i j + (T i j).Tyr * V.y i j
def toZ (T : ℤ → ℤ → Rotation) (V : Vec) : F2 := fun i j => (T i j).Txz * V.x i j + (T i j).Tyz * V.y i j

/-- Back to field-aligned components, lines 244-245, 255-256. -/
def backX (T : ℤ → ℤ → Rotation) (r z : F2) : F2 := fun i j => (T i j).Urx * r i j + (T i j).Uzx * z i j
def backY (T : ℤ → ℤ → Rotation) (r z : F2) : F2 := fun i j => (T i j).Ury * r i j + (T i j).Uzy * z i j

/-- Heat lost per volume of the end cell, lines 277-303 and 307-333: cell `a`, guard cell `b`. -/
noncomputable def wallLoss (o : Opts) (m : Mesh) (N T : F2) (i a b : ℤ) : ℝ :=
  let Nnout := 0.5 * (N i a + N i b)
  let Nnout := if Nnout < 0 then 0 else Nnout
  let Tnout := 0.5 * (T i a + T i b)
  let Tnout := if Tnout < 0 then 0 else Tnout
  let q := o.neutral_gamma * Nnout * Tnout * Real.sqrt Tnout
  let heatflux := q * (m.J i a + m.J i b) / (Real.sqrt (m.g_22 i a) + Real.sqrt (m.g_22 i b))
  2 / 3 * heatflux / (m.dy i a * m.J i a)

/-- Loss at both ends, lines 273-337; a column of one cell loses at both. -/
noncomputable def wallLosses (o : Opts) (m : Mesh) (N T : F2) : F2 := fun i j =>
  (if j = m.ystart ∧ m.lower i = true then wallLoss o m N T i m.ystart (m.ystart - 1) else 0)
    + (if j = m.yend ∧ m.upper i = true then wallLoss o m N T i m.yend (m.yend + 1) else 0)

/-- `ddt(Nn2D)`, lines 223, 344-346 and 360-364. -/
noncomputable def ddtN (B : Ops) (g : Gas) (s : Sources) : F2 := fun i j =>
  let r := -B.div g.V g.N i j + s.density_source.getD 0 i j
  if g.N i j < 1e-8 ∧ r < 0 then 0 else r

/-- `ddt(Vn2D)`, lines 225-256 and 349-352. -/
noncomputable def ddtV (o : Opts) (m : Mesh) (T : ℤ → ℤ → Rotation) (B : Ops) (g : Gas) (s : Sources) : Vec :=
  let Nf := floor2 g.N 1e-2
  let vr := toR T g.V
  let vz := toZ T g.V
  let ar : F2 := fun i j => -B.adv g.V vr i j
  let az : F2 := fun i j => -B.adv g.V vz i j
  let br := B.laplace o.neutral_viscosity vr
  let bz := B.laplace o.neutral_viscosity vz
  { x := fun i j => -(B.grad g.P).x i j / (o.AA * Nf i j) + backX T ar az i j + backX T br bz i j
    y := fun i j => -(B.grad g.P).y i j / (o.AA * Nf i j) + backY T ar az i j + backY T br bz i j
      + s.momentum_source.getD 0 i j * (m.J i j * m.Bxy i j) / (o.AA * Nf i j)
    z := fun i j => -(B.grad g.P).z i j / (o.AA * Nf i j) }

/-- `ddt(Pn2D)`, lines 258-337 and 355-357.  `Tn2D` is the temperature of `transform`. -/
noncomputable def ddtP (o : Opts) (m : Mesh) (B : Ops) (g : Gas) (Tn2D : F2) (s : Sources) : F2 :=
  let DivV2D := B.bc (B.divV g.V)
  fun i j => -B.div g.V g.P i j - (o.gamma_ratio - 1) * g.P i j * DivV2D i j * floor2 g.N 0 i j / floor2 g.N 1e-2 i j
    + B.laplace o.neutral_conduction (fun i j => g.P i j / g.N i j) i j - wallLosses o m g.N Tn2D i j + 2 / 3 * s.energy_source.getD 0 i j

end Hermes.FullVelocity
