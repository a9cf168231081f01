import Mathlib.Analysis.Real.Sqrt
import Mathlib.Analysis.SpecialFunctions.Exp
import Verif.Model.Limiters

/-!
# The metric (`hermes-3.cxx`, `src/recalculate_metric.cxx`) and the decay length boundary condition (`hermes-3.cxx`)

The metric is modelled in one point.  `coord->geometry()` (derived quantities of BOUT++) is left out.
-/

namespace Hermes

/-- The members of `Coordinates` that are normalised: grid spacing in X, field strength, contravariant and covariant components, Jacobian. -/
structure Metric where
  dx : ℝ
  Bxy : ℝ
  g11 : ℝ
  g22 : ℝ
  g33 : ℝ
  g12 : ℝ
  g13 : ℝ
  g23 : ℝ
  J : ℝ
  g_11 : ℝ
  g_22 : ℝ
  g_33 : ℝ
  g_12 : ℝ
  g_13 : ℝ
  g_23 : ℝ

/-- `hermes-3.cxx:250-267`. -/
noncomputable def normaliseMetric (rho_s0 Bnorm : ℝ) (m : Metric) : Metric :=
  { dx := m.dx / (rho_s0 * rho_s0 * Bnorm)
    Bxy := m.Bxy / Bnorm
    g11 := m.g11 / (Bnorm * rho_s0) ^ 2
    g22 := m.g22 * rho_s0 ^ 2
    g33 := m.g33 * rho_s0 ^ 2
    g12 := m.g12 / Bnorm
    g13 := m.g13 / Bnorm
    g23 := m.g23 * rho_s0 ^ 2
    J := m.J * (Bnorm / rho_s0)
    g_11 := m.g_11 * (Bnorm * rho_s0) ^ 2
    g_22 := m.g_22 / rho_s0 ^ 2
    g_33 := m.g_33 / rho_s0 ^ 2
    g_12 := m.g_12 * Bnorm
    g_13 := m.g_13 * Bnorm
    g_23 := m.g_23 / rho_s0 ^ 2 }

/-- What the grid file has in one point: `src/recalculate_metric.cxx:13-14` and the `dx` and `Bxy` of `Coordinates`. -/
structure GridPoint where
  Rxy : ℝ
  Bpxy : ℝ
  Btxy : ℝ
  hthe : ℝ
  sinty : ℝ
  dx : ℝ
  Bxy : ℝ

/-- `src/recalculate_metric.cxx:28-60` in one point; `sbp` is the sign of `Bp`, `shifted` the type of the parallel transform. -/
noncomputable def metricOf (Lnorm Bnorm : ℝ) (shifted : Bool) (sbp : ℝ) (p : GridPoint) : Metric :=
  let Rxy := p.Rxy / Lnorm
  let hthe := p.hthe / Lnorm
  let sinty := p.sinty * (Lnorm ^ 2 * Bnorm)
  let dx := p.dx / (Lnorm ^ 2 * Bnorm)
  let Bpxy := p.Bpxy / Bnorm
  let Btxy := p.Btxy / Bnorm
  let Bxy := p.Bxy / Bnorm
  let sinty := if shifted then 0 else sinty
  let g11 := (Rxy * Bpxy) ^ 2
  { dx := dx
    Bxy := Bxy
    g11 := g11
    g22 := 1 / hthe ^ 2
    g33 := sinty ^ 2 * g11 + Bxy ^ 2 / g11
    g12 := 0
    g13 := -sinty * g11
    g23 := -sbp * Btxy / (hthe * Bpxy * Rxy)
    J := hthe / Bpxy
    g_11 := 1 / g11 + (sinty * Rxy) ^ 2
    g_22 := (Bxy * hthe / Bpxy) ^ 2
    g_33 := Rxy * Rxy
    g_12 := sbp * Btxy * hthe * sinty * Rxy / Bpxy
    g_13 := sinty * Rxy * Rxy
    g_23 := sbp * Btxy * hthe * Rxy / Bpxy }

/-- `recalculate_metric`, `src/recalculate_metric.cxx:11-63`: the sign of `Bp` is the sign of its minimum over all points
`first :: rest` of the grid (lines 42-45, after the normalisation). -/
noncomputable def recalculateMetric {ι : Type} (Lnorm Bnorm : ℝ) (shifted : Bool) (grid : ι → GridPoint) (first : ι) (rest : List ι) : ι → Metric :=
  let low := rest.foldl (fun a j => min a ((grid j).Bpxy / Bnorm)) ((grid first).Bpxy / Bnorm)
  let sbp : ℝ := if low < 0 then -1 else 1
  fun i => metricOf Lnorm Bnorm shifted sbp (grid i)

/-! ## Decay length boundary -/

/-- A boundary region: its points (first row of guard cells, with their Z index), the last cell before each, and the guard cell number
`i` in the direction of the boundary (`i = 0` is the first row). -/
structure BndryRegion (β ι : Type) where
  pts : List β
  width : ℕ
  inner : β → ι
  guard : β → ℕ → ι

/-- `DecayLengthBoundary::apply`, one point: `hermes-3.cxx:129-153`.  `dr = dx / sqrt(g11)`, line 121; `decay_length p` is the value of the
generator or 3. -/
noncomputable def decayPoint {β ι : Type} [DecidableEq ι] (r : BndryRegion β ι) (dx g11 : ι → ℝ) (decay_length : β → ℝ) (f : ι → ℝ) (p : β) : ι → ℝ :=
  let dr : ι → ℝ := fun i => dx i / Real.sqrt (g11 i)
  let distance := 0.5 * (dr (r.guard p 0) + dr (r.inner p))
  let f := Function.update f (r.guard p 0) (f (r.inner p) * Real.exp (-1 * distance / decay_length p))
  (List.range' 1 (r.width - 1)).foldl (fun f i => Function.update f (r.guard p i) (f (r.guard p 0))) f

/-- `DecayLengthBoundary::apply`, `hermes-3.cxx:112-157`. -/
noncomputable def decayLength {β ι : Type} [DecidableEq ι] (r : BndryRegion β ι) (dx g11 : ι → ℝ) (decay_length : β → ℝ) (f : ι → ℝ) : ι → ℝ :=
  r.pts.foldl (decayPoint r dx g11 decay_length) f

end Hermes
