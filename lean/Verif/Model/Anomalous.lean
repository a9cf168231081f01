import Verif.Model.Rhs
import Mathlib.Algebra.BigOperators.Fin

/-!
# `anomalous_diffusion`

Works on axisymmetric profiles, the averages over `z` (`DC`).  What `transform` adds to the species is returned as a record.
-/

namespace Hermes
open Finset

section
variable {nz : ℕ} [NeZero nz]

/-- `DC(f)`: average over `z`, as a 3D field. -/
noncomputable def DC (f : F3 nz) : F3 nz := fun i j _ => (∑ k, f i j k) / nz

/-- Members of `AnomalousDiffusion`, `src/anomalous_diffusion.cxx:9-53`, after normalisation. -/
structure AnomalousOpts where
  include_D : Bool
  D : ℤ → ℤ → ℝ
  include_chi : Bool
  chi : ℤ → ℤ → ℝ
  include_nu : Bool
  nu : ℤ → ℤ → ℝ
  sheath_flux : Bool := false

/-- Neumann condition in the Y guard cells, `src/anomalous_diffusion.cxx:77-91`. -/
def yNeumann (g : Grid) (q : F3 nz) : F3 nz := fun i j k =>
  if j = g.ystart - 1 ∧ g.firstY i = true then q i g.ystart k
  else if j = g.yend + 1 ∧ g.lastY i = true then q i g.yend k
  else q i j k

/-- The profile used by the diffusion, `src/anomalous_diffusion.cxx:63-91`. -/
noncomputable def profile (o : AnomalousOpts) (g : Grid) (q : F3 nz) : F3 nz := if o.sheath_flux then DC q else yNeumann g (DC q)

/-- What an operator returns: the divergence and the two flows. -/
structure PerpOut (nz : ℕ) where
  source : F3 nz
  flow_xlow : F3 nz
  flow_ylow : F3 nz

def PerpOut.add (a b : PerpOut nz) : PerpOut nz := ⟨a.source + b.source, a.flow_xlow + b.flow_xlow, a.flow_ylow + b.flow_ylow⟩
def PerpOut.zero : PerpOut nz := ⟨0, 0, 0⟩

/-- `Div_a_Grad_perp_upwind_flows(a, f, flow_xlow, flow_ylow)`, `src/div_ops.cxx:1204-1374`, without parallel slices.
The flows are set in the cells of the loops and zero elsewhere. -/
noncomputable def Grid.upwindFlows (g : Grid) (B : BoutOps nz) (a f : F3 nz) : PerpOut nz :=
  let r := g.divPerpUpwind a f (B.toFA a) (B.toFA f)
  { source := r.1 + B.fromFA r.2
    flow_xlow := fun i j k => if (g.xstart ≤ i ∧ i ≤ g.xend + 1) ∧ g.ystart ≤ j ∧ j ≤ g.yend then g.flowX (g.upwindX a f) i j k else 0
    flow_ylow := B.fromFA fun i j k => if (g.xstart ≤ i ∧ i ≤ g.xend) ∧ g.ystart ≤ j ∧ j ≤ g.yend then
      g.flowY (g.upwindYdown (B.toFA a) (B.toFA f)) i j k else 0 }

/-- The particle, momentum and energy channels. -/
structure AnomalousOut (nz : ℕ) where
  particles : PerpOut nz
  momentum : PerpOut nz
  energy : PerpOut nz

/-- `AnomalousDiffusion::transform`, `src/anomalous_diffusion.cxx:55-133`: what is added to `density_source`,
`momentum_source`, `energy_source` and to the flows. -/
noncomputable def anomalousDiffusion (o : AnomalousOpts) (g : Grid) (B : BoutOps nz) (s : SpeciesIn nz) : Except Err (AnomalousOut nz) := do
  let N ← need s.density
  let N2 := profile o g N
  let T2 := profile o g (s.temperature.getD 0)
  let V2 := profile o g (s.velocity.getD 0)
  let d ← (if o.include_D then do
      let AA ← need s.AA
      .ok ⟨g.upwindFlows B (fun i j _ => o.D i j) N2, g.upwindFlows B (fun i j k => AA * V2 i j k * o.D i j) N2,
        g.upwindFlows B (fun i j k => 3 / 2 * T2 i j k * o.D i j) N2⟩
    else .ok ⟨.zero, .zero, .zero⟩ : Except Err (AnomalousOut nz))
  let chi : PerpOut nz := if o.include_chi then g.upwindFlows B (fun i j k => o.chi i j * N2 i j k) T2 else .zero
  let nu ← (if o.include_nu then do
      let AA ← need s.AA
      .ok (g.upwindFlows B (fun i j k => o.nu i j * AA * N2 i j k) V2)
    else .ok .zero : Except Err (PerpOut nz))
  .ok ⟨d.particles, d.momentum.add nu, d.energy.add chi⟩

end
end Hermes
