import Verif.Model.Registry
import Verif.Model.Collisions
import Verif.Model.ThermalForce
import Mathlib.Analysis.Real.Sqrt

/-!
# Normalisation

`Hermes::init` chooses the units of the simulation from three options.  Each component reads them in its constructor; each `outputVars` saves with
every variable the factor that converts it to SI units (temperatures: to eV).
-/

namespace Hermes

/-- `SI::qe`, `SI::Mp`, `SI::Me`, `SI::e0` of BOUT++. -/
structure Consts where
  qe : ℝ
  Mp : ℝ
  Me : ℝ
  e0 : ℝ

/-- The options `Tnorm`, `Nnorm`, `Bnorm`, `hermes-3.cxx:180-182`. -/
structure Normalisation where
  Tnorm : ℝ
  Nnorm : ℝ
  Bnorm : ℝ

namespace Normalisation
variable (c : Consts) (u : Normalisation)

/-- `hermes-3.cxx:184`. -/
noncomputable def Cs0 : ℝ := Real.sqrt (c.qe * u.Tnorm / c.Mp)
/-- `hermes-3.cxx:185`. -/
noncomputable def Omega_ci : ℝ := c.qe * u.Bnorm / c.Mp
/-- `hermes-3.cxx:186`. -/
noncomputable def rho_s0 : ℝ := u.Cs0 c / u.Omega_ci c

/-- The units as the components receive them: `units["seconds"] = 1 / Omega_ci`, `hermes-3.cxx:189-193`, and
`FreqNorm = 1 / units["seconds"]` in the constructors of the reactions (`include/amjuel_reaction.hxx:12-14`, `include/adas_reaction.hxx:60-62`, `84-86`,
`include/hydrogen_charge_exchange.hxx:35-37`, `src/ionisation.cxx:12-15`). -/
noncomputable def norms : Norms := ⟨u.Tnorm, u.Nnorm, 1 / (1 / u.Omega_ci c)⟩

/-- `Collisions::Collisions`, `src/collisions.cxx:18-24`. -/
noncomputable def collNorms : CollNorms := ⟨u.Tnorm, u.Nnorm, u.rho_s0 c, 1 / (1 / u.Omega_ci c), c.qe, c.Me, c.Mp, c.e0⟩

/-- `"conversion"` of the variables of a species: density `src/evolve_density.cxx:325`, temperature and pressure `src/evolve_pressure.cxx:473`, `492`,
velocity and momentum `src/evolve_momentum.cxx:263`, `273`, sources `src/evolve_density.cxx:344`, `src/evolve_momentum.cxx:290`,
`src/evolve_pressure.cxx:509`, frequencies `src/collisions.cxx:510`, flows `src/evolve_pressure.cxx:538`. -/
noncomputable def conversion : Var → ℝ
  | .density => u.Nnorm
  | .temperature => u.Tnorm
  | .pressure => c.qe * u.Tnorm * u.Nnorm
  | .velocity => u.Cs0 c
  | .momentum => c.Mp * u.Nnorm * u.Cs0 c
  | .density_source => u.Nnorm * u.Omega_ci c
  | .momentum_source => c.Mp * u.Nnorm * u.Cs0 c * u.Omega_ci c
  | .energy_source => c.qe * u.Tnorm * u.Nnorm * u.Omega_ci c
  | .collision_frequency => u.Omega_ci c
  | .energy_flow_ylow => u.rho_s0 c * u.rho_s0 c ^ 2 * (c.qe * u.Tnorm * u.Nnorm) * u.Omega_ci c
  | .other "particle_flow_xlow" => u.rho_s0 c * u.rho_s0 c ^ 2 * u.Nnorm * u.Omega_ci c
  | .other "energy_flow_xlow" => u.rho_s0 c * u.rho_s0 c ^ 2 * (c.qe * u.Tnorm * u.Nnorm) * u.Omega_ci c
  | _ => 1

/-- The same for the entries of the tree; the potential is in volts (`src/vorticity.cxx:791`). -/
noncomputable def keyConversion : Key → ℝ
  | .sp _ v => u.conversion c v
  | .top "fields:phi" => u.Tnorm
  | .top _ => 1

end Normalisation

end Hermes
