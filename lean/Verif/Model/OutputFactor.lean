import Verif.Model.Units

/-!
# Conversion factors of saved variables and divisors of options

The attribute `"conversion"` of a saved variable and the divisor of an option with units are products and quotients of the reference quantities
of `Hermes::init` and of names the components give to such products.
-/

namespace Hermes.Outputs

/-- An arithmetic expression for a conversion factor, as it is written in the source. -/
inductive Factor where
  | one
  /-- `SI::qe` -/
  | qe
  /-- `SI::Mp` -/
  | Mp
  | Nnorm | Tnorm | Bnorm | Cs0 | Omega_ci | rho_s0
  /-- `Pnorm`, e.g. `src/evolve_pressure.cxx:465` -/
  | Pnorm
  /-- `SPnorm`, `include/temperature_feedback.hxx:34`, `106` -/
  | SPnorm
  /-- `DivQnorm`, `src/snb_conduction.cxx:48` -/
  | DivQnorm
  /-- `FreqNorm`, `include/fixed_fraction_radiation.hxx:371`, `include/upstream_density_feedback.hxx:26` -/
  | FreqNorm
  /-- `Lnorm`, `src/electron_force_balance.cxx:63`, `src/vorticity.cxx:64` -/
  | Lnorm
  /-- `units["seconds"]`, `hermes-3.cxx:192` -/
  | seconds
  /-- `units["meters"]`, `hermes-3.cxx:193` -/
  | meters
  /-- `diffusion_norm`, `src/anomalous_diffusion.cxx:16`, `src/binormal_stpm.cxx:18` -/
  | diffusion_norm
  | mul (a b : Factor)
  | div (a b : Factor)
deriving DecidableEq

instance : Mul Factor := ⟨.mul⟩
instance : Div Factor := ⟨.div⟩

/-- The number the expression stands for.  `state["Nnorm"]` and the like hold the reference quantities (`hermes-3.cxx:330-366`), `units[...]` those of
`hermes-3.cxx:189-193`. -/
noncomputable def Factor.value (c : Consts) (u : Normalisation) : Factor → ℝ
  | .one => 1
  | .qe => c.qe
  | .Mp => c.Mp
  | .Nnorm => u.Nnorm
  | .Tnorm => u.Tnorm
  | .Bnorm => u.Bnorm
  | .Cs0 => u.Cs0 c
  | .Omega_ci => u.Omega_ci c
  | .rho_s0 => u.rho_s0 c
  | .Pnorm => c.qe * u.Tnorm * u.Nnorm
  | .SPnorm => c.qe * u.Tnorm * u.Nnorm * u.Omega_ci c
  | .DivQnorm => c.qe * u.Tnorm * u.Nnorm * u.Omega_ci c
  | .FreqNorm => 1 / (1 / u.Omega_ci c)
  | .Lnorm => u.rho_s0 c
  | .seconds => 1 / u.Omega_ci c
  | .meters => u.rho_s0 c
  | .diffusion_norm => u.rho_s0 c * u.rho_s0 c * (1 / (1 / u.Omega_ci c))
  | .mul a b => a.value c u * b.value c u
  | .div a b => a.value c u / b.value c u

/-- A variable saved with the attributes `"units"` and `"conversion"`: where, its name, the units, the constant that is saved (`one` if what is saved is a
field in normalised units) and the conversion factor. -/
structure Output where
  file : String
  line : ℕ
  var : String
  units : String
  saved : Factor
  conversion : Factor
deriving DecidableEq

/-- An option whose documentation (or, for `include/fixed_density.hxx` and `include/fixed_velocity.hxx`, the manual) states units: where, its
name, the units, and what the code divides it by. -/
structure Input where
  file : String
  line : ℕ
  option : String
  units : String
  divisor : Factor
deriving DecidableEq

open Factor in
/-- The options with units that the constructors divide by a reference quantity.  `* Omega_ci` in `include/simple_pump.hxx:21` is written as division by
its inverse.  (`temperature_floor` of `include/sound_speed.hxx:32-43` is only divided if it is positive: zero is zero in all units.) -/
def inputs : List Input := [
  ⟨"src/neutral_mixed.cxx", 79, "{name}:diffusion_limit", "m^2/s", (meters * meters) / seconds⟩,
  ⟨"src/neutral_mixed.cxx", 116, "N{name}:source", "m^-3/s", Nnorm * Omega_ci⟩,
  ⟨"src/neutral_mixed.cxx", 127, "P{name}:source", "N/m^2/s", qe * Nnorm * Tnorm * Omega_ci⟩,
  ⟨"src/anomalous_diffusion.cxx", 26, "{name}:anomalous_D", "m^2/s", diffusion_norm⟩,
  ⟨"src/anomalous_diffusion.cxx", 34, "{name}:anomalous_chi", "m^2/s", diffusion_norm⟩,
  ⟨"src/anomalous_diffusion.cxx", 42, "{name}:anomalous_nu", "m^2/s", diffusion_norm⟩,
  ⟨"src/isothermal.cxx", 13, "{name}:temperature", "eV", Tnorm⟩,
  ⟨"src/vorticity.cxx", 108, "vorticity:viscosity", "m^2/s", Lnorm * Lnorm * Omega_ci⟩,
  ⟨"src/vorticity.cxx", 169, "vorticity:phi_boundary_timescale", "seconds", seconds⟩,
  ⟨"src/electromagnetic.cxx", 53, "electromagnetic:apar_boundary_timescale", "seconds", seconds⟩,
  ⟨"src/evolve_density.cxx", 101, "N{name}:source", "m^-3/s", Nnorm * Omega_ci⟩,
  ⟨"src/sheath_boundary.cxx", 93, "sheath_boundary:wall_potential", "Volts", Tnorm⟩,
  ⟨"src/sheath_boundary_simple.cxx", 119, "sheath_boundary_simple:wall_potential", "Volts", Tnorm⟩,
  ⟨"src/evolve_pressure.cxx", 117, "P{name}:source", "Pa/s", qe * Nnorm * Tnorm * Omega_ci⟩,
  ⟨"src/evolve_energy.cxx", 98, "E{name}:source", "W/m^3", qe * Nnorm * Tnorm * Omega_ci⟩,
  ⟨"src/recycling.cxx", 69, "{name}:target_recycle_energy", "eV", Tnorm⟩,
  ⟨"src/recycling.cxx", 74, "{name}:sol_recycle_energy", "eV", Tnorm⟩,
  ⟨"src/recycling.cxx", 79, "{name}:pfr_recycle_energy", "eV", Tnorm⟩,
  ⟨"include/solkit_neutral_parallel_diffusion.hxx", 26, "{name}:neutral_temperature", "eV", Tnorm⟩,
  ⟨"include/detachment_controller.hxx", 129, "P{name}:source_shape", "Pa/s", Pnorm * Omega_ci⟩,
  ⟨"include/detachment_controller.hxx", 138, "N{name}:source_shape", "m^-3/s", Nnorm * Omega_ci⟩,
  ⟨"include/upstream_density_feedback.hxx", 31, "{name}:density_upstream", "m^-3", Nnorm⟩,
  ⟨"include/upstream_density_feedback.hxx", 55, "N{name}:source_shape", "m^-3/s", Nnorm * FreqNorm⟩,
  ⟨"include/temperature_feedback.hxx", 37, "{name}:temperature_setpoint", "eV", Tnorm⟩,
  ⟨"include/temperature_feedback.hxx", 78, "P{name}:source_shape", "Pa/s", SPnorm⟩,
  ⟨"include/fixed_temperature.hxx", 23, "{name}:temperature", "eV", Tnorm⟩,
  ⟨"include/simple_pump.hxx", 19, "{name}:residence_time", "s", one / Omega_ci⟩,
  ⟨"include/fixed_density.hxx", 29, "{name}:density", "m^-3", Nnorm⟩,
  ⟨"include/fixed_velocity.hxx", 22, "{name}:velocity", "m/s", meters / seconds⟩]

end Hermes.Outputs
