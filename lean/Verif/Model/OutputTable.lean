import Verif.Model.OutputFactor

/-!
# The variables saved with units

Written by `tools/gen_outputs.py` from the calls of `set_with_attrs` in `/repo`: file and line of the attribute `"units"`, name of the variable (`{x}`
stands for the value of `x`), the attribute `"units"`, the constant that is saved (`one`: a field in normalised units), the attribute
`"conversion"`.  Of the two variables whose units `include/detachment_controller.hxx:133-143` chooses there is a row for each choice.
-/

namespace Hermes.Outputs
open Factor

/-- Every variable saved with both attributes, in the order of the files. -/
def outputs : List Output := [
  ⟨"include/amjuel_hyd_ionisation.hxx", 73, "S{Isotope}+_iz", "m^-3 s^-1", one, Nnorm * Omega_ci⟩,
  ⟨"include/amjuel_hyd_ionisation.hxx", 82, "F{Isotope}+_iz", "kg m^-2 s^-2", one, ((Mp * Nnorm) * Cs0) * Omega_ci⟩,
  ⟨"include/amjuel_hyd_ionisation.hxx", 91, "E{Isotope}+_iz", "W / m^3", one, Pnorm * Omega_ci⟩,
  ⟨"include/amjuel_hyd_ionisation.hxx", 100, "R{Isotope}+_ex", "W / m^3", one, Pnorm * Omega_ci⟩,
  ⟨"include/amjuel_hyd_recombination.hxx", 75, "S{Isotope}+_rec", "m^-3 s^-1", one, Nnorm * Omega_ci⟩,
  ⟨"include/amjuel_hyd_recombination.hxx", 85, "F{Isotope}+_rec", "kg m^-2 s^-2", one, ((Mp * Nnorm) * Cs0) * Omega_ci⟩,
  ⟨"include/amjuel_hyd_recombination.hxx", 95, "E{Isotope}+_rec", "W / m^3", one, Pnorm * Omega_ci⟩,
  ⟨"include/amjuel_hyd_recombination.hxx", 105, "R{Isotope}+_rec", "W / m^3", one, Pnorm * Omega_ci⟩,
  ⟨"include/detachment_controller.hxx", 173, "detachment_control_src_shape", "Pa / s", one, Pnorm * Omega_ci⟩,
  ⟨"include/detachment_controller.hxx", 173, "detachment_control_src_shape", "m^-3 / s", one, Nnorm * Omega_ci⟩,
  ⟨"include/detachment_controller.hxx", 187, "detachment_source_feedback", "Pa / s", one, Pnorm * Omega_ci⟩,
  ⟨"include/detachment_controller.hxx", 187, "detachment_source_feedback", "m^-3 / s", one, Nnorm * Omega_ci⟩,
  ⟨"include/fixed_density.hxx", 55, "N{name}", "m^-3", one, Nnorm⟩,
  ⟨"include/fixed_fraction_radiation.hxx", 431, "R{name}", "W / m^3", one, ((qe * Tnorm) * Nnorm) * FreqNorm⟩,
  ⟨"include/fixed_temperature.hxx", 65, "T{name}", "eV", one, Tnorm⟩,
  ⟨"include/fixed_temperature.hxx", 79, "P{name}", "Pa", one, Pnorm⟩,
  ⟨"include/fixed_velocity.hxx", 50, "V{name}", "m / s", one, Cs0⟩,
  ⟨"include/hydrogen_charge_exchange.hxx", 195, "F{Isotope1}{Isotope2}+_cx", "kg m^-2 s^-2", one, ((Mp * Nnorm) * Cs0) * Omega_ci⟩,
  ⟨"include/hydrogen_charge_exchange.hxx", 205, "E{Isotope1}{Isotope2}+_cx", "W / m^3", one, Pnorm * Omega_ci⟩,
  ⟨"include/hydrogen_charge_exchange.hxx", 215, "K{Isotope1}{Isotope2}+_cx", "s^-1", one, Omega_ci⟩,
  ⟨"include/hydrogen_charge_exchange.hxx", 228, "F{Isotope2}+{Isotope1}_cx", "kg m^-2 s^-2", one, ((Mp * Nnorm) * Cs0) * Omega_ci⟩,
  ⟨"include/hydrogen_charge_exchange.hxx", 239, "E{Isotope2}+{Isotope1}_cx", "W / m^3", one, Pnorm * Omega_ci⟩,
  ⟨"include/hydrogen_charge_exchange.hxx", 251, "S{Isotope1}{Isotope2}+_cx", "m^-3 s^-1", one, Nnorm * Omega_ci⟩,
  ⟨"include/set_temperature.hxx", 78, "T{name}", "eV", one, Tnorm⟩,
  ⟨"include/simple_pump.hxx", 56, "simple_pump_sink_{name}", "m^-3 / s", one, Nnorm * Omega_ci⟩,
  ⟨"include/temperature_feedback.hxx", 111, "temperature_feedback_src_shape_{name}", "Pa / s", one, SPnorm⟩,
  ⟨"include/temperature_feedback.hxx", 126, "SP{name}_feedback", "Pa / s", one, SPnorm⟩,
  ⟨"include/upstream_density_feedback.hxx", 85, "density_feedback_src_shape_{name}", "m^-3 s^-1", one, Nnorm * Omega_ci⟩,
  ⟨"include/upstream_density_feedback.hxx", 100, "S{name}_feedback", "m^-3 s^-1", one, Nnorm * Omega_ci⟩,
  ⟨"src/anomalous_diffusion.cxx", 148, "anomalous_D_{name}", "m^2 s^-1", one, (rho_s0 * rho_s0) * Omega_ci⟩,
  ⟨"src/anomalous_diffusion.cxx", 156, "anomalous_Chi_{name}", "m^2 s^-1", one, (rho_s0 * rho_s0) * Omega_ci⟩,
  ⟨"src/anomalous_diffusion.cxx", 164, "anomalous_nu_{name}", "m^2 s^-1", one, (rho_s0 * rho_s0) * Omega_ci⟩,
  ⟨"src/binormal_stpm.cxx", 94, "D_{name}", "m^2 s^-1", one, (rho_s0 * rho_s0) * Omega_ci⟩,
  ⟨"src/binormal_stpm.cxx", 102, "chi_{name}", "m^2 s^-1", one, (rho_s0 * rho_s0) * Omega_ci⟩,
  ⟨"src/binormal_stpm.cxx", 110, "nu_{name}", "m^2 s^-1", one, (rho_s0 * rho_s0) * Omega_ci⟩,
  ⟨"src/classical_diffusion.cxx", 106, "D_classical", "m^2 s^-1", one, (rho_s0 * rho_s0) * Omega_ci⟩,
  ⟨"src/collisions.cxx", 509, "K{name}_coll", "s-1", one, Omega_ci⟩,
  ⟨"src/electromagnetic.cxx", 252, "Apar", "T m", one, Bnorm * rho_s0⟩,
  ⟨"src/electromagnetic.cxx", 261, "Apar_flutter", "T m", one, Bnorm * rho_s0⟩,
  ⟨"src/electron_force_balance.cxx", 67, "Epar", "V / m", one, Tnorm / Lnorm⟩,
  ⟨"src/electron_viscosity.cxx", 72, "SNVe_viscosity", "kg m^-2 s^-2", one, ((Mp * Nnorm) * Cs0) * Omega_ci⟩,
  ⟨"src/evolve_density.cxx", 324, "N{name}", "m^-3", one, Nnorm⟩,
  ⟨"src/evolve_density.cxx", 335, "ddt(N{name})", "m^-3 s^-1", one, Nnorm * Omega_ci⟩,
  ⟨"src/evolve_density.cxx", 343, "SN{name}", "m^-3 s^-1", one, Nnorm * Omega_ci⟩,
  ⟨"src/evolve_density.cxx", 352, "S{name}_src", "m^-3 s^-1", one, Nnorm * Omega_ci⟩,
  ⟨"src/evolve_density.cxx", 365, "pf{}_tot_xlow", "s^-1", one, ((rho_s0 * (rho_s0 * rho_s0)) * Nnorm) * Omega_ci⟩,
  ⟨"src/evolve_density.cxx", 375, "pf{}_tot_ylow", "s^-1", one, ((rho_s0 * (rho_s0 * rho_s0)) * Nnorm) * Omega_ci⟩,
  ⟨"src/evolve_energy.cxx", 415, "E{name}", "J/m^3", one, Pnorm⟩,
  ⟨"src/evolve_energy.cxx", 424, "P{name}", "Pa", one, Pnorm⟩,
  ⟨"src/evolve_energy.cxx", 435, "kappa_par_{name}", "W / m / eV", one, (Pnorm * Omega_ci) * (rho_s0 * rho_s0)⟩,
  ⟨"src/evolve_energy.cxx", 443, "T{name}", "eV", one, Tnorm⟩,
  ⟨"src/evolve_energy.cxx", 453, "ddt(E{name})", "J/m^3/s", one, Pnorm * Omega_ci⟩,
  ⟨"src/evolve_energy.cxx", 461, "SE{name}", "W/m^3", one, Pnorm * Omega_ci⟩,
  ⟨"src/evolve_energy.cxx", 470, "E{name}_src", "W/m^3", one, Pnorm * Omega_ci⟩,
  ⟨"src/evolve_energy.cxx", 480, "ef{}_tot_xlow", "W", one, ((rho_s0 * (rho_s0 * rho_s0)) * Pnorm) * Omega_ci⟩,
  ⟨"src/evolve_energy.cxx", 490, "ef{}_tot_ylow", "W", one, ((rho_s0 * (rho_s0 * rho_s0)) * Pnorm) * Omega_ci⟩,
  ⟨"src/evolve_momentum.cxx", 262, "NV{name}", "kg / m^2 / s", one, (Mp * Nnorm) * Cs0⟩,
  ⟨"src/evolve_momentum.cxx", 272, "V{name}", "m / s", one, Cs0⟩,
  ⟨"src/evolve_momentum.cxx", 281, "ddt(NV{name})", "kg m^-2 s^-2", one, ((Mp * Nnorm) * Cs0) * Omega_ci⟩,
  ⟨"src/evolve_momentum.cxx", 289, "SNV{name}", "kg m^-2 s^-2", one, ((Mp * Nnorm) * Cs0) * Omega_ci⟩,
  ⟨"src/evolve_momentum.cxx", 302, "mf{}_tot_xlow", "N", one, ((((rho_s0 * (rho_s0 * rho_s0)) * Mp) * Nnorm) * Cs0) * Omega_ci⟩,
  ⟨"src/evolve_momentum.cxx", 312, "mf{}_tot_ylow", "N", one, ((((rho_s0 * (rho_s0 * rho_s0)) * Mp) * Nnorm) * Cs0) * Omega_ci⟩,
  ⟨"src/evolve_pressure.cxx", 472, "P{name}", "Pa", one, Pnorm⟩,
  ⟨"src/evolve_pressure.cxx", 483, "kappa_par_{name}", "W / m / eV", one, ((Pnorm * Omega_ci) * (rho_s0 * rho_s0)) / Tnorm⟩,
  ⟨"src/evolve_pressure.cxx", 491, "T{name}", "eV", one, Tnorm⟩,
  ⟨"src/evolve_pressure.cxx", 500, "ddt(P{name})", "Pa s^-1", one, Pnorm * Omega_ci⟩,
  ⟨"src/evolve_pressure.cxx", 508, "SP{name}", "Pa s^-1", one, Pnorm * Omega_ci⟩,
  ⟨"src/evolve_pressure.cxx", 517, "P{name}_src", "Pa s^-1", one, Pnorm * Omega_ci⟩,
  ⟨"src/evolve_pressure.cxx", 527, "ef{}_tot_xlow", "W", one, ((rho_s0 * (rho_s0 * rho_s0)) * Pnorm) * Omega_ci⟩,
  ⟨"src/evolve_pressure.cxx", 537, "ef{}_tot_ylow", "W", one, ((rho_s0 * (rho_s0 * rho_s0)) * Pnorm) * Omega_ci⟩,
  ⟨"src/evolve_pressure.cxx", 546, "ef{}_cond_ylow", "W", one, ((rho_s0 * (rho_s0 * rho_s0)) * Pnorm) * Omega_ci⟩,
  ⟨"src/evolve_pressure.cxx", 555, "ef{}_kin_ylow", "W", one, ((rho_s0 * (rho_s0 * rho_s0)) * Pnorm) * Omega_ci⟩,
  ⟨"src/evolve_pressure.cxx", 566, "E{name}_nvh", "W", one, Pnorm * Omega_ci⟩,
  ⟨"src/full_velocity.cxx", 377, "DivV2D", "s^-1", one, Omega_ci⟩,
  ⟨"src/ion_viscosity.cxx", 269, "P{species_name}_ciperp", "Pa", one, Pnorm⟩,
  ⟨"src/ion_viscosity.cxx", 278, "P{species_name}_cipar", "Pa", one, Pnorm⟩,
  ⟨"src/ion_viscosity.cxx", 287, "DivJvis_{species_name}", "A m^-3", one, (qe * Nnorm) * Omega_ci⟩,
  ⟨"src/isothermal.cxx", 44, "T{name}", "eV", one, Tnorm⟩,
  ⟨"src/isothermal.cxx", 55, "P{name}", "Pa", one, (qe * Tnorm) * Nnorm⟩,
  ⟨"src/neutral_boundary.cxx", 336, "E{name}_wall_refl", "W m^-3", one, Pnorm * Omega_ci⟩,
  ⟨"src/neutral_boundary.cxx", 345, "E{name}_target_refl", "W m^-3", one, Pnorm * Omega_ci⟩,
  ⟨"src/neutral_mixed.cxx", 521, "N{name}", "m^-3", one, Nnorm⟩,
  ⟨"src/neutral_mixed.cxx", 529, "P{name}", "Pa", one, Pnorm⟩,
  ⟨"src/neutral_mixed.cxx", 538, "NV{name}", "kg / m^2 / s", one, (Mp * Nnorm) * Cs0⟩,
  ⟨"src/neutral_mixed.cxx", 549, "ddt(N{name})", "m^-3 s^-1", one, Nnorm * Omega_ci⟩,
  ⟨"src/neutral_mixed.cxx", 555, "ddt(P{name})", "Pa s^-1", one, Pnorm * Omega_ci⟩,
  ⟨"src/neutral_mixed.cxx", 560, "ddt(NV{name})", "kg m^-2 s^-2", one, ((Mp * Nnorm) * Cs0) * Omega_ci⟩,
  ⟨"src/neutral_mixed.cxx", 567, "T{name}", "eV", one, Tnorm⟩,
  ⟨"src/neutral_mixed.cxx", 574, "Dnn{name}", "m^2/s", one, (Cs0 * Cs0) / Omega_ci⟩,
  ⟨"src/neutral_mixed.cxx", 581, "SN{name}", "m^-3 s^-1", one, Nnorm * Omega_ci⟩,
  ⟨"src/neutral_mixed.cxx", 588, "SP{name}", "Pa s^-1", one, ((qe * Tnorm) * Nnorm) * Omega_ci⟩,
  ⟨"src/neutral_mixed.cxx", 595, "SNV{name}", "kg m^-2 s^-2", one, ((Mp * Nnorm) * Cs0) * Omega_ci⟩,
  ⟨"src/neutral_mixed.cxx", 602, "S{name}_src", "m^-3 s^-1", one, Nnorm * Omega_ci⟩,
  ⟨"src/neutral_mixed.cxx", 610, "P{name}_src", "Pa s^-1", one, Pnorm * Omega_ci⟩,
  ⟨"src/neutral_mixed.cxx", 624, "pf{}_adv_perp_xlow", "s^-1", one, ((rho_s0 * (rho_s0 * rho_s0)) * Nnorm) * Omega_ci⟩,
  ⟨"src/neutral_mixed.cxx", 634, "pf{}_adv_perp_ylow", "s^-1", one, ((rho_s0 * (rho_s0 * rho_s0)) * Nnorm) * Omega_ci⟩,
  ⟨"src/neutral_mixed.cxx", 644, "pf{}_adv_par_ylow", "s^-1", one, ((rho_s0 * (rho_s0 * rho_s0)) * Nnorm) * Omega_ci⟩,
  ⟨"src/neutral_mixed.cxx", 656, "mf{}_adv_perp_xlow", "N", one, ((((rho_s0 * (rho_s0 * rho_s0)) * Mp) * Nnorm) * Cs0) * Omega_ci⟩,
  ⟨"src/neutral_mixed.cxx", 666, "mf{}_adv_perp_ylow", "N", one, ((((rho_s0 * (rho_s0 * rho_s0)) * Mp) * Nnorm) * Cs0) * Omega_ci⟩,
  ⟨"src/neutral_mixed.cxx", 691, "mf{}_visc_perp_ylow", "N", one, ((((rho_s0 * (rho_s0 * rho_s0)) * Mp) * Nnorm) * Cs0) * Omega_ci⟩,
  ⟨"src/neutral_mixed.cxx", 701, "mf{}_visc_perp_ylow", "N", one, ((((rho_s0 * (rho_s0 * rho_s0)) * Mp) * Nnorm) * Cs0) * Omega_ci⟩,
  ⟨"src/neutral_mixed.cxx", 711, "mf{}_visc_par_ylow", "N", one, ((((rho_s0 * (rho_s0 * rho_s0)) * Mp) * Nnorm) * Cs0) * Omega_ci⟩,
  ⟨"src/neutral_mixed.cxx", 724, "ef{}_adv_perp_xlow", "W", one, ((rho_s0 * (rho_s0 * rho_s0)) * Pnorm) * Omega_ci⟩,
  ⟨"src/neutral_mixed.cxx", 734, "ef{}_adv_perp_ylow", "W", one, ((rho_s0 * (rho_s0 * rho_s0)) * Pnorm) * Omega_ci⟩,
  ⟨"src/neutral_mixed.cxx", 744, "ef{}_adv_par_ylow", "W", one, ((rho_s0 * (rho_s0 * rho_s0)) * Pnorm) * Omega_ci⟩,
  ⟨"src/neutral_mixed.cxx", 756, "ef{}_cond_perp_xlow", "W", one, ((rho_s0 * (rho_s0 * rho_s0)) * Pnorm) * Omega_ci⟩,
  ⟨"src/neutral_mixed.cxx", 766, "ef{}_cond_perp_ylow", "W", one, ((rho_s0 * (rho_s0 * rho_s0)) * Pnorm) * Omega_ci⟩,
  ⟨"src/neutral_mixed.cxx", 776, "ef{}_cond_par_ylow", "W", one, ((rho_s0 * (rho_s0 * rho_s0)) * Pnorm) * Omega_ci⟩,
  ⟨"src/neutral_parallel_diffusion.cxx", 117, "D{species_name}_Dpar", "m^2/s", one, rho_s0 * Cs0⟩,
  ⟨"src/neutral_parallel_diffusion.cxx", 126, "S{species_name}_Dpar", "s^-1", one, Nnorm * Omega_ci⟩,
  ⟨"src/neutral_parallel_diffusion.cxx", 135, "E{species_name}_Dpar", "W / m^3", one, ((qe * Tnorm) * Nnorm) * Omega_ci⟩,
  ⟨"src/neutral_parallel_diffusion.cxx", 144, "F{species_name}_Dpar", "kg m^-2 s^-2", one, ((Mp * Nnorm) * Cs0) * Omega_ci⟩,
  ⟨"src/polarisation_drift.cxx", 229, "DivJpol", "A m^-3", one, (qe * Nnorm) * Omega_ci⟩,
  ⟨"src/polarisation_drift.cxx", 236, "phi_pol", "V / s", one, Tnorm * Omega_ci⟩,
  ⟨"src/quasineutral.cxx", 66, "N{name}", "m^-3", one, Nnorm⟩,
  ⟨"src/recycling.cxx", 536, "S{channel.to}_target_recycle", "m^-3 s^-1", one, Nnorm * Omega_ci⟩,
  ⟨"src/recycling.cxx", 545, "E{channel.to}_target_recycle", "W m^-3", one, Pnorm * Omega_ci⟩,
  ⟨"src/recycling.cxx", 557, "S{channel.to}_wall_recycle", "m^-3 s^-1", one, Nnorm * Omega_ci⟩,
  ⟨"src/recycling.cxx", 566, "E{channel.to}_wall_recycle", "W m^-3", one, Pnorm * Omega_ci⟩,
  ⟨"src/recycling.cxx", 578, "S{channel.to}_pump", "m^-3 s^-1", one, Nnorm * Omega_ci⟩,
  ⟨"src/recycling.cxx", 587, "E{channel.to}_pump", "W m^-3", one, Pnorm * Omega_ci⟩,
  ⟨"src/relax_potential.cxx", 263, "phi", "V", one, Tnorm⟩,
  ⟨"src/snb_conduction.cxx", 52, "Div_Q_SH", "W / m^3", one, DivQnorm⟩,
  ⟨"src/snb_conduction.cxx", 59, "Div_Q_SNB", "W / m^3", one, DivQnorm⟩,
  ⟨"src/vorticity.cxx", 783, "Vort", "C m^-3", one, qe * Nnorm⟩,
  ⟨"src/vorticity.cxx", 790, "phi", "V", one, Tnorm⟩,
  ⟨"src/vorticity.cxx", 799, "ddt(Vort)", "A m^-3", one, (qe * Nnorm) * Omega_ci⟩,
  ⟨"src/vorticity.cxx", 807, "DivJdia", "A m^-3", one, (qe * Nnorm) * Omega_ci⟩,
  ⟨"src/vorticity.cxx", 815, "DivJcol", "A m^-3", one, (qe * Nnorm) * Omega_ci⟩,
  ⟨"src/zero_current.cxx", 75, "V{name}", "m / s", one, Cs0⟩,
  ⟨"hermes-3.cxx", 331, "Tnorm", "eV", Tnorm, one⟩,
  ⟨"hermes-3.cxx", 337, "Nnorm", "m^-3", Nnorm, one⟩,
  ⟨"hermes-3.cxx", 343, "Bnorm", "T", Bnorm, one⟩,
  ⟨"hermes-3.cxx", 349, "Cs0", "m/s", Cs0, one⟩,
  ⟨"hermes-3.cxx", 355, "Omega_ci", "s^-1", Omega_ci, one⟩,
  ⟨"hermes-3.cxx", 361, "rho_s0", "m", rho_s0, one⟩,
  ⟨"hermes-3.cxx", 373, "Tnorm", "eV", Tnorm, one⟩,
  ⟨"hermes-3.cxx", 379, "Nnorm", "m^-3", Nnorm, one⟩,
  ⟨"hermes-3.cxx", 385, "Bnorm", "T", Bnorm, one⟩,
  ⟨"hermes-3.cxx", 391, "Cs0", "m/s", Cs0, one⟩,
  ⟨"hermes-3.cxx", 397, "Omega_ci", "s^-1", Omega_ci, one⟩,
  ⟨"hermes-3.cxx", 403, "rho_s0", "m", rho_s0, one⟩]

end Hermes.Outputs
