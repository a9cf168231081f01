#!/usr/bin/env python3
"""Writes ../MANIFEST.json from the table below."""
import json, os
claims = []
def C(prop, status, theorems, note=""):
    claims.append(dict(property=prop, status=status, theorems=theorems, note=note))

S = "Hermes.Scheduler."
C("C01", "proved", [S+"components_are_expected", S+"layout_irrelevant", S+"same_names_same_components"],
  "BOUT++ strsplit/trim behaviour assumed as described in Model/Text.lean.")
C("C02", "proved", [S+"transform_trace_ok", S+"transform_trace_throw", S+"finally_sees_final_state", S+"other_traces"])
T = "Hermes.State."
C("C03", "partial", [T+"value_stable_after_get", T+"readers_agree", T+"writes_after_get_throw",
   T+"writes_after_getNoBoundary_throw", T+"interior_stable_after_getNoBoundary_partial",
   T+"setBoundary_can_change_interior", T+"value_not_stable_without_checks", T+"transform_component_bypasses_final"],
  "Holds for all histories of the component.hxx API with CHECK>=1. Negations: the transform component and CHECK=0 bypass it; setBoundary may change interior cells.")
C("C04", "proved", [T+"sources_accumulate", T+"sources_order_irrelevant"])
C("C05", "proved", [T+"set_field_spec", T+"write_atomic"])
X = "Hermes.TransformComp."
C("C06", "partial", [X+"copies_partial", X+"sorted_entries_in_order_partial", X+"listed_order_not_respected",
   X+"malformed_rejected", X+"two_equals_accepted"],
  "Chained entries run in std::map (alphabetical) order, not in listed order: negation proved.")
L = "Hermes.Limiters."
C("C07", "partial", [L+"average_of_constant_partial", L+"average_of_constant_iff", L+"average_of_constant_fails",
   L+"average_nonneg", L+"average_nonneg_of_nonneg_fields", L+"average_between_partial", L+"average_zero_in_empty_cell"],
  "The weights sum to one only if J is linear across the three cells: negation proved; bounds proved under that condition.")
C("C08", "partial", [L+"upwind_monotone", L+"minMod_monotone", L+"mc_monotone", L+"minMod_linear_exact", L+"mc_linear_exact",
   L+"constant_exact", L+"edges_nonneg", L+"choices_monotone_partial", L+"superbee_reads_unassigned",
   L+"superbee_in_integrate_is_flat", L+"fromm_not_monotone", L+"fromm_linear_exact"],
  "All selectable limiters except Superbee, which reads the edge members before they are assigned: negation proved.")
O = "Hermes.ParOps."
C("C09", "proved", [O+"content_changes_at_ends", O+"noflow_line_conserves", O+"periodic_line_conserves", O+"distributed_content"],
  "dx and dz constant along the line (UniformPerp).")
C("C10", "proved", [O+"decomposition_independent", O+"decomposition_independent_fvv", O+"distributed_content"],
  "Guard cells are assumed to hold the neighbours' data (BOUT++ communicate).")
C("C11", "proved", [O+"upper_end_flow_is_midpoint", O+"lower_end_flow_is_midpoint", O+"noflow_blocks_flow", O+"noflow_line_conserves",
   "Hermes.NoFlow.noFlow_values"], "noFlow_values: the component noflow_boundary sets the guard cells as assumed by noflow_blocks_flow.")
C("C12", "proved", [O+"empty_cell_not_drained", O+"euler_step_nonneg", O+"empty_end_cell_not_drained_partial", O+"empty_end_cell_can_be_drained"],
  "Interior cells: proved. For a cell at a physical end the prescribed flux decides; partial theorem and negation given.")
Q = "Hermes.PerpOps."
C("C13", "partial", [O+"flow_reproduces_divergence", O+"conduction_flow_reproduces", Q+"radial_flow_reproduces_divergence",
   Q+"poloidal_flow_reproduces_divergence_partial"],
  "Parallel operators and radial flows: full. Poloidal flows of the perpendicular operators: summed over the binormal direction, last row excluded because the flow through the upper end is not reported by the code.")
C("C14", "partial", [O+"momentum_changes_at_ends", O+"noflow_conserves_momentum", O+"periodic_conserves_momentum",
   O+"uniform_velocity_consistent", O+"heating_boundary_flux_differs"],
  "Conservation proved. Negation: with fix_momentum_boundary_flux=false the heating routine assumes another momentum flux.")
C("C15", "proved", [O+"conduction_conserves", O+"conduction_smooths", O+"conduction_downhill", O+"conduction_flow_direction",
   O+"conduction_of_constant", O+"conduction_weighted"])
C("C16", "partial", [Q+"radial_content_changes_at_boundaries", Q+"radial_diffusion_conserves", Q+"aligned_content_changes_at_ends",
   Q+"binormal_conserves", Q+"uniform_field_unchanged", Q+"radial_diffusion_fills_minima", Q+"upwind_radial_agrees", Q+"limit_agrees_with_upwind", Q+"limit_binormal_flux", Q+"upwind_spares_empty_cells",
   Q+"upwind_binormal_flux_lacks_metric", Q+"variants_disagree_in_binormal_direction", Q+"laplaceFV_cell", Q+"laplaceFV_conserves"],
  "Conservation and uniform fields proved for the three operators. Negation: the upwind and limited variants omit the g33 factor in the binormal flux. toFieldAligned/fromFieldAligned are outside the model.")
E = "Hermes.ExB."
C("C17", "proved", [E+"xppm_balance", E+"xppm_no_radial_leak", E+"xppm_no_poloidal_leak", E+"xppm_periodic", E+"xppm_conserves", E+"xppm_constant_potential",
   E+"xppm_ends_only_outflow", E+"poloidal_flux_carries_positive_density", E+"polX_decomposition", E+"polY_decomposition", E+"poloidal_drains_empty_cell", E+"exb_conserves", E+"exb_closed_boundary_no_leak", E+"exb_closed_plane_conserves", E+"exb_constant_potential",
   E+"exb_uniform_density_partial", E+"exb_empty_cell_not_drained", E+"exb_decomposition_independent"],
  "X-Z part and poloidal part; derivatives and shifts of BOUT++ are parameters, of which only conservation of the z sum is assumed. Extra results: uniform density for a Jacobian constant in x (_partial), and poloidal_drains_empty_cell: the poloidal part does not have the positivity property of the X-Z part.")
C("C18", "partial", [O+"diffIndex_conserves", O+"diffIndex_downhill", Q+"perpLapIndex_conserves", Q+"perpLapIndex_conserves_closed",
   Q+"perpLapIndex_fills_minima", Q+"divZIndex_conserves", Q+"d4dz4Index_conserves", Q+"d4dz4Index_dissipates",
   Q+"d4dx4Index_stencil", Q+"d4dx4Index_conserves_partial", Q+"d4dx4Index_row_dependent", Q+"d4dx4Index_depends_on_decomposition"],
  "All conserve except D4DX4_FV_Index, which depends on the row (j == xstart) and on the decomposition: negations proved.")
C("C59", "partial", [O+"kinetic_energy_balance_closed", O+"faceExcess_nonneg", O+"heating_at_least_loss_partial", O+"heating_exceeds_loss", O+"heating_boundary_flux_gap"],
  "Exact balance proved with the numerical excess term; equality is false of the code (negation: 6 heated for 4 lost).")
R = "Hermes.Reactions."
C("C26", "proved", [R+"amjuel_conserves", R+"amjuel_amounts", R+"amjuel_fit", R+"amjuel_wrong_index_order"],
  "Any rate functions and multipliers; 'amjuel_fit' ties the rates to the 9x9 tables. The table entries themselves are not transcribed.")
C("C27", "partial", [R+"cx_conserves", R+"cx_rate_formula", R+"cx_no_gain", R+"no_neutral_cx_mom_gain_gives_momentum_to_neutrals"],
  "Conservation proved in full. Negation: no_neutral_cx_mom_gain does not do what its documentation says.")
C("C28", "partial", [R+"adas_conserves_partial", R+"adas_amounts", R+"adas_cx_amounts", R+"adas_cx_conserves_partial", R+"adas_total_energy_not_conserved"],
  "Nuclei, charge, momentum and energy sources proved; total energy is not conserved by the code: defect computed, negation proved.")
A = "Hermes.AdasTable."
C("C29", "proved", [A+"lookup_between", A+"lookup_exact"])
C("C30", "partial", [R+"amjuel_rate_nonneg", R+"amjuel_absent_not_consumed", R+"adas_rate_nonneg", R+"adas_absent_not_consumed",
   R+"cx_rate_nonneg", R+"cx_consumes_absent"],
  "Proved for AMJUEL and OpenADAS. Negation for hydrogen charge exchange: densities are floored at 1e-5, so an absent species is consumed.")
K = "Hermes.Collisions."
C("C32", "proved", [K+"momentum_conserved", K+"thermal_force_conserves_momentum", K+"collisions_succeed"],
  "Collisions and thermal force, any species list, switches and state.")
C("C33", "proved", [K+"energy_conserved", K+"friction_heats", K+"heat_flows_hot_to_cold"],
  "Total energy with frictional_heating on; sign of the frictional heating; direction of heat exchange.")
C("C34", "partial", [K+"naming_independent_partial", K+"switches_partial", K+"ion_neutral_switch_depends_on_names",
   K+"neutral_friction_depends_on_names"],
  "Proved when all pairs with a neutral have equal masses and ion_neutral is on. Negations for the other cases: the ion_neutral switch is ignored if the ion comes first in the alphabet, and neutral friction depends on the order when masses differ.")
Z = "Hermes.Closures."
C("C19", "proved", [Z+"quasineutral_neutral"])
C("C20", "proved", [Z+"zeroCurrent_no_current", Z+"zeroCurrent_rejects_second_velocity"])
C("C21", "proved", [Z+"electron_force_balance"], "Grad_par of BOUT++ is a parameter.")
C("C22", "partial", [Z+"evolveDensity_publishes", Z+"evolvePressure_publishes", Z+"evolveEnergy_publishes_partial", Z+"evolveEnergy_negative_guard", Z+"averageZ_edges"],
  "Density and pressure in full. evolve_energy: proved unless neumann_boundary_average_z is on, for which a negative guard cell is exhibited.")
C("C23", "proved", [Z+"evolveMomentum_publishes", Z+"evolveMomentum_restores"],
  "The restoring holds whatever components run in between.")
C("C24", "partial", [Z+"sound_speed_bounds", Z+"fastest_wave_monotone_partial", Z+"fastest_wave_decreases"],
  "Values and bounds in full. Monotonicity in the species list proved if every species has a thermal speed and P = N T; negation otherwise.")
C("C25", "proved", [Z+"fixedFractionIons_publishes", Z+"fixedFraction_options", Z+"isothermal_publishes", Z+"fixedTemperature_publishes",
   Z+"setTemperature_publishes", Z+"fixedDensity_publishes", Z+"fixedVelocity_publishes", Z+"simplePump_sink"])
H = "Hermes.Sheath."
G = "Hermes.SheathSimple."
SI = "Hermes.SheathInsulating."
C("C35", "partial", [H+"sheath_limitFree", H+"sheath_guard_values", H+"sheath_interior", G+"simple_limitFree",
   G+"simple_guard_values_partial", G+"simple_guard_increases", G+"simple_guard_negative", G+"simple_interior",
   SI+"insulating_limitFree", SI+"insulating_guard_values", SI+"insulating_potential", SI+"insulating_interior", SI+"insulating_runs"],
  "sheath_boundary and sheath_boundary_insulating in full. sheath_boundary_simple: holds for mode 0; for the default mode 1 the guard value can exceed the last value (simple_guard_increases) and for mode 2 it can be negative (simple_guard_negative).")
C("C36", "partial", [H+"concentration_range", H+"sheath_ions", H+"sheath_ions_inward", H+"sheath_electrons", H+"sheath_electrons_inward", H+"sheath_below_bohm",
   G+"simple_ions", G+"simple_electrons", G+"simple_ions_inward", G+"simple_electrons_inward", SI+"insulating_ions", SI+"speedAt_eq", SI+"insulating_electrons"],
  "sheath_boundary, sheath_boundary_simple and sheath_boundary_insulating. In sheath_boundary and sheath_boundary_insulating the ion speed is capped at 10 in normalised units: sheath_below_bohm exhibits a plasma leaving below the Bohm speed.")
C("C37", "partial", [H+"sheath_never_heats", H+"sheath_ions_no_extra_loss", G+"simple_electrons_never_heated",
   G+"simple_ions_never_heated_partial", G+"simple_heats_ions", G+"simple_flow_reported",
   SI+"insulating_ions", SI+"insulating_ions_never_heated", SI+"insulating_electron_energy", SI+"insulating_electrons_never_heated_partial",
   SI+"insulating_heats_electrons"],
  "sheath_boundary in full. sheath_boundary_insulating: ions; electrons at the lower end if their flow energy is small; at the upper end the loss is computed with the velocity on the wrong face and electrons can be heated (insulating_heats_electrons). sheath_boundary_simple: electrons for gamma_e >= 2.5 + 1/(4 pi); ions if gamma_i is large enough; with the default gamma_i the ions can be heated (simple_heats_ions).")
C("C38", "partial", [H+"sheath_zero_current_partial", H+"sheath_electron_flow", H+"sheath_current_with_gradient", G+"simple_zero_current", SI+"insulating_electrons", SI+"insulating_current",
   SI+"insulating_zero_current_partial", SI+"insulating_helium_current", SI+"insulating_isotope_current"],
  "sheath_boundary_insulating: the current is computed exactly; it vanishes for one singly charged ion species, but not for multiply charged ions or two isotopes (negations). sheath_boundary: electron flow computed for any profiles; the current vanishes if the temperatures are flat next to the target (any density gradient shared by the species), not if they fall towards it (negation). sheath_boundary_simple: with gradients. Both for field lines of at least four cells.")
C("C39", "partial", [H+"sheath_mirror", G+"simple_mirror", "Hermes.NoFlow.noFlow_mirror", "Hermes.Recycling.recycling_mirror",
   "Hermes.NeutralBoundary.neutral_mirror", SI+"insulating_not_mirrored"],
  "sheath_boundary, sheath_boundary_simple, noflow_boundary, recycling and neutral_boundary in full. sheath_boundary_insulating violates it (insulating_not_mirrored).")
Y = "Hermes.Recycling."
C("C40", "proved", [Y+"recycling_sources", Y+"target_returns_at_most", Y+"target_inflow", Y+"target_returns_fraction", Y+"recycling_particle_balance",
   Y+"full_recycling_conserves", Y+"sol_returns_fraction", Y+"pfr_returns_fraction", Y+"pumped_sol_returns_at_most", Y+"recycling_runs"],
  "Equality with the flow removed by the density equation: dx and dz constant along the line (the recycling code averages them over the face, the flux operator does not).")
C("C41", "partial", [Y+"construct_ok", Y+"channel_settings", Y+"own_settings_partial", Y+"different_switches"],
  "Multipliers and energies are per species. The four switches are members of the component and the last species in the list wins: proved when all species ask for the same switches, violated otherwise (different_switches).")
C("C42", "partial", [Y+"recycling_sources", Y+"target_heat_bounds", Y+"edge_heat_bounds_partial", Y+"inflow_takes_heat", Y+"pump_returns_heat_without_particles"],
  "Bounds proved when the ions carry energy out, and for the edges in cells without pump. Negations: inflow of energy gives a negative source; in pumped cells the fast energy is scaled with the edge multiplier instead of the pump multiplier.")
NB = "Hermes.NeutralBoundary."
C("C43", "partial", [NB+"neutral_no_flow", NB+"neutral_energy", NB+"returned_le_iff", NB+"neutral_removes_at_most", NB+"neutral_cools_partial",
   NB+"perfect_reflection", NB+"neutral_elsewhere", NB+"cold_gas_is_heated"],
  "No flow, exact energy loss and upper bound in full. The wall takes heat only if the gas is hotter than the returned molecules: with the default options gas below 0.75 eV is heated (cold_gas_is_heated).")
RD = "Hermes.Radiation."
C("C31", "proved", [RD+"curves_nonneg", RD+"radiation_only_cools", RD+"radiation_uniform", RD+"radiation_empty_cell", RD+"no_impurities", RD+"radiation_runs"],
  "All eleven registered cooling curves.")
SC = "Hermes.SheathClosure."
C("C44", "proved", [SC+"closure_ok", SC+"current_is_electron_source", SC+"sinks_ambipolar", SC+"sinks_only_remove", SC+"pure_plasma_loss", SC+"soundSpeed_sq", SC+"neutrals_are_lost"],
  "neutrals_are_lost records that with sinks the neutral species are treated like ions.")
SD = "Hermes.ScaleDerivs."
C("C53", "partial", [SD+"scaling_range", SD+"steady_states_kept", SD+"steady_states_kept_log", SD+"scaled_derivatives_partial", SD+"hotter_is_slower", SD+"no_scaling", SD+"not_all_scaled", "Hermes.NeutralMixedModel.scaled_together"],
  "Range, steady states and signs in full. 'Multiplies every time derivative' is false: vorticity, relax_potential and full_velocity do not apply the factor (not_all_scaled).")
PC = "Hermes.Controllers."
DT = "Hermes.Detachment."
C("C45", "partial", [PC+"integral_any_history", PC+"integral_is_trapezium", PC+"integral_independent_of_steps", PC+"same_time_same_integral", PC+"same_evaluation",
   PC+"integral_not_negative", PC+"integral_positive_inactive", PC+"density_feedback", PC+"temperature_feedback", PC+"all_processors_agree",
   PC+"rejected_step_counts_twice", PC+"target_control_undefined"],
  "Trapezium rule, sign limits and repeated evaluation in full. Histories that visit the same final times need not agree: a rejected step is counted twice (rejected_step_counts_twice). control_target_temperature on several processors broadcasts an uninitialised variable (target_control_undefined).")
C("C46", "partial", [PC+"restart_one_partial", PC+"resume_exact", PC+"restart_loses_others", PC+"second_call_resets", DT+"restart_partial", DT+"resume_partial",
   DT+"restart_changes_control", DT+"first_step_cleared"],
  "One PI controller resumes exactly; with several of the same kind only the first does (restart_loses_others). The detachment controller resumes exactly without derivative term; with it the control differs (restart_changes_control).")
C("C47", "partial", [DT+"update_ok", DT+"response", DT+"first_response", DT+"held", DT+"every_history", DT+"always_in_limits", DT+"applied_source", DT+"gradient_of_line",
   DT+"initial_control_not_limited", DT+"zero_buffer_undefined", DT+"negative_buffer_never_full"],
  "All histories, buffer_size >= 1. Negations: the initial control is not limited, buffer_size = 0 is undefined behaviour, a negative buffer_size is not a limit.")
C("C48", "partial", [DT+"front_in_domain", DT+"front_at_crossing_partial", DT+"crossing_between", DT+"crossing_equal", DT+"front_if_attached", DT+"front_not_at_target", DT+"front_outside",
   DT+"front_on_grid_point_throws"],
  "Range for every profile; crossing for profiles attached in the first cell. Negations: without crossing the position is that of the last cell centre, not 0; a detached first cell gives a position outside the interval.")
MT = "Hermes.Metrics."
C("C49", "proved", [MT+"normalise_consistent", MT+"normalise_lengths", MT+"normalise_volume", MT+"metricOf_consistent", MT+"recalculate_consistent", MT+"recalculate_commutes", MT+"metric_of_coordinates",
   MT+"negative_jacobian"],
  "In every point with non-zero R, Bp, hthe and B² = Bp² + Bt². negative_jacobian records that the Jacobian takes the sign of Bp.")
C("C50", "partial", [MT+"decay_values", MT+"decay_sign_and_size", MT+"decay_monotone", MT+"decay_flat", MT+"decay_grows_for_negative_dx"],
  "Full for dx >= 0 and a positive decay length; the outer guard cells copy the first (decay_flat). With dx < 0 the values grow outwards (decay_grows_for_negative_dx).")
PB = "Hermes.PhiBoundary."
C("C51", "partial", [PB+"call_ok", PB+"relaxation", PB+"independent_of_steps", PB+"stays_between", PB+"repeated_evaluation", PB+"uniform_in_z", PB+"solve_keeps_edge",
   PB+"target_mean", PB+"fixed_ok", PB+"core_target_partial", PB+"core_average_wrong", PB+"negative_time_not_relaxed"],
  "Every sequence of evaluation times, any solver that respects the boundary value. With phi_core_averagey the target is the core average times the fraction of non-guard cells, hence wrong (core_average_wrong).")
CD = "Hermes.ClassicalDiffusion."
C("C52", "proved", [CD+"classical_ok", CD+"ambipolar", CD+"diffusion_conserves", CD+"coefficient_nonneg", CD+"zero_custom_D", CD+"classical_runs"],
  "The perpendicular operator is a parameter, linear in its second argument and conservative (as proved for the operators of C13). custom_D = 0 is a mixed case (zero_custom_D).")
EM = "Hermes.Electromagnetics."
C("C54", "proved", [EM+"em_ok", EM+"momentum_consistent", EM+"neutrals_untouched", EM+"current_change", EM+"ampere", EM+"em_runs", EM+"thin_plasma_inconsistent"],
  "Densities above the floor 1e-5; below it momentum and velocity disagree (thin_plasma_inconsistent). The Laplacian inversion is a parameter.")
NM = "Hermes.NeutralMixedModel."
C("C55", "partial", [NM+"advection_reported_partial", NM+"advection_reported_wrong", NM+"advection_wrong_example", NM+"conduction_reported"],
  "neutral_mixed multiplies the advected energy flows by the integer division 5/2 = 2: the diagnostic is 4/5 of the physical flow whenever there is a flow (negation).")
C("C57", "partial", [NM+"transform_ok", NM+"published_nonneg", NM+"published_consistent", NM+"wall_values", NM+"guard_bounds", NM+"guard_density_negative", NM+"diffusion_nonneg",
   NM+"flux_limited", NM+"diffusion_limited", NM+"wall_no_diffusion", NM+"not_driven_lower", NM+"derivative_unchanged", NM+"viscosity_energy", NM+"particle_balance"],
  "All statements hold for cells in the domain and on the wall. The published density can be negative in the guard cell behind the wall (guard_density_negative).")
IV = "Hermes.IonViscosities."
C("C56", "partial", [IV + x for x in ["parallel_conserves", "others_untouched", "viscosity_limited", "stress_limited", "perpendicular_balance_partial", "perpendicular_conserves_partial", "current_total", "bracket_term_lost", "perp_force_form", "parallel_force_form", "stress_parts", "perp_stress_zero_iff", "rest_is_stressed"]],
  "Parallel viscosity gives every species exactly the heat that the force takes from its flow, in each cell. With the perpendicular terms the imbalance over a closed domain is exactly the bracket term, lost because `1 / 3` is an integer division in ion_viscosity.cxx:234; bracket_term_lost is a state with total rate 0.32. The differential operators and their integration by parts are parameters.")
SR = "Hermes.SimpleReactions."
C("C58", "proved", [SR + x for x in ["ionisation_conserves", "ionisation_balance", "solkit_conserves", "solkit_drags", "ionisation_loses_energy"]],
  "Particles and momentum are conserved between the two species, and the energy of the ionised particle moves with it. The ionisation component does not turn the kinetic energy of relative motion into heat: ionisation_loses_energy is a state where total energy falls.")
DE="Hermes.DensityEquation."
C("C60", "partial", [DE+"density_balance", DE+"density_conserved_partial", DE+"empty_cell_filled_partial", DE+"wave_speed_is_sound_speed", DE+"flutter_leaks", DE+"dissipation_leaks"],
  "Particle balance for every state and option. Conservation in a closed domain without magnetic flutter, and with zero radial gradient where the low-density dissipation acts: both terms ignore bndry_flux (negations). Empty cells: inner cells, without poloidal ExB flow and flutter. FV::Div_par_K_Grad_par and D4DZ4 of BOUT++ are assumptions.")
PE="Hermes.PressureEquation."
C("C61", "partial", [PE+"thermal_energy_balance", PE+"thermal_energy_balance_partial", PE+"flutter_takes_heat", PE+"cold_cell_not_cooled_partial", PE+"conductivity_at_ends", PE+"default_form_cools_cold_cell"],
  "Thermal energy balance for every state and option; with magnetic flutter heat leaves an insulated domain radially because bndry_flux is ignored (flutter_takes_heat). Cold cells: with p_div_v, inner cells, without poloidal ExB flow, flutter, hyper-diffusion and viscous heating; in the default form the statement fails (default_form_cools_cold_cell). FV::Div_par_K_Grad_par, Grad_par and Div_par of BOUT++ are parameters.")
ME="Hermes.MomentumEquation."
C("C62", "partial", [ME+"species_energy_partial", ME+"energy_never_lost_partial", ME+"momentum_balance", ME+"momentum_balance_partial", ME+"flutter_takes_momentum", ME+"closed_box_energy_not_conserved", ME+"negative_momentum_not_carried"],
  "Exact energy balance of the three equations for parallel dynamics on closed lines: sources plus (numerical heating minus kinetic energy lost). These two do not cancel: closed_box_energy_not_conserved shows a loss with the default options and a gain with numerical_viscous_heating. Momentum balance with every term of the equation (closed field lines, fix_momentum_boundary_flux); magnetic flutter takes momentum out of a closed domain (negation). The ExB term does not carry negative momentum poloidally (negation).")
AN="Hermes.Anomalous."
C("C63", "partial", [AN+"anomalous_conserves", AN+"anomalous_closed", AN+"flows_reproduce_sources_partial", AN+"lowest_density_fills", AN+"temperature_extremum_partial", AN+"velocity_extremum_partial", AN+"coldest_cell_cooled_along_y", AN+"empty_cell_drained", AN+"viscosity_loses_energy"],
  "Conservation for every state, geometry and option (columns closed at both ends or on themselves). Emptiest cell: every axisymmetric state. Temperature and velocity extrema: without poloidal flux; with it the claim is false (coldest_cell_cooled_along_y). Negations: empty cells of a non-axisymmetric state are drained; the energy taken by the anomalous viscosity is lost. Flow through the last poloidal face is not reported.")
PD="Hermes.ParDiffusion."
C("C64", "partial", [PD+"neutralParallelDiffusion_ok", PD+"only_neutrals_diffuse", PD+"gas_conserved", PD+"heat_leaves_by_conduction", PD+"momentum_leaves_by_viscosity", PD+"empty_cell_fills", PD+"gas_flows_down", PD+"viscosity_takes_energy", PD+"solkit_ok", PD+"solkit_conserves", PD+"solkit_empty_cell_fills", PD+"diffusion_stops_at_walls", PD+"npd_runs", PD+"viscous_heat_lost", PD+"viscosity_misses_mass"],
  "Conservation, filling and the untouched charged species: every state, line and list of species. False and proved so: viscosity removes kinetic energy without heating, and its coefficient lacks the atomic mass that neutral_mixed has. FV::Div_par_K_Grad_par of BOUT++ is taken to have the arithmetic of its copy Div_par_K_Grad_par_mod.")
PT="Hermes.ParTransport."
C("C65", "partial", [PT+"simpleConduction_ok", PT+"conduction_keeps_heat", PT+"conduction_downhill_partial", PT+"coulombLog_pos", PT+"binormal_ok", PT+"binormal_conserves", PT+"binormal_fills", PT+"snb_ok", PT+"simpleConduction_runs", PT+"binormalSTPM_runs", PT+"cold_plasma_conducts_uphill", PT+"binormal_counts_mass_twice", PT+"binormal_cools_uniform_plasma", PT+"snb_exception_leaves_mesh_scaled"],
  "Conservation: every state, line and list of species. Hot to cold: where the Coulomb logarithm is positive, shown for at least 1 eV and at most 1e24 particles per cubic metre; in cold plasma it is false (cold_plasma_conducts_uphill). Negations: the mass enters the momentum diffusion twice, diffusing particles carry no heat, an exception in the non-local flux leaves the mesh spacing scaled.")
C("C66", "partial", [PT+"electronViscosity_ok", PT+"viscosity_needs_electrons", PT+"viscosity_slows", PT+"flux_limit_respected", PT+"electron_viscous_heat_lost"],
  "All parts for every state and line except the last, which is false: the energy taken from the flow is lost (electron_viscous_heat_lost). Grad_par of BOUT++ is a parameter.")
D="Hermes.Drifts."
C("C67", "partial", [D+"drift_sources", D+"drift_conserves", D+"drift_charge", D+"polarisation_sources", D+"polarisation_conserves", D+"polarisation_charge", D+"polarisation_current", D+"polarisation_closes_current", D+"drifts_close_current", D+"polarisation_energy", D+"polarisation_refuses", D+"polDensity_eq", D+"diamagnetic_runs", D+"polarisation_runs", D+"boussinesq_leaves_charge", D+"flutter_not_closed"],
  "Every state and list of distinct species; the operators of BOUT++ are parameters with linearity and summation by parts as hypotheses, met by an example. The charge balance holds without the Boussinesq approximation and without flutter; otherwise it is false (boussinesq_leaves_charge, flutter_not_closed).")
C("C68", "partial", [D+"relax_transform", D+"relax_energy", D+"relax_energy_conserved", D+"relax_rhs", D+"relax_conserved", D+"relax_steady", D+"relax_defined", D+"relax_undefined", D+"relax_makes_energy", D+"relax_heats_neutrals", D+"relax_pressure_differs", D+"relax_runs", D+"relaxFinally_runs"],
  "The equations, the energy without diamagnetic_polarisation and the total vorticity: every state. Negations: with exb_advection (the default) an uninitialised member is read, with diamagnetic_polarisation (the default) energy is made and neutrals take part, and the steady state differs from vorticity's for charges other than one.")
C("C69", "partial", [D+"vorticity_transform", D+"vorticity_rhs", D+"vorticity_conserved", D+"vorticity_energy", D+"drift_energy_conserved", D+"same_currents_and_flutter", D+"no_flutter", D+"friction_frequency_bounds", D+"friction_damps", D+"sheath_damping", D+"vorticity_runs", D+"finally_runs", D+"friction_heat_is_lost", D+"flutter_not_closed"],
  "Every state and list of distinct species; operators of BOUT++ and the solver for the potential are parameters. Energy: Boussinesq flow energy, without friction and advection. False parts: the heat of friction is lost (friction_heat_is_lost), the polarisation drift does not know the current along the fluctuating field (flutter_not_closed).")
D="Hermes.EnergyEquation."
C("C70", "partial", [D+"energyRhs_ok", D+"energy_balance", D+"energy_conserved_partial", D+"flutter_takes_energy", D+"wall_energy_flow_partial", D+"energy_conductivity", D+"log_form_same_rate", D+"reaction_energy_not_conserved", D+"ionisation_creates_energy", D+"electric_work_missing", D+"shifted_wall_flow"],
  "Energy balance: every state, geometry, limiter and choice of options. Wall flow: every state, for field-aligned coordinates that coincide with the grid. False parts: magnetic flutter takes energy out of a closed domain (flutter_takes_energy), shifted coordinates (shifted_wall_flow), work of the electric field (electric_work_missing), heat of mixing of reactions (reaction_energy_not_conserved).")
D="Hermes.Preconditioning."
C("C71", "partial", [D+"pressure_precon_inverts_partial", D+"neutral_precon_inverts", D+"precon_unique", D+"precon_off", D+"precon_without_effect"],
  "evolve_pressure with uniform density above the floor and uniform scaling of time derivatives; neutral_mixed in full; the solvers of BOUT++ are parameters that solve their equations. False for evolve_energy and for evolve_log, where the preconditioner has no effect (precon_without_effect).")
D="Hermes.FullVelocity."
C("C72", "partial", [D+x for x in "rotation_inverse rotation_lengths differences_exact cylindrical_acceleration uniform_motion_persists published_values published_velocity energy_source_received outflow_only density_not_driven_down wall_heat momentum_source_received pressure_work_balances_partial momentum_counted_twice ionisation_slows_gas published_pressure_inconsistent outflow_temperature_stale viscous_heat_is_lost mass_not_published".split()],
  "Every geometry, state and choice of options; the operators of BOUT++ are parameters (constants have no gradient; summation by parts for the work). Energy exchange only where the density is at least 1e-2. False parts: density source and momentum (momentum_counted_twice, ionisation_slows_gas), published pressure, viscous heat, mass not published.")
D="Hermes.Registry."
C("C73", "proved", [D+x for x in "reaction_follows_equation equations_balance all_states_connected names_distinct listed_reactions_created ionisation_potential_returned binding_energy_returned potentials_increase every_reaction_runs ionisation_off_still_cools radiation_off_stops_heating".split()],
  "All 115 registered equations (a finite table, checked by the kernel and lifted by lemmas over every state). The potential energy: OpenADAS elements both ways; hydrogen and helium for recombination, while the cost of ionisation is part of the radiation fit. Two settings do not do what they say: K_iz_multiplier does not scale the cost of ionisation, R_rec_multiplier scales the heating by recombination.")
D="Hermes.Diagnostics."
C("C74", "partial", [D+x for x in "ionisation_diagnostics recombination_diagnostics cx_diagnostics_same cx_diagnostics_different radiation_diagnostic pump_diagnostic recycling_diagnostics cx_energy_diagnostic_incomplete shared_destination_overwrites".split()],
  "Missing: the energy diagnostics of reactions leave out the heat of mixing (the theorems say exactly how much; cx_energy_diagnostic_incomplete is a run). Recycling: if no two channels lead to the same species; otherwise one overwrites the other (shared_destination_overwrites). Units, conversion factors and the other components' diagnostics are not modelled.")
U="Hermes.Units."
C("C75", "partial", [U+x for x in "reaction_unit_free collisions_unit_free thermalForce_unit_free ionisation_unit_free run_unit_free collisional_plasma_unit_free cx_without_gas charge_exchange_depends_on_Nnorm thin_gas_frequency collisions_depend_on_Nnorm density_equation_in_any_units_partial momentum_equation_in_any_units_partial pressure_equation_in_any_units_partial energy_equation_in_any_units_partial dissipation_in_units_of_field relaxation_in_units_of_field sheath_in_any_units_partial sheath_speed_depends_on_units sheath_gradient_depends_on_units".split()],
  "Missing: charge exchange and collisions put a floor of 1e-5 in normalised units under densities, so the theorems for them need densities above it; below it the result depends on Nnorm (cx_without_gas to collisions_depend_on_Nnorm). The four transport equations (density, momentum, pressure, energy) on the normalised metric are covered without numerical diffusion and above their floors; numerical diffusion and the relaxation of the pressure go with the gyration time of Bnorm (dissipation_in_units_of_field, relaxation_in_units_of_field). The limiter of cell averages is assumed to be homogeneous (proved for Upwind, Fromm, MinMod, MC), Grad_par too. The operators of BOUT++ are assumed to be homogeneous. SheathBoundary is covered while its limits are not reached; its speed limit of ten times the reference speed and its threshold for the density gradient depend on the reference values (the last two theorems). The other sheath components and vorticity are not covered.")
G="Hermes.NeutralGas."
C("C76", "partial", [G+x for x in "particles_only_from_sources momentum_balance thermal_energy_balance cutoff_creates total_energy central_work energy_not_created viscosity_mass_squared empty_cells_ignore_sinks sheared_wall_leaks".split()],
  "Missing: false without two hypotheses. In cells below the density floor sinks are ignored (cutoff_creates, empty_cells_ignore_sinks), and if the shift changes across a wall neutrals flow through it (sheared_wall_leaks). The dissipated kinetic energy is not given to the heat. The energy theorem needs the work of the pressure to be balanced, which is proved for central differences.")
G="Hermes.Nuclei."
C("C77", "partial", [G+x for x in "complete_recycling_keeps_nuclei_partial recycling_makes_no_nuclei_partial Evaluation.balance nuclei_balance density_loss sheath_outward sourceOf_reactions molecules_need_half sheared_targets_lose_nuclei".split()],
  "Missing: radial edges (no flux through them is assumed, SOL and PFR recycling are off; see C87), magnetic flutter, time derivatives that are scaled. False if the shift to field-aligned coordinates changes between the last cell and the guard cell of a target (sheared_targets_lose_nuclei).")
G="Hermes.Restart."
C("C78", "partial", [G+x for x in "file_holds_field read_once second_save_resets potential_restarts potential_relaxes_again rhs_guard apar_call apar_relaxation apar_steps_partial apar_plain_restarts apar_restart_jumps rejected_step_counts restart_changes_gradient".split()],
  "Potential: the restarted run equals the run that was not stopped, for every history whose last evaluation is at the latest time (the Laplacian solver is a parameter whose result depends on the guess only through the boundary values); if the solver had tried a later time, the restarted run is ahead in its relaxation by exactly that time. Vector potential with const_gradient: the relaxation is by the sum of all steps forward; for times that never go back this is the elapsed time. The full statement is false and its negation is proved: a rejected step counts twice, and since the time of the last evaluation is not saved the first evaluation after a restart relaxes over the whole simulated time. In a run that was not restarted, the second save into the same options puts the field back to its value at the first.")
G="Hermes.Outputs."
C("C79", "partial", [G+x for x in "outputs_have_units_partial mislabelled_units conductivity_factors_differ same_units_same_factor_partial particle_flow_factor species_variables_converted inputs_have_units option_comes_back".split()],
  "All 142 saved variables with units and conversion factor, and 29 options with units. A factor has units if it changes as they say under every change of the units of length, mass, time and current. The full statement is false and its negation is proved for three variables: the parallel conductivity of evolve_energy (factor lacks 1/Tnorm, so the same variable is larger by Tnorm than with evolve_pressure), the numerical viscous heating of evolve_pressure (W, but is W/m^3) and the particle source of neutral_parallel_diffusion (s^-1, but is m^-3 s^-1). The table of variables is written from the source by tools/gen_outputs.py; that the numbers saved are the ones the names promise is the subject of C74 and C75.")
G="Hermes.Sharing."
C("C80", "partial", [G+x for x in "published_is_sum source_never_changes no_drift saved_exact_partial first_saves_recycling saved_source_contaminated saved_is_kept_field".split()],
  "Fields are references to blocks of storage; copies share, arithmetic allocates, element assignment is in place. The total and the source set by the user are right for every list of components and every history. The last part of the statement is false and its negation is proved: the first component to contribute keeps the same storage as the state, so recycling that follows it changes the field it saves; with the components in the order of examples/1D-recycling the saved source of the neutrals contains the recycled particles. It is proved for every component that is not the first, and the saved field of the first is determined exactly. Not covered: fields that reach other components through toFieldAligned/fromFieldAligned, where sharing depends on BOUT++.")
G="Hermes.InputSources."
C("C81", "partial", [G+x for x in "density_source_as_given pressure_source_as_given energy_source_as_given_partial density_source_published density_input_acts pressure_input_acts energy_input_acts_partial grid_file_heating_same density_shape_acts feedback_keeps_energy density_rate pressure_rate temperature_shape_two_thirds detachment_shape_two_thirds one_becomes_two_thirds input_source_takes_energy feedback_adds_energy energy_prefactor_ignored documented_name_ignored energyRate_spec".split()],
  "Proved for the sources of evolve_density and evolve_pressure, for that of evolve_energy without prefactor, and for the shape of upstream_density_feedback. The remaining parts are false and their negations are proved: temperature_feedback and detachment_controller (actuator power) take a shape documented as a source of pressure in Pa/s for a source of energy, so the pressure rises at two thirds of the stated rate (the input files of the examples already contain the factor 2/3, so two thirds of the power are injected); evolve_energy ignores source_time_dependent; the documented name of the grid-file variable for the density source is not the one that is read; particles added by evolve_density take kinetic energy away, particles added by the feedback bring kinetic energy in if evolve_energy is used. Parsing of expressions (FieldFactory) and reading of the grid file are outside the model.")
G="Hermes.Order."
C("C82", "partial", [G+x for x in "order_irrelevant used_before_written_fails order_reported_partial evolving_orders evolving_density_first evolving_runs quasineutral_silent soundSpeed_silent evolveDensityC_declared fixedDensityC_declared quasineutralC_declared fixedFractionIonsC_declared simplePumpC_declared evolvePressureC_declared evolveEnergyC_declared isothermalC_declared fixedTemperatureC_declared setTemperatureC_declared evolveMomentumC_declared fixedVelocityC_declared zeroCurrentC_declared electronForceBalanceC_declared soundSpeedC_declared noFlowBoundaryC_declared sheathBoundaryC_declared sheathBoundarySimpleC_declared sheathBoundaryInsulatingC_declared neutralBoundaryC_declared sheathClosureC_declared diamagneticDriftC_declared polarisationDriftC_declared ionViscosityC_declared classicalDiffusionC_declared fixedFractionRadiationC_declared recyclingC_declared densityFeedbackC_declared temperatureFeedbackC_declared vorticityC_declared relaxPotentialC_declared electromagneticC_declared neutralMixedC_declared evolveDensity_needs fixedDensity_needs quasineutral_needs evolvePressure_needs isothermal_needs evolveMomentum_needs vorticity_needs sheathBoundary_needs evolvePressure_uses isothermal_uses fixedTemperature_uses evolveMomentum_uses fixedVelocity_uses evolveEnergy_uses simplePump_uses setTemperature_uses fixedFractionIons_uses electronForceBalance_uses sheathClosure_uses zeroCurrent_uses fixedFractionRadiation_uses neutralBoundary_uses sheathBoundary_uses".split()],
  "Proved: orders that keep the order of every two components in conflict (one writes what the other reads or sets) run alike and give the same state, for all components whose list of variables read, set and added to is right; this list is given and proved for 31 components. Using before publishing stops with an error for the components that always use the variable. The full property is false: quasineutral and sound_speed ask whether a variable is there and go on without it, so that two orders run and give different states (negations proved). Collisions, reactions, anomalous diffusion and the upstream controllers of the detachment front, which are modelled by their contributions, are not among the 31; finally() of the components is empty in these theorems.")
G="Hermes.ClosedPlasma."
C("C83", "partial", [G+x for x in "closed_plasma_momentum closed_plasma_energy_partial total_momentum total_energy reaction_power thermal_force_makes_energy".split()],
  "Momentum: proved in full for the components listed. Energy: proved with collisions (with frictional heating) and charge exchange at zero current; the difference of the discrete kinetic energy is given exactly and is not zero (C62). With ionisation and recombination the power is that of reaction_power (radiation, and the kinetic energy that the electrons carry without inertia). With thermal forces the property is false: they do work which is not taken from the heat of any species (negation proved). Electric potential, electromagnetic fields and dissipation across the field are excluded; the pressure force on the whole does not vanish in general, because Grad_par is not a divergence.")
G="Hermes.Evaluations."
C("C84", "partial", [G+x for x in "right_hand_side pi_settles pi_repeats detach_settles detach_repeats potential_settles potential_repeats apar_settles apar_repeats andThen_settles andThen_repeats pi_depends_on_first_trial detach_does_not_settle apar_depends_on_rejected_step".split()],
  "Proved for the first evaluation at a time being given. Without that restriction the property is false: what the controllers and the vector potential give at a time depends on the state that was tried first at that time and on steps that were given up, and with min_error_for_change the detachment controller changes its output between evaluations at one time (negations proved). Components without memory are arbitrary functions; the state object is new in each evaluation (hermes-3.cxx:292-303). Solvers that start from the previous solution are taken as exact (independent of the initial guess).")
G="Hermes.Curves."
H="Hermes.RateFits."
C("C85", "partial", [G+x for x in "light_impurities heavy_impurities_partial xenon_jump tungsten_jump hutchinson_continuous argon_simplified_continuous argon_simplified_starts".split()] + [H+x for x in "amjuel_usable adas_usable hydrogenIonisation_cold hydrogenIonisation_usable_partial".split()],
  "Full for the AMJUEL fits and OpenADAS tables, and for the curves of carbon, nitrogen, neon, argon, krypton with jumps of at most 5 % where the pieces meet. False for xenon at 1300 eV and tungsten at 1500 eV: the coefficients of degree 15 and 20 are rounded to nine digits and the polynomial is wrong by many orders of magnitude near the end of its range (negations proved). The rate of the component ionisation is not a number at negative temperatures; the simplified curves of argon begin with a step at 0.52 eV. The rate of charge exchange of SOLKiT and the class HydrogenRadiatedPower (not used by any component) are not included. Floating point is outside the model.")
G="Hermes.Shipped."
C("C86", "proved", [G+x for x in "every_reaction_has_data compare ionisation_balance stages_in_balance neon_hump".split()],
  "The fifteen files are part of the model (numbers with five decimals, copied by tools/gen_adas.py). Two temperatures for each of the 19 stages, in the list balances. Between the two temperatures nothing is stated: there the order depends on the density. neon_hump shows that the table for Ne5+ has a spurious maximum at 2 keV.")
G="Hermes.RadialWalls."
C("C87", "partial", [G+x for x in "Evaluation.balance walls_keep_nuclei_partial walls_make_no_nuclei_partial flow_of_another_species tritium_from_nothing".split()],
  "Missing: the pump; every recycled species must publish its radial flow. False without that: the flow is a member of the component and keeps the value of the channel before (flow_of_another_species, tritium_from_nothing). Flows by drifts through the radial edges are not recycled, since only anomalous_diffusion sets particle_flow_xlow.")
G="Hermes.HyperDiffusion."
C("C88", "proved", [G+x for x in "density_damped momentum_damped pressure_damped energy_damped fourth_damps second_zero".split()],
  "D4DZ4 of BOUT++ is assumed to be the fourth difference divided by the fourth power of the spacing. With scaled time derivatives the term is scaled as all others.")
G="Hermes.AmjuelFits."
C("C89", "partial", [G+x for x in "evaluate_eq hydrogen_bounded hydrogen_balance hydrogen_recombination_falls ionisation_rises hydrogen_cost hydrogen_cost_hot hydrogen_recombination_radiates helium_balance helium_cost_partial helium_cost_hot helium_cheap cold_helium_does_not_recombine helium_huge loss_ge hydrogen_ionisation_cools hydrogen_cycle_cools".split()],
  "Proved in full for hydrogen. For helium the code violates the claim at low temperature: the negations are proved, and the cost of ionisation from 0.3 eV on.")
G="Hermes.Collisions."
C("C90", "partial", [G+x for x in "beta_eq heavyCoefficient_pos heavyCoefficient_limit thermal_force_on_each heavy_pushed_up thermal_force_succeeds isotopes_counted_twice".split()],
  "All of it but the last claim, which is false of the code: isotopes_counted_twice. The gradient along the field is a parameter.")
G="Hermes.Collisions."
C("C91", "partial", [G+x for x in "electron_electron electron_ion ranges_meet heat_exchange_rate ion_ion moving_same with_neutrals electron_neutral electron_collision_frequency collision_frequency neutral_gases frequency_jumps".split()],
  "All but the last sentence, which is false of the code: frequency_jumps.")
G="Hermes.HeatConductivity."
C("C92", "proved", [G+x for x in "simple_electrons simple_ions plain_log pressure_conductivity without_electron_electron electrons_agree default_conducts_less ions_agree".split()],
  "Temperatures from 1 to 1000 eV, densities from 10^10 to 10^21 m^-3, ions at most ten times hotter than electrons.")
G="Hermes.Galilean."
C("C93", "partial", [G+x for x in "amjuel_galilean_partial cx_galilean_partial adas_galilean_partial adas_cx_galilean ionisation_galilean collisions_galilean_partial electrons_born_at_rest solkit_frame unset_velocity_frame".split()],
  "Holds for all atoms and ions in AMJUEL, hydrogen and OpenADAS reactions and for collisions between species with velocities. Fails, with witnesses, for electrons born in AMJUEL ionisation, for SOL-KiT charge exchange, and for collisions with a species whose velocity is not set.")
G="Hermes.Direction."
C("C94", "partial", [G+x for x in "limiters_fair advection_turned advection_flow_turned momentum_turned heating_turned conduction_turned conduction_flow_turned dissipation_turned noflow_turned diffusion_turned_x diffusion_turned_z diffusion_turned_y exb_turned_x exb_turned_y exb_turned_z poloidal_turned_x poloidal_turned_y poloidal_turned_z kinetic_flow_depends_on_direction limited_diffusion_depends_on_direction".split()],
  "All rates of change, and the flows of particles, heat and energy by advection and conduction. Fails, with witnesses, for the saved flow of kinetic energy and for the limited diffusion of a field that is equal in neighbouring rows.")
G="Hermes.Viscosity."
C("C95", "partial", [G+x for x in "ion_frequency ion_viscosity_braginskii electron_viscosity_braginskii default_electron_viscosity".split()],
  "Ions with all collisions switched on; electrons with electron_electron = false. Fails for electrons with the default electron_electron = true: the viscosity is less than 0.6 of Braginskii's (default_electron_viscosity), whose coefficient 0.73 already contains the collisions among electrons.")
G="Hermes.Friction."
C("C96", "proved", [G+x for x in "species_friction species_heating electron_friction electron_heating friction_braginskii heating_braginskii friction_large_charge".split()],
  "The documentation says that the coefficient stays at 0.38 for charges above four; friction_large_charge: that is 27 to 29 per cent above Braginskii's limit for large charges.")
G="Hermes.Entropy."
C("C97", "proved", [G+x for x in "entropy_made second_law constant_only_in_equilibrium equilibrium_stays".split()], "")
G="Hermes.ConductionEntropy."
C("C98", "partial", [G+x for x in "entropy_made conduction_second_law constant_only_if_uniform evolve_pressure_second_law evolve_energy_second_law simple_conduction_partial cold_plasma_loses_entropy".split()],
  "Holds for the operator with every conductivity that is not negative, for the conduction in evolve_pressure with any flux limiter and in evolve_energy where no pressure is negative (field-aligned coordinates, no flutter), and for simple_conduction where the Coulomb logarithm is positive. Below about 0.012 eV at 1e20 per cubic metre the logarithm and the conductivity are negative and conduction destroys entropy: cold_plasma_loses_entropy.")
G="Hermes.Ohm."
C("C99", "proved", [G+x for x in "ohms_law friction_balanced resistivity_SI".split()], "")
G="Hermes.Collisions."
C("C100", "partial", [G+x for x in "thermal_force_energy thermal_force_energy_partial thermal_force_makes_energy".split()],
  "Holds if all species move together. The component adds forces and no heat, so in general the energy changes by the work of the forces on the relative motion (thermal_force_energy): with a current along the gradient of the electron temperature energy comes from nothing (thermal_force_makes_energy). In Braginskii's equations the electrons pay for this work with heat.")
G="Hermes.CxEntropy."
C("C101", "proved", [G+x for x in "exchanged entropy_of_exchange exchange_second_law".split()], "")
G="Hermes.Entropy."
C("C102", "proved", [G+x for x in "slowest_not_slowed fastest_not_accelerated coldest_not_cooled hottest_not_heated".split()], "")
G="Hermes.ParOps."
C("C103", "partial", [G+x for x in "flow_at_rest maximum_not_raised minimum_not_lowered downhill smooths minMod_gentle upwind_gentle mc_smooths_partial mc_sharpens".split()],
  "Proved in full for Upwind and MinMod; with all three, maxima do not rise and minima do not fall. For the default MC: the integral of the square does not grow if cells and wave speed are uniform; false otherwise (mc_sharpens). Limiters of BOUT++ are assumed to be those of the same name in src/div_ops.cxx.")
G="Hermes.Drifts."
C("C104", "partial", [G+x for x in "vorticity_damped phi_terms potential_damped_partial phi_dissipation_drives_flow".split()],
  "Operators of BOUT++ are parameters that take from the integral of the square; for FV::Div_par this holds with a limiter like Upwind or MinMod, and not always with MC (C103). The part about the potential holds without diamagnetic polarisation; with it, false (phi_dissipation_drives_flow).")
G="Hermes.SheathSimple."
C("C105", "partial", [G+x for x in "wall_heat_ions wall_heat_electrons gamma_is_total_partial gamma_is_total_iff energy_between_sheaths simple_heat_nonneg simple_sheaths_only_cool linear_sheath_heats pressure_gap underlying_spec underlying_ions underlying_electrons gamma_exceeded".split()],
  "Exact amount for ions and electrons; it is gamma T n v with no_flow, or if the pressure at the target is density times temperature there. In general it is not (gamma_exceeded). Energy does not grow between sheaths if gamma is at least 5/2 and no quantity is extrapolated linearly; with linear extrapolation it can (linear_sheath_heats). evolve_energy only, field-aligned coordinates that coincide with the grid.")
G="Hermes.Sheath."
C("C106", "partial", [G+x for x in "wall_heat_electrons wall_heat_ions electrons_lose_at_least electrons_lose_partial electrons_lose_more energy_between_targets heat_lost_nonneg sheaths_only_cool".split()],
  "Exact amount for ions and electrons with ratio of specific heats 5/3. It is the documented one for an ideal gas at the target and a coefficient of at least 2.6; with a smaller one the electrons lose more (electrons_lose_more). As in C105 the pressure at the target is extrapolated separately. Energy does not grow between sheaths (sheaths_only_cool). evolve_energy only, field-aligned coordinates that coincide with the grid.")
p = os.path.join(os.path.dirname(os.path.abspath(__file__)), "..", "MANIFEST.json")
json.dump({"claims": claims}, open(p, "w"), indent=1, ensure_ascii=False)
print(len(claims), "claims")
