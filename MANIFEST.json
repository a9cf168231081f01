{
 "claims": [
  {
   "property": "C01",
   "status": "proved",
   "theorems": [
    "Hermes.Scheduler.components_are_expected",
    "Hermes.Scheduler.layout_irrelevant",
    "Hermes.Scheduler.same_names_same_components"
   ],
   "note": "BOUT++ strsplit/trim behaviour assumed as described in Model/Text.lean."
  },
  {
   "property": "C02",
   "status": "proved",
   "theorems": [
    "Hermes.Scheduler.transform_trace_ok",
    "Hermes.Scheduler.transform_trace_throw",
    "Hermes.Scheduler.finally_sees_final_state",
    "Hermes.Scheduler.other_traces"
   ],
   "note": ""
  },
  {
   "property": "C03",
   "status": "partial",
   "theorems": [
    "Hermes.State.value_stable_after_get",
    "Hermes.State.readers_agree",
    "Hermes.State.writes_after_get_throw",
    "Hermes.State.writes_after_getNoBoundary_throw",
    "Hermes.State.interior_stable_after_getNoBoundary_partial",
    "Hermes.State.setBoundary_can_change_interior",
    "Hermes.State.value_not_stable_without_checks",
    "Hermes.State.transform_component_bypasses_final"
   ],
   "note": "Holds for all histories of the component.hxx API with CHECK>=1. Negations: the transform component and CHECK=0 bypass it; setBoundary may change interior cells."
  },
  {
   "property": "C04",
   "status": "proved",
   "theorems": [
    "Hermes.State.sources_accumulate",
    "Hermes.State.sources_order_irrelevant"
   ],
   "note": ""
  },
  {
   "property": "C05",
   "status": "proved",
   "theorems": [
    "Hermes.State.set_field_spec",
    "Hermes.State.write_atomic"
   ],
   "note": ""
  },
  {
   "property": "C06",
   "status": "partial",
   "theorems": [
    "Hermes.TransformComp.copies_partial",
    "Hermes.TransformComp.sorted_entries_in_order_partial",
    "Hermes.TransformComp.listed_order_not_respected",
    "Hermes.TransformComp.malformed_rejected",
    "Hermes.TransformComp.two_equals_accepted"
   ],
   "note": "Chained entries run in std::map (alphabetical) order, not in listed order: negation proved."
  },
  {
   "property": "C07",
   "status": "partial",
   "theorems": [
    "Hermes.Limiters.average_of_constant_partial",
    "Hermes.Limiters.average_of_constant_iff",
    "Hermes.Limiters.average_of_constant_fails",
    "Hermes.Limiters.average_nonneg",
    "Hermes.Limiters.average_nonneg_of_nonneg_fields",
    "Hermes.Limiters.average_between_partial",
    "Hermes.Limiters.average_zero_in_empty_cell"
   ],
   "note": "The weights sum to one only if J is linear across the three cells: negation proved; bounds proved under that condition."
  },
  {
   "property": "C08",
   "status": "partial",
   "theorems": [
    "Hermes.Limiters.upwind_monotone",
    "Hermes.Limiters.minMod_monotone",
    "Hermes.Limiters.mc_monotone",
    "Hermes.Limiters.minMod_linear_exact",
    "Hermes.Limiters.mc_linear_exact",
    "Hermes.Limiters.constant_exact",
    "Hermes.Limiters.edges_nonneg",
    "Hermes.Limiters.choices_monotone_partial",
    "Hermes.Limiters.superbee_reads_unassigned",
    "Hermes.Limiters.superbee_in_integrate_is_flat",
    "Hermes.Limiters.fromm_not_monotone",
    "Hermes.Limiters.fromm_linear_exact"
   ],
   "note": "All selectable limiters except Superbee, which reads the edge members before they are assigned: negation proved."
  },
  {
   "property": "C09",
   "status": "proved",
   "theorems": [
    "Hermes.ParOps.content_changes_at_ends",
    "Hermes.ParOps.noflow_line_conserves",
    "Hermes.ParOps.periodic_line_conserves",
    "Hermes.ParOps.distributed_content"
   ],
   "note": "dx and dz constant along the line (UniformPerp)."
  },
  {
   "property": "C10",
   "status": "proved",
   "theorems": [
    "Hermes.ParOps.decomposition_independent",
    "Hermes.ParOps.decomposition_independent_fvv",
    "Hermes.ParOps.distributed_content"
   ],
   "note": "Guard cells are assumed to hold the neighbours' data (BOUT++ communicate)."
  },
  {
   "property": "C11",
   "status": "proved",
   "theorems": [
    "Hermes.ParOps.upper_end_flow_is_midpoint",
    "Hermes.ParOps.lower_end_flow_is_midpoint",
    "Hermes.ParOps.noflow_blocks_flow",
    "Hermes.ParOps.noflow_line_conserves",
    "Hermes.NoFlow.noFlow_values"
   ],
   "note": "noFlow_values: the component noflow_boundary sets the guard cells as assumed by noflow_blocks_flow."
  },
  {
   "property": "C12",
   "status": "proved",
   "theorems": [
    "Hermes.ParOps.empty_cell_not_drained",
    "Hermes.ParOps.euler_step_nonneg",
    "Hermes.ParOps.empty_end_cell_not_drained_partial",
    "Hermes.ParOps.empty_end_cell_can_be_drained"
   ],
   "note": "Interior cells: proved. For a cell at a physical end the prescribed flux decides; partial theorem and negation given."
  },
  {
   "property": "C13",
   "status": "partial",
   "theorems": [
    "Hermes.ParOps.flow_reproduces_divergence",
    "Hermes.ParOps.conduction_flow_reproduces",
    "Hermes.PerpOps.radial_flow_reproduces_divergence",
    "Hermes.PerpOps.poloidal_flow_reproduces_divergence_partial"
   ],
   "note": "Parallel operators and radial flows: full. Poloidal flows of the perpendicular operators: summed over the binormal direction, last row excluded because the flow through the upper end is not reported by the code."
  },
  {
   "property": "C14",
   "status": "partial",
   "theorems": [
    "Hermes.ParOps.momentum_changes_at_ends",
    "Hermes.ParOps.noflow_conserves_momentum",
    "Hermes.ParOps.periodic_conserves_momentum",
    "Hermes.ParOps.uniform_velocity_consistent",
    "Hermes.ParOps.heating_boundary_flux_differs"
   ],
   "note": "Conservation proved. Negation: with fix_momentum_boundary_flux=false the heating routine assumes another momentum flux."
  },
  {
   "property": "C15",
   "status": "proved",
   "theorems": [
    "Hermes.ParOps.conduction_conserves",
    "Hermes.ParOps.conduction_smooths",
    "Hermes.ParOps.conduction_downhill",
    "Hermes.ParOps.conduction_flow_direction",
    "Hermes.ParOps.conduction_of_constant",
    "Hermes.ParOps.conduction_weighted"
   ],
   "note": ""
  },
  {
   "property": "C16",
   "status": "partial",
   "theorems": [
    "Hermes.PerpOps.radial_content_changes_at_boundaries",
    "Hermes.PerpOps.radial_diffusion_conserves",
    "Hermes.PerpOps.aligned_content_changes_at_ends",
    "Hermes.PerpOps.binormal_conserves",
    "Hermes.PerpOps.uniform_field_unchanged",
    "Hermes.PerpOps.radial_diffusion_fills_minima",
    "Hermes.PerpOps.upwind_radial_agrees",
    "Hermes.PerpOps.limit_agrees_with_upwind",
    "Hermes.PerpOps.limit_binormal_flux",
    "Hermes.PerpOps.upwind_spares_empty_cells",
    "Hermes.PerpOps.upwind_binormal_flux_lacks_metric",
    "Hermes.PerpOps.variants_disagree_in_binormal_direction",
    "Hermes.PerpOps.laplaceFV_cell",
    "Hermes.PerpOps.laplaceFV_conserves"
   ],
   "note": "Conservation and uniform fields proved for the three operators. Negation: the upwind and limited variants omit the g33 factor in the binormal flux. toFieldAligned/fromFieldAligned are outside the model."
  },
  {
   "property": "C17",
   "status": "proved",
   "theorems": [
    "Hermes.ExB.xppm_balance",
    "Hermes.ExB.xppm_no_radial_leak",
    "Hermes.ExB.xppm_no_poloidal_leak",
    "Hermes.ExB.xppm_periodic",
    "Hermes.ExB.xppm_conserves",
    "Hermes.ExB.xppm_constant_potential",
    "Hermes.ExB.xppm_ends_only_outflow",
    "Hermes.ExB.poloidal_flux_carries_positive_density",
    "Hermes.ExB.polX_decomposition",
    "Hermes.ExB.polY_decomposition",
    "Hermes.ExB.poloidal_drains_empty_cell",
    "Hermes.ExB.exb_conserves",
    "Hermes.ExB.exb_closed_boundary_no_leak",
    "Hermes.ExB.exb_closed_plane_conserves",
    "Hermes.ExB.exb_constant_potential",
    "Hermes.ExB.exb_uniform_density_partial",
    "Hermes.ExB.exb_empty_cell_not_drained",
    "Hermes.ExB.exb_decomposition_independent"
   ],
   "note": "X-Z part and poloidal part; derivatives and shifts of BOUT++ are parameters, of which only conservation of the z sum is assumed. Extra results: uniform density for a Jacobian constant in x (_partial), and poloidal_drains_empty_cell: the poloidal part does not have the positivity property of the X-Z part."
  },
  {
   "property": "C18",
   "status": "partial",
   "theorems": [
    "Hermes.ParOps.diffIndex_conserves",
    "Hermes.ParOps.diffIndex_downhill",
    "Hermes.PerpOps.perpLapIndex_conserves",
    "Hermes.PerpOps.perpLapIndex_conserves_closed",
    "Hermes.PerpOps.perpLapIndex_fills_minima",
    "Hermes.PerpOps.divZIndex_conserves",
    "Hermes.PerpOps.d4dz4Index_conserves",
    "Hermes.PerpOps.d4dz4Index_dissipates",
    "Hermes.PerpOps.d4dx4Index_stencil",
    "Hermes.PerpOps.d4dx4Index_conserves_partial",
    "Hermes.PerpOps.d4dx4Index_row_dependent",
    "Hermes.PerpOps.d4dx4Index_depends_on_decomposition"
   ],
   "note": "All conserve except D4DX4_FV_Index, which depends on the row (j == xstart) and on the decomposition: negations proved."
  },
  {
   "property": "C59",
   "status": "partial",
   "theorems": [
    "Hermes.ParOps.kinetic_energy_balance_closed",
    "Hermes.ParOps.faceExcess_nonneg",
    "Hermes.ParOps.heating_at_least_loss_partial",
    "Hermes.ParOps.heating_exceeds_loss",
    "Hermes.ParOps.heating_boundary_flux_gap"
   ],
   "note": "Exact balance proved with the numerical excess term; equality is false of the code (negation: 6 heated for 4 lost)."
  },
  {
   "property": "C26",
   "status": "proved",
   "theorems": [
    "Hermes.Reactions.amjuel_conserves",
    "Hermes.Reactions.amjuel_amounts",
    "Hermes.Reactions.amjuel_fit",
    "Hermes.Reactions.amjuel_wrong_index_order"
   ],
   "note": "Any rate functions and multipliers; 'amjuel_fit' ties the rates to the 9x9 tables. The table entries themselves are not transcribed."
  },
  {
   "property": "C27",
   "status": "partial",
   "theorems": [
    "Hermes.Reactions.cx_conserves",
    "Hermes.Reactions.cx_rate_formula",
    "Hermes.Reactions.cx_no_gain",
    "Hermes.Reactions.no_neutral_cx_mom_gain_gives_momentum_to_neutrals"
   ],
   "note": "Conservation proved in full. Negation: no_neutral_cx_mom_gain does not do what its documentation says."
  },
  {
   "property": "C28",
   "status": "partial",
   "theorems": [
    "Hermes.Reactions.adas_conserves_partial",
    "Hermes.Reactions.adas_amounts",
    "Hermes.Reactions.adas_cx_amounts",
    "Hermes.Reactions.adas_cx_conserves_partial",
    "Hermes.Reactions.adas_total_energy_not_conserved"
   ],
   "note": "Nuclei, charge, momentum and energy sources proved; total energy is not conserved by the code: defect computed, negation proved."
  },
  {
   "property": "C29",
   "status": "proved",
   "theorems": [
    "Hermes.AdasTable.lookup_between",
    "Hermes.AdasTable.lookup_exact"
   ],
   "note": ""
  },
  {
   "property": "C30",
   "status": "partial",
   "theorems": [
    "Hermes.Reactions.amjuel_rate_nonneg",
    "Hermes.Reactions.amjuel_absent_not_consumed",
    "Hermes.Reactions.adas_rate_nonneg",
    "Hermes.Reactions.adas_absent_not_consumed",
    "Hermes.Reactions.cx_rate_nonneg",
    "Hermes.Reactions.cx_consumes_absent"
   ],
   "note": "Proved for AMJUEL and OpenADAS. Negation for hydrogen charge exchange: densities are floored at 1e-5, so an absent species is consumed."
  },
  {
   "property": "C32",
   "status": "proved",
   "theorems": [
    "Hermes.Collisions.momentum_conserved",
    "Hermes.Collisions.thermal_force_conserves_momentum",
    "Hermes.Collisions.collisions_succeed"
   ],
   "note": "Collisions and thermal force, any species list, switches and state."
  },
  {
   "property": "C33",
   "status": "proved",
   "theorems": [
    "Hermes.Collisions.energy_conserved",
    "Hermes.Collisions.friction_heats",
    "Hermes.Collisions.heat_flows_hot_to_cold"
   ],
   "note": "Total energy with frictional_heating on; sign of the frictional heating; direction of heat exchange."
  },
  {
   "property": "C34",
   "status": "partial",
   "theorems": [
    "Hermes.Collisions.naming_independent_partial",
    "Hermes.Collisions.switches_partial",
    "Hermes.Collisions.ion_neutral_switch_depends_on_names",
    "Hermes.Collisions.neutral_friction_depends_on_names"
   ],
   "note": "Proved when all pairs with a neutral have equal masses and ion_neutral is on. Negations for the other cases: the ion_neutral switch is ignored if the ion comes first in the alphabet, and neutral friction depends on the order when masses differ."
  },
  {
   "property": "C19",
   "status": "proved",
   "theorems": [
    "Hermes.Closures.quasineutral_neutral"
   ],
   "note": ""
  },
  {
   "property": "C20",
   "status": "proved",
   "theorems": [
    "Hermes.Closures.zeroCurrent_no_current",
    "Hermes.Closures.zeroCurrent_rejects_second_velocity"
   ],
   "note": ""
  },
  {
   "property": "C21",
   "status": "proved",
   "theorems": [
    "Hermes.Closures.electron_force_balance"
   ],
   "note": "Grad_par of BOUT++ is a parameter."
  },
  {
   "property": "C22",
   "status": "partial",
   "theorems": [
    "Hermes.Closures.evolveDensity_publishes",
    "Hermes.Closures.evolvePressure_publishes",
    "Hermes.Closures.evolveEnergy_publishes_partial",
    "Hermes.Closures.evolveEnergy_negative_guard",
    "Hermes.Closures.averageZ_edges"
   ],
   "note": "Density and pressure in full. evolve_energy: proved unless neumann_boundary_average_z is on, for which a negative guard cell is exhibited."
  },
  {
   "property": "C23",
   "status": "proved",
   "theorems": [
    "Hermes.Closures.evolveMomentum_publishes",
    "Hermes.Closures.evolveMomentum_restores"
   ],
   "note": "The restoring holds whatever components run in between."
  },
  {
   "property": "C24",
   "status": "partial",
   "theorems": [
    "Hermes.Closures.sound_speed_bounds",
    "Hermes.Closures.fastest_wave_monotone_partial",
    "Hermes.Closures.fastest_wave_decreases"
   ],
   "note": "Values and bounds in full. Monotonicity in the species list proved if every species has a thermal speed and P = N T; negation otherwise."
  },
  {
   "property": "C25",
   "status": "proved",
   "theorems": [
    "Hermes.Closures.fixedFractionIons_publishes",
    "Hermes.Closures.fixedFraction_options",
    "Hermes.Closures.isothermal_publishes",
    "Hermes.Closures.fixedTemperature_publishes",
    "Hermes.Closures.setTemperature_publishes",
    "Hermes.Closures.fixedDensity_publishes",
    "Hermes.Closures.fixedVelocity_publishes",
    "Hermes.Closures.simplePump_sink"
   ],
   "note": ""
  },
  {
   "property": "C35",
   "status": "partial",
   "theorems": [
    "Hermes.Sheath.sheath_limitFree",
    "Hermes.Sheath.sheath_guard_values",
    "Hermes.Sheath.sheath_interior",
    "Hermes.SheathSimple.simple_limitFree",
    "Hermes.SheathSimple.simple_guard_values_partial",
    "Hermes.SheathSimple.simple_guard_increases",
    "Hermes.SheathSimple.simple_guard_negative",
    "Hermes.SheathSimple.simple_interior",
    "Hermes.SheathInsulating.insulating_limitFree",
    "Hermes.SheathInsulating.insulating_guard_values",
    "Hermes.SheathInsulating.insulating_potential",
    "Hermes.SheathInsulating.insulating_interior",
    "Hermes.SheathInsulating.insulating_runs"
   ],
   "note": "sheath_boundary and sheath_boundary_insulating in full. sheath_boundary_simple: holds for mode 0; for the default mode 1 the guard value can exceed the last value (simple_guard_increases) and for mode 2 it can be negative (simple_guard_negative)."
  },
  {
   "property": "C36",
   "status": "partial",
   "theorems": [
    "Hermes.Sheath.concentration_range",
    "Hermes.Sheath.sheath_ions",
    "Hermes.Sheath.sheath_ions_inward",
    "Hermes.Sheath.sheath_electrons",
    "Hermes.Sheath.sheath_electrons_inward",
    "Hermes.Sheath.sheath_below_bohm",
    "Hermes.SheathSimple.simple_ions",
    "Hermes.SheathSimple.simple_electrons",
    "Hermes.SheathSimple.simple_ions_inward",
    "Hermes.SheathSimple.simple_electrons_inward",
    "Hermes.SheathInsulating.insulating_ions",
    "Hermes.SheathInsulating.speedAt_eq",
    "Hermes.SheathInsulating.insulating_electrons"
   ],
   "note": "sheath_boundary, sheath_boundary_simple and sheath_boundary_insulating. In sheath_boundary and sheath_boundary_insulating the ion speed is capped at 10 in normalised units: sheath_below_bohm exhibits a plasma leaving below the Bohm speed."
  },
  {
   "property": "C37",
   "status": "partial",
   "theorems": [
    "Hermes.Sheath.sheath_never_heats",
    "Hermes.Sheath.sheath_ions_no_extra_loss",
    "Hermes.SheathSimple.simple_electrons_never_heated",
    "Hermes.SheathSimple.simple_ions_never_heated_partial",
    "Hermes.SheathSimple.simple_heats_ions",
    "Hermes.SheathSimple.simple_flow_reported",
    "Hermes.SheathInsulating.insulating_ions",
    "Hermes.SheathInsulating.insulating_ions_never_heated",
    "Hermes.SheathInsulating.insulating_electron_energy",
    "Hermes.SheathInsulating.insulating_electrons_never_heated_partial",
    "Hermes.SheathInsulating.insulating_heats_electrons"
   ],
   "note": "sheath_boundary in full. sheath_boundary_insulating: ions; electrons at the lower end if their flow energy is small; at the upper end the loss is computed with the velocity on the wrong face and electrons can be heated (insulating_heats_electrons). sheath_boundary_simple: electrons for gamma_e >= 2.5 + 1/(4 pi); ions if gamma_i is large enough; with the default gamma_i the ions can be heated (simple_heats_ions)."
  },
  {
   "property": "C38",
   "status": "partial",
   "theorems": [
    "Hermes.Sheath.sheath_zero_current_partial",
    "Hermes.Sheath.sheath_electron_flow",
    "Hermes.Sheath.sheath_current_with_gradient",
    "Hermes.SheathSimple.simple_zero_current",
    "Hermes.SheathInsulating.insulating_electrons",
    "Hermes.SheathInsulating.insulating_current",
    "Hermes.SheathInsulating.insulating_zero_current_partial",
    "Hermes.SheathInsulating.insulating_helium_current",
    "Hermes.SheathInsulating.insulating_isotope_current"
   ],
   "note": "sheath_boundary_insulating: the current is computed exactly; it vanishes for one singly charged ion species, but not for multiply charged ions or two isotopes (negations). sheath_boundary: electron flow computed for any profiles; the current vanishes if the temperatures are flat next to the target (any density gradient shared by the species), not if they fall towards it (negation). sheath_boundary_simple: with gradients. Both for field lines of at least four cells."
  },
  {
   "property": "C39",
   "status": "partial",
   "theorems": [
    "Hermes.Sheath.sheath_mirror",
    "Hermes.SheathSimple.simple_mirror",
    "Hermes.NoFlow.noFlow_mirror",
    "Hermes.Recycling.recycling_mirror",
    "Hermes.NeutralBoundary.neutral_mirror",
    "Hermes.SheathInsulating.insulating_not_mirrored"
   ],
   "note": "sheath_boundary, sheath_boundary_simple, noflow_boundary, recycling and neutral_boundary in full. sheath_boundary_insulating violates it (insulating_not_mirrored)."
  },
  {
   "property": "C40",
   "status": "proved",
   "theorems": [
    "Hermes.Recycling.recycling_sources",
    "Hermes.Recycling.target_returns_at_most",
    "Hermes.Recycling.target_inflow",
    "Hermes.Recycling.target_returns_fraction",
    "Hermes.Recycling.recycling_particle_balance",
    "Hermes.Recycling.full_recycling_conserves",
    "Hermes.Recycling.sol_returns_fraction",
    "Hermes.Recycling.pfr_returns_fraction",
    "Hermes.Recycling.pumped_sol_returns_at_most",
    "Hermes.Recycling.recycling_runs"
   ],
   "note": "Equality with the flow removed by the density equation: dx and dz constant along the line (the recycling code averages them over the face, the flux operator does not)."
  },
  {
   "property": "C41",
   "status": "partial",
   "theorems": [
    "Hermes.Recycling.construct_ok",
    "Hermes.Recycling.channel_settings",
    "Hermes.Recycling.own_settings_partial",
    "Hermes.Recycling.different_switches"
   ],
   "note": "Multipliers and energies are per species. The four switches are members of the component and the last species in the list wins: proved when all species ask for the same switches, violated otherwise (different_switches)."
  },
  {
   "property": "C42",
   "status": "partial",
   "theorems": [
    "Hermes.Recycling.recycling_sources",
    "Hermes.Recycling.target_heat_bounds",
    "Hermes.Recycling.edge_heat_bounds_partial",
    "Hermes.Recycling.inflow_takes_heat",
    "Hermes.Recycling.pump_returns_heat_without_particles"
   ],
   "note": "Bounds proved when the ions carry energy out, and for the edges in cells without pump. Negations: inflow of energy gives a negative source; in pumped cells the fast energy is scaled with the edge multiplier instead of the pump multiplier."
  },
  {
   "property": "C43",
   "status": "partial",
   "theorems": [
    "Hermes.NeutralBoundary.neutral_no_flow",
    "Hermes.NeutralBoundary.neutral_energy",
    "Hermes.NeutralBoundary.returned_le_iff",
    "Hermes.NeutralBoundary.neutral_removes_at_most",
    "Hermes.NeutralBoundary.neutral_cools_partial",
    "Hermes.NeutralBoundary.perfect_reflection",
    "Hermes.NeutralBoundary.neutral_elsewhere",
    "Hermes.NeutralBoundary.cold_gas_is_heated"
   ],
   "note": "No flow, exact energy loss and upper bound in full. The wall takes heat only if the gas is hotter than the returned molecules: with the default options gas below 0.75 eV is heated (cold_gas_is_heated)."
  },
  {
   "property": "C31",
   "status": "proved",
   "theorems": [
    "Hermes.Radiation.curves_nonneg",
    "Hermes.Radiation.radiation_only_cools",
    "Hermes.Radiation.radiation_uniform",
    "Hermes.Radiation.radiation_empty_cell",
    "Hermes.Radiation.no_impurities",
    "Hermes.Radiation.radiation_runs"
   ],
   "note": "All eleven registered cooling curves."
  },
  {
   "property": "C44",
   "status": "proved",
   "theorems": [
    "Hermes.SheathClosure.closure_ok",
    "Hermes.SheathClosure.current_is_electron_source",
    "Hermes.SheathClosure.sinks_ambipolar",
    "Hermes.SheathClosure.sinks_only_remove",
    "Hermes.SheathClosure.pure_plasma_loss",
    "Hermes.SheathClosure.soundSpeed_sq",
    "Hermes.SheathClosure.neutrals_are_lost"
   ],
   "note": "neutrals_are_lost records that with sinks the neutral species are treated like ions."
  },
  {
   "property": "C53",
   "status": "partial",
   "theorems": [
    "Hermes.ScaleDerivs.scaling_range",
    "Hermes.ScaleDerivs.steady_states_kept",
    "Hermes.ScaleDerivs.steady_states_kept_log",
    "Hermes.ScaleDerivs.scaled_derivatives_partial",
    "Hermes.ScaleDerivs.hotter_is_slower",
    "Hermes.ScaleDerivs.no_scaling",
    "Hermes.ScaleDerivs.not_all_scaled",
    "Hermes.NeutralMixedModel.scaled_together"
   ],
   "note": "Range, steady states and signs in full. 'Multiplies every time derivative' is false: vorticity, relax_potential and full_velocity do not apply the factor (not_all_scaled)."
  },
  {
   "property": "C45",
   "status": "partial",
   "theorems": [
    "Hermes.Controllers.integral_any_history",
    "Hermes.Controllers.integral_is_trapezium",
    "Hermes.Controllers.integral_independent_of_steps",
    "Hermes.Controllers.same_time_same_integral",
    "Hermes.Controllers.same_evaluation",
    "Hermes.Controllers.integral_not_negative",
    "Hermes.Controllers.integral_positive_inactive",
    "Hermes.Controllers.density_feedback",
    "Hermes.Controllers.temperature_feedback",
    "Hermes.Controllers.all_processors_agree",
    "Hermes.Controllers.rejected_step_counts_twice",
    "Hermes.Controllers.target_control_undefined"
   ],
   "note": "Trapezium rule, sign limits and repeated evaluation in full. Histories that visit the same final times need not agree: a rejected step is counted twice (rejected_step_counts_twice). control_target_temperature on several processors broadcasts an uninitialised variable (target_control_undefined)."
  },
  {
   "property": "C46",
   "status": "partial",
   "theorems": [
    "Hermes.Controllers.restart_one_partial",
    "Hermes.Controllers.resume_exact",
    "Hermes.Controllers.restart_loses_others",
    "Hermes.Controllers.second_call_resets",
    "Hermes.Detachment.restart_partial",
    "Hermes.Detachment.resume_partial",
    "Hermes.Detachment.restart_changes_control",
    "Hermes.Detachment.first_step_cleared"
   ],
   "note": "One PI controller resumes exactly; with several of the same kind only the first does (restart_loses_others). The detachment controller resumes exactly without derivative term; with it the control differs (restart_changes_control)."
  },
  {
   "property": "C47",
   "status": "partial",
   "theorems": [
    "Hermes.Detachment.update_ok",
    "Hermes.Detachment.response",
    "Hermes.Detachment.first_response",
    "Hermes.Detachment.held",
    "Hermes.Detachment.every_history",
    "Hermes.Detachment.always_in_limits",
    "Hermes.Detachment.applied_source",
    "Hermes.Detachment.gradient_of_line",
    "Hermes.Detachment.initial_control_not_limited",
    "Hermes.Detachment.zero_buffer_undefined",
    "Hermes.Detachment.negative_buffer_never_full"
   ],
   "note": "All histories, buffer_size >= 1. Negations: the initial control is not limited, buffer_size = 0 is undefined behaviour, a negative buffer_size is not a limit."
  },
  {
   "property": "C48",
   "status": "partial",
   "theorems": [
    "Hermes.Detachment.front_in_domain",
    "Hermes.Detachment.front_at_crossing_partial",
    "Hermes.Detachment.crossing_between",
    "Hermes.Detachment.crossing_equal",
    "Hermes.Detachment.front_if_attached",
    "Hermes.Detachment.front_not_at_target",
    "Hermes.Detachment.front_outside",
    "Hermes.Detachment.front_on_grid_point_throws"
   ],
   "note": "Range for every profile; crossing for profiles attached in the first cell. Negations: without crossing the position is that of the last cell centre, not 0; a detached first cell gives a position outside the interval."
  },
  {
   "property": "C49",
   "status": "proved",
   "theorems": [
    "Hermes.Metrics.normalise_consistent",
    "Hermes.Metrics.normalise_lengths",
    "Hermes.Metrics.normalise_volume",
    "Hermes.Metrics.metricOf_consistent",
    "Hermes.Metrics.recalculate_consistent",
    "Hermes.Metrics.recalculate_commutes",
    "Hermes.Metrics.metric_of_coordinates",
    "Hermes.Metrics.negative_jacobian"
   ],
   "note": "In every point with non-zero R, Bp, hthe and B² = Bp² + Bt². negative_jacobian records that the Jacobian takes the sign of Bp."
  },
  {
   "property": "C50",
   "status": "partial",
   "theorems": [
    "Hermes.Metrics.decay_values",
    "Hermes.Metrics.decay_sign_and_size",
    "Hermes.Metrics.decay_monotone",
    "Hermes.Metrics.decay_flat",
    "Hermes.Metrics.decay_grows_for_negative_dx"
   ],
   "note": "Full for dx >= 0 and a positive decay length; the outer guard cells copy the first (decay_flat). With dx < 0 the values grow outwards (decay_grows_for_negative_dx)."
  },
  {
   "property": "C51",
   "status": "partial",
   "theorems": [
    "Hermes.PhiBoundary.call_ok",
    "Hermes.PhiBoundary.relaxation",
    "Hermes.PhiBoundary.independent_of_steps",
    "Hermes.PhiBoundary.stays_between",
    "Hermes.PhiBoundary.repeated_evaluation",
    "Hermes.PhiBoundary.uniform_in_z",
    "Hermes.PhiBoundary.solve_keeps_edge",
    "Hermes.PhiBoundary.target_mean",
    "Hermes.PhiBoundary.fixed_ok",
    "Hermes.PhiBoundary.core_target_partial",
    "Hermes.PhiBoundary.core_average_wrong",
    "Hermes.PhiBoundary.negative_time_not_relaxed"
   ],
   "note": "Every sequence of evaluation times, any solver that respects the boundary value. With phi_core_averagey the target is the core average times the fraction of non-guard cells, hence wrong (core_average_wrong)."
  },
  {
   "property": "C52",
   "status": "proved",
   "theorems": [
    "Hermes.ClassicalDiffusion.classical_ok",
    "Hermes.ClassicalDiffusion.ambipolar",
    "Hermes.ClassicalDiffusion.diffusion_conserves",
    "Hermes.ClassicalDiffusion.coefficient_nonneg",
    "Hermes.ClassicalDiffusion.zero_custom_D",
    "Hermes.ClassicalDiffusion.classical_runs"
   ],
   "note": "The perpendicular operator is a parameter, linear in its second argument and conservative (as proved for the operators of C13). custom_D = 0 is a mixed case (zero_custom_D)."
  },
  {
   "property": "C54",
   "status": "proved",
   "theorems": [
    "Hermes.Electromagnetics.em_ok",
    "Hermes.Electromagnetics.momentum_consistent",
    "Hermes.Electromagnetics.neutrals_untouched",
    "Hermes.Electromagnetics.current_change",
    "Hermes.Electromagnetics.ampere",
    "Hermes.Electromagnetics.em_runs",
    "Hermes.Electromagnetics.thin_plasma_inconsistent"
   ],
   "note": "Densities above the floor 1e-5; below it momentum and velocity disagree (thin_plasma_inconsistent). The Laplacian inversion is a parameter."
  },
  {
   "property": "C55",
   "status": "partial",
   "theorems": [
    "Hermes.NeutralMixedModel.advection_reported_partial",
    "Hermes.NeutralMixedModel.advection_reported_wrong",
    "Hermes.NeutralMixedModel.advection_wrong_example",
    "Hermes.NeutralMixedModel.conduction_reported"
   ],
   "note": "neutral_mixed multiplies the advected energy flows by the integer division 5/2 = 2: the diagnostic is 4/5 of the physical flow whenever there is a flow (negation)."
  },
  {
   "property": "C57",
   "status": "partial",
   "theorems": [
    "Hermes.NeutralMixedModel.transform_ok",
    "Hermes.NeutralMixedModel.published_nonneg",
    "Hermes.NeutralMixedModel.published_consistent",
    "Hermes.NeutralMixedModel.wall_values",
    "Hermes.NeutralMixedModel.guard_bounds",
    "Hermes.NeutralMixedModel.guard_density_negative",
    "Hermes.NeutralMixedModel.diffusion_nonneg",
    "Hermes.NeutralMixedModel.flux_limited",
    "Hermes.NeutralMixedModel.diffusion_limited",
    "Hermes.NeutralMixedModel.wall_no_diffusion",
    "Hermes.NeutralMixedModel.not_driven_lower",
    "Hermes.NeutralMixedModel.derivative_unchanged",
    "Hermes.NeutralMixedModel.viscosity_energy",
    "Hermes.NeutralMixedModel.particle_balance"
   ],
   "note": "All statements hold for cells in the domain and on the wall. The published density can be negative in the guard cell behind the wall (guard_density_negative)."
  },
  {
   "property": "C56",
   "status": "partial",
   "theorems": [
    "Hermes.IonViscosities.parallel_conserves",
    "Hermes.IonViscosities.others_untouched",
    "Hermes.IonViscosities.viscosity_limited",
    "Hermes.IonViscosities.stress_limited",
    "Hermes.IonViscosities.perpendicular_balance_partial",
    "Hermes.IonViscosities.perpendicular_conserves_partial",
    "Hermes.IonViscosities.current_total",
    "Hermes.IonViscosities.bracket_term_lost",
    "Hermes.IonViscosities.perp_force_form",
    "Hermes.IonViscosities.parallel_force_form",
    "Hermes.IonViscosities.stress_parts",
    "Hermes.IonViscosities.perp_stress_zero_iff",
    "Hermes.IonViscosities.rest_is_stressed"
   ],
   "note": "Parallel viscosity gives every species exactly the heat that the force takes from its flow, in each cell. With the perpendicular terms the imbalance over a closed domain is exactly the bracket term, lost because `1 / 3` is an integer division in ion_viscosity.cxx:234; bracket_term_lost is a state with total rate 0.32. The differential operators and their integration by parts are parameters."
  },
  {
   "property": "C58",
   "status": "proved",
   "theorems": [
    "Hermes.SimpleReactions.ionisation_conserves",
    "Hermes.SimpleReactions.ionisation_balance",
    "Hermes.SimpleReactions.solkit_conserves",
    "Hermes.SimpleReactions.solkit_drags",
    "Hermes.SimpleReactions.ionisation_loses_energy"
   ],
   "note": "Particles and momentum are conserved between the two species, and the energy of the ionised particle moves with it. The ionisation component does not turn the kinetic energy of relative motion into heat: ionisation_loses_energy is a state where total energy falls."
  },
  {
   "property": "C60",
   "status": "partial",
   "theorems": [
    "Hermes.DensityEquation.density_balance",
    "Hermes.DensityEquation.density_conserved_partial",
    "Hermes.DensityEquation.empty_cell_filled_partial",
    "Hermes.DensityEquation.wave_speed_is_sound_speed",
    "Hermes.DensityEquation.flutter_leaks",
    "Hermes.DensityEquation.dissipation_leaks"
   ],
   "note": "Particle balance for every state and option. Conservation in a closed domain without magnetic flutter, and with zero radial gradient where the low-density dissipation acts: both terms ignore bndry_flux (negations). Empty cells: inner cells, without poloidal ExB flow and flutter. FV::Div_par_K_Grad_par and D4DZ4 of BOUT++ are assumptions."
  },
  {
   "property": "C61",
   "status": "partial",
   "theorems": [
    "Hermes.PressureEquation.thermal_energy_balance",
    "Hermes.PressureEquation.thermal_energy_balance_partial",
    "Hermes.PressureEquation.flutter_takes_heat",
    "Hermes.PressureEquation.cold_cell_not_cooled_partial",
    "Hermes.PressureEquation.conductivity_at_ends",
    "Hermes.PressureEquation.default_form_cools_cold_cell"
   ],
   "note": "Thermal energy balance for every state and option; with magnetic flutter heat leaves an insulated domain radially because bndry_flux is ignored (flutter_takes_heat). Cold cells: with p_div_v, inner cells, without poloidal ExB flow, flutter, hyper-diffusion and viscous heating; in the default form the statement fails (default_form_cools_cold_cell). FV::Div_par_K_Grad_par, Grad_par and Div_par of BOUT++ are parameters."
  },
  {
   "property": "C62",
   "status": "partial",
   "theorems": [
    "Hermes.MomentumEquation.species_energy_partial",
    "Hermes.MomentumEquation.energy_never_lost_partial",
    "Hermes.MomentumEquation.momentum_balance",
    "Hermes.MomentumEquation.momentum_balance_partial",
    "Hermes.MomentumEquation.flutter_takes_momentum",
    "Hermes.MomentumEquation.closed_box_energy_not_conserved",
    "Hermes.MomentumEquation.negative_momentum_not_carried"
   ],
   "note": "Exact energy balance of the three equations for parallel dynamics on closed lines: sources plus (numerical heating minus kinetic energy lost). These two do not cancel: closed_box_energy_not_conserved shows a loss with the default options and a gain with numerical_viscous_heating. Momentum balance with every term of the equation (closed field lines, fix_momentum_boundary_flux); magnetic flutter takes momentum out of a closed domain (negation). The ExB term does not carry negative momentum poloidally (negation)."
  },
  {
   "property": "C63",
   "status": "partial",
   "theorems": [
    "Hermes.Anomalous.anomalous_conserves",
    "Hermes.Anomalous.anomalous_closed",
    "Hermes.Anomalous.flows_reproduce_sources_partial",
    "Hermes.Anomalous.lowest_density_fills",
    "Hermes.Anomalous.temperature_extremum_partial",
    "Hermes.Anomalous.velocity_extremum_partial",
    "Hermes.Anomalous.coldest_cell_cooled_along_y",
    "Hermes.Anomalous.empty_cell_drained",
    "Hermes.Anomalous.viscosity_loses_energy"
   ],
   "note": "Conservation for every state, geometry and option (columns closed at both ends or on themselves). Emptiest cell: every axisymmetric state. Temperature and velocity extrema: without poloidal flux; with it the claim is false (coldest_cell_cooled_along_y). Negations: empty cells of a non-axisymmetric state are drained; the energy taken by the anomalous viscosity is lost. Flow through the last poloidal face is not reported."
  },
  {
   "property": "C64",
   "status": "partial",
   "theorems": [
    "Hermes.ParDiffusion.neutralParallelDiffusion_ok",
    "Hermes.ParDiffusion.only_neutrals_diffuse",
    "Hermes.ParDiffusion.gas_conserved",
    "Hermes.ParDiffusion.heat_leaves_by_conduction",
    "Hermes.ParDiffusion.momentum_leaves_by_viscosity",
    "Hermes.ParDiffusion.empty_cell_fills",
    "Hermes.ParDiffusion.gas_flows_down",
    "Hermes.ParDiffusion.viscosity_takes_energy",
    "Hermes.ParDiffusion.solkit_ok",
    "Hermes.ParDiffusion.solkit_conserves",
    "Hermes.ParDiffusion.solkit_empty_cell_fills",
    "Hermes.ParDiffusion.diffusion_stops_at_walls",
    "Hermes.ParDiffusion.npd_runs",
    "Hermes.ParDiffusion.viscous_heat_lost",
    "Hermes.ParDiffusion.viscosity_misses_mass"
   ],
   "note": "Conservation, filling and the untouched charged species: every state, line and list of species. False and proved so: viscosity removes kinetic energy without heating, and its coefficient lacks the atomic mass that neutral_mixed has. FV::Div_par_K_Grad_par of BOUT++ is taken to have the arithmetic of its copy Div_par_K_Grad_par_mod."
  },
  {
   "property": "C65",
   "status": "partial",
   "theorems": [
    "Hermes.ParTransport.simpleConduction_ok",
    "Hermes.ParTransport.conduction_keeps_heat",
    "Hermes.ParTransport.conduction_downhill_partial",
    "Hermes.ParTransport.coulombLog_pos",
    "Hermes.ParTransport.binormal_ok",
    "Hermes.ParTransport.binormal_conserves",
    "Hermes.ParTransport.binormal_fills",
    "Hermes.ParTransport.snb_ok",
    "Hermes.ParTransport.simpleConduction_runs",
    "Hermes.ParTransport.binormalSTPM_runs",
    "Hermes.ParTransport.cold_plasma_conducts_uphill",
    "Hermes.ParTransport.binormal_counts_mass_twice",
    "Hermes.ParTransport.binormal_cools_uniform_plasma",
    "Hermes.ParTransport.snb_exception_leaves_mesh_scaled"
   ],
   "note": "Conservation: every state, line and list of species. Hot to cold: where the Coulomb logarithm is positive, shown for at least 1 eV and at most 1e24 particles per cubic metre; in cold plasma it is false (cold_plasma_conducts_uphill). Negations: the mass enters the momentum diffusion twice, diffusing particles carry no heat, an exception in the non-local flux leaves the mesh spacing scaled."
  },
  {
   "property": "C66",
   "status": "partial",
   "theorems": [
    "Hermes.ParTransport.electronViscosity_ok",
    "Hermes.ParTransport.viscosity_needs_electrons",
    "Hermes.ParTransport.viscosity_slows",
    "Hermes.ParTransport.flux_limit_respected",
    "Hermes.ParTransport.electron_viscous_heat_lost"
   ],
   "note": "All parts for every state and line except the last, which is false: the energy taken from the flow is lost (electron_viscous_heat_lost). Grad_par of BOUT++ is a parameter."
  },
  {
   "property": "C67",
   "status": "partial",
   "theorems": [
    "Hermes.Drifts.drift_sources",
    "Hermes.Drifts.drift_conserves",
    "Hermes.Drifts.drift_charge",
    "Hermes.Drifts.polarisation_sources",
    "Hermes.Drifts.polarisation_conserves",
    "Hermes.Drifts.polarisation_charge",
    "Hermes.Drifts.polarisation_current",
    "Hermes.Drifts.polarisation_closes_current",
    "Hermes.Drifts.drifts_close_current",
    "Hermes.Drifts.polarisation_energy",
    "Hermes.Drifts.polarisation_refuses",
    "Hermes.Drifts.polDensity_eq",
    "Hermes.Drifts.diamagnetic_runs",
    "Hermes.Drifts.polarisation_runs",
    "Hermes.Drifts.boussinesq_leaves_charge",
    "Hermes.Drifts.flutter_not_closed"
   ],
   "note": "Every state and list of distinct species; the operators of BOUT++ are parameters with linearity and summation by parts as hypotheses, met by an example. The charge balance holds without the Boussinesq approximation and without flutter; otherwise it is false (boussinesq_leaves_charge, flutter_not_closed)."
  },
  {
   "property": "C68",
   "status": "partial",
   "theorems": [
    "Hermes.Drifts.relax_transform",
    "Hermes.Drifts.relax_energy",
    "Hermes.Drifts.relax_energy_conserved",
    "Hermes.Drifts.relax_rhs",
    "Hermes.Drifts.relax_conserved",
    "Hermes.Drifts.relax_steady",
    "Hermes.Drifts.relax_defined",
    "Hermes.Drifts.relax_undefined",
    "Hermes.Drifts.relax_makes_energy",
    "Hermes.Drifts.relax_heats_neutrals",
    "Hermes.Drifts.relax_pressure_differs",
    "Hermes.Drifts.relax_runs",
    "Hermes.Drifts.relaxFinally_runs"
   ],
   "note": "The equations, the energy without diamagnetic_polarisation and the total vorticity: every state. Negations: with exb_advection (the default) an uninitialised member is read, with diamagnetic_polarisation (the default) energy is made and neutrals take part, and the steady state differs from vorticity's for charges other than one."
  },
  {
   "property": "C69",
   "status": "partial",
   "theorems": [
    "Hermes.Drifts.vorticity_transform",
    "Hermes.Drifts.vorticity_rhs",
    "Hermes.Drifts.vorticity_conserved",
    "Hermes.Drifts.vorticity_energy",
    "Hermes.Drifts.drift_energy_conserved",
    "Hermes.Drifts.same_currents_and_flutter",
    "Hermes.Drifts.no_flutter",
    "Hermes.Drifts.friction_frequency_bounds",
    "Hermes.Drifts.friction_damps",
    "Hermes.Drifts.sheath_damping",
    "Hermes.Drifts.vorticity_runs",
    "Hermes.Drifts.finally_runs",
    "Hermes.Drifts.friction_heat_is_lost",
    "Hermes.Drifts.flutter_not_closed"
   ],
   "note": "Every state and list of distinct species; operators of BOUT++ and the solver for the potential are parameters. Energy: Boussinesq flow energy, without friction and advection. False parts: the heat of friction is lost (friction_heat_is_lost), the polarisation drift does not know the current along the fluctuating field (flutter_not_closed)."
  },
  {
   "property": "C70",
   "status": "partial",
   "theorems": [
    "Hermes.EnergyEquation.energyRhs_ok",
    "Hermes.EnergyEquation.energy_balance",
    "Hermes.EnergyEquation.energy_conserved_partial",
    "Hermes.EnergyEquation.flutter_takes_energy",
    "Hermes.EnergyEquation.wall_energy_flow_partial",
    "Hermes.EnergyEquation.energy_conductivity",
    "Hermes.EnergyEquation.log_form_same_rate",
    "Hermes.EnergyEquation.reaction_energy_not_conserved",
    "Hermes.EnergyEquation.ionisation_creates_energy",
    "Hermes.EnergyEquation.electric_work_missing",
    "Hermes.EnergyEquation.shifted_wall_flow"
   ],
   "note": "Energy balance: every state, geometry, limiter and choice of options. Wall flow: every state, for field-aligned coordinates that coincide with the grid. False parts: magnetic flutter takes energy out of a closed domain (flutter_takes_energy), shifted coordinates (shifted_wall_flow), work of the electric field (electric_work_missing), heat of mixing of reactions (reaction_energy_not_conserved)."
  },
  {
   "property": "C71",
   "status": "partial",
   "theorems": [
    "Hermes.Preconditioning.pressure_precon_inverts_partial",
    "Hermes.Preconditioning.neutral_precon_inverts",
    "Hermes.Preconditioning.precon_unique",
    "Hermes.Preconditioning.precon_off",
    "Hermes.Preconditioning.precon_without_effect"
   ],
   "note": "evolve_pressure with uniform density above the floor and uniform scaling of time derivatives; neutral_mixed in full; the solvers of BOUT++ are parameters that solve their equations. False for evolve_energy and for evolve_log, where the preconditioner has no effect (precon_without_effect)."
  },
  {
   "property": "C72",
   "status": "partial",
   "theorems": [
    "Hermes.FullVelocity.rotation_inverse",
    "Hermes.FullVelocity.rotation_lengths",
    "Hermes.FullVelocity.differences_exact",
    "Hermes.FullVelocity.cylindrical_acceleration",
    "Hermes.FullVelocity.uniform_motion_persists",
    "Hermes.FullVelocity.published_values",
    "Hermes.FullVelocity.published_velocity",
    "Hermes.FullVelocity.energy_source_received",
    "Hermes.FullVelocity.outflow_only",
    "Hermes.FullVelocity.density_not_driven_down",
    "Hermes.FullVelocity.wall_heat",
    "Hermes.FullVelocity.momentum_source_received",
    "Hermes.FullVelocity.pressure_work_balances_partial",
    "Hermes.FullVelocity.momentum_counted_twice",
    "Hermes.FullVelocity.ionisation_slows_gas",
    "Hermes.FullVelocity.published_pressure_inconsistent",
    "Hermes.FullVelocity.outflow_temperature_stale",
    "Hermes.FullVelocity.viscous_heat_is_lost",
    "Hermes.FullVelocity.mass_not_published"
   ],
   "note": "Every geometry, state and choice of options; the operators of BOUT++ are parameters (constants have no gradient; summation by parts for the work). Energy exchange only where the density is at least 1e-2. False parts: density source and momentum (momentum_counted_twice, ionisation_slows_gas), published pressure, viscous heat, mass not published."
  },
  {
   "property": "C73",
   "status": "proved",
   "theorems": [
    "Hermes.Registry.reaction_follows_equation",
    "Hermes.Registry.equations_balance",
    "Hermes.Registry.all_states_connected",
    "Hermes.Registry.names_distinct",
    "Hermes.Registry.listed_reactions_created",
    "Hermes.Registry.ionisation_potential_returned",
    "Hermes.Registry.binding_energy_returned",
    "Hermes.Registry.potentials_increase",
    "Hermes.Registry.every_reaction_runs",
    "Hermes.Registry.ionisation_off_still_cools",
    "Hermes.Registry.radiation_off_stops_heating"
   ],
   "note": "All 115 registered equations (a finite table, checked by the kernel and lifted by lemmas over every state). The potential energy: OpenADAS elements both ways; hydrogen and helium for recombination, while the cost of ionisation is part of the radiation fit. Two settings do not do what they say: K_iz_multiplier does not scale the cost of ionisation, R_rec_multiplier scales the heating by recombination."
  },
  {
   "property": "C74",
   "status": "partial",
   "theorems": [
    "Hermes.Diagnostics.ionisation_diagnostics",
    "Hermes.Diagnostics.recombination_diagnostics",
    "Hermes.Diagnostics.cx_diagnostics_same",
    "Hermes.Diagnostics.cx_diagnostics_different",
    "Hermes.Diagnostics.radiation_diagnostic",
    "Hermes.Diagnostics.pump_diagnostic",
    "Hermes.Diagnostics.recycling_diagnostics",
    "Hermes.Diagnostics.cx_energy_diagnostic_incomplete",
    "Hermes.Diagnostics.shared_destination_overwrites"
   ],
   "note": "Missing: the energy diagnostics of reactions leave out the heat of mixing (the theorems say exactly how much; cx_energy_diagnostic_incomplete is a run). Recycling: if no two channels lead to the same species; otherwise one overwrites the other (shared_destination_overwrites). Units, conversion factors and the other components' diagnostics are not modelled."
  },
  {
   "property": "C75",
   "status": "partial",
   "theorems": [
    "Hermes.Units.reaction_unit_free",
    "Hermes.Units.collisions_unit_free",
    "Hermes.Units.thermalForce_unit_free",
    "Hermes.Units.ionisation_unit_free",
    "Hermes.Units.run_unit_free",
    "Hermes.Units.collisional_plasma_unit_free",
    "Hermes.Units.cx_without_gas",
    "Hermes.Units.charge_exchange_depends_on_Nnorm",
    "Hermes.Units.thin_gas_frequency",
    "Hermes.Units.collisions_depend_on_Nnorm",
    "Hermes.Units.density_equation_in_any_units_partial",
    "Hermes.Units.momentum_equation_in_any_units_partial",
    "Hermes.Units.pressure_equation_in_any_units_partial",
    "Hermes.Units.energy_equation_in_any_units_partial",
    "Hermes.Units.dissipation_in_units_of_field",
    "Hermes.Units.relaxation_in_units_of_field",
    "Hermes.Units.sheath_in_any_units_partial",
    "Hermes.Units.sheath_speed_depends_on_units",
    "Hermes.Units.sheath_gradient_depends_on_units"
   ],
   "note": "Missing: charge exchange and collisions put a floor of 1e-5 in normalised units under densities, so the theorems for them need densities above it; below it the result depends on Nnorm (cx_without_gas to collisions_depend_on_Nnorm). The four transport equations (density, momentum, pressure, energy) on the normalised metric are covered without numerical diffusion and above their floors; numerical diffusion and the relaxation of the pressure go with the gyration time of Bnorm (dissipation_in_units_of_field, relaxation_in_units_of_field). The limiter of cell averages is assumed to be homogeneous (proved for Upwind, Fromm, MinMod, MC), Grad_par too. The operators of BOUT++ are assumed to be homogeneous. SheathBoundary is covered while its limits are not reached; its speed limit of ten times the reference speed and its threshold for the density gradient depend on the reference values (the last two theorems). The other sheath components and vorticity are not covered."
  },
  {
   "property": "C76",
   "status": "partial",
   "theorems": [
    "Hermes.NeutralGas.particles_only_from_sources",
    "Hermes.NeutralGas.momentum_balance",
    "Hermes.NeutralGas.thermal_energy_balance",
    "Hermes.NeutralGas.cutoff_creates",
    "Hermes.NeutralGas.total_energy",
    "Hermes.NeutralGas.central_work",
    "Hermes.NeutralGas.energy_not_created",
    "Hermes.NeutralGas.viscosity_mass_squared",
    "Hermes.NeutralGas.empty_cells_ignore_sinks",
    "Hermes.NeutralGas.sheared_wall_leaks"
   ],
   "note": "Missing: false without two hypotheses. In cells below the density floor sinks are ignored (cutoff_creates, empty_cells_ignore_sinks), and if the shift changes across a wall neutrals flow through it (sheared_wall_leaks). The dissipated kinetic energy is not given to the heat. The energy theorem needs the work of the pressure to be balanced, which is proved for central differences."
  },
  {
   "property": "C77",
   "status": "partial",
   "theorems": [
    "Hermes.Nuclei.complete_recycling_keeps_nuclei_partial",
    "Hermes.Nuclei.recycling_makes_no_nuclei_partial",
    "Hermes.Nuclei.Evaluation.balance",
    "Hermes.Nuclei.nuclei_balance",
    "Hermes.Nuclei.density_loss",
    "Hermes.Nuclei.sheath_outward",
    "Hermes.Nuclei.sourceOf_reactions",
    "Hermes.Nuclei.molecules_need_half",
    "Hermes.Nuclei.sheared_targets_lose_nuclei"
   ],
   "note": "Missing: radial edges (no flux through them is assumed, SOL and PFR recycling are off; see C87), magnetic flutter, time derivatives that are scaled. False if the shift to field-aligned coordinates changes between the last cell and the guard cell of a target (sheared_targets_lose_nuclei)."
  },
  {
   "property": "C78",
   "status": "partial",
   "theorems": [
    "Hermes.Restart.file_holds_field",
    "Hermes.Restart.read_once",
    "Hermes.Restart.second_save_resets",
    "Hermes.Restart.potential_restarts",
    "Hermes.Restart.potential_relaxes_again",
    "Hermes.Restart.rhs_guard",
    "Hermes.Restart.apar_call",
    "Hermes.Restart.apar_relaxation",
    "Hermes.Restart.apar_steps_partial",
    "Hermes.Restart.apar_plain_restarts",
    "Hermes.Restart.apar_restart_jumps",
    "Hermes.Restart.rejected_step_counts",
    "Hermes.Restart.restart_changes_gradient"
   ],
   "note": "Potential: the restarted run equals the run that was not stopped, for every history whose last evaluation is at the latest time (the Laplacian solver is a parameter whose result depends on the guess only through the boundary values); if the solver had tried a later time, the restarted run is ahead in its relaxation by exactly that time. Vector potential with const_gradient: the relaxation is by the sum of all steps forward; for times that never go back this is the elapsed time. The full statement is false and its negation is proved: a rejected step counts twice, and since the time of the last evaluation is not saved the first evaluation after a restart relaxes over the whole simulated time. In a run that was not restarted, the second save into the same options puts the field back to its value at the first."
  },
  {
   "property": "C79",
   "status": "partial",
   "theorems": [
    "Hermes.Outputs.outputs_have_units_partial",
    "Hermes.Outputs.mislabelled_units",
    "Hermes.Outputs.conductivity_factors_differ",
    "Hermes.Outputs.same_units_same_factor_partial",
    "Hermes.Outputs.particle_flow_factor",
    "Hermes.Outputs.species_variables_converted",
    "Hermes.Outputs.inputs_have_units",
    "Hermes.Outputs.option_comes_back"
   ],
   "note": "All 142 saved variables with units and conversion factor, and 29 options with units. A factor has units if it changes as they say under every change of the units of length, mass, time and current. The full statement is false and its negation is proved for three variables: the parallel conductivity of evolve_energy (factor lacks 1/Tnorm, so the same variable is larger by Tnorm than with evolve_pressure), the numerical viscous heating of evolve_pressure (W, but is W/m^3) and the particle source of neutral_parallel_diffusion (s^-1, but is m^-3 s^-1). The table of variables is written from the source by tools/gen_outputs.py; that the numbers saved are the ones the names promise is the subject of C74 and C75."
  },
  {
   "property": "C80",
   "status": "partial",
   "theorems": [
    "Hermes.Sharing.published_is_sum",
    "Hermes.Sharing.source_never_changes",
    "Hermes.Sharing.no_drift",
    "Hermes.Sharing.saved_exact_partial",
    "Hermes.Sharing.first_saves_recycling",
    "Hermes.Sharing.saved_source_contaminated",
    "Hermes.Sharing.saved_is_kept_field"
   ],
   "note": "Fields are references to blocks of storage; copies share, arithmetic allocates, element assignment is in place. The total and the source set by the user are right for every list of components and every history. The last part of the statement is false and its negation is proved: the first component to contribute keeps the same storage as the state, so recycling that follows it changes the field it saves; with the components in the order of examples/1D-recycling the saved source of the neutrals contains the recycled particles. It is proved for every component that is not the first, and the saved field of the first is determined exactly. Not covered: fields that reach other components through toFieldAligned/fromFieldAligned, where sharing depends on BOUT++."
  },
  {
   "property": "C81",
   "status": "partial",
   "theorems": [
    "Hermes.InputSources.density_source_as_given",
    "Hermes.InputSources.pressure_source_as_given",
    "Hermes.InputSources.energy_source_as_given_partial",
    "Hermes.InputSources.density_source_published",
    "Hermes.InputSources.density_input_acts",
    "Hermes.InputSources.pressure_input_acts",
    "Hermes.InputSources.energy_input_acts_partial",
    "Hermes.InputSources.grid_file_heating_same",
    "Hermes.InputSources.density_shape_acts",
    "Hermes.InputSources.feedback_keeps_energy",
    "Hermes.InputSources.density_rate",
    "Hermes.InputSources.pressure_rate",
    "Hermes.InputSources.temperature_shape_two_thirds",
    "Hermes.InputSources.detachment_shape_two_thirds",
    "Hermes.InputSources.one_becomes_two_thirds",
    "Hermes.InputSources.input_source_takes_energy",
    "Hermes.InputSources.feedback_adds_energy",
    "Hermes.InputSources.energy_prefactor_ignored",
    "Hermes.InputSources.documented_name_ignored",
    "Hermes.InputSources.energyRate_spec"
   ],
   "note": "Proved for the sources of evolve_density and evolve_pressure, for that of evolve_energy without prefactor, and for the shape of upstream_density_feedback. The remaining parts are false and their negations are proved: temperature_feedback and detachment_controller (actuator power) take a shape documented as a source of pressure in Pa/s for a source of energy, so the pressure rises at two thirds of the stated rate (the input files of the examples already contain the factor 2/3, so two thirds of the power are injected); evolve_energy ignores source_time_dependent; the documented name of the grid-file variable for the density source is not the one that is read; particles added by evolve_density take kinetic energy away, particles added by the feedback bring kinetic energy in if evolve_energy is used. Parsing of expressions (FieldFactory) and reading of the grid file are outside the model."
  },
  {
   "property": "C82",
   "status": "partial",
   "theorems": [
    "Hermes.Order.order_irrelevant",
    "Hermes.Order.used_before_written_fails",
    "Hermes.Order.order_reported_partial",
    "Hermes.Order.evolving_orders",
    "Hermes.Order.evolving_density_first",
    "Hermes.Order.evolving_runs",
    "Hermes.Order.quasineutral_silent",
    "Hermes.Order.soundSpeed_silent",
    "Hermes.Order.evolveDensityC_declared",
    "Hermes.Order.fixedDensityC_declared",
    "Hermes.Order.quasineutralC_declared",
    "Hermes.Order.fixedFractionIonsC_declared",
    "Hermes.Order.simplePumpC_declared",
    "Hermes.Order.evolvePressureC_declared",
    "Hermes.Order.evolveEnergyC_declared",
    "Hermes.Order.isothermalC_declared",
    "Hermes.Order.fixedTemperatureC_declared",
    "Hermes.Order.setTemperatureC_declared",
    "Hermes.Order.evolveMomentumC_declared",
    "Hermes.Order.fixedVelocityC_declared",
    "Hermes.Order.zeroCurrentC_declared",
    "Hermes.Order.electronForceBalanceC_declared",
    "Hermes.Order.soundSpeedC_declared",
    "Hermes.Order.noFlowBoundaryC_declared",
    "Hermes.Order.sheathBoundaryC_declared",
    "Hermes.Order.sheathBoundarySimpleC_declared",
    "Hermes.Order.sheathBoundaryInsulatingC_declared",
    "Hermes.Order.neutralBoundaryC_declared",
    "Hermes.Order.sheathClosureC_declared",
    "Hermes.Order.diamagneticDriftC_declared",
    "Hermes.Order.polarisationDriftC_declared",
    "Hermes.Order.ionViscosityC_declared",
    "Hermes.Order.classicalDiffusionC_declared",
    "Hermes.Order.fixedFractionRadiationC_declared",
    "Hermes.Order.recyclingC_declared",
    "Hermes.Order.densityFeedbackC_declared",
    "Hermes.Order.temperatureFeedbackC_declared",
    "Hermes.Order.vorticityC_declared",
    "Hermes.Order.relaxPotentialC_declared",
    "Hermes.Order.electromagneticC_declared",
    "Hermes.Order.neutralMixedC_declared",
    "Hermes.Order.evolveDensity_needs",
    "Hermes.Order.fixedDensity_needs",
    "Hermes.Order.quasineutral_needs",
    "Hermes.Order.evolvePressure_needs",
    "Hermes.Order.isothermal_needs",
    "Hermes.Order.evolveMomentum_needs",
    "Hermes.Order.vorticity_needs",
    "Hermes.Order.sheathBoundary_needs",
    "Hermes.Order.evolvePressure_uses",
    "Hermes.Order.isothermal_uses",
    "Hermes.Order.fixedTemperature_uses",
    "Hermes.Order.evolveMomentum_uses",
    "Hermes.Order.fixedVelocity_uses",
    "Hermes.Order.evolveEnergy_uses",
    "Hermes.Order.simplePump_uses",
    "Hermes.Order.setTemperature_uses",
    "Hermes.Order.fixedFractionIons_uses",
    "Hermes.Order.electronForceBalance_uses",
    "Hermes.Order.sheathClosure_uses",
    "Hermes.Order.zeroCurrent_uses",
    "Hermes.Order.fixedFractionRadiation_uses",
    "Hermes.Order.neutralBoundary_uses",
    "Hermes.Order.sheathBoundary_uses"
   ],
   "note": "Proved: orders that keep the order of every two components in conflict (one writes what the other reads or sets) run alike and give the same state, for all components whose list of variables read, set and added to is right; this list is given and proved for 31 components. Using before publishing stops with an error for the components that always use the variable. The full property is false: quasineutral and sound_speed ask whether a variable is there and go on without it, so that two orders run and give different states (negations proved). Collisions, reactions, anomalous diffusion and the upstream controllers of the detachment front, which are modelled by their contributions, are not among the 31; finally() of the components is empty in these theorems."
  },
  {
   "property": "C83",
   "status": "partial",
   "theorems": [
    "Hermes.ClosedPlasma.closed_plasma_momentum",
    "Hermes.ClosedPlasma.closed_plasma_energy_partial",
    "Hermes.ClosedPlasma.total_momentum",
    "Hermes.ClosedPlasma.total_energy",
    "Hermes.ClosedPlasma.reaction_power",
    "Hermes.ClosedPlasma.thermal_force_makes_energy"
   ],
   "note": "Momentum: proved in full for the components listed. Energy: proved with collisions (with frictional heating) and charge exchange at zero current; the difference of the discrete kinetic energy is given exactly and is not zero (C62). With ionisation and recombination the power is that of reaction_power (radiation, and the kinetic energy that the electrons carry without inertia). With thermal forces the property is false: they do work which is not taken from the heat of any species (negation proved). Electric potential, electromagnetic fields and dissipation across the field are excluded; the pressure force on the whole does not vanish in general, because Grad_par is not a divergence."
  },
  {
   "property": "C84",
   "status": "partial",
   "theorems": [
    "Hermes.Evaluations.right_hand_side",
    "Hermes.Evaluations.pi_settles",
    "Hermes.Evaluations.pi_repeats",
    "Hermes.Evaluations.detach_settles",
    "Hermes.Evaluations.detach_repeats",
    "Hermes.Evaluations.potential_settles",
    "Hermes.Evaluations.potential_repeats",
    "Hermes.Evaluations.apar_settles",
    "Hermes.Evaluations.apar_repeats",
    "Hermes.Evaluations.andThen_settles",
    "Hermes.Evaluations.andThen_repeats",
    "Hermes.Evaluations.pi_depends_on_first_trial",
    "Hermes.Evaluations.detach_does_not_settle",
    "Hermes.Evaluations.apar_depends_on_rejected_step"
   ],
   "note": "Proved for the first evaluation at a time being given. Without that restriction the property is false: what the controllers and the vector potential give at a time depends on the state that was tried first at that time and on steps that were given up, and with min_error_for_change the detachment controller changes its output between evaluations at one time (negations proved). Components without memory are arbitrary functions; the state object is new in each evaluation (hermes-3.cxx:292-303). Solvers that start from the previous solution are taken as exact (independent of the initial guess)."
  },
  {
   "property": "C85",
   "status": "partial",
   "theorems": [
    "Hermes.Curves.light_impurities",
    "Hermes.Curves.heavy_impurities_partial",
    "Hermes.Curves.xenon_jump",
    "Hermes.Curves.tungsten_jump",
    "Hermes.Curves.hutchinson_continuous",
    "Hermes.Curves.argon_simplified_continuous",
    "Hermes.Curves.argon_simplified_starts",
    "Hermes.RateFits.amjuel_usable",
    "Hermes.RateFits.adas_usable",
    "Hermes.RateFits.hydrogenIonisation_cold",
    "Hermes.RateFits.hydrogenIonisation_usable_partial"
   ],
   "note": "Full for the AMJUEL fits and OpenADAS tables, and for the curves of carbon, nitrogen, neon, argon, krypton with jumps of at most 5 % where the pieces meet. False for xenon at 1300 eV and tungsten at 1500 eV: the coefficients of degree 15 and 20 are rounded to nine digits and the polynomial is wrong by many orders of magnitude near the end of its range (negations proved). The rate of the component ionisation is not a number at negative temperatures; the simplified curves of argon begin with a step at 0.52 eV. The rate of charge exchange of SOLKiT and the class HydrogenRadiatedPower (not used by any component) are not included. Floating point is outside the model."
  },
  {
   "property": "C86",
   "status": "proved",
   "theorems": [
    "Hermes.Shipped.every_reaction_has_data",
    "Hermes.Shipped.compare",
    "Hermes.Shipped.ionisation_balance",
    "Hermes.Shipped.stages_in_balance",
    "Hermes.Shipped.neon_hump"
   ],
   "note": "The fifteen files are part of the model (numbers with five decimals, copied by tools/gen_adas.py). Two temperatures for each of the 19 stages, in the list balances. Between the two temperatures nothing is stated: there the order depends on the density. neon_hump shows that the table for Ne5+ has a spurious maximum at 2 keV."
  },
  {
   "property": "C87",
   "status": "partial",
   "theorems": [
    "Hermes.RadialWalls.Evaluation.balance",
    "Hermes.RadialWalls.walls_keep_nuclei_partial",
    "Hermes.RadialWalls.walls_make_no_nuclei_partial",
    "Hermes.RadialWalls.flow_of_another_species",
    "Hermes.RadialWalls.tritium_from_nothing"
   ],
   "note": "Missing: the pump; every recycled species must publish its radial flow. False without that: the flow is a member of the component and keeps the value of the channel before (flow_of_another_species, tritium_from_nothing). Flows by drifts through the radial edges are not recycled, since only anomalous_diffusion sets particle_flow_xlow."
  },
  {
   "property": "C88",
   "status": "proved",
   "theorems": [
    "Hermes.HyperDiffusion.density_damped",
    "Hermes.HyperDiffusion.momentum_damped",
    "Hermes.HyperDiffusion.pressure_damped",
    "Hermes.HyperDiffusion.energy_damped",
    "Hermes.HyperDiffusion.fourth_damps",
    "Hermes.HyperDiffusion.second_zero"
   ],
   "note": "D4DZ4 of BOUT++ is assumed to be the fourth difference divided by the fourth power of the spacing. With scaled time derivatives the term is scaled as all others."
  },
  {
   "property": "C89",
   "status": "partial",
   "theorems": [
    "Hermes.AmjuelFits.evaluate_eq",
    "Hermes.AmjuelFits.hydrogen_bounded",
    "Hermes.AmjuelFits.hydrogen_balance",
    "Hermes.AmjuelFits.hydrogen_recombination_falls",
    "Hermes.AmjuelFits.ionisation_rises",
    "Hermes.AmjuelFits.hydrogen_cost",
    "Hermes.AmjuelFits.hydrogen_cost_hot",
    "Hermes.AmjuelFits.hydrogen_recombination_radiates",
    "Hermes.AmjuelFits.helium_balance",
    "Hermes.AmjuelFits.helium_cost_partial",
    "Hermes.AmjuelFits.helium_cost_hot",
    "Hermes.AmjuelFits.helium_cheap",
    "Hermes.AmjuelFits.cold_helium_does_not_recombine",
    "Hermes.AmjuelFits.helium_huge",
    "Hermes.AmjuelFits.loss_ge",
    "Hermes.AmjuelFits.hydrogen_ionisation_cools",
    "Hermes.AmjuelFits.hydrogen_cycle_cools"
   ],
   "note": "Proved in full for hydrogen. For helium the code violates the claim at low temperature: the negations are proved, and the cost of ionisation from 0.3 eV on."
  },
  {
   "property": "C90",
   "status": "partial",
   "theorems": [
    "Hermes.Collisions.beta_eq",
    "Hermes.Collisions.heavyCoefficient_pos",
    "Hermes.Collisions.heavyCoefficient_limit",
    "Hermes.Collisions.thermal_force_on_each",
    "Hermes.Collisions.heavy_pushed_up",
    "Hermes.Collisions.thermal_force_succeeds",
    "Hermes.Collisions.isotopes_counted_twice"
   ],
   "note": "All of it but the last claim, which is false of the code: isotopes_counted_twice. The gradient along the field is a parameter."
  },
  {
   "property": "C91",
   "status": "partial",
   "theorems": [
    "Hermes.Collisions.electron_electron",
    "Hermes.Collisions.electron_ion",
    "Hermes.Collisions.ranges_meet",
    "Hermes.Collisions.heat_exchange_rate",
    "Hermes.Collisions.ion_ion",
    "Hermes.Collisions.moving_same",
    "Hermes.Collisions.with_neutrals",
    "Hermes.Collisions.electron_neutral",
    "Hermes.Collisions.electron_collision_frequency",
    "Hermes.Collisions.collision_frequency",
    "Hermes.Collisions.neutral_gases",
    "Hermes.Collisions.frequency_jumps"
   ],
   "note": "All but the last sentence, which is false of the code: frequency_jumps."
  },
  {
   "property": "C92",
   "status": "proved",
   "theorems": [
    "Hermes.HeatConductivity.simple_electrons",
    "Hermes.HeatConductivity.simple_ions",
    "Hermes.HeatConductivity.plain_log",
    "Hermes.HeatConductivity.pressure_conductivity",
    "Hermes.HeatConductivity.without_electron_electron",
    "Hermes.HeatConductivity.electrons_agree",
    "Hermes.HeatConductivity.default_conducts_less",
    "Hermes.HeatConductivity.ions_agree"
   ],
   "note": "Temperatures from 1 to 1000 eV, densities from 10^10 to 10^21 m^-3, ions at most ten times hotter than electrons."
  },
  {
   "property": "C93",
   "status": "partial",
   "theorems": [
    "Hermes.Galilean.amjuel_galilean_partial",
    "Hermes.Galilean.cx_galilean_partial",
    "Hermes.Galilean.adas_galilean_partial",
    "Hermes.Galilean.adas_cx_galilean",
    "Hermes.Galilean.ionisation_galilean",
    "Hermes.Galilean.collisions_galilean_partial",
    "Hermes.Galilean.electrons_born_at_rest",
    "Hermes.Galilean.solkit_frame",
    "Hermes.Galilean.unset_velocity_frame"
   ],
   "note": "Holds for all atoms and ions in AMJUEL, hydrogen and OpenADAS reactions and for collisions between species with velocities. Fails, with witnesses, for electrons born in AMJUEL ionisation, for SOL-KiT charge exchange, and for collisions with a species whose velocity is not set."
  },
  {
   "property": "C94",
   "status": "partial",
   "theorems": [
    "Hermes.Direction.limiters_fair",
    "Hermes.Direction.advection_turned",
    "Hermes.Direction.advection_flow_turned",
    "Hermes.Direction.momentum_turned",
    "Hermes.Direction.heating_turned",
    "Hermes.Direction.conduction_turned",
    "Hermes.Direction.conduction_flow_turned",
    "Hermes.Direction.dissipation_turned",
    "Hermes.Direction.noflow_turned",
    "Hermes.Direction.diffusion_turned_x",
    "Hermes.Direction.diffusion_turned_z",
    "Hermes.Direction.diffusion_turned_y",
    "Hermes.Direction.exb_turned_x",
    "Hermes.Direction.exb_turned_y",
    "Hermes.Direction.exb_turned_z",
    "Hermes.Direction.poloidal_turned_x",
    "Hermes.Direction.poloidal_turned_y",
    "Hermes.Direction.poloidal_turned_z",
    "Hermes.Direction.kinetic_flow_depends_on_direction",
    "Hermes.Direction.limited_diffusion_depends_on_direction"
   ],
   "note": "All rates of change, and the flows of particles, heat and energy by advection and conduction. Fails, with witnesses, for the saved flow of kinetic energy and for the limited diffusion of a field that is equal in neighbouring rows."
  },
  {
   "property": "C95",
   "status": "partial",
   "theorems": [
    "Hermes.Viscosity.ion_frequency",
    "Hermes.Viscosity.ion_viscosity_braginskii",
    "Hermes.Viscosity.electron_viscosity_braginskii",
    "Hermes.Viscosity.default_electron_viscosity"
   ],
   "note": "Ions with all collisions switched on; electrons with electron_electron = false. Fails for electrons with the default electron_electron = true: the viscosity is less than 0.6 of Braginskii's (default_electron_viscosity), whose coefficient 0.73 already contains the collisions among electrons."
  },
  {
   "property": "C96",
   "status": "proved",
   "theorems": [
    "Hermes.Friction.species_friction",
    "Hermes.Friction.species_heating",
    "Hermes.Friction.electron_friction",
    "Hermes.Friction.electron_heating",
    "Hermes.Friction.friction_braginskii",
    "Hermes.Friction.heating_braginskii",
    "Hermes.Friction.friction_large_charge"
   ],
   "note": "The documentation says that the coefficient stays at 0.38 for charges above four; friction_large_charge: that is 27 to 29 per cent above Braginskii's limit for large charges."
  },
  {
   "property": "C97",
   "status": "proved",
   "theorems": [
    "Hermes.Entropy.entropy_made",
    "Hermes.Entropy.second_law",
    "Hermes.Entropy.constant_only_in_equilibrium",
    "Hermes.Entropy.equilibrium_stays"
   ],
   "note": ""
  },
  {
   "property": "C98",
   "status": "partial",
   "theorems": [
    "Hermes.ConductionEntropy.entropy_made",
    "Hermes.ConductionEntropy.conduction_second_law",
    "Hermes.ConductionEntropy.constant_only_if_uniform",
    "Hermes.ConductionEntropy.evolve_pressure_second_law",
    "Hermes.ConductionEntropy.evolve_energy_second_law",
    "Hermes.ConductionEntropy.simple_conduction_partial",
    "Hermes.ConductionEntropy.cold_plasma_loses_entropy"
   ],
   "note": "Holds for the operator with every conductivity that is not negative, for the conduction in evolve_pressure with any flux limiter and in evolve_energy where no pressure is negative (field-aligned coordinates, no flutter), and for simple_conduction where the Coulomb logarithm is positive. Below about 0.012 eV at 1e20 per cubic metre the logarithm and the conductivity are negative and conduction destroys entropy: cold_plasma_loses_entropy."
  },
  {
   "property": "C99",
   "status": "proved",
   "theorems": [
    "Hermes.Ohm.ohms_law",
    "Hermes.Ohm.friction_balanced",
    "Hermes.Ohm.resistivity_SI"
   ],
   "note": ""
  },
  {
   "property": "C100",
   "status": "partial",
   "theorems": [
    "Hermes.Collisions.thermal_force_energy",
    "Hermes.Collisions.thermal_force_energy_partial",
    "Hermes.Collisions.thermal_force_makes_energy"
   ],
   "note": "Holds if all species move together. The component adds forces and no heat, so in general the energy changes by the work of the forces on the relative motion (thermal_force_energy): with a current along the gradient of the electron temperature energy comes from nothing (thermal_force_makes_energy). In Braginskii's equations the electrons pay for this work with heat."
  },
  {
   "property": "C101",
   "status": "proved",
   "theorems": [
    "Hermes.CxEntropy.exchanged",
    "Hermes.CxEntropy.entropy_of_exchange",
    "Hermes.CxEntropy.exchange_second_law"
   ],
   "note": ""
  },
  {
   "property": "C102",
   "status": "proved",
   "theorems": [
    "Hermes.Entropy.slowest_not_slowed",
    "Hermes.Entropy.fastest_not_accelerated",
    "Hermes.Entropy.coldest_not_cooled",
    "Hermes.Entropy.hottest_not_heated"
   ],
   "note": ""
  },
  {
   "property": "C103",
   "status": "partial",
   "theorems": [
    "Hermes.ParOps.flow_at_rest",
    "Hermes.ParOps.maximum_not_raised",
    "Hermes.ParOps.minimum_not_lowered",
    "Hermes.ParOps.downhill",
    "Hermes.ParOps.smooths",
    "Hermes.ParOps.minMod_gentle",
    "Hermes.ParOps.upwind_gentle",
    "Hermes.ParOps.mc_smooths_partial",
    "Hermes.ParOps.mc_sharpens"
   ],
   "note": "Proved in full for Upwind and MinMod; with all three, maxima do not rise and minima do not fall. For the default MC: the integral of the square does not grow if cells and wave speed are uniform; false otherwise (mc_sharpens). Limiters of BOUT++ are assumed to be those of the same name in src/div_ops.cxx."
  },
  {
   "property": "C104",
   "status": "partial",
   "theorems": [
    "Hermes.Drifts.vorticity_damped",
    "Hermes.Drifts.phi_terms",
    "Hermes.Drifts.potential_damped_partial",
    "Hermes.Drifts.phi_dissipation_drives_flow"
   ],
   "note": "Operators of BOUT++ are parameters that take from the integral of the square; for FV::Div_par this holds with a limiter like Upwind or MinMod, and not always with MC (C103). The part about the potential holds without diamagnetic polarisation; with it, false (phi_dissipation_drives_flow)."
  },
  {
   "property": "C105",
   "status": "partial",
   "theorems": [
    "Hermes.SheathSimple.wall_heat_ions",
    "Hermes.SheathSimple.wall_heat_electrons",
    "Hermes.SheathSimple.gamma_is_total_partial",
    "Hermes.SheathSimple.gamma_is_total_iff",
    "Hermes.SheathSimple.energy_between_sheaths",
    "Hermes.SheathSimple.simple_heat_nonneg",
    "Hermes.SheathSimple.simple_sheaths_only_cool",
    "Hermes.SheathSimple.linear_sheath_heats",
    "Hermes.SheathSimple.pressure_gap",
    "Hermes.SheathSimple.underlying_spec",
    "Hermes.SheathSimple.underlying_ions",
    "Hermes.SheathSimple.underlying_electrons",
    "Hermes.SheathSimple.gamma_exceeded"
   ],
   "note": "Exact amount for ions and electrons; it is gamma T n v with no_flow, or if the pressure at the target is density times temperature there. In general it is not (gamma_exceeded). Energy does not grow between sheaths if gamma is at least 5/2 and no quantity is extrapolated linearly; with linear extrapolation it can (linear_sheath_heats). evolve_energy only, field-aligned coordinates that coincide with the grid."
  },
  {
   "property": "C106",
   "status": "partial",
   "theorems": [
    "Hermes.Sheath.wall_heat_electrons",
    "Hermes.Sheath.wall_heat_ions",
    "Hermes.Sheath.electrons_lose_at_least",
    "Hermes.Sheath.electrons_lose_partial",
    "Hermes.Sheath.electrons_lose_more",
    "Hermes.Sheath.energy_between_targets",
    "Hermes.Sheath.heat_lost_nonneg",
    "Hermes.Sheath.sheaths_only_cool"
   ],
   "note": "Exact amount for ions and electrons with ratio of specific heats 5/3. It is the documented one for an ideal gas at the target and a coefficient of at least 2.6; with a smaller one the electrons lose more (electrons_lose_more). As in C105 the pressure at the target is extrapolated separately. Energy does not grow between sheaths (sheaths_only_cool). evolve_energy only, field-aligned coordinates that coincide with the grid."
  }
 ]
}