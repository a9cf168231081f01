#!/usr/bin/env python3
"""Writes ../properties.jsonl.  One P(...) call per property, kept here so the
long JSON lines are easy to edit."""
import json, os
out = []
def P(id, title, statement, quantifier, why, anchors):
    out.append(dict(id=id, title=title, statement=statement, quantifier=quantifier,
                    why_tests_cant=why, anchors=anchors))

# ---------------------------------------------------------------- framework
P("C01", "The component list is parsed completely, in order, and insensitively to layout",
  "Given the text of hermes:components and each section's optional type setting, the scheduler creates exactly the sequence of (type, name) components obtained by splitting on commas, trimming blanks, tabs, carriage returns and brackets, dropping empty tokens, and expanding a section with a type list in place; nothing is lost, duplicated or reordered, and adding blanks, brackets or empty tokens to the text changes nothing.",
  "every component string, every assignment of type strings to names",
  "The input is an arbitrary string; tests sample a handful of layouts.",
  ["src/component_scheduler.cxx:ComponentScheduler::ComponentScheduler", "include/component_scheduler.hxx"])
P("C02", "Every RHS evaluation runs all transforms in order, then all finallys in order",
  "One call to the scheduler calls each component's transform exactly once in list order, then each finally exactly once in list order; every finally sees the state left by the last transform; if some component throws, no later component runs.",
  "every list of components with arbitrary transform/finally behaviour (including exceptions), every initial state",
  "Depends on an arbitrary list of arbitrary components, not on one example.",
  ["src/component_scheduler.cxx:ComponentScheduler::transform"])
P("C03", "A value that has been read cannot change any more",
  "With run-time checks on, after get(x) has returned a value, any later sequence of set, setBoundary, add, subtract, get, getNoBoundary, isSetFinal calls by any components either throws or leaves x exactly as it was read, so all readers in one RHS evaluation agree; after getNoBoundary(x), set, add and subtract on x throw.",
  "every history of state-access calls on every set of variables",
  "The property is about all interleavings of calls by all components.",
  ["include/component.hxx:get", "include/component.hxx:set", "include/component.hxx:setBoundary", "include/component.hxx:getNoBoundary", "src/component.cxx:isSetFinal"])
P("C04", "Sources accumulate: add and subtract commute and start from zero",
  "After any sequence of add and subtract calls on a variable that nobody has read, the stored value is its previous value (zero if it was unset) plus the signed sum of all contributions, irrespective of their order; other variables are untouched.",
  "every finite sequence of add/subtract calls over every set of variables, every permutation",
  "Needs all sequences and permutations.",
  ["include/component.hxx:add", "include/component.hxx:subtract"])
P("C05", "set refuses non-finite interior data and never half-writes",
  "set on a 3D field throws if any interior cell is non-finite, if the variable was read, or if its interior was read; whenever it throws the stored state is unchanged; otherwise exactly that one variable changes.",
  "every state, variable and value",
  "Universal over states and fields.",
  ["include/component.hxx:set"])
P("C06", "The transform component copies values as written",
  "For each 'a = b' entry the state variable a afterwards holds the value b had; entries without exactly one '=' are rejected; when entries chain (one entry reads what another writes) the outcome follows the order in which they were listed.",
  "every transforms string, every state",
  "The chain/overlap behaviour depends on arbitrary names.",
  ["src/transform.cxx:Transform::Transform", "src/transform.cxx:Transform::transform"])
P("C07", "Cell averages of reaction rates are consistent and sign preserving",
  "The cell average of an integrand that is the same constant everywhere is that constant; the average of a non-negative integrand is non-negative; the average lies between the smallest and largest sampled values.",
  "every integrand, every field, every positive Jacobian profile",
  "Holds or fails depending on the Jacobian profile, which tests fix to a constant.",
  ["include/integrate.hxx:cellAverage", "include/integrate.hxx:cellLeft", "include/integrate.hxx:cellRight"])

# ---------------------------------------------------------------- numerics
P("C08", "Slope limiters create no new extrema",
  "For each selectable limiter (Upwind, MinMod, MC, Superbee) the reconstructed left and right edge values of a cell lie between the neighbouring cell values, reduce to the cell value at a local extremum, and are exact for constant data; MinMod and MC are exact for linear data; non-negative data gives non-negative edge values.",
  "every three cell values",
  "All real triples; the monotonicity claim fails only on particular data.",
  ["include/div_ops.hxx:FV::Superbee", "src/div_ops.cxx:MinMod", "src/div_ops.cxx:MC", "src/div_ops.cxx:Upwind", "src/div_ops.cxx:Fromm"])
P("C09", "Parallel advection conserves the transported quantity",
  "The volume integral of the parallel flux divergence over a field line equals the flux leaving through the two ends; on a closed (periodic) field line it is exactly zero.",
  "every field-line length, geometry, field, velocity and wave-speed profile, every limiter",
  "Any number of cells and any data.",
  ["include/div_ops.hxx:FV::Div_par_mod"])
P("C10", "Parallel fluxes do not depend on the domain decomposition",
  "Splitting a field line over several processors with exchanged guard cells gives in every cell the same flux divergence as the undivided line.",
  "every field line, every split point, all data",
  "All decompositions and sizes.",
  ["include/div_ops.hxx:FV::Div_par_mod"])
P("C11", "The boundary flux is the mid-point flux, and a no-flow boundary loses nothing",
  "At a target the flux of density is the product of mid-point density and mid-point velocity times the face area; with the no-flow boundary condition applied it is zero, so the total content of a line closed by no-flow boundaries is constant.",
  "all data, geometries and line lengths",
  "Universal over data and sizes.",
  ["include/div_ops.hxx:FV::Div_par_mod", "src/noflow_boundary.cxx"])
P("C12", "Advection never drives an empty cell negative",
  "If all densities are non-negative and the wave speed bounds the flow speed, then in an interior cell whose density is zero the advective time derivative of density is non-negative.",
  "all non-negative densities, velocities and positive geometries",
  "A sign property over all data.",
  ["include/div_ops.hxx:FV::Div_par_mod"])
P("C13", "Saved face flows reproduce the divergence",
  "The flow diagnostics returned with the parallel (and perpendicular) divergence are such that the difference of the flows through a cell's two faces divided by the cell volume is the divergence in that cell.",
  "all data and geometries",
  "Universal equality.",
  ["include/div_ops.hxx:FV::Div_par_mod", "src/div_ops.cxx:Div_a_Grad_perp_flows", "src/div_ops.cxx:Div_a_Grad_perp_upwind_flows"])
P("C14", "Parallel momentum advection conserves momentum",
  "The volume integral of the momentum flux divergence telescopes to the boundary fluxes and vanishes on a closed line; a uniform velocity stays uniform; and the companion routine that computes the viscous heating assumes the same momentum flux through the ends.",
  "all lengths, data, limiters and both boundary-flux options",
  "Universal over data; the two variants are separate pieces of code.",
  ["include/div_ops.hxx:FV::Div_par_fvv", "include/div_ops.hxx:FV::Div_par_fvv_heating"])
P("C15", "Parallel heat conduction conserves energy, keeps uniform profiles and is dissipative",
  "The conduction operator's volume integral is zero when no boundary flux is allowed; it vanishes on a uniform temperature; the volume integral of T times the operator is never positive; a cell that is a local temperature maximum is never heated by it.",
  "all temperature profiles, non-negative conductivities, geometries and sizes",
  "Inequalities over all profiles.",
  ["src/div_ops.cxx:Div_par_K_Grad_par_mod"])
P("C16", "Cross-field diffusion conserves particles and keeps uniform profiles",
  "The perpendicular diffusion operators conserve the integral up to flux through the radial boundaries, vanish on uniform fields and conserve exactly in the binormal direction.",
  "all fields, coefficients, geometries and sizes",
  "All sizes and data.",
  ["src/div_ops.cxx:Div_a_Grad_perp_flows", "src/div_ops.cxx:Div_a_Grad_perp_upwind", "src/div_ops.cxx:Div_a_Grad_perp_upwind_flows", "include/div_ops.hxx:Div_a_Grad_perp_limit"])
P("C17", "ExB advection conserves the advected quantity and never leaks through closed boundaries",
  "The ExB flux divergence integrates to the boundary flows; with bndry_flux off no flow crosses the radial boundary; a spatially constant potential produces no advection.",
  "all fields, potentials, geometries and sizes",
  "All sizes and data.",
  ["src/div_ops.cxx:Div_n_bxGrad_f_B_XPPM"])
P("C18", "Numerical dissipation operators conserve",
  "The index-space dissipation operators (second order in Y, Z and perp, fourth order in X and Z) only redistribute: their sum over the domain is zero up to boundary flux, independently of how the domain is divided among processors.",
  "all fields and sizes, all decompositions",
  "Fails only for particular rows/decompositions.",
  ["src/div_ops.cxx:Div_par_diffusion_index", "src/div_ops.cxx:D4DX4_FV_Index", "src/div_ops.cxx:D4DZ4_Index", "src/div_ops.cxx:Div_Perp_Lap_FV_Index", "src/div_ops.cxx:Div_Z_FV_Index"])

# ---------------------------------------------------------------- species closures
P("C19", "Quasineutral species makes the plasma neutral and non-negative",
  "After the quasineutral component has run, its species' density is non-negative, and the total charge density of all species is zero wherever the other species' net charge has the opposite sign to its charge (or is zero).",
  "every set of other species with any charges and densities",
  "Any number of species.",
  ["src/quasineutral.cxx"])
P("C20", "Zero-current closure gives zero parallel current",
  "After zero_current has set the velocity of its species, the sum over all species of charge x density x velocity is zero wherever the density of that species is at least the 1e-5 floor.",
  "every set of species, charges, densities, velocities",
  "Any number of species.",
  ["src/zero_current.cxx"])
P("C21", "Electron force balance: the electric field balances the electrons and acts on every ion",
  "The parallel electric field makes the net force on massless electrons zero (for density above the floor), and the force added to each other charged species is charge x density x that same field; in a quasineutral plasma total momentum is changed exactly by the electron pressure gradient and electron momentum sources.",
  "every set of ion species and profiles",
  "Any number of species.",
  ["src/electron_force_balance.cxx"])
P("C22", "Evolving fluid equations always publish a non-negative density, temperature and pressure that satisfy P = N T",
  "Whatever values the time integrator supplies (also negative ones), evolve_density, evolve_pressure and evolve_energy publish non-negative density, temperature and pressure with pressure = density x temperature.",
  "all solver states",
  "All real inputs.",
  ["src/evolve_density.cxx:EvolveDensity::transform", "src/evolve_pressure.cxx:EvolvePressure::transform", "src/evolve_energy.cxx:EvolveEnergy::transform"])
P("C23", "Evolving momentum is consistent and is handed back to the solver unmodified",
  "The published momentum equals mass x density x velocity; when the density is above its floor the published momentum is the solver's; after the RHS evaluation the solver's momentum variable is what the solver supplied.",
  "all solver states, any floor",
  "All inputs.",
  ["src/evolve_momentum.cxx:EvolveMomentum::transform", "src/evolve_momentum.cxx:EvolveMomentum::finally"])
P("C24", "Reported sound speed bounds every species' wave speed",
  "sound_speed publishes values that are at least as large as every contributing species' thermal speed and the bulk sound speed times the safety factor, and never decreases when a species is added.",
  "every set of species",
  "Any number of species.",
  ["src/sound_speed.cxx"])
P("C25", "Simple prescriptions do what they say",
  "fixed_fraction_ions, isothermal, fixed_density, fixed_velocity, fixed_temperature, set_temperature and simple_pump publish N_i = f N_e, P = N T, momentum = A N V, T_a = T_b, and a pump sink proportional to density that never adds particles.",
  "all states and settings",
  "Universal over states.",
  ["src/fixed_fraction_ions.cxx", "src/isothermal.cxx", "include/fixed_density.hxx", "include/fixed_velocity.hxx", "include/fixed_temperature.hxx", "include/set_temperature.hxx", "include/simple_pump.hxx"])

# ---------------------------------------------------------------- atomic physics
P("C26", "AMJUEL ionisation/recombination conserves nuclei, charge, momentum and energy",
  "For each reaction the particle sources of the two heavy species cancel, total charge source including electrons is zero, heavy-species momentum sources cancel, and total (thermal plus kinetic) energy of the heavy species is conserved, the electrons losing exactly the energy loss reported; pre-existing sources are kept.",
  "all states, all rate coefficients and multipliers, ionisation and recombination, any charge states",
  "Kinetic-energy bookkeeping must hold for every velocity difference.",
  ["include/amjuel_reaction.hxx:AmjuelReaction::electron_reaction", "src/amjuel_hyd_ionisation.cxx", "src/amjuel_hyd_recombination.cxx", "src/amjuel_helium.cxx"])
P("C27", "Hydrogen charge exchange conserves particles, momentum and energy",
  "For same-isotope and mixed-isotope charge exchange the total number of nuclei per isotope, total charge, total momentum and total energy (thermal plus kinetic) are conserved; particle numbers do not change for the same isotope; with no_neutral_cx_mom_gain the ions lose the momentum but the neutrals do not gain it, as documented.",
  "all states, all isotope pairs (including the aliased same-isotope case), all multipliers",
  "Aliasing of species and all velocity differences.",
  ["src/hydrogen_charge_exchange.cxx:HydrogenChargeExchange::calculate_rates", "include/hydrogen_charge_exchange.hxx"])
P("C28", "OpenADAS reactions conserve nuclei, charge, momentum and energy",
  "OpenADAS ionisation, recombination and charge exchange conserve nuclei, charge (electrons included), momentum and heavy-particle energy.",
  "all states and tables",
  "Universal over states.",
  ["src/adas_reaction.cxx:OpenADAS::calculate_rates", "src/adas_reaction.cxx:OpenADASChargeExchange::calculate_rates"])
P("C29", "Rate-table lookup never reads out of bounds and never extrapolates",
  "For any temperature and density, including zero, negative or huge ones, the OpenADAS lookup reads only existing table entries, returns a value between the smallest and largest of the four surrounding entries, and equals the tabulated value at a table point.",
  "every table (at least 2 x 2, increasing axes), every input",
  "All tables and all inputs; out-of-bounds is undefined behaviour a test may not notice.",
  ["src/adas_reaction.cxx:OpenADASRateCoefficient::evaluate", "src/adas_reaction.cxx:get_high_index"])
P("C30", "Reaction rates are non-negative and vanish when a reactant is absent",
  "Every reaction removes particles only at a non-negative rate, and a reactant whose density is zero or negative is not consumed.",
  "all densities and temperatures",
  "The zero-density case depends on floors hidden in each reaction.",
  ["include/amjuel_reaction.hxx", "src/adas_reaction.cxx", "src/hydrogen_charge_exchange.cxx", "src/ionisation.cxx", "src/solkit_hydrogen_charge_exchange.cxx"])
P("C31", "Impurity radiation only cools",
  "Fixed-fraction radiation is non-negative for every electron density and temperature and non-negative fraction and is zero in the core when core radiation is disabled; the electron energy source decreases by exactly that amount.",
  "all densities, temperatures, all cooling curves provided",
  "All temperatures including out of range ones.",
  ["include/fixed_fraction_radiation.hxx"])

# ---------------------------------------------------------------- collisions
P("C32", "Collisions conserve momentum",
  "For every set of species the collisional momentum sources added in one RHS evaluation sum to zero, whatever the species' names, charges, masses, densities and velocities.",
  "every set of species and every state",
  "Any number of species, any pair ordering.",
  ["src/collisions.cxx:Collisions::collide", "src/collisions.cxx:Collisions::transform", "src/thermal_force.cxx"])
P("C33", "Collisions conserve total energy and friction only heats",
  "The collisional energy sources plus the work done by the friction forces sum to zero over all species; with frictional heating on, each species' frictional heating is non-negative; thermal exchange flows from hot to cold.",
  "every set of species and state",
  "Any number of species; sign claims over all data.",
  ["src/collisions.cxx:Collisions::collide"])
P("C34", "Collision physics does not depend on how species are named",
  "Renaming species (hence changing alphabetical order) does not change any collision frequency, friction force or heat exchange, and the electron_ion/electron_electron/electron_neutral/ion_ion/ion_neutral/neutral_neutral switches disable exactly the pairs they name.",
  "every pair of species, every renaming, every switch setting",
  "The order of iteration is decided by names; tests fix the names.",
  ["src/collisions.cxx:Collisions::transform"])

# ---------------------------------------------------------------- boundaries
P("C35", "Sheath guard-cell extrapolation stays positive and never increases into the wall",
  "For non-negative interior values the density, temperature and pressure guard values set by the sheath components are non-negative, never exceed the last interior value, and are positive when the interior values are.",
  "all non-negative interior values, each sheath component, each extrapolation mode",
  "All reals; mode-dependent.",
  ["src/sheath_boundary.cxx:limitFree", "src/sheath_boundary_simple.cxx:limitFree", "src/sheath_boundary_insulating.cxx:limitFree"])
P("C36", "Ions enter the sheath at or above the Bohm speed and nothing flows out of the wall",
  "At every target the mid-point ion velocity set by the sheath components is directed into the wall and at least the sheath sound speed; mid-point momentum equals mass x mid-point density x mid-point velocity; electrons flow into the wall.",
  "all plasma states and both ends of the field line",
  "All states.",
  ["src/sheath_boundary.cxx", "src/sheath_boundary_simple.cxx"])
P("C37", "The sheath never heats the plasma",
  "The power the sheath components add to the last cell is never positive, for electrons and ions at both ends.",
  "all states, all heat transmission settings allowed by the constructor",
  "Sign claim over all states.",
  ["src/sheath_boundary.cxx", "src/sheath_boundary_simple.cxx", "src/sheath_boundary_insulating.cxx"])
P("C38", "The sheath potential gives zero net current; an insulating sheath carries none",
  "With the potential computed by the sheath component, the electron and ion currents through the target cancel; with the insulating sheath they cancel for every set of ions.",
  "all states and any number of ion species and charge states",
  "Any number of species.",
  ["src/sheath_boundary.cxx", "src/sheath_boundary_simple.cxx", "src/sheath_boundary_insulating.cxx"])
P("C39", "Both ends of a field line are treated alike",
  "Reflecting the plasma in the parallel direction (swapping ends, reversing velocities) reflects the boundary values and leaves all sources the same, for every sheath, no-flow and recycling boundary.",
  "all states",
  "The two ends are separate code that tests exercise at only one of them.",
  ["src/sheath_boundary.cxx", "src/sheath_boundary_simple.cxx", "src/sheath_boundary_insulating.cxx", "src/recycling.cxx", "src/noflow_boundary.cxx", "src/neutral_boundary.cxx"])
P("C40", "Recycling returns exactly the requested fraction of what is lost",
  "At every target the particles per second injected into the neutral species equal the recycling multiplier times the ion particle flow that the density equation removes through that face; inflow produces no source; with multiplier at most one never more particles come back than leave.",
  "all states, geometries, all channels",
  "Ties together two components over all data and geometries.",
  ["src/recycling.cxx:Recycling::transform", "include/div_ops.hxx:FV::Div_par_mod"])
P("C41", "Recycling settings apply to the species they are given for",
  "Enabling target/SOL/PFR/pump recycling for one species affects that species' channel and no other, in whatever order species are listed.",
  "every list of species with arbitrary settings",
  "Depends on list order.",
  ["src/recycling.cxx:Recycling::Recycling"])
P("C42", "Recycled energy is bounded by what arrived plus the prescribed energy",
  "The energy source given to recycled neutrals is non-negative and at most the fast-recycled share of the incoming ion energy plus the prescribed energy per thermally recycled particle, in pumped and unpumped cells alike.",
  "all states and settings in range",
  "All settings.",
  ["src/recycling.cxx:Recycling::transform"])
P("C43", "Neutral wall reflection is a sink of at most the incident energy",
  "neutral_boundary removes energy q from the last cell with 0 <= q <= incident heat flux for reflection fractions between 0 and 1, and lets no neutrals flow through the wall.",
  "all states and settings in range",
  "Sign claim over all temperatures.",
  ["src/neutral_boundary.cxx"])
P("C44", "2D sheath closure removes charge consistently and is ambipolar",
  "The divergence of sheath current handed to the vorticity equation equals the electron density source; with sinks enabled the particle sinks carry no net current in a quasineutral plasma and never add particles or energy.",
  "all states and species sets",
  "Any number of species.",
  ["src/sheath_closure.cxx"])

# ---------------------------------------------------------------- controllers
P("C45", "PI feedback controllers integrate the error correctly and respect sign limits",
  "For any increasing sequence of evaluation times the accumulated integral is the trapezium-rule integral of the error (never negative when integral_positive); the applied source multiplier is never negative when source_positive; repeated evaluation at one time does not change the integral; evaluation histories that visit the same final times give the same integral.",
  "every sequence of RHS times and error signals, including repeated and rejected steps",
  "About all histories of evaluation, including integrator step rejection.",
  ["src/upstream_density_feedback.cxx", "src/temperature_feedback.cxx"])
P("C46", "Restarting a controlled simulation continues the controller exactly",
  "If a run is stopped at any point and restarted from the restart file, every feedback controller resumes with its accumulated integral, for any number of controllers.",
  "every stop point, any number of controllers",
  "A statement about all histories and crash points and multiple instances.",
  ["include/upstream_density_feedback.hxx:restartVars", "include/temperature_feedback.hxx:restartVars", "include/detachment_controller.hxx:restartVars"])
P("C47", "Detachment controller output always stays within its limits",
  "After every control update the control signal lies between minval and maxval; outside updates it is held; the crossing counter never decreases; its error buffer never exceeds the configured size.",
  "every history of times, front positions and settings",
  "About all histories.",
  ["src/detachment_controller.cxx"])
P("C48", "Detachment front position lies between target and upstream end",
  "The reported front position is between 0 and the connection length, is 0 when neutral density nowhere exceeds electron density, and otherwise lies in the cell interval where the densities cross.",
  "every density profile",
  "All profiles, any length.",
  ["src/detachment_controller.cxx"])

# ---------------------------------------------------------------- geometry / misc
P("C49", "Metric normalisation keeps the metric consistent",
  "Normalising a grid-file metric by any length and field normalisation preserves the inverse relation between covariant and contravariant components and the relation between Jacobian and metric determinant; recalculating the metric from R, Bp, Bt, hthe gives an exactly inverse pair and agrees with normalising the unnormalised metric.",
  "all metrics, all positive normalisations",
  "Polynomial identities over all metrics.",
  ["hermes-3.cxx", "src/recalculate_metric.cxx"])
P("C50", "Radial decay-length boundary keeps sign and decays outwards",
  "The decaylength boundary sets guard values with the sign of and no larger in magnitude than the last cell, decreasing with distance.",
  "all fields, widths and decay lengths",
  "All reals.",
  ["hermes-3.cxx:DecayLengthBoundary"])
P("C51", "Potential boundary relaxation is independent of how time is stepped",
  "Relaxing the phi boundary over one interval or over any subdivision of it gives the same value, stays between the old value and the target, is unaffected by repeated evaluation at one time, and the core boundary relaxes towards the average of phi over the core.",
  "every sequence of times, all data",
  "All subdivisions of time.",
  ["src/vorticity.cxx:Vorticity::transform"])
P("C52", "Classical diffusion is ambipolar",
  "In a quasineutral plasma the charge-weighted sum of the classical-diffusion density sources is zero, so no net charge is created.",
  "every set of species",
  "Any number of species.",
  ["src/classical_diffusion.cxx"])
P("C53", "Time-derivative scaling preserves steady states",
  "The local time-step scaling lies in (0, 1], equals 1 in some cell and multiplies every time derivative, so it never changes the sign of a derivative nor creates or removes a steady state.",
  "all temperature profiles and meshes",
  "All profiles.",
  ["include/scale_timederivs.hxx"])
P("C54", "Electromagnetic correction keeps momentum and velocity consistent",
  "Subtracting the Apar contribution leaves momentum = A x N x velocity for each charged species, leaves neutral species untouched, and changes total parallel current by alpha x Apar.",
  "every set of species above the density floor",
  "Any number of species.",
  ["src/electromagnetic.cxx:Electromagnetic::transform"])
P("C55", "Diagnostics equal the physical quantities they are labelled with",
  "Output diagnostics derived from sources and flows carry the factor their label implies: the energy flows of evolving neutrals are 5/2 (advection) times the pressure flow, the numerical viscous heating is 3/2 times the pressure source.",
  "all states",
  "Universal equality of outputs.",
  ["src/neutral_mixed.cxx", "src/evolve_pressure.cxx:outputVars"])
P("C56", "Viscosity transfers energy consistently",
  "Ion viscosity conserves energy: what the viscous force takes from the kinetic energy is given to internal energy, and the perpendicular terms added to the energy equation match the terms in the vorticity equation.",
  "all states",
  "Universal equality.",
  ["src/ion_viscosity.cxx"])
P("C57", "Mixed neutral model lets no neutrals flow into the wall and keeps coefficients non-negative",
  "neutral_mixed publishes non-negative density and pressure, its wall mid-point density is non-negative, mid-point velocity zero, diffusion coefficient non-negative and limited by the flux limit, and a density below floor is not driven lower.",
  "all solver states",
  "All inputs.",
  ["src/neutral_mixed.cxx"])
P("C58", "SOL-KiT and simple ionisation reactions conserve momentum and particles",
  "The h -> h+ ionisation moves particles, momentum and energy from the neutral to the ion and takes the ionisation energy from electrons; SOL-KiT charge exchange exerts equal and opposite forces on all ions and neutrals.",
  "all states and species sets",
  "Universal.",
  ["src/ionisation.cxx", "src/solkit_hydrogen_charge_exchange.cxx"])

P("C59", "Kinetic energy lost by numerical momentum dissipation reappears as heat",
  "On a closed or periodic field line the heating added to the pressure equation by the parallel momentum advection equals the kinetic energy that the discrete density and momentum equations lose, minus the kinetic energy leaving through the ends.",
  "all densities, velocities, wave speeds, limiters, geometries and line lengths",
  "An exact energy balance over all profiles.",
  ["include/div_ops.hxx:FV::Div_par_fvv_heating", "include/div_ops.hxx:FV::Div_par_fvv", "include/div_ops.hxx:FV::Div_par_mod"])

P("C60", "The density equation creates no particles",
  "The rate of change of the number of particles of an evolved species equals the integral of its density source minus the flows through the boundary of the domain; with radial fluxes switched off and closed or periodic field lines it equals the integral of the source, and an empty cell is never drained.",
  "all densities, velocities, potentials, wave speeds, limiters, geometries, grid sizes and options",
  "Quantifies over every state and geometry; a conservation error in one term shows only in the integral.",
  ["src/evolve_density.cxx:EvolveDensity::finally", "src/div_ops.cxx:Div_n_bxGrad_f_B_XPPM", "src/div_ops.cxx:Div_n_g_bxGrad_f_B_XZ", "include/div_ops.hxx:FV::Div_par_mod"])

P("C61", "The pressure equation creates no heat and does not overcool",
  "In an insulated domain the thermal energy of a species changes only by its energy sources, the work done by its flow, the viscous heating and the relaxation towards N T; advection, ExB flow, heat conduction and dissipation only move heat. The pressure of a cell at zero pressure is not driven below zero by the fluid terms.",
  "all pressures, temperatures, densities, velocities, potentials, collision frequencies, limiters, geometries, grid sizes and options",
  "Quantifies over every state and geometry; an error in one term shows only in the integral, or in states close to vacuum.",
  ["src/evolve_pressure.cxx:EvolvePressure::finally", "src/div_ops.cxx:Div_par_K_Grad_par_mod", "include/div_ops.hxx:FV::Div_par_mod"])

P("C62", "Density, momentum and pressure equations together conserve energy and momentum",
  "In a closed domain the sum of kinetic and thermal energy of an evolved species changes only by its sources, and its parallel momentum only by the momentum sources, the pressure gradient and the electric force. The work of the pressure gradient leaves one equation and enters the other. The ExB flow carries momentum of either sign.",
  "all densities, velocities, pressures, wave speeds, limiters, geometries and grid sizes",
  "The three equations are in three components that do not call each other; the balance holds only for the sum, for every state.",
  ["src/evolve_density.cxx:EvolveDensity::finally", "src/evolve_momentum.cxx:EvolveMomentum::finally", "src/evolve_pressure.cxx:EvolvePressure::finally", "include/div_ops.hxx:FV::Div_par_fvv", "include/div_ops.hxx:FV::Div_par_fvv_heating"])

P("C63", "Anomalous diffusion moves particles, momentum and heat without making any",
  "The anomalous diffusion component adds sources of particles, momentum and energy that integrate to what it reports as flow through the radial boundaries, and cell by cell to the difference of the reported flows. It does not drain the emptiest cell, cool the coldest, heat the hottest, slow the slowest or accelerate the fastest, and the energy taken from a sheared flow by viscosity is not lost.",
  "all densities, temperatures, velocities, coefficient profiles, geometries, grid sizes and choices of option",
  "Quantifies over every profile and geometry; the flux along the poloidal direction vanishes in the simple geometries used in tests.",
  ["src/anomalous_diffusion.cxx:AnomalousDiffusion::transform", "src/div_ops.cxx:Div_a_Grad_perp_upwind_flows"])

P("C64", "Neutral gas diffusing along the field stays on a closed line and fills empty cells",
  "Both components that let neutral gas diffuse along the field add a particle source that integrates to zero on a line with walls at both ends, whatever the guard cells contain. Heat and momentum leave only by conduction and viscous stress on the walls. A cell at the pressure floor, and any cell of locally lowest pressure, does not lose gas. Charged species are not touched. The kinetic energy taken by viscosity becomes heat, and the force follows from the viscosity of the gas whatever the mass of its atoms.",
  "all numbers of species, densities, temperatures, velocities, collision frequencies, line lengths, metrics and options",
  "Quantifies over every profile, guard-cell content and list of species.",
  ["src/neutral_parallel_diffusion.cxx:NeutralParallelDiffusion::transform", "src/solkit_neutral_parallel_diffusion.cxx:SOLKITNeutralParallelDiffusion::transform", "src/div_ops.cxx:Div_par_K_Grad_par_mod"])

P("C65", "Conduction and binormal diffusion move heat and particles along the field without making any",
  "The simple heat conduction component (boundary flux off, the default) adds an energy source that integrates to zero on a line with walls, and heat flows from hot to cold. The binormal diffusion of the stellarator two point model keeps the particles, momentum and heat of every species; equal coefficients keep a uniform velocity, and diffusing particles carry their heat. The non-local conduction component subtracts the divergence of the heat flux in the right units and leaves the mesh as it found it, also when it fails.",
  "all temperatures, densities, masses, line lengths, metrics, lists of species, options, and all implementations of the non-local heat flux including failing ones",
  "Quantifies over every profile, guard-cell content and heat flux model; the failures show only in cold plasma, for masses other than one, or after an exception.",
  ["include/simple_conduction.hxx:SimpleConduction::transform", "src/binormal_stpm.cxx:BinormalSTPM::transform", "src/snb_conduction.cxx:SNBConduction::transform"])

P("C66", "Electron viscosity slows the electron flow and respects its flux limit",
  "The electron viscosity component refuses to run without electron pressure and velocity, changes nothing but the electron momentum source, takes kinetic energy from the flow whatever its profile when no stress acts at the ends, keeps the stress within the chosen fraction of the pressure, and returns the energy as heat.",
  "all electron pressures, velocities, collision frequencies, magnetic fields, metrics, gradient operators and limiter settings",
  "Quantifies over every profile and field strength along the line.",
  ["src/electron_viscosity.cxx:ElectronViscosity::transform"])

P("C67", "Drifts move particles without making charge, and the polarisation drift closes the current",
  "The diamagnetic drift in divergence form keeps the particles, momentum and heat of every species; in gradient form it gathers the charge of the diamagnetic current whatever the charges of the species. The polarisation drift keeps particles and momentum, gathers exactly the charge that all other currents carry away (also after the diamagnetic drift and the vorticity equation have run), and gives back the energy that the compression of the ion diamagnetic flow takes. Unsupported combinations of options are refused.",
  "all lists of species, masses, charges, profiles, magnetic fields, options, and all operators with the stated summation property",
  "Quantifies over every list of species and profile; the charge balance involves three components and fails only away from the density of the normalisation or with magnetic flutter.",
  ["src/diamagnetic_drift.cxx:DiamagneticDrift::transform", "src/polarisation_drift.cxx:PolarisationDrift::transform", "src/vorticity.cxx:Vorticity::transform"])

P("C68", "The relaxed potential is that of the vorticity equation, and energy is kept",
  "The component that relaxes the potential towards its steady state behaves in a defined way for every option, changes the energy of the species by exactly what the flow gains from the diamagnetic current, does not act on neutral species, changes the total vorticity only by the current put in from outside, and its steady state is the potential of the vorticity component.",
  "all lists of species, masses, charges, profiles, magnetic fields and options",
  "Quantifies over every option and profile; reading a member that is never assigned may go unnoticed in any number of runs.",
  ["src/relax_potential.cxx:RelaxPotential::transform", "src/relax_potential.cxx:RelaxPotential::finally", "include/relax_potential.hxx"])

P("C69", "The vorticity equation conserves charge and energy",
  "The total vorticity changes only by the current put in from outside. The energy taken from the species for the diamagnetic current is given to the flow, and with the polarisation drift the energy of species and flow changes only by the work of the parallel current. The vorticity equation and the polarisation drift use the same currents. Collisional friction slows the flow down at a rate between those of the species and its energy becomes heat.",
  "all lists of species, masses, charges, profiles, collision frequencies, magnetic fields and options, and all operators with the stated summation property",
  "Quantifies over every list of species and profile, and over the combination of two components.",
  ["src/vorticity.cxx:Vorticity::transform", "src/vorticity.cxx:Vorticity::finally", "src/polarisation_drift.cxx:PolarisationDrift::transform"])

P("C70", "The energy equation conserves energy",
  "When a species evolves its energy density, the energy in the domain changes only by the sources, the work of the forces on the species and what the flow carries through the walls, which is the enthalpy and kinetic energy of the flow at the wall; ExB flow, conduction and dissipation only move it. Evolving the logarithm gives the same rate. The energy of a species that reacts, or is accelerated by the potential, is accounted for as with the pressure equation.",
  "all states, geometries, limiters, sources and options",
  "Quantifies over every state and geometry; a missing work term shows only as a slow drift of the temperature.",
  ["src/evolve_energy.cxx:EvolveEnergy::finally"])

P("C71", "Preconditioning speeds up conduction and changes nothing else",
  "The preconditioner of a species that evolves its temperature implicitly applies the inverse of one minus the time step times the linearised heat conduction to the residual of that species, has a unique result, and is the identity when it is switched off.",
  "all residuals, time steps, conductivities and densities, and all solvers that solve their equation",
  "A preconditioner that does nothing changes no result, only the number of iterations, so no comparison of results can find it.",
  ["src/evolve_pressure.cxx:EvolvePressure::precon", "src/evolve_energy.cxx:EvolveEnergy::precon"])

P("C72", "The axisymmetric neutral gas obeys the Euler equations in any poloidal geometry",
  "A gas that moves as a whole through the poloidal plane keeps its velocity whatever the curvature of the grid; work of the pressure is exchanged between kinetic energy and heat without loss; walls only take heat, exactly the stated flux times area; an outflow boundary never lets gas in; the values other components see are positive and consistent; particles that leave with their own momentum do not change the velocity of the rest.",
  "all geometries that are not degenerate, states of the gas, sources and options",
  "Quantifies over every grid and state; a wrong curvature term or a missing source term looks like physics in any single run.",
  ["src/full_velocity.cxx:NeutralFullVelocity::transform", "src/full_velocity.cxx:NeutralFullVelocity::finally"])

P("C73", "A reaction named in the input does what its equation says",
  "Every reaction equation that can be listed in the input creates one component, and this component changes the particle numbers of exactly the species in the equation, in the proportions of the equation and from left to right. The equations conserve charge and nuclei. The energy that ionisation takes from the electrons is returned by recombination of the same charge state.",
  "all registered equations, states with the charges the names say, rate coefficients and settings",
  "There are over a hundred registered names with species names made by templates; a wrong level or swapped species in one of them shows only if exactly this reaction is run and its balance checked.",
  ["include/adas_carbon.hxx:ADASCarbonIonisation", "include/adas_lithium.hxx:ADASLithiumIonisation", "include/adas_neon.hxx:ADASNeonIonisation", "include/amjuel_helium.hxx:AmjuelHeIonisation01", "include/amjuel_hyd_ionisation.hxx:AmjuelHydIonisationIsotope", "include/amjuel_hyd_recombination.hxx:AmjuelHydRecombinationIsotope", "include/hydrogen_charge_exchange.hxx:HydrogenChargeExchangeIsotope", "include/solkit_hydrogen_charge_exchange.hxx:SOLKITHydrogenChargeExchangeIsotope"])

P("C74", "Saved source diagnostics are the sources that were applied",
  "The particle, momentum and energy sources and frequencies that reactions, recycling, radiation and pumps save in the output are what was added to the species they are named after, so that balances computed from an output file close.",
  "all states, settings, isotopes, meshes and lists of recycling channels",
  "Diagnostics are computed and stored apart from the sources, with their own signs and names; nothing in a run compares the two, and a test with one channel or one isotope does not see one overwriting another.",
  ["include/amjuel_hyd_ionisation.hxx:outputVars", "include/amjuel_hyd_recombination.hxx:outputVars", "include/hydrogen_charge_exchange.hxx:outputVars", "src/recycling.cxx:Recycling::outputVars", "include/fixed_fraction_radiation.hxx:outputVars", "include/simple_pump.hxx:outputVars"])

P("C75", "Results in SI units do not depend on the normalisation",
  "The reference temperature, density and magnetic field (Tnorm, Nnorm, Bnorm) only set the units in which the code computes. The same physical state run with other reference values gives, converted with the factors saved in the output file, the same sources, collision frequencies and exceptions.",
  "all positive normalisations, all states, meshes, species, settings, rate tables and lists of components",
  "Every component converts units on its own, with its own constants. A test runs with one normalisation; an error in a power of Tnorm or a threshold in normalised units shows only when two are compared.",
  ["hermes-3.cxx:init", "include/amjuel_reaction.hxx:electron_reaction", "src/adas_reaction.cxx:calculate_rates", "src/hydrogen_charge_exchange.cxx:calculate_rates", "src/ionisation.cxx:transform", "src/collisions.cxx:transform", "src/thermal_force.cxx:transform"])

P("C76", "Neutral gas in a closed chamber keeps its particles, momentum and energy",
  "With neutral_mixed, in a chamber whose field lines end on closed walls or on themselves and whose radial boundaries let no diffusion through, the number of neutrals changes only by the sources, their momentum only by the sources and the pressure gradient, their thermal energy only by the sources and the work of pressure and viscosity. The total energy changes only by the sources, by mixing across the field and by numerical dissipation, which is never negative.",
  "all meshes with two or more cells along the field, all geometries and shifts that do not change across walls, all states above the density floor, all options, all collision frequencies and sources",
  "The balance involves every term of three equations, the boundary cells set by hand and four finite volume operators. A test checks one term on one mesh, usually against itself.",
  ["src/neutral_mixed.cxx:transform", "src/neutral_mixed.cxx:finally", "src/div_ops.cxx:Div_a_Grad_perp_flows", "include/div_ops.hxx:Div_par_mod", "include/div_ops.hxx:Div_par_fvv", "src/div_ops.cxx:Div_par_K_Grad_par_mod"])

P("C77", "A simulation with complete recycling keeps its nuclei",
  "In a simulation with sheath_boundary at both ends, evolving densities (or neutral_mixed gas), reactions and recycling at the targets with multiplier one into atoms of the same element, the number of nuclei of each element changes only by the sources in the input file. With multipliers below one it never grows by more than these sources. Ions that return as molecules need the multiplier one half.",
  "all meshes, geometries, shifts that do not change at the targets, states, slope limiters, densities before and after floors, lists of reactions, recycling channels and multipliers",
  "The balance ties together five components: the sheath sets the guard cells, the transport scheme computes the flow from them, recycling computes the source from the same cells with its own formula, reactions move nuclei between species. Tests run each component alone.",
  ["src/sheath_boundary.cxx:transform", "src/recycling.cxx:transform", "src/evolve_density.cxx:finally", "src/neutral_mixed.cxx:finally", "include/div_ops.hxx:Div_par_mod", "hermes-3.cxx:rhs"])

P("C78", "A restarted simulation carries the potentials on, at the radial boundaries too",
  "The electrostatic potential and the parallel vector potential remember their boundary values and relax them with a given time constant. If a run is stopped after any number of evaluations and restarted from its restart file, potential and vector potential after the first and any later evaluation are those of the run that was not stopped; and the relaxation depends on the time that has passed, not on the steps the time solver tried.",
  "every history of evaluations (time, current, vorticity), every stopping point, every continuation, every mesh and every boundary cell, every relaxation time",
  "a test restarts once, at one time; whether the state that is not in the restart file matters depends on the times of all evaluations before and after",
  ["src/electromagnetic.cxx:Electromagnetic::transform", "src/electromagnetic.cxx:Electromagnetic::restartVars", "include/vorticity.hxx:Vorticity::restartVars", "src/vorticity.cxx:Vorticity::transform"])

P("C79", "Saved variables and options have the units they state",
  "Every variable in the output files that is saved with units has these units once it is multiplied by its conversion factor, for every normalisation; two variables with the same units have the same conversion factor, so that they can be compared and added; all components convert a density, temperature, pressure, velocity, flow or source of a species in the same way. Every option whose documentation states units is divided by a quantity with these units, and a value given in such an option and saved in a variable with the same units comes back unchanged.",
  "every saved variable and every documented option of every component, all reference temperatures, densities and magnetic fields, all values of the physical constants in all systems of units",
  "a test compares saved numbers at one normalisation, where a missing factor may be 1; the units are attributes that no test reads",
  ["src/evolve_pressure.cxx:EvolvePressure::outputVars", "src/evolve_energy.cxx:EvolveEnergy::outputVars", "src/neutral_parallel_diffusion.cxx:NeutralParallelDiffusion::outputVars", "src/neutral_mixed.cxx:NeutralMixed::outputVars", "hermes-3.cxx:Hermes::init"])

P("C80", "Components do not change each other's fields through shared storage",
  "Copies of a field share their storage, and recycling changes the particle source of a species element by element in place. For every list of components: the source published for a species is the sum of what the components contributed; the source that the user has set for the species is never changed, so that after any number of evaluations the same components publish the same total; and the contribution which a component saves in the output is the contribution it made.",
  "every list of components that add to, subtract from or recycle into the source of a species, in every order, all fields, all numbers and places of recycling targets, any number of evaluations of the time derivative",
  "a change through shared storage depends on the order of the components and accumulates over evaluations; a test runs one component on a new state",
  ["src/evolve_density.cxx:EvolveDensity::transform", "src/recycling.cxx:Recycling::transform", "include/component.hxx:add", "include/component.hxx:subtract", "include/component.hxx:set"])

P("C81", "Sources given in the input act as stated",
  "A user gives a source of particles (m^-3 s^-1), pressure (Pa/s) or energy (W/m^3) of a species in the grid file or as an option, the option winning, perhaps only in the core and perhaps with a prefactor that is a function of the time in seconds; or the shape of a source for a feedback controller, in the same units. For every choice of the reference values, the time derivative of the density, pressure or energy in SI units grows in every cell by exactly that source (times the multiplier of the controller), is unchanged outside the core if the source is wanted only there, and nothing else changes; particles that are added at rest do not change the energy of the plasma.",
  "all source fields, prefactor functions, times, meshes, sets of closed field lines, reference values, states of the plasma and options of the equations",
  "the source passes through normalisation, masking, the shared state and the equation of another component; a test fixes one normalisation, one time and looks at one of these steps",
  ["src/evolve_density.cxx:EvolveDensity::EvolveDensity", "src/evolve_density.cxx:EvolveDensity::transform", "src/evolve_pressure.cxx:EvolvePressure::EvolvePressure", "src/evolve_pressure.cxx:EvolvePressure::finally", "src/evolve_energy.cxx:EvolveEnergy::EvolveEnergy", "include/temperature_feedback.hxx:TemperatureFeedback::TemperatureFeedback", "include/upstream_density_feedback.hxx:UpstreamDensityFeedback::UpstreamDensityFeedback", "include/detachment_controller.hxx:DetachmentController::DetachmentController"])

P("C82", "The order of the components changes nothing or is reported",
  "The user lists the components of a simulation in some order. Two orders of the same components that both run give the same state; in particular components that only add to the same source can be listed in any order, and components that neither read nor set what the other one writes can be exchanged. An order in which a variable is used before the component that publishes it has run stops with an error (with checks compiled in).",
  "all lists of components, all orders, all states at the beginning of the step, all options of the components",
  "the number of orders grows with the factorial of the number of components and what two components share depends on options and on the species; a test runs one list",
  ["src/component_scheduler.cxx:ComponentScheduler::transform", "include/component.hxx:get", "include/component.hxx:getNoBoundary", "include/component.hxx:set", "include/component.hxx:setBoundary", "include/component.hxx:add", "src/quasineutral.cxx:Quasineutral::transform", "src/sound_speed.cxx:SoundSpeed::transform", "src/evolve_density.cxx:EvolveDensity::transform", "src/sheath_boundary.cxx:SheathBoundary::transform"])

P("C83", "A plasma on closed field lines keeps its momentum and energy",
  "In a simulation of ions, neutrals and electrons whose field lines end at walls without flow, with a quasineutral plasma whose electric field is that of the electron force balance, the total parallel momentum of all species changes only by the momentum sources given from outside and the parallel pressure gradient, whatever collisions, thermal forces, charge exchange, ionisation and recombination do. With collisions and charge exchange and zero current the total energy (thermal and kinetic, of all species) changes only by the power of the sources given from outside, up to the error of the discrete kinetic energy.",
  "all sets of species, all states, all regular grids, all lists of collision, thermal force and reaction components and their options, all flux limiters",
  "the balance involves every component and every equation at once: a sign or a factor in one component is compensated only by the right counterpart in another component and in the equations of another species; a test checks one component or a run with tolerances",
  ["src/electron_force_balance.cxx:ElectronForceBalance::transform", "src/collisions.cxx:Collisions::collide", "src/thermal_force.cxx:ThermalForce::transform", "include/hydrogen_charge_exchange.hxx:HydrogenChargeExchange", "include/amjuel_reaction.hxx:AmjuelReaction::electron_reaction", "src/evolve_momentum.cxx:EvolveMomentum::finally", "src/evolve_pressure.cxx:EvolvePressure::finally", "src/evolve_density.cxx:EvolveDensity::finally"])

P("C84", "The derivatives do not depend on what the time integrator tried before",
  "An implicit time integrator evaluates the right-hand side at one time for many states: iterations, columns of a Jacobian, steps that it gives up. Evaluating the same state again gives the same derivatives, any number of times; and once the right-hand side has been evaluated at a time, the derivatives at that time are a function of the state alone, whatever states are tried, until another time is tried: although controllers, the boundary of the potential and the boundary of the vector potential have a memory.",
  "all sequences of evaluations of any length, all states and memories, all options of the controllers, all solvers with the stated boundary treatment, all functions in place of the components without memory",
  "the integrator chooses the sequence of evaluations; a memory that leaks into the derivatives spoils the convergence of the nonlinear solver or makes results depend on its settings, which a test with given calls does not see",
  ["hermes-3.cxx:Hermes::rhs", "include/upstream_density_feedback.hxx:UpstreamDensityFeedback", "src/temperature_feedback.cxx:TemperatureFeedback::transform", "src/detachment_controller.cxx:DetachmentController::transform", "src/vorticity.cxx:Vorticity::transform", "src/electromagnetic.cxx:Electromagnetic::transform"])

P("C85", "Cooling curves and rate coefficients have no jumps",
  "The time integrator takes differences of the right-hand side. The cooling curve of an impurity and the rate coefficient of a reaction are defined and positive at every temperature and density that can occur, and do not jump: not between the pieces of a curve, not at the ends of its range of validity, not between the cells of a table nor at its edges.",
  "all temperatures and densities (real numbers, zero, negative and huge ones included), all coefficient tables of the AMJUEL kind, all well-formed OpenADAS tables, all cooling curves in the code",
  "a jump is at one value of the temperature that a test does not hit; it shows as a time step that shrinks to nothing",
  ["include/fixed_fraction_radiation.hxx:Argon_adas::curve", "include/fixed_fraction_radiation.hxx:Xenon_adas::curve", "include/fixed_fraction_radiation.hxx:Tungsten_adas::curve", "include/amjuel_reaction.hxx:AmjuelReaction::evaluate", "src/adas_reaction.cxx:OpenADASRateCoefficient::evaluate", "src/radiation.cxx:UpdatedRadiatedPower::ionisation"])

P("C86", "The atomic data that come with the code can be used and are the right way round",
  "Every reaction of carbon, lithium and neon that can be named in an input file finds the tables it reads, at its level, and the rates in them are defined, positive and without jumps at every temperature and density. For every stage of ionisation, recombination is faster than ionisation when the plasma is cold and slower when it is hot, whatever the density.",
  "all reactions of the list, all temperatures and densities (zero, negative and outside the tables included)",
  "a wrong level, a file of another element or exchanged files for ionisation and recombination give plausible numbers; a test reads a table at a few points",
  ["src/adas_reaction.cxx:OpenADASRateCoefficient::OpenADASRateCoefficient", "include/adas_carbon.hxx:ADASCarbonIonisation", "include/adas_lithium.hxx:ADASLithiumIonisation", "include/adas_neon.hxx:ADASNeonIonisation", "json_database/scd96_ne.json", "json_database/acd96_c.json"])

P("C87", "What diffuses to the radial walls comes back",
  "With recycling at the targets and at the outer and inner radial edges, every ion that reaches a wall comes back as a neutral: with all multipliers equal to one the number of nuclei of an element changes only by what the input file puts in and by what enters through the edges, and with multipliers of at most one the walls never make nuclei. The neutrals of a species are made from its own flow to the wall.",
  "all geometries, states, limiters, diffusion coefficients, reactions and lists of recycled species",
  "the balance involves the diffusion, the recycling, the sheath, the reactions and the density equations together, and the order of the species list; a test sees one grid and one list",
  ["src/recycling.cxx:Recycling::transform", "src/anomalous_diffusion.cxx:AnomalousDiffusion::transform", "src/evolve_density.cxx:EvolveDensity::finally", "src/sheath_boundary.cxx:SheathBoundary::transform"])

P("C88", "Hyper-diffusion damps ripples in z",
  "Switching on hyper_z adds to the time derivative of density, momentum, pressure or energy minus hyper_z times the fourth difference in z of that quantity, whatever the spacing of the grid and whatever else is switched on. The added term does not change the mean in z, never increases the squared amplitude, and leaves it unchanged only if the quantity does not vary in z.",
  "all grids, numbers of points in z, states, options and coefficients",
  "the order of the derivative and the powers of the spacing cancel only for one choice, and a wrong sign or power still runs for many steps; a test sees one grid",
  ["src/evolve_density.cxx:EvolveDensity::finally", "src/evolve_momentum.cxx:EvolveMomentum::finally", "src/evolve_pressure.cxx:EvolvePressure::finally", "src/evolve_energy.cxx:EvolveEnergy::finally", "src/div_ops.cxx:D4DZ4_Index"])

P("C89", "The fits for hydrogen and helium are physical",
  "With the coefficients in the source the rate coefficients are positive and bounded at every temperature and density, in and out of the range of validity; recombination wins in cold plasma and ionisation in hot plasma; hydrogen recombines more slowly in hotter plasma and, below 49 eV, ionises faster. Ionisation takes at least the ionisation potential from the electrons per event and from 10 eV on less than 40 eV (helium: 45 eV); recombination of hydrogen radiates more than 6 eV. This holds in every cell of every state, so that where ionisation and recombination balance the electrons do not gain energy.",
  "all electron temperatures and densities (negative ones included), all states, limiters and normalisations",
  "a wrong digit in one of 648 coefficients changes the rate by a smooth factor in some corner of the plane; a test compares a few points",
  ["src/amjuel_hyd_ionisation.cxx:rate_coefs", "src/amjuel_hyd_recombination.cxx:rate_coefs", "src/amjuel_helium.cxx:he01_rate_coefs", "include/amjuel_reaction.hxx:AmjuelReaction::evaluate", "include/amjuel_reaction.hxx:AmjuelReaction::electron_reaction"])

P("C90", "The thermal force pushes each ion as documented",
  "With the electron part on, each ion species is pushed by 0.71 Z^2 n times the gradient of the electron temperature and the electrons by the opposite of the sum. With the ion part on, each ion heavier than 10 is pushed by each ion lighter than 4 with the documented coefficient, which is positive and tends to 2.65 Z^2 for very heavy ions, and the light ion by the opposite. No other species is pushed, the order of the species plays no role, and the force on an impurity does not depend on whether the light ions are described by one species or by several of the same mass and temperature.",
  "all sets of species, masses, charges, states and switches",
  "pairs of species are visited once, in the order of their names; a test has two or three species",
  ["src/thermal_force.cxx:ThermalForce::transform", "docs/sphinx/components.rst"])

P("C91", "Collision frequencies are those of the textbook",
  "Above 0.1 eV and 10^10 m^-3 the frequencies of electron-electron, electron-ion and ion-ion collisions are those of Braginskii's collision times, corrected for the motion of the particles that are hit, with the Coulomb logarithms of the NRL formulary to 0.1; heat passes between electrons and ions at Braginskii's rate. Collisions with neutrals have the frequency density times cross-section times thermal speed. The frequency of the electrons is the sum over all species. Frequencies do not jump.",
  "all temperatures, densities, charges and masses, all sets of species, switches and states",
  "constants, powers and units enter as products; a test with one temperature accepts a wrong power",
  ["src/collisions.cxx:Collisions::transform", "src/collisions.cxx:Collisions::collide"])

P("C92", "Parallel heat conductivity is Braginskii's; simple_conduction and evolve_pressure agree",
  "The conductivity of simple_conduction is 3.16 n T tau_e / m for electrons and 3.9 n T tau_i / m for singly charged ions, with Braginskii's collision times, for any setting of the coefficient, fixed temperature and fixed density. The conductivity of evolve_pressure is c P / (nu m) with the collision frequency of the species; with a flux limit the heat flux is the harmonic mean with the free-streaming flux, at most either. As documented, for hydrogenic plasmas simple_conduction gives nearly the same electron conductivity as evolve_pressure with electron-electron collisions disabled: within 15 % from 1 to 1000 eV up to 10^21 m^-3; for ions within 2 %. With electron-electron collisions, the default, it is less than 0.6 of that.",
  "all temperatures and densities in the range, all units, ion masses and settings",
  "the two components get the number from different formulas with different Coulomb logarithms; a test compares one point",
  ["include/simple_conduction.hxx:SimpleConduction", "src/evolve_pressure.cxx:EvolvePressure::finally", "src/collisions.cxx:Collisions::transform"])

P("C93", "Reactions and collisions do the same in a moving frame",
  "Galilean invariance, as documented for the heating by reactions and by friction: if all velocities are larger by the same constant u and nothing else differs, then ionisation, recombination, charge exchange and collisions throw the same exceptions, give every species the same particle source, the same source of thermal energy and the same collision frequency, and a momentum source that is larger by m u times the particle source.",
  "all states with sources not yet read, all frame velocities, species, rates, units and switches",
  "relates the results of two runs; tests use one frame, mostly with species at rest",
  ["include/amjuel_reaction.hxx:AmjuelReaction::electron_reaction", "src/hydrogen_charge_exchange.cxx:HydrogenChargeExchange::calculate_rates", "src/adas_reaction.cxx:OpenADAS::calculate_rates", "src/ionisation.cxx:Ionisation::transform", "src/collisions.cxx:Collisions::collide", "src/solkit_hydrogen_charge_exchange.cxx:SOLKITHydrogenChargeExchange::calculate_rates"])

P("C94", "No direction is preferred",
  "Counting the cells of a field line from its other end, with all velocities of opposite sign, changes nothing but the order: advection of density, pressure and momentum, heating by the dissipation of momentum, heat conduction, numerical dissipation and no-flow boundaries give every cell the same rate of change (momentum with the opposite sign), and the saved flows through cell faces change only their sign. The same holds across the field for diffusion and, with the opposite potential, for advection by the ExB velocity, poloidal flows included, when x, y or z is turned round.",
  "all lines and grids with any metric and boundaries, all fields, all slope limiters that can be selected except Superbee, all switches",
  "relates results on two grids; regression tests fix one direction",
  ["include/div_ops.hxx:FV::Div_par_mod", "include/div_ops.hxx:FV::Div_par_fvv", "include/div_ops.hxx:FV::Div_par_fvv_heating", "include/div_ops.hxx:FV::Div_a_Grad_perp_limit", "src/div_ops.cxx:Div_par_K_Grad_par_mod", "src/div_ops.cxx:Div_a_Grad_perp_flows", "src/div_ops.cxx:Div_a_Grad_perp_upwind", "src/div_ops.cxx:Div_n_bxGrad_f_B_XPPM", "src/div_ops.cxx:Div_n_g_bxGrad_f_B_XZ", "src/noflow_boundary.cxx:NoFlowBoundary::transform"])

P("C95", "Parallel viscosities are Braginskii's",
  "In a plasma of electrons and one species of singly charged ions the components collisions, ion_viscosity and electron_viscosity together give the parallel viscosities of the documentation: 4/3 × 0.96 × pressure × ion collision time and 4/3 × 0.73 × pressure × electron collision time, with the collision times of Braginskii (1965) and the Coulomb logarithms of the NRL formulary, to within a few per cent.",
  "all units, all ion masses from 1, 1-1000 eV with ions not hotter than electrons, densities 1e10-1e21 per cubic metre",
  "numerical agreement over a whole range of densities and temperatures, of a result that two components produce together",
  ["src/ion_viscosity.cxx:IonViscosity::transform", "src/electron_viscosity.cxx:ElectronViscosity::transform", "src/collisions.cxx:Collisions::transform", "docs/sphinx/components.rst:ion_viscosity"])

P("C96", "Friction between electrons and ions is Braginskii's",
  "In any mixture, collisions drag each species along with each other species by coefficient × collision frequency × mass × density × difference of velocities, with the documented coefficients, and heat it by its share of the work of these forces and by exchange of heat. With one ion species of charge 1 to 4 this is the parallel friction of Braginskii (1965) within 2 per cent, with the Coulomb logarithm of the NRL formulary, whether or not electrons collide with each other; the ions feel the opposite force. The work of the friction heats the electrons except for less than one part in 1800, and heat is exchanged at Braginskii's rate 3 (m_e/m_i) n_e (T_i - T_e)/τ_e within 1.1 per cent.",
  "all units, all lists of species, all velocities; for the comparison all ion masses from 1, temperatures from 0.1 eV with ions at most ten times hotter than electrons, densities from 1e10 per cubic metre",
  "numerical agreement over a whole range of densities, temperatures and charges, in mixtures of any number of species",
  ["src/collisions.cxx:Collisions::transform", "src/collisions.cxx:Collisions::collide", "docs/sphinx/components.rst:Collisions"])

P("C97", "Collisions never decrease the entropy",
  "In any mixture of species with positive temperatures, with or without frictional heating and with any of the switches, the heat which collisions give to the species, each divided by the temperature of the species, adds up to something that is not negative in any cell; it is zero only if all species that collide with each other have the same temperature and, with frictional heating, the same velocity. Where all species have the same temperature and velocity collisions change neither.",
  "all lists of species, states, cells, options and units",
  "a statement about the sum over all pairs of species, for every state",
  ["src/collisions.cxx:Collisions::transform", "src/collisions.cxx:Collisions::collide"])

P("C98", "Heat conduction along the field never decreases the entropy",
  "On a line with no flow of heat through its ends the heat which conduction brings to the cells, each divided by the temperature of the cell, adds up to something that is not negative, for all conductivities and positive temperatures; it stays zero only if all cells have the same temperature.",
  "all lines, conductivities and temperature profiles",
  "a statement about the sum over a line of any length, for every profile",
  ["src/div_ops.cxx:Div_par_K_Grad_par_mod", "src/evolve_pressure.cxx:EvolvePressure::finally", "src/evolve_energy.cxx:EvolveEnergy::finally", "include/simple_conduction.hxx:SimpleConduction::transform"])

P("C99", "The electric field obeys Ohm's law with Spitzer's resistivity",
  "In a neutral plasma of electrons and one species of ions of charge one to four, in which the friction of collisions is the only other force on the electrons, the parallel electric field is the gradient of the electron pressure over the density plus resistivity times current; the resistivity is that of Spitzer and Braginskii (coefficient within 2 %, Coulomb logarithm of the NRL formulary within 0.1) and depends on the density only through the logarithm. The work of the friction is resistivity times the square of the current, and friction and electric field together push the ions by the gradient of the electron pressure only.",
  "all states with temperatures above 0.1 eV and densities above 1e10 per cubic metre, cells, options and units",
  "the composition of two components compared with the formulas of the literature, for every state",
  ["src/collisions.cxx:Collisions::transform", "src/electron_force_balance.cxx:ElectronForceBalance::transform"])

P("C100", "The thermal force makes no energy",
  "The thermal forces between electrons and ions and between light and heavy ions leave the energy of all species together (thermal and kinetic) unchanged, whatever the velocities of the species are.",
  "all lists of species, states, cells and switches",
  "a statement about the sum over all species, for every state",
  ["src/thermal_force.cxx:ThermalForce::transform"])

P("C101", "Charge exchange brings atoms and ions together and never decreases the entropy",
  "Charge exchange between the atoms and the ions of one isotope changes no particle numbers; in each event atoms and ions swap the momentum of one particle and its energy as seen from the others, so that velocities and temperatures approach each other. With positive temperatures the entropy made in a cell is not negative, and zero only if temperatures and velocities are equal.",
  "all states, cells, rate multipliers and units",
  "a statement about every state, with a polynomial fit of the rate that takes any value",
  ["src/hydrogen_charge_exchange.cxx:HydrogenChargeExchange::calculate_rates"])

P("C102", "Collisions bring the species together",
  "In every cell, collisions do not slow down the slowest species, do not accelerate the fastest, and do not cool the coldest; without frictional heating they do not heat the hottest either.",
  "all lists of species, all selections of collision types, all states and units with positive masses and non-negative densities, all cells",
  "a statement about signs of sums over all pairs of any number of species, for every state",
  ["src/collisions.cxx:Collisions::collide", "src/collisions.cxx:Collisions::transform"])

P("C103", "Numerical dissipation along the field smooths",
  "Where nothing flows, parallel advection is numerical dissipation only: in a line between walls maxima do not rise and minima do not fall, nothing moves from a cell to a neighbour that has more, and the integral of the square of the advected quantity never grows, whatever the wave speeds, the geometry and the slope limiter.",
  "all profiles, wave speeds, geometries, numbers of cells; limiters Upwind, MinMod and MC",
  "an inequality over all profiles and wave speeds; it fails only for steep profiles with a flat part and wave speeds that differ from cell to cell",
  ["include/div_ops.hxx:FV::Div_par_mod", "CMakeLists.txt:HERMES_SLOPE_LIMITER"])

P("C104", "The damping options of the vorticity equation damp",
  "Viscosity, vort_dissipation, hyper_z and damp_core_vorticity, in any combination, never increase the integral of the square of the vorticity; phi_dissipation and phi_sheath_dissipation never give energy to the flow.",
  "all states, options, species and numbers of cells",
  "a comparison of the right-hand side with and without the option, for every state",
  ["src/vorticity.cxx:Vorticity::finally"])

P("C105", "gamma_i and gamma_e are the total heat transmission of the simple sheath",
  "With sheath_boundary_simple and the energy equation, the energy that leaves a species through a target, carried by the flow and taken by the sheath together, is gamma T n v per time and area, with the values at the target. Between two such sheaths, the energy of a species with positive density, temperature and pressure grows by no more than the other sources and the work of the forces.",
  "all states, options, species, grids, both ends of every line, all limiters",
  "the two parts are computed by different components from the same guard cells; the sum has to be right for every state",
  ["src/sheath_boundary_simple.cxx:SheathBoundarySimple::transform", "src/evolve_energy.cxx:EvolveEnergy::finally", "docs/sphinx/components.rst:sheath_boundary_simple"])

P("C106", "Heat leaves through the sheath as the transmission coefficients of the kinetic sheath say",
  "With sheath_boundary and the energy equation, the energy that leaves through a target, carried by the flow and taken by the sheath together, is (2 / (1 - Ge) + drop / Te) Te n v for the electrons and (5/2 Ti + 1/2 m v^2) n v for the ions, with the values at the target. Between two such sheaths, the energy of a species with positive density and pressure grows by no more than the other sources and the work of the forces.",
  "all states, options, species, grids, both ends of every line, all limiters",
  "the two parts are computed by different components from the same guard cells; the sum has to be right for every state",
  ["src/sheath_boundary.cxx:SheathBoundary::transform", "src/evolve_energy.cxx:EvolveEnergy::finally"])

p = os.path.join(os.path.dirname(__file__), "..", "properties.jsonl")
with open(p, "w") as f:
    for o in out:
        f.write(json.dumps(o, ensure_ascii=False) + "\n")
print(len(out), "properties")
