# Design of the Lean model of hermes-3

Sources: `/repo` (bendudson/hermes-3, pinned).  Lean project: `/verif/lean`.

## 1. Layout

* `lean/Verif/Model/*.lean` — the model: one definition per modelled C++
  function (or per loop body), each with a comment citing file and lines.
* `lean/Verif/Lemmas/*.lean` — helper lemmas (never cited as claims).
* `lean/Verif/Props/*.lean` — the property theorems, with the small
  independent specifications they use and, beside each theorem, an `example`
  showing that a concrete non-trivial case meets the hypotheses.
* `MANIFEST.json` — property → theorem names.
* `seeded/LOG.jsonl` — mutation tests of the theorems.
* `tools/` — scripts (generation of `properties.jsonl`, mutation runner).

## 2. Modelling conventions

* **Numbers.** `BoutReal` (double) is modelled by `ℝ`.  Rounding, overflow,
  NaN and signed zero are *not* modelled.  Division by zero in Lean's `ℝ`
  gives 0, in C++ it gives inf/NaN: every theorem whose code divides carries
  the non-zero hypothesis explicitly (or the code's own floor provides it), and
  the model never relies on `x / 0 = 0`.  Where non-finiteness is itself the
  subject (`set` rejecting non-finite data, C05) values are taken from a type
  with an explicit non-finite element.
* **Exceptions** (`BoutException`, `ASSERT`) are `Except.error`.
* **Undefined behaviour** (out-of-bounds read, uninitialised read) is a
  distinct constructor of the outcome type, never a default value.
* **Run-time checks** (`CHECKLEVEL`) are a parameter `check : Nat` where they matter.
* **Fields** are functions of a cell index.  Parallel operators use one field
  line `ℤ → ℝ`; perpendicular operators use `(x, z)` or `(x, y, z)` indices.
* **BOUT++** is an empty submodule in `/repo`; nothing of it is visible.  Its
  functions appear only through parameters or stated assumptions (see §5).
* **Options tree.**  `state["a"]["b"]` is a map from paths to entries holding a
  value and the two attributes `final`, `final-domain`.

## 3. Plan per property

| id | modelled | proof |
|---|---|---|
| C01 | `ComponentScheduler` constructor on character lists: split, trim, nested types | equality with a declarative spec (`flatMap` over tokens), invariance lemmas by list induction |
| C02 | scheduler transform/finally over arbitrary effectful components | event trace theorem by induction over the list, exception case included |
| C03 | the store with all access functions of `component.hxx` | invariant over arbitrary histories of operations, induction; negation for the `transform` component which bypasses the flags and for CHECK=0 |
| C04 | `add`, `subtract` | induction over histories; permutation invariance |
| C05 | `set` with non-finite data | case analysis for all states |
| C06 | `Transform` constructor and transform | spec by list semantics; negation: `std::map` order, not list order |
| C07 | `cellAverage` | algebra; negation for non-linear Jacobian profiles, partial for linear |
| C08 | limiters | inequalities; negation for Superbee (reads unset fields) |
| C09–C13 | `Div_par_mod` flux loop over one line, scattered updates to cells i and i+1 | telescoping sums over `Finset.range`, pointwise identities, sign analysis |
| C14 | `Div_par_fvv`, `_heating` | telescoping; negation for equality of the two variants at boundaries |
| C15 | `Div_par_K_Grad_par_mod` | summation by parts |
| C16 | `Div_a_Grad_perp_*` | telescoping in x and cyclic sums in z |
| C17 | `Div_n_bxGrad_f_B_XPPM` X–Z and poloidal parts, BOUT++ derivatives and shifts as parameters | telescoping / cyclic sums |
| C18 | index-space dissipation | telescoping; negation for `D4DX4_FV_Index` |
| C19–C21 | `quasineutral`, `zero_current`, `electron_force_balance` over arbitrary species lists | induction over species |
| C22, C23 | transforms of evolve_* at one cell | order reasoning |
| C24 | `sound_speed` over species lists | fold invariants |
| C25 | simple components | algebra |
| C26–C28 | reactions acting on the species store (aliasing included) | algebra over store updates; negation for ADAS kinetic energy and for `no_neutral_cx_mom_gain` |
| C29 | table lookup with explicit out-of-bounds outcome | list lemmas about `lower_bound`; convexity |
| C30 | rates | sign; negation for charge exchange on empty cells |
| C31 | radiation curves | piecewise positivity |
| C32–C34 | collisions over arbitrary species lists | induction over pairs; negation for name-order dependence and the `ion_neutral` switch |
| C35–C39 | sheath components at one boundary cell | algebra / order; negations where the code disagrees |
| C40–C42 | recycling at one face and its constructor loop | algebra; negation for component-wide flags |
| C43, C44 | neutral boundary, sheath closure | algebra / order |
| C45–C48 | controllers as state machines | invariants over histories; negations for time rewinding, restart of several controllers |
| C49 | metric formulas | `field_simp`/`ring` identities |
| C50 | `Decaylength` boundary condition (`hermes-3.cxx`) | order reasoning; negation for `dx < 0` |
| C51 | potential boundary part of `Vorticity::transform`, over any sequence of evaluation times | closed form by induction over the sequence |
| C52 | `classical_diffusion` with the perpendicular operator as parameter | induction over species; linearity of the operator |
| C53 | `scale_timederivs` and its uses | order; negation: equations that ignore the factor |
| C54 | `electromagnetic` over any species list | induction over species |
| C55 | factors applied to reported flows | algebra; negation for integer division |
| C56 | `ion_viscosity` over any species list | induction over species; integration by parts as hypothesis on the operators |
| C57 | `neutral_mixed` transform and right-hand side | order reasoning; operators as parameters |
| C58 | `ionisation`, `solkit_hydrogen_charge_exchange` | algebra over store updates |
| C59 | `Div_par_fvv_heating` | exact balance with an excess term; negation of equality |
| C60 | `EvolveDensity::finally` in three dimensions | each term's volume integral reduced to flows through the boundary; sign of each term in an empty cell |
| C61 | `EvolvePressure::finally` in three dimensions | each term's volume integral over an insulated domain; sign of each term in a cell at zero pressure; witness against the default form |
| C62 | `EvolveMomentum::finally` in three dimensions, with the density and pressure equations on the same state | weighted sum of the three right-hand sides; pressure work cancels cell by cell; kinetic energy reduced to the line identity of C59; witnesses against exact conservation |
| C63 | `AnomalousDiffusion::transform` with `Div_a_Grad_perp_upwind_flows` on profiles averaged over z | flux form and closed ends; upwind coefficient at a minimum; witnesses against the extremum claims in y, for non-axisymmetric states and for the energy of the flow |
| C64 | `NeutralParallelDiffusion::transform`, `SOLKITNeutralParallelDiffusion::transform` on one field line | loop over species reduced to the state before it; summation by parts with a flat potential at the walls; witnesses for viscous heat and mass |
| C65 | `SimpleConduction`, `BinormalSTPM`, `SNBConduction` on one field line, `divHeatFlux` of BOUT++ a parameter that may fail | flux form, closed ends; witnesses for cold plasma, mass, convected heat and exceptions |
| C66 | `ElectronViscosity::transform`, `Grad_par` a parameter | summation by parts in `sqrt(B) V`; limiter algebra; witness for the lost energy |
| C67 | `DiamagneticDrift::transform`, `PolarisationDrift::transform` over the tree; operators are parameters | effect of a program on the sources, sums over species, linearity; composition of three components |
| C68 | `RelaxPotential` constructor, `transform`, `finally`; indeterminate members are `none` | the same; summation by parts; witnesses on three cells in a ring |
| C69 | `Vorticity::transform` after the solution for the potential, `Vorticity::finally` | the same; energy together with the polarisation drift; convexity of the weighted frequency |
| C70 | `EvolveEnergy::finally` on the grid of `Model/Rhs.lean` | as C61; flow through the ends by the mid-point rule of C11; two evaluations that differ by the potential; reactions by C26 |
| C71 | `EvolvePressure::precon`, `EvolveEnergy::precon` and how the solver calls them; solver and operator are parameters | linearity; dissipation for uniqueness |
| C72 | `NeutralFullVelocity`: rotation matrices, `transform`, `finally`; vector operators are parameters | algebra of the rotation; linearity of the equations in each term; sum over the end cells |
| C73 | the table of registered reaction equations, name templates, ionisation energies, `transform` of each class | parse the equation, compare with the class by kernel evaluation over the table; gains of each class for all states |
| C74 | what `outputVars` of the reactions, recycling, radiation and pump saves, as a list of names and fields | gains of each component compared with the field found under the documented name |
| C75 | the options `Tnorm`, `Nnorm`, `Bnorm`, what `Hermes::init` and the constructors compute from them, the conversion factors saved with each variable | a state in SI units, divided by the factors, is run with two normalisations; relational rules for each read, condition and loop; contributions commute with conversion; transport equations: the same grid, state and operators under factors of length, field and density, operator by operator; sheath: the loop over the targets commutes with the factors while the limits are not reached |
| C76 | `neutral_mixed` with the operators of `div_ops` on the grid, walls, closed field lines | balances of the operators; walls make coefficients odd and velocity odd; wrapping of all derived fields on closed lines |
| C77 | one evaluation of the right-hand side: `sheath_boundary`, `recycling`, `evolve_density`, `neutral_mixed`, reactions on one grid | end flow of `Div_par_mod` is the product of the face values; the source of `recycling` is the same product per volume; stoichiometry of the registry |
| C78 | `electromagnetic` with `const_gradient` and the `restartVars` of both potentials as state machines; the Laplacian is a parameter | loops read off cell by cell; induction over the history; a restarted state and the running one agree after one evaluation |
| C79 | table of all saved variables with units and of the options with units, factors as expressions | exponents of the constants computed for the whole table by the kernel; one lemma: the square of a factor is the monomial with these exponents, and monomials change as their exponents say |
| C80 | storage with references for the particle source of a species: `set`, `add`, `subtract`, recycling in place, `evolve_density` with its own copy of the source | invariant over the list of components: the block of the user's source and the blocks kept by components other than the first are not in the state; induction over components and over evaluations |
| C81 | reading of `source`, `N…_src`, `P…_src`, `source_only_in_core`, `source_prefactor`, `source_shape` in the constructors; the use of these sources in `transform`/`finally` and by the controllers | induction over the loops that mask the source; the equations are affine in the sources; conversion factors cancel |
| C82 | the `transform` programs of the components with the marks of the state; lists of variables read, set, added to | a relation on programs with one rule per access function and statement (`Lemmas/Access`), exchange of two programs, induction over the list of components |
| C83 | all species' density, momentum and pressure equations (C60-C62) after `electron_force_balance` (C21) on a state with the sources of collisions, thermal forces and reactions (C26, C27, C32) | sums over the species of the balances of each equation; the electric field hands on the force on the electrons; the sources of each component cancel |
| C84 | the members that controllers (C45, C47), `vorticity` (C51) and `electromagnetic` (C78) keep between evaluations, as machines with a memory; everything else as arbitrary functions | two predicates on machines, closed under composition; proved for each machine by induction on the list of evaluations |
| C85 | the cooling curves (C66) and the evaluation of AMJUEL fits and OpenADAS tables (C26, C29) as modelled before; `UpdatedRadiatedPower::ionisation` | bounds of logarithms by a series with error bound and rational arithmetic in the kernel (`Lemmas/LogBounds.lean`); tables: finite closed cover by cells that agree where they meet |
| C86 | the fifteen files of `json_database` read by the reactions of carbon, lithium and neon, with all their numbers; the constructor of `OpenADASRateCoefficient`; the file names of each reaction | the tables are compared entry by entry in the kernel; bilinear interpolation keeps the order (`compare`); temperatures compared with `10^x` by powers of whole numbers |
| C87 | one evaluation of the right-hand side with `anomalous_diffusion`, `sheath_boundary`, `recycling` at targets, outer and inner edge, reactions and `evolve_density` on one grid | flow through the edge faces of the diffusion split in its positive and negative part; the source of `recycling` is the same part per volume; C77 for the targets |
| C88 | the `hyper_z` and `hyper_z_T` terms of `evolve_density`, `evolve_momentum`, `evolve_pressure`, `evolve_energy`; `D4DZ4_Index` | right-hand sides with and without the option are compared; summation by parts on a row that closes on itself |
| C89 | the eight coefficient tables of `src/amjuel_*.cxx` with their numbers (`Model/AmjuelData.lean`, generated) | the logarithm of a rate is a polynomial in two logarithms; positivity of combinations of such polynomials on a rectangle by a tree of halvings, found outside and checked by a verified checker in integers in the kernel (`Lemmas/BoxPoly.lean`); averages over cells keep the bounds |
| C90 | `thermal_force.cxx` as modelled for C32 | contributions of the loop over pairs are summed for one species by induction over the list; the coefficient is compared with a formula with square roots |
| C91 | `collisions.cxx` as modelled for C32 | a textbook formula is stated in SI units; powers 3/2 are multiplicative; contributions to one species are summed over the loops |
| C92 | constructor of `SimpleConduction` added to the model of C65; `kappaPar` of C60, frequencies of C91 | both conductivities written as `G/(Λ S)` with the same `G`; bounds on the ratio of the Coulomb logarithms and on the correction for moving ions |
| C93 | components of C26, C27, C28, C32, C58 run in a state and in the same state with all velocities shifted | a relation between the two computations, followed through every read, branch and loop; then the contributions are compared species by species |
| C94 | the operators of C08, C09, C14–C18, C59 on a line or grid and on the same with one index negated | slope limiters commute with exchange of sides and sign; the one-sided fluxes of the turned line are those of the other face; then the gather forms of the loops are compared cell by cell |
| C95 | `collisions` (C91) followed by the coefficients of C56 and C66 | collision frequency of C91 for two species; ion–electron collisions bounded by a ratio of masses, powers and logarithms of temperatures |
| C96 | `collisions` (C33, C91) | momentum and energy of each species as sums over pairs, from the events of the loops; compared with Braginskii's table by the bounds of C91 on the collision frequency; conservation (C33) gives what the ions get |
| C97 | `collisions` (C33, C96) | heat of each species as a sum over pairs (C96), divided by the temperatures and summed over the species: sums of squares |
| C98 | `Div_par_K_Grad_par_mod` (C15), conduction in `evolve_pressure` and `evolve_energy` (C61, C70), `simple_conduction` (C65) | summation by parts with the weight 1/T: a sum over faces of conductance times squared difference over the product of the temperatures; the negative Coulomb logarithm of cold plasma (C65) as counterexample |
| C99 | `collisions` (C96), `electron_force_balance` (C21) | the force on the electrons from C96 put into the force balance of C21; the density cancels in a neutral plasma; conversion to SI units |
| C106 | `SheathBoundary::transform` (C35-C37) and the parallel flow of `EvolveEnergy::finally` (C70) on the same mesh | as C105; the positive part of the additional flux makes the sum a maximum; bound of the electron speed; energy balance of the domain by summation over the lines |
| C105 | `SheathBoundarySimple::transform` (C35-C37) and the parallel flow of `EvolveEnergy::finally` (C70) on the same mesh | flow through the end of a line is that of the midpoint values; the sheath's guard cells give these; algebra; energy balance of the domain by summation over the lines |
| C104 | `Vorticity::finally` with and without the options (C69) | difference of the right-hand sides term by term; each term has a sign by the operator's assumed dissipativity; witness on a ring of three cells |
| C103 | `FV::Div_par_mod` with zero velocity, limiters | closed form of the flux at rest, summation by parts between walls; for MC each cell's two halves are non-negative together; witness with one fast cell |
| C102 | `collisions` in closed form (C82, C97) | every pair's force and heat has the sign of a difference that the extreme species fixes; sums of such terms keep the sign |
| C101 | `hydrogen_charge_exchange` with the same isotope on both sides (C27) | sources of both species in closed form; divided by the temperatures and added: squares with positive factors |
| C100 | `thermal_force` (C90) | forces of C90 times the velocities, summed over the species; counterexample: ions that move while electrons do not |

Runtime aspects that no theorem here can exhibit: floating point rounding,
MPI communication (guard-cell exchange is an assumption), the time integrator.

## 4. Disagreements between code and property

Each of these is a theorem with a concrete witness (unless it holds for all states).  The positive part of the property is proved beside it.

| id | theorem | what the code does | where |
|---|---|---|---|
| C03 | `transform_component_bypasses_final`, `value_not_stable_without_checks`, `setBoundary_can_change_interior` | the component `transform` overwrites a variable that was read; with `CHECKLEVEL=0` anything does; `setBoundary` may change interior cells | `src/transform.cxx:30`, `include/component.hxx` |
| C06 | `listed_order_not_respected`, `two_equals_accepted` | copies run in alphabetical order of the target; `a=b=` is accepted | `src/transform.cxx:6-32` |
| C07 | `average_of_constant_iff` | the weights of `cellAverage` sum to one only if the Jacobian is linear across three cells | `include/integrate.hxx:71-83` |
| C08 | `superbee_reads_unassigned`, `superbee_in_integrate_is_flat`, `fromm_not_monotone` | `Superbee` uses the edge values before they are assigned | `include/div_ops.hxx:105-124` |
| C12 | `empty_end_cell_can_be_drained` | the prescribed flux through a physical end drains an empty cell | `include/div_ops.hxx:215-268` |
| C14, C59 | `heating_boundary_flux_differs`, `heating_exceeds_loss` | numerical heating differs from the kinetic energy lost (6 for 4); with `fix_momentum_boundary_flux=false` another boundary flux is assumed | `include/div_ops.hxx:501-692` |
| C60 | `flutter_leaks`, `dissipation_leaks` | with `bndry_flux=false` magnetic flutter and the low-density dissipation still carry particles through the radial boundary: `Div_n_g_bxGrad_f_B_XZ` is called without its `bndry_flux`, `Div_Perp_Lap_FV_Index` ignores its `xflux` | `src/evolve_density.cxx:230-276` |
| C61, C70 | `flutter_takes_heat`, `flutter_takes_energy` | the same for heat and energy in `evolve_pressure` and `evolve_energy` | `src/evolve_pressure.cxx:277-282`, `src/evolve_energy.cxx:258-266` |
| C61 | `default_form_cools_cold_cell` | the default form `V ∇P` of the work term (`p_div_v=false`) drives the pressure of a cell at zero pressure below zero, with no negative pressure anywhere; the other form does not | `src/evolve_pressure.cxx:259-274` |
| C62 | `flutter_takes_momentum` | the same for momentum in `evolve_momentum` | `src/evolve_momentum.cxx:183` |
| C62 | `closed_box_energy_not_conserved` | two cells running into each other in a closed box: total energy falls with the default `numerical_viscous_heating=false`, and rises with `true` | `src/evolve_pressure.cxx:284-294` |
| C62 | `negative_momentum_not_carried` | the ExB term of the momentum equation is called with `positive=true`: negative momentum at poloidal faces is set to zero and not advected | `src/evolve_momentum.cxx:125` |
| C16 | `upwind_binormal_flux_lacks_metric`, `variants_disagree_in_binormal_direction` | two of three variants leave out `g33` in the Z flux | `include/div_ops.hxx:700-921` |
| C17 | `poloidal_drains_empty_cell` | the poloidal flux uses an unlimited face value: an empty cell can lose particles, also with `positive` | `src/div_ops.cxx:396-541` |
| C18 | `d4dx4Index_row_dependent`, `d4dx4Index_depends_on_decomposition` | `j == mesh->xstart` compares a Y index with an X index; fluxes in guard cells are not communicated | `src/div_ops.cxx:641-722` |
| C22 | `evolveEnergy_negative_guard` | `neumann_boundary_average_z` puts a negative pressure into guard cells | `src/evolve_energy.cxx:149-181` |
| C24 | `fastest_wave_decreases` | adding a cold heavy species lowers the reported fastest wave | `src/sound_speed.cxx:13-67` |
| C26 | `amjuel_wrong_index_order` | `evaluate` swaps the indices: correct for square tables only, out of bounds otherwise | `include/amjuel_reaction.hxx:37-58` |
| C27 | `no_neutral_cx_mom_gain_gives_momentum_to_neutrals` | the option withholds the atom's momentum from the ion instead of the ion's momentum from the atom | `src/hydrogen_charge_exchange.cxx:21-101` |
| C28 | `adas_total_energy_not_conserved` | the kinetic energy of relative motion is not turned into heat | `src/adas_reaction.cxx:126-185` |
| C30 | `cx_consumes_absent` | densities are floored at 1e-5 in the rate, so that an absent species is consumed | `src/hydrogen_charge_exchange.cxx` |
| C34 | `ion_neutral_switch_depends_on_names`, `neutral_friction_depends_on_names` | pairs are treated in alphabetical order with unsymmetric formulas and switches | `src/collisions.cxx:154-483` |
| C35 | `simple_guard_increases`, `simple_guard_negative` | extrapolation of the density into the guard cell in modes 1 and 2 | `src/sheath_boundary_simple.cxx:40-68` |
| C36 | `sheath_below_bohm` | the sheath speed is capped at 10 | `src/sheath_boundary.cxx` |
| C37 | `simple_heats_ions` | default `gamma_i = 3.5` is not enough when the electrons are hotter | `src/sheath_boundary_simple.cxx` |
| C37, C39 | `insulating_heats_electrons`, `insulating_not_mirrored` | at the upper end the insulating sheath takes the electron velocity from `Ve[im]` instead of `Ve[ip]`: no energy is lost in a plasma at rest, and electrons are heated in a plasma moving away | `src/sheath_boundary_insulating.cxx:486` |
| C38 | `sheath_current_with_gradient` | the potential for zero current is computed with the temperatures in the last cell, but used with those on the face: where the temperature falls from 2 to 1 towards the target, less than half of the ion current is carried by electrons | `src/sheath_boundary.cxx:264-268`, `:311-331` |
| C38 | `insulating_helium_current`, `insulating_isotope_current` | the insulating sheath adds `Z v` per species to the electron velocity without the share of the species, and `n v` to the electron momentum without the charge | `src/sheath_boundary_insulating.cxx:308-309`, `:385-386` |
| C41 | `different_switches` | `target_recycle` and the other switches are members of the component: the last species wins | `src/recycling.cxx`, `include/recycling.hxx` |
| C42 | `inflow_takes_heat`, `pump_returns_heat_without_particles` | negative energy flow is "recycled"; fast energy in pumped cells uses the edge multiplier | `src/recycling.cxx:150-494` |
| C43 | `cold_gas_is_heated` | thermally reflected particles get 3 eV whatever they brought | `src/neutral_boundary.cxx` |
| C44 | `neutrals_are_lost` | with sinks, neutral gas is lost at the ion sound speed | `src/sheath_closure.cxx` |
| C45 | `rejected_step_counts_twice`, `target_control_undefined` | a rejected step is integrated twice; `control_target_temperature` broadcasts an uninitialised variable | `src/upstream_density_feedback.cxx`, `src/temperature_feedback.cxx` |
| C46 | `restart_loses_others`, `second_call_resets`, `restart_changes_control`, `first_step_cleared` | a `static` flag is shared by all controllers; buffers are not saved | `include/upstream_density_feedback.hxx`, `include/detachment_controller.hxx` |
| C47 | `initial_control_not_limited`, `zero_buffer_undefined`, `negative_buffer_never_full` | | `src/detachment_controller.cxx:100-200` |
| C48 | `front_not_at_target`, `front_outside`, `front_on_grid_point_throws` | | `src/detachment_controller.cxx:34-98` |
| C49 | `negative_jacobian` | the Jacobian takes the sign of `Bp` | `src/recalculate_metric.cxx` |
| C50 | `decay_grows_for_negative_dx`, `decay_flat` | with `dx < 0` values grow outwards; outer guard cells are copies | `hermes-3.cxx:112-157` |
| C51 | `core_average_wrong`, `negative_time_not_relaxed` | the core average divides by the number of cells with guard cells | `src/vorticity.cxx:128-170` |
| C52 | `zero_custom_D` | `custom_D = 0` uses the calculated coefficient but leaves out conduction | `src/classical_diffusion.cxx` |
| C53 | `not_all_scaled` | vorticity, relax_potential and full_velocity ignore the factor | |
| C54 | `thin_plasma_inconsistent` | momentum and velocity disagree below the density floor | `src/electromagnetic.cxx` |
| C55 | `advection_reported_wrong` | `5 / 2` is an integer division | `src/neutral_mixed.cxx` |
| C56 | `bracket_term_lost` | `(1 / 3)` is an integer division | `src/ion_viscosity.cxx:234` |
| C56 | `rest_is_stressed` | the perpendicular stress has the difference of the ExB and diamagnetic drifts, `phi` minus `P / N`, not their sum as in its comment: ions at rest, where the two drifts cancel, are under stress | `src/ion_viscosity.cxx:167-171` |
| C57 | `guard_density_negative` | negative density in the guard cell behind a wall | `src/neutral_mixed.cxx` |
| C58 | `ionisation_loses_energy` | kinetic energy of relative motion is not turned into heat | `src/ionisation.cxx` |
| C63 | `coldest_cell_cooled_along_y` | the flux in y uses the average coefficient, not the upwind one: a full cell at zero temperature beside a hot empty one loses heat it does not have | `src/div_ops.cxx:1302-1328`, comment at `src/anomalous_diffusion.cxx:104` |
| C63 | `empty_cell_drained` | sources are computed from averages over z: empty cells of a turbulent state are drained below zero | `src/anomalous_diffusion.cxx:63` |
| C63 | `viscosity_loses_energy` | `anomalous_nu` removes kinetic energy of a sheared flow without heating | `src/anomalous_diffusion.cxx:125-132` |
| C64 | `viscous_heat_lost` | the viscosity of `neutral_parallel_diffusion` removes kinetic energy without heating | `src/neutral_parallel_diffusion.cxx:60-81` |
| C64 | `viscosity_misses_mass` | `eta_n = 2/5 kappa_n` lacks the factor `AA` (`neutral_mixed` has it): the force on a gas of mass 2 is half of what its viscosity gives | `src/neutral_parallel_diffusion.cxx:76`, compare `src/neutral_mixed.cxx:361` |
| C65 | `cold_plasma_conducts_uphill` | the Coulomb logarithm of `simple_conduction` has no lower bound; below 0.012 eV at 1e20 m⁻³ it is negative and so is the conductivity: the coldest cell is cooled | `include/simple_conduction.hxx:78-81` |
| C65 | `binormal_counts_mass_twice` | momentum diffusion uses `AA * nu` on `NV`, which contains the mass already | `src/binormal_stpm.cxx:70-71` |
| C65 | `binormal_cools_uniform_plasma` | particles diffuse without their heat: a plasma of one temperature does not stay so | `src/binormal_stpm.cxx:67-74` |
| C65 | `snb_exception_leaves_mesh_scaled` | an exception from `divHeatFlux` leaves `dy` multiplied by `rho_s0` | `src/snb_conduction.cxx:21-28` |
| C66 | `electron_viscous_heat_lost` | electron viscosity removes kinetic energy without heating | `src/electron_viscosity.cxx:59-60` |
| C67 | `boussinesq_leaves_charge` | with `boussinesq` (the default) the polarisation potential is found with the average mass density and the drift applied to the actual one: at another density charge is left | `src/polarisation_drift.cxx:136-158,187-216` |
| C67, C69 | `flutter_not_closed` | the current along the fluctuating field is in `vorticity`, not in `polarisation_drift` | `src/vorticity.cxx:700-711`, `src/polarisation_drift.cxx:77-93` |
| C68 | `relax_undefined` | `bndry_flux` is never assigned and is read at every step when `exb_advection` (the default) is on | `include/relax_potential.hxx:57-80`, `src/relax_potential.cxx:166-168` |
| C68 | `relax_makes_energy` | with `diamagnetic_polarisation` (the default) all species get `3/2 P ∇·J`, electrons too; the flow gives up another amount | `src/relax_potential.cxx:130-149` |
| C68 | `relax_heats_neutrals` | the same term acts on a species whose charge is set to zero | `src/relax_potential.cxx:137-148` |
| C68 | `relax_pressure_differs` | the ion pressure in the equation for the potential lacks the factor 1/Z of `vorticity`, and electrons enter with the sign of ions | `src/relax_potential.cxx:203-222` |
| C69 | `friction_heat_is_lost` | energy taken from the flow by `collisional_friction` is given to no species | `src/vorticity.cxx:593-629` |
| C70 | `shifted_wall_flow` | the guard cells of the energy are set in field-aligned coordinates from pressure, density and velocity that are not: with a shifted metric they come from other lines | `src/evolve_energy.cxx:204-232` |
| C70 | `electric_work_missing` | the work of the parallel electric field, which is in the momentum equation, is not in the energy equation: it is taken from the heat | `src/evolve_energy.cxx:236-369`, `src/evolve_momentum.cxx:130` |
| C70 | `ionisation_creates_energy` | reactions put the heat of mixing into `energy_source`; the energy equation contains it already: energy is created | `src/evolve_energy.cxx:357-369`, `include/amjuel_reaction.hxx:126-152` |
| C71 | `precon_without_effect` | the preconditioner acts on `ddt(P)`, also when `E`, `logE` or `logP` evolves | `src/evolve_energy.cxx:522-524`, `src/evolve_pressure.cxx:598-600` |
| C72 | `momentum_counted_twice`, `ionisation_slows_gas` | the velocity equation lacks `-V S_n/n`: particles that leave with their momentum take it twice | `src/full_velocity.cxx:343-352` |
| C72 | `published_pressure_inconsistent` | the published pressure has no floor, while density and temperature have | `src/full_velocity.cxx:165-214` |
| C72 | `outflow_temperature_stale` | the temperature in the guard cells is computed before `outflow_ydown` sets density and pressure there | `src/full_velocity.cxx:165-200` |
| C72 | `viscous_heat_is_lost` | viscosity slows the gas, its heat is not returned | `src/full_velocity.cxx:250-270` |
| C72 | `mass_not_published` | `AA` is not put into the state: every reaction of the gas throws | `src/full_velocity.cxx:209-215` |
| C73 | `ionisation_off_still_cools` | `K_iz_multiplier` scales the reaction rate but not the energy loss: with `0` electrons are still cooled | `include/amjuel_reaction.hxx:155-166` |
| C73 | `radiation_off_stops_heating` | `R_rec_multiplier` also scales the potential energy that recombination gives to the electrons | `include/amjuel_reaction.hxx:155-166` |
| C74 | `cx_energy_diagnostic_incomplete` | the energy diagnostics of reactions omit the heat of mixing: ions blowing through a gas of the same temperature heat both, the diagnostic is zero | `include/hydrogen_charge_exchange.hxx:154-261`, `src/hydrogen_charge_exchange.cxx:75-85` |
| C74 | `shared_destination_overwrites` | two species that recycle into the same one overwrite each other's diagnostics | `src/recycling.cxx:529-593` |
| C75 | `cx_without_gas`, `charge_exchange_depends_on_Nnorm` | charge exchange with a species of zero density happens at the density `1e-5 Nnorm`: without any hydrogen, deuterium ions become atoms at a rate proportional to `Nnorm` | `src/hydrogen_charge_exchange.cxx:47-48` |
| C75 | `thin_gas_frequency`, `collisions_depend_on_Nnorm` | the collision frequency of a species below `1e-5 Nnorm` depends on `Nnorm` | `src/collisions.cxx:88` |
| C75 | `dissipation_in_units_of_field` | the diffusion of `low_n_diffuse_perp` has a coefficient per cell and normalised time, so its rate is proportional to `Bnorm` | `src/evolve_density.cxx:268-271` |
| C75 | `relaxation_in_units_of_field` | the pressure relaxes to `N T` within one normalised time, so the rate is proportional to `Bnorm` | `src/evolve_pressure.cxx:426` |
| C75 | `sheath_speed_depends_on_units` | ions enter the sheath with at most ten times the reference speed: at 300 eV they leave half as fast with `Tnorm = 1` as with `Tnorm = 400` | `src/sheath_boundary.cxx:553-554,627-628` |
| C75 | `sheath_gradient_depends_on_units` | the ratio of density gradients in the Bohm speed is used only if the ion density differs by `1e-3 Nnorm` across half a cell: helium enters with `√11` or `√8` in the same plasma | `src/sheath_boundary.cxx:545-546,619-620` |
| C76 | `empty_cells_ignore_sinks` | in cells whose density is below 1% of `density_floor` negative rates are dropped: ionisation gives ions that are not taken from the neutrals | `src/neutral_mixed.cxx` (end of `finally`) |
| C76 | `sheared_wall_leaks` | the values behind the walls are set without `toFieldAligned`, the fluxes use field-aligned values: if the shift changes across the wall and the gas is not axisymmetric, neutrals flow through the closed wall | `src/neutral_mixed.cxx:192-250` |
| C76 | `viscosity_mass_squared` | the viscous force is `∇·(AA² D N ∇V)`: the mass is counted twice, the viscosity of a gas of mass `AA` is `AA` times too large | `src/neutral_mixed.cxx:361`, `452-459` |
| C76 | `total_energy` | the kinetic energy dissipated by the upwind scheme is not added to the heat (`evolve_pressure` adds it) | `src/neutral_mixed.cxx:387-463` |
| C77 | `sheared_targets_lose_nuclei` | `recycling` multiplies face values of density and velocity without `toFieldAligned`, the transport scheme and the sheath work in field-aligned coordinates: if the shift changes between the last cell and the guard cell and the plasma is not axisymmetric, what comes back is not what is lost | `src/recycling.cxx:196-250` |
| C78 | `rejected_step_counts`, `restart_changes_gradient`, `apar_restart_jumps` | the time of the last evaluation follows rejected steps back and is zero after a restart, so the boundary gradient relaxes too far | `src/electromagnetic.cxx` |
| C78 | `second_save_resets` | in a run that was not restarted the second call of `restartVars` with the same options puts potential and vector potential back | `include/vorticity.hxx`, `src/electromagnetic.cxx` |
| C79 | `mislabelled_units` | `kappa_par` of `evolve_energy`, `E…_nvh` of `evolve_pressure` and `S…_Dpar` of `neutral_parallel_diffusion` do not have the units they state | `src/evolve_energy.cxx:435`, `src/evolve_pressure.cxx:566`, `src/neutral_parallel_diffusion.cxx:126` |
| C79 | `conductivity_factors_differ` | the conductivity in SI units is larger by `Tnorm` with `evolve_energy` than with `evolve_pressure` | `src/evolve_energy.cxx:436` |
| C80 | `saved_source_contaminated` | the saved particle source `S…_src` of `evolve_density` contains the recycled particles if recycling is the next component to contribute | `src/evolve_density.cxx:207`, `src/recycling.cxx:174-179` |
| C81 | `temperature_shape_two_thirds`, `detachment_shape_two_thirds`, `one_becomes_two_thirds` | `source_shape` of the pressure ("Source term in ddt(P), units Pa/s") is added to the source of energy: two thirds of it act | `include/temperature_feedback.hxx:79-83`, `src/temperature_feedback.cxx:100`, `include/detachment_controller.hxx:127-132`, `src/detachment_controller.cxx:219` |
| C81 | `energy_prefactor_ignored` | `source_time_dependent` and `source_prefactor` have no effect with `evolve_energy` | `src/evolve_energy.cxx:84-113` |
| C81 | `documented_name_ignored` | the manual names the grid-file variable `S…_src`, the program reads `N…_src` | `docs/sphinx/components.rst:77-79`, `src/evolve_density.cxx:99` |
| C81 | `input_source_takes_energy`, `feedback_adds_energy` | particles from `evolve_density` remove `1/2 m V²` each; with `evolve_energy` those of `upstream_density_feedback` bring it in | `src/evolve_density.cxx:207`, `src/upstream_density_feedback.cxx:64-69` |
| C82 | `quasineutral_silent` | `quasineutral` listed before `evolve_density` of an ion runs without error and gives an electron density without that ion | `src/quasineutral.cxx:31-43` |
| C82 | `soundSpeed_silent` | `sound_speed` listed before a component that publishes a pressure runs without error and leaves the pressure out | `src/sound_speed.cxx:18-47` |
| C83 | `thermal_force_makes_energy` | `thermal_force` adds equal and opposite forces but no heat: its work on species which move relative to each other, `0.71 Z² n ∇Te (V_i - V_e)`, is taken from nothing, and the total energy is not conserved | `src/thermal_force.cxx:33-36,117-120` |
| C84 | `pi_depends_on_first_trial`, `apar_depends_on_rejected_step` | the integral of the feedback controllers (and the relaxed boundaries) advance at the first evaluation at a new time, with whatever state the integrator tried first: the derivatives at that time depend on the trial, not only on the state | `include/upstream_density_feedback.hxx:85-125`, `src/electromagnetic.cxx:139-151` |
| C84 | `detach_does_not_settle` | with `min_error_for_change` > 0 a trial state can trigger the detachment controller, and the same state as before then has another source, at the same time | `src/detachment_controller.cxx:104-117` |
| C85 | `tungsten_jump` | the cooling curve of tungsten, a polynomial of degree 20 with coefficients rounded to nine digits, is below 1e-96 W m³ at 1000 eV and below 1e-197 at 1500 eV; above 1500 eV it is 1.85e-31: a jump of more than 160 orders of magnitude, and no radiation from hot tungsten | `include/fixed_fraction_radiation.hxx:304-338` |
| C85 | `xenon_jump` | the same for xenon, degree 15: at most 1e-42 W m³ at 1300 eV, 1.3e-31 above | `include/fixed_fraction_radiation.hxx:269-298` |
| C85 | `hydrogenIonisation_usable_partial` | the rate of the component `ionisation` is not a number at a negative temperature (there is no limit as in the AMJUEL reactions) | `src/radiation.cxx:212-230` |
| C86 | `neon_hump` | the table for the ionisation of Ne⁵⁺ has a rate at 2 keV that is more than a hundred times that at 1.5 keV and at 5 keV, at every density | `json_database/scd96_ne.json` |
| C87 | `flow_of_another_species`, `tritium_from_nothing` | the radial flow read by `recycling` is a member of the component: a species that does not publish `particle_flow_xlow` is recycled with the flow of the channel before it in the list, so neutrals are made from nothing | `src/recycling.cxx:291-302` |
| C89 | `cold_helium_does_not_recombine` | the fit for helium recombination falls by more than six orders of magnitude between 1 eV and 0.2 eV, where the rate should rise; the fit is used down to 0.1 eV | `src/amjuel_helium.cxx:87-115`, `include/amjuel_reaction.hxx:37-58` |
| C89 | `helium_huge` | at 0.1 eV and `10²² m⁻³` the same fit gives a rate coefficient above `5·10⁻¹¹ m³/s` | `src/amjuel_helium.cxx:87-115` |
| C89 | `helium_cheap` | at 0.1 eV and `10²² m⁻³` ionisation of helium takes less than 3 eV from the electrons although the potential is 24.586 eV | `src/amjuel_helium.cxx:36-66` |
| C90 | `isotopes_counted_twice` | the force of light ions on impurities is not weighted with their densities: in a plasma of deuterium and tritium it is counted twice | `src/thermal_force.cxx:96-120` |
| C91 | `frequency_jumps` | below 0.1 eV (or `10¹⁰ m⁻³`) the Coulomb logarithm is 10, above it follows the formula: at 0.1 eV and `10¹⁹ m⁻³` the electron–ion collision frequency jumps by more than a factor of two | `src/collisions.cxx:217-220` |
| C100 | `thermal_force_makes_energy` | the thermal force adds forces and no heat: where the species do not move together, e.g. with a parallel current, nobody pays for its work and the total energy changes | `src/thermal_force.cxx:33-36, 117-120` |
| C98 | `cold_plasma_loses_entropy` | the Coulomb logarithm of `simple_conduction` is negative in cold plasma: conduction destroys entropy | `include/simple_conduction.hxx:78-81` |
| C103 | `mc_sharpens` | with the default limiter MC the difference of edge values at a face can have the sign opposite to that of the cell values (steep, flat, steep): numerical dissipation carries density up the gradient, and if the wave speed is higher there than elsewhere the profile becomes steeper as a whole | `include/div_ops.hxx:626-684`, `CMakeLists.txt:253` |
| C104 | `phi_dissipation_drives_flow` | `phi_dissipation` smooths the potential, the flow is driven by the potential and the ion pressure: with `diamagnetic_polarisation` (both are defaults) the dissipation can give energy to the flow | `src/vorticity.cxx:722-727` |
| C105 | `gamma_exceeded` | density, temperature and pressure are extrapolated separately, so that the pressure at the target is not density times temperature there; the heat that leaves differs from the documented `gamma T n v` by `5/2 (p - n T) v` | `src/sheath_boundary_simple.cxx:603-605` |
| C105 | `underlying_electrons` | the manual gives 3.5 as the heat transmission of the electrons without the component; it is below 2.6 | `docs/sphinx/components.rst:978` |
| C105 | `linear_sheath_heats` | with linear extrapolation of the density (`density_boundary_mode = 2`) and a density that falls by a factor of 7 between the last two cells, the density at the wall is negative, and the wall gives energy to the ions | `src/sheath_boundary_simple.cxx:40-68` |
| C106 | `electrons_lose_more` | the additional heat flux is cut off at zero, so that with a small potential drop (`gamma_e` below 5/2) the electrons lose more than `gamma_e T n v`; the code notes that the cut-off is reached | `src/sheath_boundary.cxx:414-420` |
- **C95** fails for electrons with default settings: `electron_viscosity` divides by the total collision frequency, which contains electron–electron collisions (`electron_electron` is on by default), while Braginskii's `0.73 p τ_e` is for the electron–ion time alone; the viscosity is less than 0.6 of the documented one (`default_electron_viscosity`), as for heat conduction in C92.
- **C94** fails for the saved flow of kinetic energy (`ef…_kin_ylow`, also part of `ef…_tot_ylow`): `Div_par_fvv_heating` reports the flow into the upper cell of a face, which differs from the flow out of the lower one by the viscous heating (a choice stated in the comments, `include/div_ops.hxx:415-421, 464-471`), so that the same plasma counted from the other end reports another flow (`kinetic_flow_depends_on_direction`). Also for `Div_a_Grad_perp_limit` (`include/div_ops.hxx:840-846, 866-870`) where the diffused field is equal in neighbouring rows and varies along z: the test `dfdy > 0` then always takes the row with the lower number (`limited_diffusion_depends_on_direction`).
- **C93** fails in three places. (1) Electrons born in an AMJUEL ionisation bring no momentum and are heated by `1/2 m V_e²` each (`include/amjuel_reaction.hxx:109-117`): they are created at rest in the frame of the simulation (`electrons_born_at_rest`). (2) The rate of SOL-KiT charge exchange is proportional to `|V_ion|`, not to the relative speed (`src/solkit_hydrogen_charge_exchange.cxx:21`; `solkit_frame`). (3) Collisions take a species without velocity to be at rest (`unset_velocity_frame`).

### 4.1 Observations made while reading, not part of a theorem

* `collisions.cxx:429` takes a species whose charge is set to 0.0 for a charged one; an ion–ion pair with charges of opposite sign always throws.
* `sound_speed`: the default `fastest_wave_factor` is 0, so that `fastest_wave` is 0 by default.
* `Div_a_Grad_perp_limit`: the condition for transforming back (`div_ops.hxx:914`) omits `hasParallelSlices`; the flow through the upper Y end is not reported.
* `evolve_pressure.cxx:564`: `3/.2` (15 instead of 1.5) in a diagnostic; `fix_momentum_boundary_flux` is uninitialised unless `numerical_viscous_heating` is set.
* `evolve_momentum.cxx:242` tests `momentum_flux_ylow` and reads `momentum_flow_ylow`.
* `evolve_pressure`: the diagnostic `flow_ylow` is reset only if the species has a velocity; with conduction and no velocity it grows from call to call.
* Flutter terms of momentum and pressure equation also ignore `bndry_flux`; the momentum equation reads the pressure of the state, the pressure equation that of the solver (they differ below zero).
* `neutral_mixed`: viscosity contains the mass twice (361 and 451-459); with `neutral_conduction=false` factors are applied to unallocated fields.
* `ion_viscosity`: the lower boundary is hard-coded at `jy = 1`.
* Sheath components: on field lines of less than four cells the second end overwrites the potential of the first; `Ge = 1` is accepted but gives a non-finite power;
  `always_set_phi` without a potential publishes an uninitialised interior.
* Recycling averages `dx`, `dz` over a face, the flux operators do not; an empty species list leaves switches uninitialised; the pump divides by the gas density.
* `relax_potential.cxx:167` reads an uninitialised switch; helium recombination reads multipliers from another section than helium ionisation.
* The manual gives 1 as the default of `secondary_electron_coef` (`docs/sphinx/components.rst:948`); the code has 0, and 1 would stop the electrons.
* Vorticity boundary writes at `xstart-2`, `xend+2` need two X guard cells.
* `include/neutral_parallel_diffusion.hxx` reads the option `thermal_conducton` (typo): a user setting `thermal_conduction` has no effect.
* `neutral_mixed` writes `mf_visc_perp_ylow` twice and `mf_visc_perp_xlow` never (`src/neutral_mixed.cxx:688-706`).
* `polarisation_drift` gives back the energy of the diamagnetic and parallel currents only; the comment in the code says so (`src/polarisation_drift.cxx:96-98`).
* `evolve_energy`: the low-density diffusion lacks the factor `Cv` (`src/evolve_energy.cxx:268-273`); the conductivity uses the pressure without a floor.
* `full_velocity`: `neutral_bulk` has no effect; the factor of the energy source and of the wall loss is `2/3`, not `gamma_ratio - 1`; sources are read as `Field2D` although other components add `Field3D`.
* `src/recycling.cxx`: with a pump but without recycling at the edges `S<name>_pump` is saved from fields that were never allocated.
* `src/evolve_energy.cxx:436` saves `kappa_par` with a conversion that is `Tnorm` times that of `src/evolve_pressure.cxx:484`: one of them is wrong.
* The comments of `src/neutral_mixed.cxx` disagree on `eta_n` (with the mass at line 357, without at line 449); the manual gives `D_n` as `v_th² ν` where the code has `v_th² / ν`.
- C92: `evolve_pressure` calls its conductivity Braginskii's, but uses `τ = 1/(ν_ee + ν_ei)` unless `electron_electron = false` (`src/evolve_pressure.cxx:320-328`; the manual gives this `τ` too); `default_conducts_less`: it is then below 0.6 of the value with Braginskii's `τ_e`.
`neutral_mixed` uses its own members in `finally` and does not read boundary values back from the state (`src/neutral_mixed.cxx:252-285`), so `neutral_boundary` reaches it only through shared storage.
`src/neutral_mixed.cxx:688-707` saves the poloidal viscous momentum flow twice under the same name; the radial one is not saved.

## 5. Trusted base

* Lean 4.33.0 kernel.  Axioms: every theorem in `MANIFEST.json` depends on a subset of `propext`, `Classical.choice`, `Quot.sound`
  (`#print axioms`; `vcheck` replays the modules).  No axioms are added, there is no `sorry`, `admit`, `native_decide` or `bv_decide`.
* Faithfulness of the hand-written model to the cited lines (tested by seeded errors, `seeded/LOG.jsonl`, but not proved).
* Assumed behaviour of BOUT++, whose sources are not in `/repo`:
  `Options` (`Model/Store.lean`), `strsplit`/`trim` (`Model/Text.lean`), `FV::MinMod`, `FV::MC`, `FV::Upwind` (`Model/Limiters.lean`),
  `FV::Div_a_Grad_perp`, `FV::Div_par_K_Grad_par`, `Grad_par`, `bracket`, `Grad`, `Div`, `DC`, Laplacian inversion, `applyBoundary`,
  `communicate`, `toFieldAligned`: parameters, with hypotheses stated where a theorem needs any.  In `Model/ParallelDiffusion.lean`
  `FV::Div_par_K_Grad_par` is taken to have the arithmetic of its copy `Div_par_K_Grad_par_mod` in `src/div_ops.cxx`.

### 5.1 What is modelled

| part | model |
|---|---|
| `component_scheduler.cxx`, `component.hxx`, `component.cxx`, `transform.cxx` | `Scheduler`, `Store`, `Text`, `Transform`, `Value` |
| `div_ops.hxx`: `Superbee`, `Div_par_mod`, `Div_par_fvv`, `Div_par_fvv_heating`, `Div_a_Grad_perp_upwind(_flows)`, `Div_a_Grad_perp_limit` | `Limiters`, `ParOps`, `PerpOps` |
| `div_ops.cxx`: limiters, `Div_par_K_Grad_par_mod`, `Div_par_diffusion_index`, `Div_n_bxGrad_f_B_XPPM` (with poloidal part), `Div_Perp_Lap_*` X–Z parts, `D4DX4_FV_Index`, `D4DZ4_Index`, `Div_Perp_Lap_FV_Index`, `Div_Z_FV_Index` | `ParOps`, `PerpOps`, `ExBPoloidal` |
| `integrate.hxx` | `Limiters`, `Species` |
| transforms of `quasineutral`, `zero_current`, `electron_force_balance`, `evolve_density`, `evolve_pressure`, `evolve_energy`, `evolve_momentum`, `sound_speed`, `isothermal`, `fixed_*`, `set_temperature`, `simple_pump` | `Closures` |
| `amjuel_reaction.hxx`, `hydrogen_charge_exchange.cxx`, `adas_reaction.cxx`, `ionisation.cxx`, `solkit_hydrogen_charge_exchange.cxx` | `Reactions`, `SimpleReactions` |
| `collisions.cxx`, `thermal_force.cxx` | `Collisions`, `ThermalForce` |
| `sheath_boundary.cxx`, `sheath_boundary_simple.cxx`, `sheath_boundary_insulating.cxx`, `noflow_boundary.cxx`, `sheath_closure.cxx` | `Sheath`, `SheathSimple`, `SheathClosure` |
| `recycling.cxx`, `neutral_boundary.cxx`, `neutral_mixed.cxx` | `Recycling`, `NeutralBoundary`, `NeutralMixed` |
| `fixed_fraction_radiation.hxx` | `Radiation` |
| `upstream_density_feedback`, `temperature_feedback`, `detachment_controller` | `Controllers` |
| `recalculate_metric.cxx`, metric normalisation and decay length boundary of `hermes-3.cxx` | `Metric` |
| `finally` of `evolve_density`, `evolve_pressure`, `evolve_momentum` | `Rhs`, `RhsMomentum` |
| potential boundary of `vorticity.cxx` | `PhiBoundary` |
| `classical_diffusion.cxx`, `electromagnetic.cxx`, `ion_viscosity.cxx`, `scale_timederivs.hxx` | `Transport`, `IonViscosity`, `SheathClosure` |
| `anomalous_diffusion.cxx` | `Anomalous` |
| `neutral_parallel_diffusion.cxx`, `solkit_neutral_parallel_diffusion.cxx`, `binormal_stpm.cxx`, `electron_viscosity.cxx`, `simple_conduction.hxx`, `snb_conduction.cxx` | `ParallelDiffusion` |
| `diamagnetic_drift.cxx`, `polarisation_drift.cxx`, `relax_potential.cxx`, `vorticity.cxx` (currents, energy, equations; operators and solver are parameters) | `Drifts` |
| `src/evolve_energy.cxx` (`finally`, `precon`), `src/evolve_pressure.cxx` (`precon`) | `Model/RhsEnergy` |
| `src/full_velocity.cxx` | `Model/FullVelocity` |
| `include/adas_{carbon,lithium,neon}.hxx`, `include/amjuel_helium.hxx`, `include/amjuel_hyd_*.hxx` (without diagnostics), last functions of `src/amjuel_*.cxx` | `Model/Registry` |
| `outputVars` of `include/amjuel_hyd_*.hxx`, `include/hydrogen_charge_exchange.hxx`, `include/fixed_fraction_radiation.hxx`, `include/simple_pump.hxx`, `src/recycling.cxx:510-596` (names and values) | `Model/Diagnostics` |
| `hermes-3.cxx:180-193`, `261` (normalisations), `FreqNorm` and `rho_s0` of the constructors, `conversion` attributes of `outputVars` for species variables | `Model/Units` |
| `neutral_mixed` on the grid: which operators, boundary conditions, cells next to walls | `Model/NeutralGrid` |
| the grid as the boundary components see it; the state as the equations read it | `Model/System` |
| `src/electromagnetic.cxx` (boundary gradient), `restartVars` of `vorticity` and `electromagnetic` | `Model/AparBoundary` |
| attributes `"units"` and `"conversion"` in all `outputVars`; options with units in the constructors | `Model/OutputFactor`, `Model/OutputTable` (generated) |
| storage shared by fields: `src/evolve_density.cxx:195-207`, `src/recycling.cxx:174-179,505-507`, `include/component.hxx:171-259` | `Model/Sharing` (everywhere else in the model fields are values) |
| sources in the input: `src/evolve_density.cxx:80-126,195-207`, `src/evolve_pressure.cxx:100-145,404-416`, `src/evolve_energy.cxx:84-113`, `source_shape` of the controllers | `Model/InputSources` |
| `radiation.cxx`: `UpdatedRadiatedPower::ionisation` | `AtomicFits` |
| `Model/NeutralPrecon.lean` | `NeutralMixed::precon` (`src/neutral_mixed.cxx:786-807`) |
| `Model/AdasFile.lean`, `Model/AdasData.lean` | `OpenADASRateCoefficient::OpenADASRateCoefficient` (`src/adas_reaction.cxx:31-52`), the file names in `include/adas_carbon.hxx`, `adas_lithium.hxx`, `adas_neon.hxx`, and the contents of the 15 files (generated by `tools/gen_adas.py`; the numbers have at most five decimals after rounding of the representation) |
| coefficient tables of `src/amjuel_hyd_ionisation.cxx`, `amjuel_hyd_recombination.cxx`, `amjuel_helium.cxx` | `Model/AmjuelData` (generated by `tools/gen_amjuel.py`, as integers in units of `10⁻³⁰`: exact) |

### 5.2 What is not modelled

Floating point; MPI and guard-cell exchange; the time integrator and Laplacian solvers; reading of options other than where a
property is about them; diagnostics output other than the flows named above;
field-aligned transformation; staggered grids and 3D metrics;
the vector operators that `full_velocity` uses.
