import Verif.Model.Rhs

/-!
# Right-hand sides of `evolve_pressure` and `evolve_momentum`

The same conventions as in `Verif/Model/Rhs.lean`.  The right-hand side is written as the sum of the contributions, each of
which may throw; the order of the exceptions is that of the code.
-/

namespace Hermes

section
variable {nz : ℕ} [NeZero nz]

/-! ## `evolve_pressure` -/

/-- Options of `EvolvePressure`, `src/evolve_pressure.cxx:22-160`, and the members read from the state of the component.
`fix_momentum_boundary_flux` is not initialised if `numerical_viscous_heating` is off; it is then not used for `ddt(P)`. -/
structure PressureOpts where
  bndry_flux : Bool := true
  poloidal_flows : Bool := true
  density_floor : ℝ
  temperature_floor : ℝ
  pressure_floor : ℝ
  low_n_diffuse_perp : Bool := false
  low_T_diffuse_perp : Bool := false
  low_p_diffuse_perp : Bool := false
  thermal_conduction : Bool := true
  kappa_coefficient : ℝ
  kappa_limit_alpha : ℝ := -1
  p_div_v : Bool := false
  hyper_z : ℝ := -1
  hyper_z_T : ℝ := -1
  numerical_viscous_heating : Bool := false
  fix_momentum_boundary_flux : Bool := false
  diagnose : Bool := false

/-- Is the species charged (`src/evolve_pressure.cxx:236`)? -/
def SpeciesIn.isCharged (s : SpeciesIn nz) : Prop := ∃ q, s.charge = some q ∧ 1e-5 < |q|

/-- Numerical viscous heating, `src/evolve_pressure.cxx:284-294`. -/
noncomputable def pressureHeating (o : PressureOpts) (g : Grid) (B : RhsOps nz) (lim : Limiter) (s : SpeciesIn nz) (N V w : F3 nz) :
    Except Err (F3 nz) :=
  if o.numerical_viscous_heating || o.diagnose then do
    let AA ← need s.AA
    .ok (if o.numerical_viscous_heating then
      (2 / 3 * AA : ℝ) • g.fvvHeating3 B lim (floor3 N o.density_floor) V w o.fix_momentum_boundary_flux else 0)
  else .ok 0

/-- Parallel flow and work, `src/evolve_pressure.cxx:259-274`. -/
noncomputable def pressureFlow (o : PressureOpts) (g : Grid) (B : RhsOps nz) (lim : Limiter) (P V w : F3 nz) : F3 nz :=
  if o.p_div_v then -g.divParMod3 B lim P V w true - (2 / 3 : ℝ) • (floor3 P 0 * B.divPar V)
  else -((5 / 3 : ℝ) • g.divParMod3 B lim P V w true) + (2 / 3 : ℝ) • (V * B.gradPar P)

/-- Magnetic flutter, `src/evolve_pressure.cxx:277-282`. -/
noncomputable def pressureFlutter (g : Grid) (B : RhsOps nz) (f : FieldsIn nz) (P V : F3 nz) : F3 nz :=
  match f.Apar_flutter with
  | none => 0
  | some A => -((5 / 3 : ℝ) • g.divNG B P V (-A)) + (2 / 3 : ℝ) • (V * B.bracket P A)

/-- The terms with the velocity, `src/evolve_pressure.cxx:247-295`. -/
noncomputable def pressureAdvection (o : PressureOpts) (g : Grid) (B : RhsOps nz) (lim : Limiter) (s : SpeciesIn nz) (f : FieldsIn nz)
    (P N : F3 nz) : Except Err (F3 nz) :=
  match s.velocity with
  | none => .ok 0
  | some V => do
    let w ← waveSpeed s f
    let heating ← pressureHeating o g B lim s N V w
    .ok (pressureFlow o g B lim P V w + pressureFlutter g B f P V + heating)

/-- Low-density, low-temperature and low-pressure dissipation, `src/evolve_pressure.cxx:297-315`. -/
noncomputable def pressureLow (o : PressureOpts) (g : Grid) (B : RhsOps nz) (s : SpeciesIn nz) (P T N : F3 nz) : F3 nz :=
  (match s.low_n_coeff with
    | none => 0
    | some c => B.divParK (c * T) N + B.divParK c P)
  + (if o.low_n_diffuse_perp then
      g.perpLapIndex (fun i j k => o.density_floor / floor3 N (1e-3 * o.density_floor) i j k) P else 0)
  + (if o.low_T_diffuse_perp then
      (1e-4 : ℝ) • g.perpLapIndex (floor3 (fun i j k => o.temperature_floor / floor3 T (1e-3 * o.temperature_floor) i j k - 1) 0) T
    else 0)
  + (if o.low_p_diffuse_perp then
      g.perpLapIndex (fun i j k => o.pressure_floor / floor3 P (1e-3 * o.pressure_floor) i j k) P else 0)

/-- Braginskii conductivity with the flux limiter, `src/evolve_pressure.cxx:321-352`. -/
noncomputable def kappaPar (o : PressureOpts) (B : RhsOps nz) (P T N nu : F3 nz) (AA : ℝ) : Except Err (F3 nz) :=
  let kappa : F3 nz := fun i j k => o.kappa_coefficient * floor3 P 0 i j k * (1 / floor3 nu 1e-10 i j k) / AA
  open Classical in
  if 0 < o.kappa_limit_alpha then
    if ∃ i j k, T i j k / AA < 0 then .error .invalid
    else
      let q_SH := kappa * B.gradPar T
      let q_fl : F3 nz := fun i j k => o.kappa_limit_alpha * N i j k * T i j k * Real.sqrt (T i j k / AA)
      .ok (B.communicate fun i j k => kappa i j k / (1 + |q_SH i j k / floor3 q_fl 1e-10 i j k|))
  else .ok kappa

/-- Guard cells of the conductivity, `src/evolve_pressure.cxx:354-367`. -/
def kappaGuard (g : Grid) (B : RhsOps nz) (kappa : F3 nz) : F3 nz := fun i j k =>
  if j = g.ystart - 1 ∧ g.firstY i = true ∧ B.periodicY i = false then kappa i g.ystart k
  else if j = g.yend + 1 ∧ g.lastY i = true ∧ B.periodicY i = false then kappa i g.yend k
  else kappa i j k

/-- Heat conduction, `src/evolve_pressure.cxx:317-391`. -/
noncomputable def pressureConduction (o : PressureOpts) (g : Grid) (B : RhsOps nz) (s : SpeciesIn nz) (f : FieldsIn nz) (P T N : F3 nz) :
    Except Err (F3 nz) :=
  if o.thermal_conduction then do
    let nu ← need s.collision_frequency
    let AA ← need s.AA
    let kappa ← kappaPar o B P T N nu AA
    let kappa := kappaGuard g B kappa
    let q := (2 / 3 : ℝ) • g.conduction3 B kappa T false
    match f.Apar_flutter with
    | none => .ok q
    | some A =>
      let db_dot_T := B.neumann (B.bracket T A)
      let b0_dot_T := B.neumann (B.gradPar T)
      .ok (q + (2 / 3 : ℝ) • (B.divPar (kappa * db_dot_T) - g.divNG B kappa (db_dot_T + b0_dot_T) A))
  else .ok 0

/-- Hyper-diffusion, `src/evolve_pressure.cxx:393-399`. -/
noncomputable def pressureHyper (o : PressureOpts) (P T : F3 nz) : F3 nz :=
  (if 0 < o.hyper_z then -(o.hyper_z • d4dz4Index P) else 0) + (if 0 < o.hyper_z_T then -(o.hyper_z_T • d4dz4Index T) else 0)

/-- Sources, `src/evolve_pressure.cxx:404-422`; `source` is `final_source`. -/
noncomputable def pressureSources (source : F3 nz) (s : SpeciesIn nz) : F3 nz :=
  match s.energy_source with
  | none => source
  | some E => source + (2 / 3 : ℝ) • E

/-- `EvolvePressure::finally`, `src/evolve_pressure.cxx:221-431`: `ddt(P)`.  `P₀` is the pressure of the solver.
The check that `pressure_source` is not set is left out. -/
noncomputable def pressureRhs (o : PressureOpts) (g : Grid) (B : RhsOps nz) (lim : Limiter) (P₀ source : F3 nz)
    (s : SpeciesIn nz) (f : FieldsIn nz) : Except Err (F3 nz) := do
  let pressure ← need s.pressure
  let P := B.setBoundaryTo P₀ pressure
  let T ← need s.temperature
  let N ← need s.density
  let exb := -exbOf g B s.isCharged f P o.bndry_flux o.poloidal_flows
  let adv ← pressureAdvection o g B lim s f P N
  let low := pressureLow o g B s P T N
  let cond ← pressureConduction o g B s f P T N
  -- lines 424-426: towards `N * T`
  let ddt := exb + adv + low + cond + pressureHyper o P T + pressureSources source s + (N * T - P)
  match f.scale_timederivs with
  | none => .ok ddt
  | some sc => .ok (ddt * sc)

/-! ## `evolve_momentum` -/

/-- Options of `EvolveMomentum`, `src/evolve_momentum.cxx:13-63`. -/
structure MomentumOpts where
  bndry_flux : Bool := true
  poloidal_flows : Bool := true
  density_floor : ℝ
  pressure_floor : ℝ
  low_n_diffuse_perp : Bool := false
  low_p_diffuse_perp : Bool := false
  hyper_z : ℝ := -1
  fix_momentum_boundary_flux : Bool := false

/-- Electromagnetic correction, `src/evolve_momentum.cxx:132-152`. -/
noncomputable def momentumApar (o : MomentumOpts) (g : Grid) (B : RhsOps nz) (lim : Limiter) (s : SpeciesIn nz) (f : FieldsIn nz) (Z : ℝ)
    (phi N V w : F3 nz) : F3 nz :=
  match f.Apar with
  | none => 0
  | some A =>
    let Sn : F3 nz := s.density_source.getD 0
    let dndt := Sn - g.divParMod3 B lim N V w true - g.exbXPPM B.toBoutOps N phi o.bndry_flux o.poloidal_flows true
      + (if o.low_n_diffuse_perp then
          g.perpLapIndex (fun i j k => o.density_floor / floor3 N (1e-3 * o.density_floor) i j k) N else 0)
    Z • (A * dndt)

/-- Magnetic flutter of the electric force, `src/evolve_momentum.cxx:153-161`. -/
noncomputable def momentumPhiFlutter (B : RhsOps nz) (f : FieldsIn nz) (Z : ℝ) (phi N : F3 nz) : F3 nz :=
  match f.Apar_flutter with
  | none => 0
  | some A => -(Z • (N * B.bracket phi A))

open Classical in
/-- Terms with the potential, `src/evolve_momentum.cxx:115-166`. -/
noncomputable def momentumElectric (o : MomentumOpts) (g : Grid) (B : RhsOps nz) (lim : Limiter) (s : SpeciesIn nz) (f : FieldsIn nz)
    (NV N V w : F3 nz) : F3 nz :=
  match f.phi, s.charge with
  | some phi, some Z =>
    if Z = 0 then 0
    else -g.exbXPPM B.toBoutOps NV phi o.bndry_flux o.poloidal_flows true - Z • (N * B.gradPar phi)
      + momentumApar o g B lim s f Z phi N V w + momentumPhiFlutter B f Z phi N
  | _, _ => 0

/-- Pressure gradient, `src/evolve_momentum.cxx:174-178`. -/
noncomputable def momentumPressure (B : RhsOps nz) (s : SpeciesIn nz) : F3 nz :=
  match s.pressure with
  | none => 0
  | some P => -B.gradPar P

/-- Magnetic flutter, `src/evolve_momentum.cxx:180-189`. -/
noncomputable def momentumFlutter (g : Grid) (B : RhsOps nz) (s : SpeciesIn nz) (f : FieldsIn nz) (NV V : F3 nz) : F3 nz :=
  match f.Apar_flutter with
  | none => 0
  | some A => -g.divNG B NV V (-A) - (match s.pressure with | none => 0 | some P => B.bracket P A)

/-- Dissipation, `src/evolve_momentum.cxx:191-204`. -/
noncomputable def momentumLow (o : MomentumOpts) (g : Grid) (B : RhsOps nz) (s : SpeciesIn nz) (NV N V : F3 nz) : Except Err (F3 nz) := do
  let a : F3 nz := match s.low_n_coeff with
    | none => 0
    | some c => B.divParK (c * V) N + B.divParK (c * floor3 N o.density_floor) V
  let b : F3 nz := if o.low_n_diffuse_perp then
      g.perpLapIndex (fun i j k => o.density_floor / floor3 N (1e-3 * o.density_floor) i j k) NV else 0
  let c ← (if o.low_p_diffuse_perp then do
      let P ← need s.pressure
      .ok (g.perpLapIndex (fun i j k => o.pressure_floor / floor3 P (1e-3 * o.pressure_floor) i j k) NV)
    else .ok 0 : Except Err (F3 nz))
  .ok (a + b + c)

/-- Hyper-diffusion, `src/evolve_momentum.cxx:206-209`. -/
noncomputable def momentumHyper (o : MomentumOpts) (g : Grid) (B : RhsOps nz) (NV : F3 nz) : F3 nz :=
  if 0 < o.hyper_z then -(fun i j k => o.hyper_z * ((g.dz i j) ^ 2) ^ 2 * B.d4dz4 NV i j k) else 0

/-- `EvolveMomentum::finally`, `src/evolve_momentum.cxx:88-226`: `ddt(NV)`.  `NV_err` is the member set by `transform`
(line 84). -/
noncomputable def momentumRhs (o : MomentumOpts) (g : Grid) (B : RhsOps nz) (lim : Limiter) (NV_err : F3 nz)
    (s : SpeciesIn nz) (f : FieldsIn nz) : Except Err (F3 nz) := do
  let AA ← need s.AA
  let NV ← need s.momentum
  let N ← need s.density
  let w ← waveSpeed s f
  let V ← need s.velocity
  let low ← momentumLow o g B s NV N V
  let ddt := momentumElectric o g B lim s f NV N V w
    - AA • g.divParFvv3 B lim (floor3 N o.density_floor) V w o.fix_momentum_boundary_flux
    + momentumPressure B s + momentumFlutter g B s f NV V + low + momentumHyper o g B NV + s.momentum_source.getD 0 + NV_err
  match f.scale_timederivs with
  | none => .ok ddt
  | some sc => .ok (ddt * sc)

end
end Hermes
