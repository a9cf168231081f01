import Verif.Model.RhsMomentum

/-!
# `finally` of `evolve_energy`, and the preconditioners

The same conventions as in `Verif/Model/Rhs.lean`.
-/

namespace Hermes

section
variable {nz : ℕ} [NeZero nz]

/-! ## `evolve_energy` -/

/-- Options and members of `EvolveEnergy`, `src/evolve_energy.cxx:16-118`. -/
structure EnergyOpts where
  Cv : ℝ := 3 / 2
  bndry_flux : Bool := true
  poloidal_flows : Bool := true
  density_floor : ℝ := 1e-5
  thermal_conduction : Bool := true
  kappa_coefficient : ℝ
  kappa_limit_alpha : ℝ := -1
  hyper_z : ℝ := -1

/-- `Esheath`, lines 210-214 and 223-227: energy density between the cells `a` and `b` of a line. -/
noncomputable def sheathEnergy (Cv AA : ℝ) (P N V : F3 nz) (i a b : ℤ) (k : Fin nz) : ℝ :=
  Cv * (0.5 * (P i a k + P i b k)) + 0.5 * AA * (0.5 * (N i a k + N i b k)) * (0.5 * (V i a k + V i b k)) ^ 2

/-- Guard cells of `E`, lines 203-232.  `E` is transformed to field-aligned coordinates, `P`, `N` and `V` are not. -/
noncomputable def energyBoundary (g : Grid) (B : RhsOps nz) (Cv AA : ℝ) (P N V E : F3 nz) : F3 nz :=
  B.fromFA fun i j k =>
    if j = g.ystart - 1 ∧ g.firstY i = true ∧ B.periodicY i = false then
      2 * sheathEnergy Cv AA P N V i (g.ystart - 1) g.ystart k - B.toFA E i g.ystart k
    else if j = g.yend + 1 ∧ g.lastY i = true ∧ B.periodicY i = false then
      2 * sheathEnergy Cv AA P N V i (g.yend + 1) g.yend k - B.toFA E i g.yend k
    else B.toFA E i j k

/-- Parallel flow of energy with the work of the pressure, lines 248-266. -/
noncomputable def energyAdvection (g : Grid) (B : RhsOps nz) (lim : Limiter) (f : FieldsIn nz) (E P V w : F3 nz) : F3 nz :=
  -g.divParMod3 B lim (E + P) V w true
    + (match f.Apar_flutter with
      | none => 0
      | some A => -g.divNG B (E + P) V (-A))

/-- Low-density diffusion, lines 268-273. -/
def energyLow (B : RhsOps nz) (s : SpeciesIn nz) (P T N : F3 nz) : F3 nz :=
  match s.low_n_coeff with
  | none => 0
  | some c => B.divParK (c * T) N + B.divParK c P

/-- Conductivity, lines 278-309: as in `evolve_pressure`, but the pressure has no floor. -/
noncomputable def energyKappa (o : EnergyOpts) (B : RhsOps nz) (P T N nu : F3 nz) (AA : ℝ) : Except Err (F3 nz) :=
  let kappa : F3 nz := fun i j k => o.kappa_coefficient * P i j k * (1 / floor3 nu 1e-10 i j k) / AA
  open Classical in
  if 0 < o.kappa_limit_alpha then
    if ∃ i j k, T i j k / AA < 0 then .error .invalid
    else
      let q_SH := kappa * B.gradPar T
      let q_fl : F3 nz := fun i j k => o.kappa_limit_alpha * N i j k * T i j k * Real.sqrt (T i j k / AA)
      .ok (B.communicate fun i j k => kappa i j k / (1 + |q_SH i j k / floor3 q_fl 1e-10 i j k|))
  else .ok kappa

/-- Heat conduction, lines 276-347. -/
noncomputable def energyConduction (o : EnergyOpts) (g : Grid) (B : RhsOps nz) (s : SpeciesIn nz) (f : FieldsIn nz) (P T N : F3 nz) (AA : ℝ) :
    Except Err (F3 nz) :=
  if o.thermal_conduction then do
    let nu ← need s.collision_frequency
    let kappa ← energyKappa o B P T N nu AA
    let kappa := kappaGuard g B kappa
    let q := g.conduction3 B kappa T false
    match f.Apar_flutter with
    | none => .ok q
    | some A =>
      let db_dot_T := B.communicate (B.bracket T A)
      let b0_dot_T := B.communicate (B.gradPar T)
      .ok (q + (B.divPar (kappa * db_dot_T) - g.divNG B kappa (db_dot_T + b0_dot_T) A))
  else .ok 0

/-- Hyper-diffusion, lines 349-352. -/
noncomputable def energyHyper (o : EnergyOpts) (g : Grid) (B : RhsOps nz) (E : F3 nz) : F3 nz :=
  if 0 < o.hyper_z then -(fun i j k => o.hyper_z * ((g.dz i j) ^ 2) ^ 2 * B.d4dz4 E i j k) else 0

/-- Sources, lines 357-369. -/
def energyEqSources (source V : F3 nz) (s : SpeciesIn nz) : F3 nz := source + s.energy_source.getD 0 + V * s.momentum_source.getD 0

/-- The sum of lines 236-369; `E` has its guard cells. -/
noncomputable def energyTerms (o : EnergyOpts) (g : Grid) (B : RhsOps nz) (lim : Limiter) (source : F3 nz) (s : SpeciesIn nz) (f : FieldsIn nz)
    (E P T N V w cond : F3 nz) : F3 nz :=
  -exbOf g B s.isCharged f E o.bndry_flux o.poloidal_flows + energyAdvection g B lim f E P V w + energyLow B s P T N + cond
    + energyHyper o g B E + energyEqSources source V s

/-- `EvolveEnergy::finally`, `src/evolve_energy.cxx:191-400`: `ddt(E)`.  `E₀` is the energy of the solver.  The check that `pressure_source` is not
set is left out. -/
noncomputable def energyRhs (o : EnergyOpts) (g : Grid) (B : RhsOps nz) (lim : Limiter) (E₀ source : F3 nz)
    (s : SpeciesIn nz) (f : FieldsIn nz) : Except Err (F3 nz) := do
  let P ← need s.pressure
  let T ← need s.temperature
  let N ← need s.density
  let V ← need s.velocity
  let AA ← need s.AA
  let E := energyBoundary g B o.Cv AA P N V E₀
  let w ← waveSpeed s f
  let cond ← energyConduction o g B s f P T N AA
  let ddt := energyTerms o g B lim source s f E P T N V w cond
  match f.scale_timederivs with
  | none => .ok ddt
  | some sc => .ok (ddt * sc)

/-- With `evolve_log`, lines 376-378: `ddt(logE)`. -/
noncomputable def logEnergyRhs (ddt E : F3 nz) : F3 nz := fun i j k => ddt i j k / E i j k

/-! ## Preconditioners -/

/-- Time derivatives of the variables of one species: `ddt(P)`, `ddt(logP)`, `ddt(E)`, `ddt(logE)`.  The solver knows only the one that evolves. -/
structure Derivs (nz : ℕ) where
  P : F3 nz
  logP : F3 nz
  E : F3 nz
  logE : F3 nz

/-- The variable that evolves: `solver->add(P, …)` or `add(logP, …)`, `src/evolve_pressure.cxx:39-64`; `add(E, …)` or `add(logE, …)`,
`src/evolve_energy.cxx:34-55`. -/
inductive Evolving
  | P | logP | E | logE

def Derivs.get (d : Derivs nz) : Evolving → F3 nz
  | .P => d.P
  | .logP => d.logP
  | .E => d.E
  | .logE => d.logE

def Derivs.put (d : Derivs nz) (r : F3 nz) : Evolving → Derivs nz
  | .P => { d with P := r }
  | .logP => { d with logP := r }
  | .E => { d with E := r }
  | .logE => { d with logE := r }

/-- What the solver does with a preconditioner: it puts the vector `r` into the time derivative of the evolving variable, calls `precon`, and takes the
result from there (BOUT++). -/
def preconditioned (v : Evolving) (precon : Derivs nz → Except Err (Derivs nz)) (d : Derivs nz) (r : F3 nz) : Except Err (F3 nz) :=
  match precon (d.put r v) with
  | .error e => .error e
  | .ok d' => .ok (d'.get v)

/-- `scale_timederivs`, if set. -/
def scaled (f : FieldsIn nz) (c : F3 nz) : F3 nz :=
  match f.scale_timederivs with
  | none => c
  | some sc => c * sc

/-- `EvolvePressure::precon`, `src/evolve_pressure.cxx:576-601`.  `solve b r` is the solution `x` of `x + Div_par(b Grad_par x) = r` by
`InvertParDiv`; `neumann` is `applyBoundary("neumann")`. -/
noncomputable def pressurePrecon (enabled : Bool) (solve : F3 nz → F3 nz → F3 nz) (neumann : F3 nz → F3 nz) (density_floor : ℝ) (kappa : F3 nz)
    (s : SpeciesIn nz) (f : FieldsIn nz) (gamma : ℝ) (d : Derivs nz) : Except Err (Derivs nz) :=
  if enabled then do
    let N ← need s.density
    let coef := scaled f fun i j k => -(2 / 3) * gamma * kappa i j k / floor3 N density_floor i j k
    .ok { d with P := solve coef (neumann d.P) }
  else .ok d

/-- `EvolveEnergy::precon`, `src/evolve_energy.cxx:500-525`: it reads and writes `ddt(P)`. -/
noncomputable def energyPrecon (enabled : Bool) (solve : F3 nz → F3 nz → F3 nz) (neumann : F3 nz → F3 nz) (density_floor : ℝ) (kappa : F3 nz)
    (s : SpeciesIn nz) (f : FieldsIn nz) (gamma : ℝ) (d : Derivs nz) : Except Err (Derivs nz) :=
  if enabled then do
    let N ← need s.density
    let coef := scaled f fun i j k => -gamma * kappa i j k / floor3 N density_floor i j k
    .ok { d with P := solve coef (neumann d.P) }
  else .ok d

end
end Hermes
