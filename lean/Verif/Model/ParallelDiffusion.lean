import Verif.Model.Sheath
import Verif.Model.ParOps
import Mathlib.Analysis.SpecialFunctions.Log.Basic
import Mathlib.Analysis.Real.Sqrt
import Mathlib.Analysis.SpecialFunctions.Pow.Real

/-!
# Components built on diffusion along the field

`src/neutral_parallel_diffusion.cxx`, `src/solkit_neutral_parallel_diffusion.cxx`, `src/binormal_stpm.cxx`,
`src/electron_viscosity.cxx`, `include/simple_conduction.hxx`, `src/snb_conduction.cxx`.

Fields are functions on one field line.  `FV::Div_par_K_Grad_par` of BOUT++ is taken to be the arithmetic of
`Div_par_K_Grad_par_mod` (`src/div_ops.cxx`), which is a copy of it that also reports the flow.  A line belongs to one processor, so
that `communicate` does nothing.
-/

namespace Hermes
noncomputable section

/-- `applyBoundary("neumann")`. -/
def Line.neumann (g : Line) (f : Fld ℤ) : Fld ℤ := fun i =>
  if i = g.ystart - 1 ∧ g.firstY = true ∧ g.periodicY = false then f g.ystart
  else if i = g.yend + 1 ∧ g.lastY = true ∧ g.periodicY = false then f g.yend
  else f i

/-- `applyBoundary("dirichlet_o2")`: zero half way between the last cell and the guard cell. -/
def Line.dirichlet (g : Line) (f : Fld ℤ) : Fld ℤ := fun i =>
  if i = g.ystart - 1 ∧ g.firstY = true ∧ g.periodicY = false then -f g.ystart
  else if i = g.yend + 1 ∧ g.lastY = true ∧ g.periodicY = false then -f g.yend
  else f i

/-- `FV::Div_par_K_Grad_par(K, f, bndry_flux)`. -/
def Line.divK (g : Line) (K f : Fld ℤ) (bndry_flux : Bool := true) : Fld ℤ := fun i => g.divParKGradPar K f bndry_flux i

/-! ## Neutral parallel diffusion -/

/-- Members of `NeutralParallelDiffusion`, `include/neutral_parallel_diffusion.hxx:27-46`. -/
structure NPDOpts where
  dneut : ℝ
  equation_fix : Bool := true
  thermal_conduction : Bool := true
  viscosity : Bool := true

/-- `logPn`, `src/neutral_parallel_diffusion.cxx:49-50`. -/
def logP (g : Line) (P : Fld ℤ) : Fld ℤ := g.neumann fun i => Real.log (floorTo (P i) 1e-7)

/-- `Dn`, lines 43-44. -/
def npdD (g : Line) (o : NPDOpts) (AA : ℝ) (T nu : Fld ℤ) : Fld ℤ := g.dirichlet fun i => o.dneut * T i / (AA * nu i)

/-- `kappa_n`, lines 56-57. -/
def npdKappa (g : Line) (o : NPDOpts) (N D : Fld ℤ) : Fld ℤ := g.neumann fun i => (if o.equation_fix then 5 / 2 else 1) * N i * D i

/-- `E`, lines 60-64. -/
def npdEnergy (g : Line) (o : NPDOpts) (N T P D : Fld ℤ) : Fld ℤ := fun i =>
  g.divK (fun i => D i * (if o.equation_fix then 5 / 2 else 3 / 2) * P i) (logP g P) true i
    + if o.thermal_conduction then g.divK (npdKappa g o N D) T true i else 0

/-- `F`, lines 77-80. -/
def npdForce (g : Line) (o : NPDOpts) (N V NV P D : Fld ℤ) : Fld ℤ := fun i =>
  g.divK (fun i => NV i * D i) (logP g P) true i + g.divK (fun i => 2 / 5 * npdKappa g o N D i) V true i

/-- `Pn`, lines 26-27. -/
def npdPressure (n : String) (N T : Fld ℤ) : Prog ℤ (Fld ℤ) := do
  let b ← isSetFinal (.sp n .pressure)
  if b then getF n .pressure else pure fun i => N i * T i

/-- Lines 67-82. -/
def npdMomentum (g : Line) (o : NPDOpts) (N P D : Fld ℤ) (n : String) : Prog ℤ Unit := do
  let b ← isSetFinal (.sp n .velocity)
  if b && o.viscosity then do
    let V ← getF n .velocity
    let NV ← getF n .momentum
    addF n .momentum_source (npdForce g o N V NV P D)
  else pure ()

/-- Lines 22-82. -/
def npdSources (g : Line) (o : NPDOpts) (n : String) : Prog ℤ Unit := do
  let nu ← getF n .collision_frequency
  let AA ← getR n .AA
  let N ← getF n .density
  let T ← getF n .temperature
  let P ← npdPressure n N T
  let D := npdD g o AA T nu
  addF n .density_source (g.divK (fun i => D i * N i) (logP g P))
  addF n .energy_source (npdEnergy g o N T P D)
  npdMomentum g o N P D n

open Classical in
/-- Charged species are skipped, lines 17-20, and `src/solkit_neutral_parallel_diffusion.cxx:16-19`. -/
def ifNeutral (n : String) (m : Prog ℤ Unit) : Prog ℤ Unit := do
  let c ← isSet (.sp n .charge)
  if c then do
    let q ← getR n .charge
    if q ≠ 0 then pure () else m
  else m

/-- `NeutralParallelDiffusion::transform`, lines 8-98, for the species `names`. -/
def neutralParallelDiffusion (g : Line) (o : NPDOpts) (names : List String) : Prog ℤ Unit :=
  names.forM fun n => ifNeutral n (npdSources g o n)

/-! ## SOL-KiT neutral diffusion -/

/-- Members of `SOLKITNeutralParallelDiffusion`. -/
structure SolkitOpts where
  area_norm : ℝ
  neutral_temperature : ℝ

open Classical in
/-- One term of the inverse mean free path, `src/solkit_neutral_parallel_diffusion.cxx:27-43`. -/
def solkitTerm (o : SolkitOpts) (value : Fld ℤ) (n : String) : Prog ℤ (Fld ℤ) :=
  if n = "e" then do
    let N ← getF n .density
    pure fun i => value i + 8.8e-21 / o.area_norm * N i
  else do
    let c ← isSet (.sp n .charge)
    if c then do
      let q ← getR n .charge
      let N ← getF n .density
      if q ≠ 0 then pure fun i => value i + 3e-19 / o.area_norm * N i
      else pure fun i => value i + 8.8e-21 / o.area_norm * N i
    else do
      let N ← getF n .density
      pure fun i => value i + 8.8e-21 / o.area_norm * N i

/-- `Dn`, lines 51-52. -/
def solkitD (g : Line) (o : SolkitOpts) (AA : ℝ) (inv_mfp : Fld ℤ) : Fld ℤ :=
  g.dirichlet fun i => Real.sqrt (2 * o.neutral_temperature / AA) / (2 * inv_mfp i)

/-- Lines 22-62. -/
def solkitSources (g : Line) (o : SolkitOpts) (names : List String) (n : String) : Prog ℤ Unit := do
  let inv_mfp ← names.foldlM (solkitTerm o) (fun _ => 0)
  let AA ← getR n .AA
  let N ← getF n .density
  addF n .density_source (g.divK (fun i => solkitD g o AA inv_mfp i * N i) (logP g fun i => N i * o.neutral_temperature))

/-- `SOLKITNeutralParallelDiffusion::transform`, lines 9-64. -/
def solkitNeutralDiffusion (g : Line) (o : SolkitOpts) (names : List String) : Prog ℤ Unit :=
  names.forM fun n => ifNeutral n (solkitSources g o names n)

/-! ## Binormal diffusion of the stellarator two point model -/

/-- Members of `BinormalSTPM`, `src/binormal_stpm.cxx:20-41`. -/
structure StpmOpts where
  Theta : ℝ
  chi : ℝ
  D : ℝ
  nu : ℝ

/-- `species.isSet(v) ? GET_NOBOUNDARY(Field3D, species[v]) : 0.0`. -/
def readOrZero (n : String) (v : Var) : Prog ℤ (Fld ℤ) := do
  let b ← isSet (.sp n v)
  if b then getNoBndryF n v else pure fun _ => 0

/-- Body of the loop, `src/binormal_stpm.cxx:54-75`. -/
def stpmSpecies (g : Line) (o : StpmOpts) (n : String) : Prog ℤ Unit := do
  let AA ← getR n .AA
  let N ← readOrZero n .density
  let T ← readOrZero n .temperature
  let NV ← readOrZero n .momentum
  addF n .energy_source fun i => 1 / o.Theta * g.divK (fun i => o.chi / o.Theta * N i) T false i
  addF n .momentum_source fun i => 1 / o.Theta * g.divK (fun _ => AA * (o.nu / o.Theta)) NV false i
  addF n .density_source fun i => 1 / o.Theta * g.divK (fun _ => o.D / o.Theta) N false i

/-- `BinormalSTPM::transform`, `src/binormal_stpm.cxx:48-76`. -/
def binormalSTPM (g : Line) (o : StpmOpts) (names : List String) : Prog ℤ Unit := names.forM (stpmSpecies g o)

/-! ## Electron viscosity -/

/-- `eta`, `src/electron_viscosity.cxx:41-56`; `gradPar` is `Grad_par` of BOUT++. -/
def electronEta (g : Line) (gradPar : Fld ℤ → Fld ℤ) (alpha : ℝ) (nu P V : Fld ℤ) : Fld ℤ :=
  let eta : Fld ℤ := fun i => 4 / 3 * 0.73 * P i * (1 / nu i)
  if alpha > 0 then g.neumann fun i => eta i / (1 + |eta i * gradPar V i / (alpha * P i)|) else eta

/-- `ElectronViscosity::transform`, lines 20-61; `B` is the field strength. -/
def electronViscosity (g : Line) (gradPar : Fld ℤ → Fld ℤ) (B : Fld ℤ) (alpha : ℝ) : Prog ℤ Unit := do
  let p ← isSetFinal (.sp "e" .pressure)
  throwIf (p = false)
  let v ← isSetFinal (.sp "e" .velocity)
  throwIf (v = false)
  let nu ← getF "e" .collision_frequency
  let P ← getF "e" .pressure
  let V ← getF "e" .velocity
  addF "e" .momentum_source fun i =>
    Real.sqrt (B i) * g.divK (fun i => electronEta g gradPar alpha nu P V i / B i) (fun i => Real.sqrt (B i) * V i) true i

/-! ## Simple conduction -/

/-- Members of `SimpleConduction`, `include/simple_conduction.hxx:17-57`. -/
structure ConductionOpts where
  kappa0 : ℝ
  Nnorm : ℝ
  Tnorm : ℝ
  temperature : ℝ
  density : ℝ
  boundary_flux : Bool := false

/-- Constructor of `SimpleConduction`, `include/simple_conduction.hxx:17-57`: the constants of `SI`, the units, and the settings `kappa_coefficient`,
`conduction_temperature`, `conduction_density` and `conduction_boundary_flux`, `none` if they are not in the input.  `pow(x, 1.5)` is the real power. -/
def conductionSettings (Mp qe e0 Tnorm Nnorm Omega_ci : ℝ) (name : String) (coefficient temperature density : Option ℝ) (flux : Option Bool) :
    ConductionOpts :=
  let kappa_coefficient := coefficient.getD (if name = "e" then 3.16 else 3.9)
  { kappa0 := if name = "e" then
        kappa_coefficient * 6 * Real.sqrt (2 * Mp) * (Real.pi * qe * Tnorm) ^ (1.5 : ℝ) * e0 ^ 2 / ((qe ^ 2) ^ 2 * Nnorm) * Omega_ci
      else kappa_coefficient * 12 * Real.sqrt Mp * (Real.pi * qe * Tnorm) ^ (1.5 : ℝ) * e0 ^ 2 / ((qe ^ 2) ^ 2 * Nnorm) * Omega_ci
    Nnorm := Nnorm
    Tnorm := Tnorm
    temperature := temperature.getD (-1) / Tnorm
    density := density.getD (-1) / Nnorm
    boundary_flux := flux.getD false }

/-- `coulomb_log`, line 78. -/
def coulombLog (o : ConductionOpts) (N T : ℝ) : ℝ := 6.6 - 0.5 * Real.log (N * o.Nnorm / 1e20) + 1.5 * Real.log (T * o.Tnorm)

/-- `Tcoef`, lines 65-68. -/
def conductionT (o : ConductionOpts) (T : Fld ℤ) : Fld ℤ := if o.temperature > 0 then fun _ => o.temperature else T

/-- `kappa_par`, line 81. -/
def conductionKappa (o : ConductionOpts) (AA : ℝ) (N T : Fld ℤ) : Fld ℤ := fun i =>
  o.kappa0 * conductionT o T i ^ (2.5 : ℝ) / (coulombLog o (N i) (conductionT o T i) * Real.sqrt AA)

/-- `SimpleConduction::transform`, lines 59-88. -/
def simpleConduction (g : Line) (o : ConductionOpts) (n : String) : Prog ℤ Unit := do
  let T ← getNoBndryF n .temperature
  let N ← (if o.density > 0 then pure fun _ => o.density else getNoBndryF n .density : Prog ℤ (Fld ℤ))
  let AA ← getR n .AA
  addF n .energy_source (g.divK (conductionKappa o AA N T) T o.boundary_flux)

/-! ## SNB conduction -/

/-- `mesh->getCoordinates()->dy`, kept with the state so that it can be seen to change. -/
def dyKey : Key := .top "mesh:dy"

/-- `snb.divHeatFlux(Te, Ne)` of BOUT++ for a given `dy`; `none` is an exception. -/
def snbFlux (divHeatFlux : Fld ℤ → Fld ℤ → Fld ℤ → Option (Fld ℤ)) (dy T N : Fld ℤ) : Prog ℤ (Fld ℤ) :=
  match divHeatFlux dy T N with
  | some q => pure q
  | none => M.throw .custom

/-- `SNBConduction::transform`, `src/snb_conduction.cxx:7-39`; the units are numbers here. -/
def snbConduction (divHeatFlux : Fld ℤ → Fld ℤ → Fld ℤ → Option (Fld ℤ)) (rho_s0 Tnorm Nnorm Omega_ci : ℝ) : Prog ℤ Unit := do
  let Te ← getF "e" .temperature
  let Ne ← getF "e" .density
  let dy ← getNonFinal asField dyKey
  setWithAttrs dyKey (.field fun i => dy i * rho_s0)
  let q ← snbFlux divHeatFlux (fun i => dy i * rho_s0) (fun i => Te i * Tnorm) (fun i => Ne i * Nnorm)
  setWithAttrs dyKey (.field dy)
  subtractF "e" .energy_source fun i => q i / (Tnorm * Nnorm * Omega_ci)

end
end Hermes
