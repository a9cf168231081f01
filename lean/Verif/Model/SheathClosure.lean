import Verif.Model.Sheath
import Mathlib.Analysis.SpecialFunctions.Pow.Real

/-!
# 2D sheath closure (`src/sheath_closure.cxx`) and scaling of time derivatives (`include/scale_timederivs.hxx`)

`sqrt` of a negative number is not modelled (NaN in the code): the theorems assume non-negative densities and temperatures
where a root is taken.
-/

namespace Hermes

section
variable {ι : Type}

/-- Options, `src/sheath_closure.cxx:9-30`. -/
structure ClosureOpts where
  L_par : ℝ
  sheath_gamma : ℝ
  sheath_gamma_ions : ℝ
  offset : ℝ
  sinks : Bool

/-- Electron heat flux, lines 55-64. -/
noncomputable def closureElectronHeat (o : ClosureOpts) (n : Fld ι) : Prog ι Unit := do
  let b ← isSet (.sp "e" .temperature)
  if b then do
    let Te ← getF "e" .temperature
    let qsheath : Fld ι := fun i => floorTo (o.sheath_gamma * n i * Te i * Real.sqrt (Te i)) 0
    subtractF "e" .energy_source fun i => qsheath i / o.L_par
  else pure ()

/-- Body of the first loop over species, lines 75-84. -/
noncomputable def closureTotals (a : Fld ι × Fld ι) (name : String) : Prog ι (Fld ι × Fld ι) := do
  let A ← getR name .AA
  let Ns ← getF name .density
  let Ts ← getF name .temperature
  pure (fun i => a.1 i + Ns i * Ts i, fun i => a.2 i + A * Ns i)

/-- Body of the second loop over species, lines 88-105. -/
noncomputable def closureSink (o : ClosureOpts) (c_s : Fld ι) (name : String) : Prog ι Unit := do
  let Ns ← getF name .density
  let sheath_flux : Fld ι := fun i => floorTo (Ns i * c_s i) 0
  subtractF name .density_source fun i => sheath_flux i / o.L_par
  if name ≠ "e" then do
    let Ts ← getF name .temperature
    let qsheath : Fld ι := fun i => floorTo (o.sheath_gamma_ions * Ts i * sheath_flux i) 0
    subtractF name .energy_source fun i => qsheath i / o.L_par
  else pure ()

/-- Sinks, lines 66-106. -/
noncomputable def closureSinks (o : ClosureOpts) (names : List String) : Prog ι Unit := do
  let tot ← names.foldlM closureTotals (fun _ => 0, fun _ => 0)
  names.forM (closureSink o fun i => Real.sqrt (tot.1 i / tot.2 i))

/-- `SheathClosure::transform`, lines 35-107.  `names` are the children of `state["species"]`. -/
noncomputable def sheathClosure (o : ClosureOpts) (names : List String) : Prog ι Unit := do
  let phi ← get asField (.top "fields:phi")
  let n ← getF "e" .density
  let DivJsh : Fld ι := fun i => n i * (phi i - o.offset) / o.L_par
  add (.top "fields:DivJextra") (.field DivJsh)
  addF "e" .density_source DivJsh
  closureElectronHeat o n
  if o.sinks then closureSinks o names else pure ()

/-! ## Scaling of time derivatives -/

/-- `dt`, `include/scale_timederivs.hxx:23-27`. -/
noncomputable def parallelTime (g_22 dy Te : Fld ι) : Fld ι := fun i =>
  g_22 i * dy i ^ 2 / (floorTo (Te i) 1e-5) ^ (5 / 2 : ℝ)

/-- `dt / max(dt, true)`, line 28.  `first :: rest` are the cells of the domain, without guard cells, on all processors
(BOUT++ `max(f, allpe)` with the default region). -/
noncomputable def scalingOf (first : ι) (rest : List ι) (dt : Fld ι) : Fld ι := fun i =>
  dt i / rest.foldl (fun a j => max a (dt j)) (dt first)

/-- `ScaleTimeDerivs::transform`, lines 20-31.  The last line is an assignment which does not test the final flags. -/
noncomputable def scaleTimeDerivs (g_22 dy : Fld ι) (first : ι) (rest : List ι) : Prog ι Unit := do
  let Te ← getF "e" .temperature
  fun st => (.ok (), st.force (.top "scale_timederivs") (.field (scalingOf first rest (parallelTime g_22 dy Te))))

/-- The quantities that are evolved in time: one constructor for each call of `solver->add`. -/
inductive Evolved where
  | N | P | E | NV            -- evolve_density, evolve_pressure, evolve_energy, evolve_momentum
  | mixedN | mixedP | mixedNV -- neutral_mixed
  | fullN | fullP | fullV     -- full_velocity
  | Vort | relaxVort | phi1   -- vorticity, relax_potential
deriving DecidableEq

/-- The components whose `finally` contains `if (state.isSet("scale_timederivs")) ddt(...) *= ...`:
`src/evolve_density.cxx:286-288`, `src/evolve_pressure.cxx:429-431`, `src/evolve_energy.cxx:372-374`,
`src/evolve_momentum.cxx:224-226`, `src/neutral_mixed.cxx:489-494`.  There is no such statement in `src/full_velocity.cxx`,
`src/vorticity.cxx` and `src/relax_potential.cxx`. -/
def Evolved.scaled : Evolved → Bool
  | .N | .P | .E | .NV | .mixedN | .mixedP | .mixedNV => true
  | .fullN | .fullP | .fullV | .Vort | .relaxVort | .phi1 => false

/-- The last step of `finally`: from the right hand side to the time derivative that the solver gets. -/
noncomputable def finalDerivative (e : Evolved) (rhs : Fld ι) : Prog ι (Fld ι) :=
  if e.scaled then do
    let b ← isSet (.top "scale_timederivs")
    if b then do
      let s ← get asField (.top "scale_timederivs")
      pure fun i => rhs i * s i
    else pure rhs
  else pure rhs

/-- With `evolve_log` the solver gets `ddt(log f) = ddt(f) / f`: `src/evolve_density.cxx:290-292`,
`src/evolve_pressure.cxx:433-435`, `src/evolve_energy.cxx:376-378`. -/
noncomputable def logDerivative (f ddt : Fld ι) : Fld ι := fun i => ddt i / f i

end
end Hermes
