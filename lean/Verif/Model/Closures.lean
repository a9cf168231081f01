import Verif.Model.Value
import Verif.Model.Text
import Mathlib.Algebra.BigOperators.Fin

/-!
# Components that publish or derive species variables

Programs on the state, with the access functions in the order of the C++ code.  `names` are the children of
`state["species"]` in the order of the map.  All cells are treated alike (`floor(field, …)` acts on all cells).
-/

namespace Hermes

section
variable {ι : Type}

/-- `floor(field, min)`. -/
noncomputable def floorF (f : Fld ι) (lo : ℝ) : Fld ι := fun i => floorTo (f i) lo

/-! ## Quasineutral -/

/-- The lambda of `std::accumulate`, `src/quasineutral.cxx:31-43`. -/
noncomputable def quasineutralTerm (name : String) (value : Fld ι) (n : String) : Prog ι (Fld ι) :=
  if n = name then pure value else do
    let c ← isSet (.sp n Var.charge)
    let d ← isSet (.sp n Var.density)
    if c && d then do
      let N ← getNoBndryF n Var.density
      let Z ← getR n Var.charge
      pure (fun i => value i + N i * Z)
    else pure value

/-- `Quasineutral::transform`, `src/quasineutral.cxx:19-56`. -/
noncomputable def quasineutral (name : String) (charge AA : ℝ) (names : List String) : Prog ι Unit := do
  let rho ← names.foldlM (quasineutralTerm name) (fun _ => 0)
  setF name Var.density (floorF (fun i => rho i / (-charge)) 0)
  setR name Var.charge charge
  setR name Var.AA AA

/-! ## Zero current -/

/-- Body of the loop, `src/zero_current.cxx:27-55`.  `none` is the field that is not allocated. -/
noncomputable def zeroCurrentTerm (name : String) (current : Option (Fld ι)) (n : String) : Prog ι (Option (Fld ι)) :=
  if n = name then pure current else do
    let d ← isSet (.sp n Var.density)
    let c ← isSet (.sp n Var.charge)
    if !(d && c) then pure current
    else do
      let v ← isSetFinalNoBoundary (.sp n Var.velocity)
      if v then do
        let N ← getNoBndryF n Var.density
        let Z ← getR n Var.charge
        let V ← getNoBndryF n Var.velocity
        pure (match current with
          | none => some fun i => Z * N i * V i
          | some J => some fun i => J i + Z * N i * V i)
      else pure current

/-- Lines 57-73, once a current was found. -/
noncomputable def zeroCurrentSet (name : String) (charge : ℝ) : Option (Fld ι) → Prog ι Unit
  | none => M.throw .custom
  | some current => do
    let v ← isSet (.sp name Var.velocity)
    if v then M.throw .custom
    else do
      let N ← getNoBndryF name Var.density
      setF name Var.velocity (fun i => current i / (-charge * floorTo (N i) 1e-5))

/-- `ZeroCurrent::transform`, `src/zero_current.cxx:18-74`. -/
noncomputable def zeroCurrent (name : String) (charge : ℝ) (names : List String) : Prog ι Unit := do
  let current ← names.foldlM (zeroCurrentTerm name) none
  zeroCurrentSet name charge current

/-! ## Electron force balance -/

/-- Lines 30-34. -/
noncomputable def otherForces (force : Fld ι) : Prog ι (Fld ι) := do
  let m ← isSetFinal (.sp "e" Var.momentum_source)
  if m then do
    let F ← getF "e" Var.momentum_source
    pure (fun i => force i + F i)
  else pure force

/-- Body of the loop, lines 41-56. -/
noncomputable def forceOn (Epar : Fld ι) (n : String) : Prog ι Unit :=
  if n = "e" then pure () else do
    let d ← isSetFinal (.sp n Var.density)
    if !d then pure ()
    else do
      let c ← isSetFinal (.sp n Var.charge)
      if !c then pure ()
      else do
        let N ← getNoBndryF n Var.density
        let Z ← getR n Var.charge
        addF n Var.momentum_source (fun i => Z * N i * Epar i)

/-- `ElectronForceBalance::transform`, `src/electron_force_balance.cxx:8-57`; `gradPar` is `Grad_par` of BOUT++.
Returns the member variable `Epar`. -/
noncomputable def electronForceBalance (gradPar : Fld ι → Fld ι) (names : List String) : Prog ι (Fld ι) := do
  let p ← isSetFinal (.top "fields:phi")
  throwIf (p = true)
  let Pe ← getF "e" Var.pressure
  let Ne ← getNoBndryF "e" Var.density
  let Z ← getR "e" Var.charge
  throwIf (Z ≠ -1)
  let force ← otherForces (fun i => - gradPar Pe i)
  let Epar : Fld ι := fun i => force i / floorTo (Ne i) 1e-5
  names.forM (forceOn Epar)
  pure Epar

/-! ## Sound speed -/

/-- The accumulators `total_pressure`, `total_density`, `fastest_wave`. -/
structure Waves (ι : Type) where
  P : Fld ι
  rho : Fld ι
  fastest : Fld ι

/-- Lines 21-23. -/
noncomputable def addPressure (n : String) (a : Waves ι) : Prog ι (Waves ι) := do
  let p ← isSet (.sp n Var.pressure)
  if p then do
    let P ← getNoBndryF n Var.pressure
    pure { a with P := fun i => a.P i + P i }
  else pure a

/-- Lines 34-36. -/
noncomputable def addMass (n : String) (a : Waves ι) : Prog ι (Waves ι) := do
  let d ← isSet (.sp n Var.density)
  if d then do
    let N ← getNoBndryF n Var.density
    let A ← getR n Var.AA
    pure { a with rho := fun i => a.rho i + N i * A }
  else pure a

/-- Lines 38-44. -/
noncomputable def addWave (temperature_floor : ℝ) (n : String) (AA : ℝ) (a : Waves ι) : Prog ι (Waves ι) := do
  let t ← isSet (.sp n Var.temperature)
  if t then do
    let T ← getNoBndryF n Var.temperature
    pure { a with fastest := fun i => max (a.fastest i) (Real.sqrt (floorTo (T i) temperature_floor / AA)) }
  else pure a

/-- Lines 31-46. -/
noncomputable def addSpeed (temperature_floor : ℝ) (n : String) (a : Waves ι) : Prog ι (Waves ι) := do
  let m ← isSet (.sp n Var.AA)
  if m then do
    let AA ← getR n Var.AA
    let b ← addMass n a
    addWave temperature_floor n AA b
  else pure a

/-- Body of the loop, lines 18-47. -/
noncomputable def soundSpeedTerm (electron_dynamics : Bool) (temperature_floor : ℝ) (a : Waves ι) (n : String) :
    Prog ι (Waves ι) := do
  let b ← addPressure n a
  if n = "e" ∧ electron_dynamics = false then pure b else addSpeed temperature_floor n b

open Classical in
/-- `SoundSpeed::transform`, `src/sound_speed.cxx:13-67`.  `alfven` is `beta_norm * Bxy` if `alfven_wave` is on.  A
negative total pressure gives NaN, which `set` rejects. -/
noncomputable def soundSpeed (electron_dynamics : Bool) (temperature_floor factor : ℝ) (alfven : Option (Fld ι))
    (names : List String) : Prog ι Unit := do
  let a ← names.foldlM (soundSpeedTerm electron_dynamics temperature_floor) ⟨fun _ => 0, fun _ => 0, fun _ => 0⟩
  let rho := floorF a.rho 1e-10
  throwIf (¬ ∀ i, 0 ≤ a.P i / rho i)
  let cs : Fld ι := fun i => Real.sqrt (a.P i / rho i)
  let f1 : Fld ι := fun i => max (a.fastest i) (cs i)
  let f2 : Fld ι := match alfven with
    | none => f1
    | some b => fun i => max (f1 i) (b i / Real.sqrt (rho i))
  set (.top "sound_speed") (.field cs)
  set (.top "fastest_wave") (.field fun i => f2 i * factor)

/-! ## Simple prescriptions -/

/-- Lines 11-22 of the constructor of `FixedFractionIons`: the error branch is the wrong number of `@`.
`toReal` is `stringToReal` of BOUT++. -/
noncomputable def parseFractions (toReal : Str → ℝ) : List Str → Option (List (String × ℝ))
  | [] => some []
  | p :: ps =>
    match strsplit '@' p with
    | [s, f] => (parseFractions toReal ps).map fun r => (String.ofList (trim s), toReal (trim f)) :: r
    | _ => none

/-- `FixedFractionIons::FixedFractionIons`, `src/fixed_fraction_ions.cxx:3-29`. -/
noncomputable def fixedFractionOptions (toReal : Str → ℝ) (text : Str) : Option (List (String × ℝ)) :=
  match parseFractions toReal (strsplit ',' text) with
  | some [] => none
  | r => r

/-- `FixedFractionIons::transform`, `src/fixed_fraction_ions.cxx:31-41`. -/
noncomputable def fixedFractionIons (fractions : List (String × ℝ)) : Prog ι Unit := do
  let Ne ← getF "e" Var.density
  fractions.forM fun p => setF p.1 Var.density (fun i => Ne i * p.2)

/-- The common tail: `if (isSetFinalNoBoundary(density)) { N = …; set(pressure, N * T); }`. -/
noncomputable def setPressureFrom (name : String) (T : Fld ι) : Prog ι Unit := do
  let d ← isSetFinalNoBoundary (.sp name Var.density)
  if d then do
    let N ← getNoBndryF name Var.density
    setF name Var.pressure (fun i => N i * T i)
  else pure ()

/-- `Isothermal::transform`, `src/isothermal.cxx:22-34`.  (The temperature is stored as a number.) -/
noncomputable def isothermal (name : String) (T : ℝ) : Prog ι Unit := do
  setR name Var.temperature T
  setPressureFrom name (fun _ => T)

/-- `FixedTemperature::transform`, `include/fixed_temperature.hxx:39-50`. -/
noncomputable def fixedTemperature (name : String) (T : Fld ι) : Prog ι Unit := do
  setF name Var.temperature T
  setPressureFrom name T

/-- `SetTemperature::transform`, `include/set_temperature.hxx:54-71`. -/
noncomputable def setTemperature (name temperature_from : String) : Prog ι Unit := do
  let T ← getNoBndryF temperature_from Var.temperature
  setF name Var.temperature T
  setPressureFrom name T

/-- Publishing the charge and mass. -/
noncomputable def setChargeIf (name : String) (charge : ℝ) : Prog ι Unit :=
  if charge ≠ 0 then setR name Var.charge charge else pure ()

/-- `FixedDensity::transform`, `include/fixed_density.hxx:37-45`. -/
noncomputable def fixedDensity (name : String) (charge AA : ℝ) (N : Fld ι) : Prog ι Unit := do
  setChargeIf name charge
  setR name Var.AA AA
  setF name Var.density N

/-- `FixedVelocity::transform`, `include/fixed_velocity.hxx:35-46`. -/
noncomputable def fixedVelocity (name : String) (V : Fld ι) : Prog ι Unit := do
  setF name Var.velocity V
  let d ← isSetFinalNoBoundary (.sp name Var.density)
  if d then do
    let N ← getNoBndryF name Var.density
    let AA ← getR name Var.AA
    setF name Var.momentum (fun i => AA * N i * V i)
  else pure ()

/-- `SimplePump::transform`, `include/simple_pump.hxx:34-43`. -/
noncomputable def simplePump (name : String) (sink_shape : Fld ι) (residence_time : ℝ) : Prog ι Unit := do
  let N ← getNoBndryF name Var.density
  addF name Var.density_source (fun i => (sink_shape i * N i) * (-1 / residence_time))

/-! ## Evolving variables: the part of `transform` that publishes -/

/-- `EvolveDensity::transform`, `src/evolve_density.cxx:131-213`.  `N` is the solver's density after
`exp(logN)`, communication and the optional X boundary (whose cells are cells like the others).  `low_n_coeff`
is not published; `source` is `final_source`. -/
noncomputable def evolveDensity (name : String) (charge AA : ℝ) (N source : Fld ι) : Prog ι Unit := do
  setF name Var.density (floorF N 0)
  setR name Var.AA AA
  setChargeIf name charge
  addF name Var.density_source source

/-- `EvolvePressure::transform`, `src/evolve_pressure.cxx:163-219`.  `P` is the solver's pressure after
`exp(logP)`, communication and the optional X boundary. -/
noncomputable def evolvePressure (name : String) (density_floor : ℝ) (P : Fld ι) : Prog ι Unit := do
  let N ← getNoBndryF name Var.density
  let Pfloor := floorF P 0
  let T : Fld ι := fun i => Pfloor i / floorTo (N i) density_floor
  setF name Var.pressure (fun i => N i * T i)
  setF name Var.temperature T

/-- `neumann_boundary_average_z`, `src/evolve_energy.cxx:149-181` (and `evolve_density.cxx:141-171`,
`evolve_pressure.cxx:173-203`), for a processor with both X boundaries.  The loops write only the guard cells and read
only the first and last interior cell, so the value of every cell is given directly. -/
noncomputable def averageZ {nz : ℕ} (xstart xend ystart yend : ℤ) (P : Fld (ℤ × ℤ × Fin nz)) : Fld (ℤ × ℤ × Fin nz) :=
  fun c =>
    let avg : ℤ → ℝ := fun x => (∑ k, P (x, c.2.1, k)) / nz
    if ystart ≤ c.2.1 ∧ c.2.1 ≤ yend then
      if c.1 = xstart - 1 ∨ c.1 = xstart - 2 then 2 * avg xstart - P (xstart, c.2.1, c.2.2)
      else if c.1 = xend + 1 ∨ c.1 = xend + 2 then 2 * avg xend - P (xend, c.2.1, c.2.2)
      else P c
    else P c

/-- `EvolveEnergy::transform`, `src/evolve_energy.cxx:123-189`.  `E` is the solver's energy; `bndry` stands for
lines 147-181: `applyBoundary("neumann")` and the optional Z average in the X boundary. -/
noncomputable def evolveEnergy (name : String) (density_floor Cv : ℝ) (bndry : Fld ι → Fld ι) (E : Fld ι) :
    Prog ι Unit := do
  let N ← getNoBndryF name Var.density
  let V ← getNoBndryF name Var.velocity
  let AA ← getR name Var.AA
  let P : Fld ι := bndry fun i =>
    let p := (E i - 0.5 * AA * N i * (V i) ^ 2) / Cv
    if p < 0 then 0 else p
  let T : Fld ι := fun i => P i / floorTo (N i) density_floor
  setF name Var.pressure (fun i => N i * T i)
  setF name Var.temperature T

/-- Member variables of `EvolveMomentum`, `include/evolve_momentum.hxx`. -/
structure MomentumMembers (ι : Type) where
  NV : Fld ι
  V : Fld ι
  NV_solver : Fld ι
  NV_err : Fld ι

/-- `EvolveMomentum::transform`, `src/evolve_momentum.cxx:66-86`; `bndry` is `V.applyBoundary()`. -/
noncomputable def evolveMomentum (name : String) (density_floor : ℝ) (bndry : Fld ι → Fld ι) (m : MomentumMembers ι) :
    Prog ι (MomentumMembers ι) := do
  let N ← getNoBndryF name Var.density
  let AA ← getR name Var.AA
  let V : Fld ι := bndry fun i => m.NV i / (AA * floorTo (N i) density_floor)
  setF name Var.velocity V
  let NV : Fld ι := fun i => AA * N i * V i
  setF name Var.momentum NV
  pure { NV := NV, V := V, NV_solver := m.NV, NV_err := fun i => NV i - m.NV i }

open Classical in
/-- The effect of `EvolveMomentum::finally` on the member variables, `src/evolve_momentum.cxx:88-246`: the momentum is
read back from the state (lines 96, 122), used for the time derivative (not modelled) and restored (lines 244-245).
`bndry i` says that `i` is a boundary cell: `NV_solver.setBoundaryTo(NV)` copies boundary cells. -/
noncomputable def evolveMomentumFinally (name : String) (isBndry : ι → Prop) (m : MomentumMembers ι) :
    Prog ι (MomentumMembers ι) := do
  let NV ← getF name Var.momentum
  let V ← getF name Var.velocity
  let restored : Fld ι := fun i => if isBndry i then NV i else m.NV_solver i
  pure { NV := restored, V := V, NV_solver := restored, NV_err := m.NV_err }

end
end Hermes
