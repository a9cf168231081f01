import Verif.Lemmas.AccessTac
import Verif.Props.ComponentOrder
import Verif.Model.Transport
import Verif.Model.Drifts
import Verif.Model.IonViscosity
import Verif.Model.NeutralBoundary
import Verif.Model.NeutralMixed
import Verif.Model.Radiation
import Verif.Model.Recycling
import Verif.Model.SheathClosure
import Verif.Model.SheathSimple
import Verif.Model.Controllers

/-!
# What the components read, set and add to (C82)

One component for each `transform` that is a program on the state, with its declaration and the proof that the declaration is true.  `names` are the children
of `state["species"]`.
-/

namespace Hermes.Order

variable {ι : Type}

/-- One of the variables `vs` of one of the species `names`. -/
def Of (names : List String) (vs : List Var) : Key → Prop
  | .sp s v => s ∈ names ∧ v ∈ vs
  | .top _ => False

@[simp] theorem of_sp (names : List String) (vs : List Var) (s : String) (v : Var) : Of names vs (.sp s v) ↔ s ∈ names ∧ v ∈ vs := Iff.rfl
@[simp] theorem of_top (names : List String) (vs : List Var) (s : String) : ¬ Of names vs (.top s) := id

/-- A program whose result is kept in the member variables of the component. -/
def ignore {α : Type} (p : Prog ι α) : Prog ι Unit := do
  let _ ← p
  pure ()

theorem Access.ignore {α : Type} {R S A : Key → Prop} {p : Prog ι α} (h : Access R S A p) : Access R S A (Order.ignore p) :=
  h.bind fun _ => Access.pure _

/-! ## Density -/

noncomputable def evolveDensityC (name : String) (charge AA : ℝ) (N source : Fld ι) : Component ι where
  transform := evolveDensity name charge AA N source
  reads _ := False
  sets := Of [name] [.density, .AA, .charge]
  adds := Of [name] [.density_source]

theorem evolveDensityC_declared (name : String) (charge AA : ℝ) (N source : Fld ι) : (evolveDensityC name charge AA N source).Declared := by
  unfold Component.Declared evolveDensityC
  dsimp only
  unfold evolveDensity setChargeIf
  access

noncomputable def fixedDensityC (name : String) (charge AA : ℝ) (N : Fld ι) : Component ι where
  transform := fixedDensity name charge AA N
  reads _ := False
  sets := Of [name] [.density, .AA, .charge]
  adds _ := False

theorem fixedDensityC_declared (name : String) (charge AA : ℝ) (N : Fld ι) : (fixedDensityC name charge AA N).Declared := by
  unfold Component.Declared fixedDensityC
  dsimp only
  unfold fixedDensity setChargeIf
  access

noncomputable def quasineutralC (name : String) (charge AA : ℝ) (names : List String) : Component ι where
  transform := quasineutral name charge AA names
  reads := Of (names.filter (· ≠ name)) [.density, .charge]
  sets := Of [name] [.density, .charge, .AA]
  adds _ := False

theorem quasineutralC_declared (name : String) (charge AA : ℝ) (names : List String) : (quasineutralC (ι := ι) name charge AA names).Declared := by
  unfold Component.Declared quasineutralC
  dsimp only
  unfold quasineutral quasineutralTerm
  access

noncomputable def fixedFractionIonsC (fractions : List (String × ℝ)) : Component ι where
  transform := fixedFractionIons fractions
  reads := Of ["e"] [.density]
  sets := Of (fractions.map Prod.fst) [.density]
  adds _ := False

theorem fixedFractionIonsC_declared (fractions : List (String × ℝ)) : (fixedFractionIonsC (ι := ι) fractions).Declared := by
  unfold Component.Declared fixedFractionIonsC
  dsimp only
  unfold fixedFractionIons
  refine Access.bind ?_ fun _ => Access.forM fun p hp => ?_
  · access
  · exact Access.set _ ⟨List.mem_map.2 ⟨p, hp, rfl⟩, by simp⟩

noncomputable def simplePumpC (name : String) (sink_shape : Fld ι) (residence_time : ℝ) : Component ι where
  transform := simplePump name sink_shape residence_time
  reads := Of [name] [.density]
  sets _ := False
  adds := Of [name] [.density_source]

theorem simplePumpC_declared (name : String) (sink_shape : Fld ι) (residence_time : ℝ) : (simplePumpC name sink_shape residence_time).Declared := by
  unfold Component.Declared simplePumpC
  dsimp only
  unfold simplePump
  access

/-! ## Pressure and temperature -/

noncomputable def evolvePressureC (name : String) (density_floor : ℝ) (P : Fld ι) : Component ι where
  transform := evolvePressure name density_floor P
  reads := Of [name] [.density]
  sets := Of [name] [.pressure, .temperature]
  adds _ := False

theorem evolvePressureC_declared (name : String) (density_floor : ℝ) (P : Fld ι) : (evolvePressureC name density_floor P).Declared := by
  unfold Component.Declared evolvePressureC
  dsimp only
  unfold evolvePressure
  access

noncomputable def evolveEnergyC (name : String) (density_floor Cv : ℝ) (bndry : Fld ι → Fld ι) (E : Fld ι) : Component ι where
  transform := evolveEnergy name density_floor Cv bndry E
  reads := Of [name] [.density, .velocity, .AA]
  sets := Of [name] [.pressure, .temperature]
  adds _ := False

theorem evolveEnergyC_declared (name : String) (density_floor Cv : ℝ) (bndry : Fld ι → Fld ι) (E : Fld ι) :
    (evolveEnergyC name density_floor Cv bndry E).Declared := by
  unfold Component.Declared evolveEnergyC
  dsimp only
  unfold evolveEnergy
  access

noncomputable def isothermalC (name : String) (T : ℝ) : Component ι where
  transform := isothermal name T
  reads := Of [name] [.density]
  sets := Of [name] [.temperature, .pressure]
  adds _ := False

theorem isothermalC_declared (name : String) (T : ℝ) : (isothermalC (ι := ι) name T).Declared := by
  unfold Component.Declared isothermalC
  dsimp only
  unfold isothermal setPressureFrom
  access

noncomputable def fixedTemperatureC (name : String) (T : Fld ι) : Component ι where
  transform := fixedTemperature name T
  reads := Of [name] [.density]
  sets := Of [name] [.temperature, .pressure]
  adds _ := False

theorem fixedTemperatureC_declared (name : String) (T : Fld ι) : (fixedTemperatureC name T).Declared := by
  unfold Component.Declared fixedTemperatureC
  dsimp only
  unfold fixedTemperature setPressureFrom
  access

noncomputable def setTemperatureC (name temperature_from : String) : Component ι where
  transform := setTemperature name temperature_from
  reads k := Of [name] [.density] k ∨ Of [temperature_from] [.temperature] k
  sets := Of [name] [.temperature, .pressure]
  adds _ := False

theorem setTemperatureC_declared (name temperature_from : String) : (setTemperatureC (ι := ι) name temperature_from).Declared := by
  unfold Component.Declared setTemperatureC
  dsimp only
  unfold setTemperature setPressureFrom
  access

/-! ## Flow -/

noncomputable def evolveMomentumC (name : String) (density_floor : ℝ) (bndry : Fld ι → Fld ι) (m : MomentumMembers ι) : Component ι where
  transform := ignore (evolveMomentum name density_floor bndry m)
  reads := Of [name] [.density, .AA]
  sets := Of [name] [.velocity, .momentum]
  adds _ := False

theorem evolveMomentumC_declared (name : String) (density_floor : ℝ) (bndry : Fld ι → Fld ι) (m : MomentumMembers ι) :
    (evolveMomentumC name density_floor bndry m).Declared := by
  unfold Component.Declared evolveMomentumC
  dsimp only
  unfold ignore evolveMomentum
  access

noncomputable def fixedVelocityC (name : String) (V : Fld ι) : Component ι where
  transform := fixedVelocity name V
  reads := Of [name] [.density, .AA]
  sets := Of [name] [.velocity, .momentum]
  adds _ := False

theorem fixedVelocityC_declared (name : String) (V : Fld ι) : (fixedVelocityC name V).Declared := by
  unfold Component.Declared fixedVelocityC
  dsimp only
  unfold fixedVelocity
  access

noncomputable def zeroCurrentC (name : String) (charge : ℝ) (names : List String) : Component ι where
  transform := zeroCurrent name charge names
  reads k := Of (names.filter (· ≠ name)) [.density, .charge, .velocity] k ∨ Of [name] [.density, .velocity] k
  sets := Of [name] [.velocity]
  adds _ := False

theorem zeroCurrentC_declared (name : String) (charge : ℝ) (names : List String) : (zeroCurrentC (ι := ι) name charge names).Declared := by
  unfold Component.Declared zeroCurrentC
  dsimp only
  unfold zeroCurrent zeroCurrentTerm
  refine Access.bind ?_ fun J => ?_
  · access
  · cases J with
    | none => exact Access.throw _
    | some J => unfold zeroCurrentSet; access

noncomputable def electronForceBalanceC (gradPar : Fld ι → Fld ι) (names : List String) : Component ι where
  transform := ignore (electronForceBalance gradPar names)
  reads k := k = .top "fields:phi" ∨ Of ["e"] [.pressure, .density, .charge, .momentum_source] k ∨ Of (names.filter (· ≠ "e")) [.density, .charge] k
  sets _ := False
  adds := Of (names.filter (· ≠ "e")) [.momentum_source]

theorem electronForceBalanceC_declared (gradPar : Fld ι → Fld ι) (names : List String) : (electronForceBalanceC gradPar names).Declared := by
  unfold Component.Declared electronForceBalanceC
  dsimp only
  unfold ignore electronForceBalance otherForces forceOn
  access

noncomputable def soundSpeedC (electron_dynamics : Bool) (temperature_floor factor : ℝ) (alfven : Option (Fld ι)) (names : List String) : Component ι where
  transform := soundSpeed electron_dynamics temperature_floor factor alfven names
  reads := Of names [.pressure, .density, .AA, .temperature]
  sets k := k = .top "sound_speed" ∨ k = .top "fastest_wave"
  adds _ := False

theorem soundSpeedC_declared (electron_dynamics : Bool) (temperature_floor factor : ℝ) (alfven : Option (Fld ι)) (names : List String) :
    (soundSpeedC electron_dynamics temperature_floor factor alfven names).Declared := by
  unfold Component.Declared soundSpeedC
  dsimp only
  unfold soundSpeed soundSpeedTerm addPressure addSpeed addMass addWave
  access

/-! ## Boundaries -/

section
variable [DecidableEq ι]

noncomputable def noFlowBoundaryC (m : YMesh ι) (lower upper : Bool) (name : String) : Component ι where
  transform := noFlowBoundary m lower upper name
  reads := Of [name] [.density, .temperature, .pressure, .velocity, .momentum]
  sets := Of [name] [.density, .temperature, .pressure, .velocity, .momentum]
  adds _ := False

theorem noFlowBoundaryC_declared (m : YMesh ι) (lower upper : Bool) (name : String) : (noFlowBoundaryC m lower upper name).Declared := by
  unfold Component.Declared noFlowBoundaryC
  dsimp only
  unfold noFlowBoundary
  refine Access.bind (Access.forM fun v hv => ?_) fun _ => Access.forM fun v hv => ?_
  all_goals
    have hv' : v ∈ [Var.density, .temperature, .pressure, .velocity, .momentum] := by simp at hv ⊢; tauto
    clear hv
    generalize [Var.density, .temperature, .pressure, .velocity, .momentum] = vs at *
    unfold noFlowVar
    access

noncomputable def sheathBoundaryC (o : SheathOpts ι) (m : YMesh ι) (garbage : Fld ι) (names : List String) : Component ι where
  transform := sheathBoundary o m garbage names
  reads k := k = .top "fields:phi" ∨ Of ("e" :: names) [.density, .temperature, .pressure, .velocity, .momentum, .AA, .charge, .adiabatic, .energy_source] k
  sets k := k = .top "fields:phi" ∨ Of ("e" :: names) [.density, .temperature, .pressure, .velocity, .momentum, .energy_source] k
  adds _ := False

theorem sheathBoundaryC_declared (o : SheathOpts ι) (m : YMesh ι) (garbage : Fld ι) (names : List String) :
    (sheathBoundaryC o m garbage names).Declared := by
  unfold Component.Declared sheathBoundaryC
  dsimp only
  unfold sheathBoundary electronTransform sheathPhi ionSumTerm ionSumRead ionTransform ionTransformCharged publishIons
    publishElectrons readNB readSet readSource readReal setBoundaryIfSet setBoundaryIfSetNB
  access

noncomputable def sheathBoundarySimpleC (o : SimpleOpts ι) (m : YMesh ι) (garbage : Fld ι) (names : List String) : Component ι where
  transform := sheathBoundarySimple o m garbage names
  reads k := k = .top "fields:phi" ∨
    Of ("e" :: names) [.density, .temperature, .pressure, .velocity, .momentum, .AA, .charge, .adiabatic, .energy_source] k
  sets k := k = .top "fields:phi" ∨ Of ("e" :: names) [.density, .temperature, .pressure, .velocity, .momentum, .energy_source] k
  adds := Of ("e" :: names) [.energy_flow_ylow]

theorem sheathBoundarySimpleC_declared (o : SimpleOpts ι) (m : YMesh ι) (garbage : Fld ι) (names : List String) :
    (sheathBoundarySimpleC o m garbage names).Declared := by
  unfold Component.Declared sheathBoundarySimpleC
  dsimp only
  unfold sheathBoundarySimple simpleElectronTransform simplePhi simpleIonSumTerm simpleIonSumRead simpleIonTransform simpleIonTransformCharged
    simplePublishIons publishIons simplePublishElectrons readNB readSet readSource readReal readRealIfSet setBoundaryIfSet setBoundaryIfSetNB
  access

noncomputable def sheathBoundaryInsulatingC (o : InsulatingOpts) (m : YMesh ι) (names : List String) : Component ι where
  transform := sheathBoundaryInsulating o m names
  reads k := k = .top "fields:phi" ∨ Of ("e" :: names) [.density, .temperature, .pressure, .velocity, .momentum, .AA, .charge, .adiabatic, .energy_source] k
  sets k := k = .top "fields:phi" ∨ Of ("e" :: names) [.density, .temperature, .pressure, .velocity, .momentum, .energy_source] k
  adds _ := False

theorem sheathBoundaryInsulatingC_declared (o : InsulatingOpts) (m : YMesh ι) (names : List String) : (sheathBoundaryInsulatingC o m names).Declared := by
  unfold Component.Declared sheathBoundaryInsulatingC
  dsimp only
  unfold sheathBoundaryInsulating insulatingSetPhi insulatingIon insulatingIonCharged publishIons readNB readSet readSource readReal setBoundaryIfSet
    setBoundaryIfSetNB
  access

noncomputable def neutralBoundaryC (o : NeutralOpts) (m : RMesh ι) (name : String) : Component ι where
  transform := neutralBoundary o m name
  reads := Of [name] [.AA, .density, .pressure, .temperature, .velocity, .momentum, .energy_source]
  sets := Of [name] [.density, .pressure, .temperature, .velocity, .momentum, .energy_source]
  adds _ := False

theorem neutralBoundaryC_declared (o : NeutralOpts) (m : RMesh ι) (name : String) : (neutralBoundaryC o m name).Declared := by
  unfold Component.Declared neutralBoundaryC
  dsimp only
  unfold neutralBoundary readNB readSource setBoundaryIfSetNB
  access

end

/-! ## Sources -/

noncomputable def sheathClosureC (o : ClosureOpts) (names : List String) : Component ι where
  transform := sheathClosure o names
  reads k := k = .top "fields:phi" ∨ Of ("e" :: names) [.density, .temperature, .AA] k
  sets _ := False
  adds k := k = .top "fields:DivJextra" ∨ Of ("e" :: names) [.density_source, .energy_source] k

theorem sheathClosureC_declared (o : ClosureOpts) (names : List String) : (sheathClosureC (ι := ι) o names).Declared := by
  unfold Component.Declared sheathClosureC
  dsimp only
  unfold sheathClosure closureElectronHeat closureSinks closureTotals closureSink
  access

noncomputable def diamagneticDriftC (o : DriftOps ι) (form : Fld ι) (names : List String) : Component ι where
  transform := diamagneticDrift o form names
  reads := Of names [.charge, .temperature, .density, .pressure, .momentum]
  sets _ := False
  adds := Of names [.density_source, .energy_source, .momentum_source]

theorem diamagneticDriftC_declared (o : DriftOps ι) (form : Fld ι) (names : List String) : (diamagneticDriftC o form names).Declared := by
  unfold Component.Declared diamagneticDriftC
  dsimp only
  unfold diamagneticDrift driftSpecies driftSources driftOf
  access

noncomputable def polarisationDriftC (o : DriftOps ι) (p : PolOpts) (solve : Fld ι → Fld ι → Fld ι) (names : List String) : Component ι where
  transform := polarisationDrift o p solve names
  reads k := k = .top "fields:DivJdia" ∨ k = .top "fields:DivJextra" ∨ k = .top "fields:DivJcol" ∨
    Of names [.charge, .AA, .density, .pressure, .momentum] k
  sets _ := False
  adds := Of names [.density_source, .energy_source, .momentum_source]

theorem polarisationDriftC_declared (o : DriftOps ι) (p : PolOpts) (solve : Fld ι → Fld ι → Fld ι) (names : List String) :
    (polarisationDriftC o p solve names).Declared := by
  unfold Component.Declared polarisationDriftC
  dsimp only
  unfold polarisationDrift polCurrent polEnergy polAdvection polMass massTerm polSpecies polOf fieldOrZero ifSet ifSetNB ifCharged
  access

noncomputable def ionViscosityC (o : IVOpts ι) (names : List String) : Component ι where
  transform := ionViscosity o names
  reads k := k = .top "fields:phi" ∨ Of (names.filter (· ≠ "e")) [.pressure, .velocity, .charge, .collision_frequency, .density, .temperature] k
  sets _ := False
  adds k := k = .top "fields:DivJextra" ∨ Of (names.filter (· ≠ "e")) [.momentum_source, .energy_source] k

theorem ionViscosityC_declared (o : IVOpts ι) (names : List String) : (ionViscosityC o names).Declared := by
  unfold Component.Declared ionViscosityC
  dsimp only
  unfold ionViscosity ivSpecies ivForces ivPerpendicular
  access

noncomputable def classicalDiffusionC (o : ClassicalOpts ι) (names : List String) : Component ι where
  transform := classicalDiffusion o names
  reads := Of ("e" :: names) [.pressure, .velocity, .charge, .collision_frequency, .density, .temperature, .AA]
  sets _ := False
  adds := Of names [.density_source, .momentum_source, .energy_source]

theorem classicalDiffusionC_declared (o : ClassicalOpts ι) (names : List String) : (classicalDiffusionC o names).Declared := by
  unfold Component.Declared classicalDiffusionC
  dsimp only
  unfold classicalDiffusion classicalPressure classicalD classicalSpecies classicalSources classicalMomentum classicalEnergy classicalConduction
  access

section
variable [DecidableEq ι]

noncomputable def fixedFractionRadiationC (o : RadOpts) (m : RadMesh ι) (curve : ℝ → ℝ) : Component ι where
  transform := fixedFractionRadiation o m curve
  reads := Of ["e"] [.density, .temperature]
  sets _ := False
  adds := Of ["e"] [.energy_source]

theorem fixedFractionRadiationC_declared (o : RadOpts) (m : RadMesh ι) (curve : ℝ → ℝ) : (fixedFractionRadiationC o m curve).Declared := by
  unfold Component.Declared fixedFractionRadiationC
  dsimp only
  unfold fixedFractionRadiation
  access

noncomputable def recyclingC (m : RMesh ι) (fl : RecycleFlags) (channels : List RecycleChannel) (mem : RecycleMem ι) : Component ι where
  transform := ignore (recycling m fl channels mem)
  reads k := Of (channels.map (·.source)) [.density, .velocity, .temperature, .energy_flow_ylow, energyFlowX, particleFlowX] k ∨
    Of (channels.map (·.dest)) [.density, .pressure, .temperature, .AA, .density_source, .energy_source] k
  sets := Of (channels.map (·.dest)) [.density_source, .energy_source]
  adds _ := False

omit [DecidableEq ι] in
theorem recycleEdge_access (on : Bool) (pts : List ι) (body : Fld ι → Fld ι → Sources ι → ι → Sources ι) (mem : RecycleMem ι) (s : Sources ι)
    {R S A : Key → Prop} : Access R S A (recycleEdge on pts body mem s) := by
  unfold recycleEdge
  refine Access.ite (fun _ => ?_) fun _ => Access.pure _
  cases mem.particle <;> cases mem.energy <;> first | exact Access.throw _ | exact Access.pure _

theorem recycleTargets_access (m : RMesh ι) (fl : RecycleFlags) (ch : RecycleChannel) (N V : Fld ι) (s : Sources ι) {R S A : Key → Prop}
    (h : R (.sp ch.source .energy_flow_ylow)) : Access R S A (recycleTargets m fl ch N V s) := by
  unfold recycleTargets
  access

omit [DecidableEq ι] in
theorem recycleReadFlows_access (fl : RecycleFlags) (ch : RecycleChannel) (mem : RecycleMem ι) {R S A : Key → Prop}
    (h : R (.sp ch.source energyFlowX)) (h' : R (.sp ch.source particleFlowX)) : Access R S A (recycleReadFlows fl ch mem) := by
  unfold recycleReadFlows recycleReadFlow
  access

theorem recycleChannel_access (m : RMesh ι) (fl : RecycleFlags) (mem : RecycleMem ι) (ch : RecycleChannel) {R S A : Key → Prop}
    (hs : ∀ v ∈ [Var.density, .velocity, .temperature, .energy_flow_ylow, energyFlowX, particleFlowX], R (.sp ch.source v))
    (hd : ∀ v ∈ [Var.density, .pressure, .temperature, .AA, .density_source, .energy_source], R (.sp ch.dest v))
    (hw : ∀ v ∈ [Var.density_source, .energy_source], S (.sp ch.dest v)) : Access R S A (recycleChannel m fl mem ch) := by
  unfold recycleChannel readSource
  repeat' first
    | with_reducible exact recycleEdge_access _ _ _ _ _
    | with_reducible exact recycleTargets_access _ _ _ _ _ _ (hs _ (by simp))
    | with_reducible exact recycleReadFlows_access _ _ _ (hs _ (by simp)) (hs _ (by simp))
    | with_reducible exact Access.get _ (hs _ (by simp))
    | with_reducible exact Access.get _ (hd _ (by simp))
    | with_reducible exact Access.getNonFinal _ (Or.inl (hd _ (by simp)))
    | with_reducible exact Access.isSet (Or.inl (hd _ (by simp)))
    | with_reducible exact Access.set _ (hw _ (by simp))
    | with_reducible exact Access.pure _
    | with_reducible refine Access.bind ?_ fun _ => ?_
    | with_reducible refine Access.ite (fun _ => ?_) (fun _ => ?_)

theorem recyclingC_declared (m : RMesh ι) (fl : RecycleFlags) (channels : List RecycleChannel) (mem : RecycleMem ι) :
    (recyclingC m fl channels mem).Declared := by
  refine Access.ignore (Access.foldlM (fun mem ch hch => ?_) _)
  refine recycleChannel_access m fl mem ch (fun v hv => Or.inl ⟨List.mem_map.2 ⟨ch, hch, rfl⟩, hv⟩)
    (fun v hv => Or.inr ⟨List.mem_map.2 ⟨ch, hch, rfl⟩, hv⟩) fun v hv => ⟨List.mem_map.2 ⟨ch, hch, rfl⟩, hv⟩

end

noncomputable def densityFeedbackC (o : PIOpts) (name : String) (shape : Fld ι) (cell : ι) (c : PI) : Component ι where
  transform := ignore (densityFeedback o name shape cell c)
  reads k := k = .top "time" ∨ Of [name] [.density, .velocity, .AA] k
  sets _ := False
  adds := Of [name] [.density_source, .energy_source]

theorem densityFeedbackC_declared (o : PIOpts) (name : String) (shape : Fld ι) (cell : ι) (c : PI) : (densityFeedbackC o name shape cell c).Declared := by
  unfold Component.Declared densityFeedbackC
  dsimp only
  unfold ignore densityFeedback densityFeedbackEnergy
  access

noncomputable def temperatureFeedbackC (o : PIOpts) (name : String) (control_target_temperature : Bool) (ystart yend : ι) (targets : List (String × ℝ))
    (shape : Fld ι) (c : PI) : Component ι where
  transform := ignore (temperatureFeedback o name control_target_temperature ystart yend targets shape c)
  reads k := k = .top "time" ∨ Of [name] [.temperature] k
  sets _ := False
  adds := Of (targets.map Prod.fst) [.energy_source]

theorem temperatureFeedbackC_declared (o : PIOpts) (name : String) (control_target_temperature : Bool) (ystart yend : ι) (targets : List (String × ℝ))
    (shape : Fld ι) (c : PI) : (temperatureFeedbackC o name control_target_temperature ystart yend targets shape c).Declared := by
  unfold Component.Declared temperatureFeedbackC
  dsimp only
  refine Access.ignore ?_
  unfold temperatureFeedback
  refine Access.bind (by access) fun _ => Access.bind (by access) fun _ => Access.bind (Access.forM fun t ht => ?_) fun _ => Access.pure _
  exact Access.add _ ⟨List.mem_map.2 ⟨t, ht, rfl⟩, by simp⟩ (by key)

/-! ## Fields -/

noncomputable def vorticityC (o : DriftOps ι) (p : VortOpts ι) (solve : Fld ι → Fld ι) (Vort : Fld ι) (names : List String) : Component ι where
  transform := ignore (vorticityTransform o p solve Vort names)
  reads := Of names [.pressure, .AA, .charge, .density, .collision_frequency]
  sets k := k = .top "fields:vorticity" ∨ k = .top "fields:phi" ∨ k = .top "fields:DivJdia" ∨ k = .top "fields:DivJcol"
  adds := Of names [.energy_source]

theorem vorticityC_declared (o : DriftOps ι) (p : VortOpts ι) (solve : Fld ι → Fld ι) (Vort : Fld ι) (names : List String) :
    (vorticityC o p solve Vort names).Declared := by
  unfold Component.Declared vorticityC
  dsimp only
  unfold ignore vorticityTransform piHat piTerm vortDiamagnetic jdiaTerm vortFriction frictionTerm ifSet ifSetNB ifSetFinal ifCharged
  access

noncomputable def relaxPotentialC (o : DriftOps ι) (p : RelaxOpts) (phi1 Vort : Fld ι) (names : List String) : Component ι where
  transform := ignore (relaxTransform o p phi1 Vort names)
  reads := Of names [.pressure, .AA, .charge]
  sets k := k = .top "fields:vorticity" ∨ k = .top "fields:phi" ∨ k = .top "fields:DivJdia"
  adds := Of names [.energy_source]

theorem relaxPotentialC_declared (o : DriftOps ι) (p : RelaxOpts) (phi1 Vort : Fld ι) (names : List String) :
    (relaxPotentialC o p phi1 Vort names).Declared := by
  unfold Component.Declared relaxPotentialC
  dsimp only
  unfold ignore relaxTransform relaxDiamagnetic relaxJdia relaxEnergy ifSetNB ifSetFinal
  access

noncomputable def electromagneticC (o : EMOpts ι) (names : List String) : Component ι where
  transform := electromagnetic o names
  reads := Of names [.charge, .momentum, .density, .AA, .velocity]
  sets k := k = .top "fields:Apar" ∨ Of names [.momentum, .velocity] k
  adds _ := False

theorem electromagneticC_declared (o : EMOpts ι) (names : List String) : (electromagneticC o names).Declared := by
  unfold Component.Declared electromagneticC
  dsimp only
  unfold electromagnetic emTerm emSpecies emUpdate
  access

section
variable [DecidableEq ι]

noncomputable def neutralMixedC (o : NMOpts ι) (c : NMMesh ι) (name : String) (N P NV : Fld ι) : Component ι where
  transform := neutralMixed o c name N P NV
  reads _ := False
  sets := Of [name] [.density, .AA, .pressure, .momentum, .velocity, .temperature]
  adds _ := False

theorem neutralMixedC_declared (o : NMOpts ι) (c : NMMesh ι) (name : String) (N P NV : Fld ι) : (neutralMixedC o c name N P NV).Declared := by
  unfold Component.Declared neutralMixedC
  dsimp only
  unfold neutralMixed
  access

end

end Hermes.Order
