import Verif.Model.Sheath
import Mathlib.Analysis.SpecialFunctions.Trigonometric.Basic

/-!
# Recycling: `src/recycling.cxx`

Same conventions as `Model/Sheath.lean`.  Left out: the diagnostic copies of the sources in each channel
(`target_recycle_density_source` and so on), and parsing of the list of species.
-/

namespace Hermes

section
variable {ι : Type}

/-- The mesh with its outer (SOL) and inner (PFR) radial edge: `sol` are the cells `(xend, iy, iz)` if the processor has the
outer edge (line 306), `pfr` the cells `(xstart, iy, iz)` if it has the inner edge and it is not periodic (lines 395, 396). -/
structure RMesh (ι : Type) extends YMesh ι where
  xm : ι → ι
  xp : ι → ι
  sol : List ι
  pfr : List ι
  is_pump : Fld ι
  /-- contravariant `g22` and covariant `g_33` -/
  g22up : Fld ι
  g33 : Fld ι

/-- Settings of one species, lines 42-142 (after `withDefault`). -/
structure RecycleSettings where
  recycle_as : String
  target_recycle_multiplier : ℝ
  sol_recycle_multiplier : ℝ
  pfr_recycle_multiplier : ℝ
  pump_recycle_multiplier : ℝ
  target_recycle_energy : ℝ
  sol_recycle_energy : ℝ
  pfr_recycle_energy : ℝ
  target_fast_recycle_fraction : ℝ
  sol_fast_recycle_fraction : ℝ
  pfr_fast_recycle_fraction : ℝ
  target_fast_recycle_energy_factor : ℝ
  sol_fast_recycle_energy_factor : ℝ
  pfr_fast_recycle_energy_factor : ℝ
  target_recycle : Bool
  sol_recycle : Bool
  pfr_recycle : Bool
  neutral_pump : Bool

/-- `RecycleChannel`, `include/recycling.hxx:42-59`. -/
structure RecycleChannel where
  source : String
  dest : String
  target_multiplier : ℝ
  sol_multiplier : ℝ
  pfr_multiplier : ℝ
  pump_multiplier : ℝ
  target_energy : ℝ
  sol_energy : ℝ
  pfr_energy : ℝ
  target_fast_recycle_fraction : ℝ
  pfr_fast_recycle_fraction : ℝ
  sol_fast_recycle_fraction : ℝ
  target_fast_recycle_energy_factor : ℝ
  sol_fast_recycle_energy_factor : ℝ
  pfr_fast_recycle_energy_factor : ℝ

/-- The flags are members of the component, `include/recycling.hxx:63`. -/
structure RecycleFlags where
  target_recycle : Bool
  sol_recycle : Bool
  pfr_recycle : Bool
  neutral_pump : Bool

/-- The channel of one species, lines 123-129. -/
noncomputable def recycleChannelOf (Tnorm : ℝ) (name : String) (s : RecycleSettings) : RecycleChannel where
  source := name
  dest := s.recycle_as
  target_multiplier := s.target_recycle_multiplier
  sol_multiplier := s.sol_recycle_multiplier
  pfr_multiplier := s.pfr_recycle_multiplier
  pump_multiplier := s.pump_recycle_multiplier
  target_energy := s.target_recycle_energy / Tnorm
  sol_energy := s.sol_recycle_energy / Tnorm
  pfr_energy := s.pfr_recycle_energy / Tnorm
  target_fast_recycle_fraction := s.target_fast_recycle_fraction
  pfr_fast_recycle_fraction := s.pfr_fast_recycle_fraction
  sol_fast_recycle_fraction := s.sol_fast_recycle_fraction
  target_fast_recycle_energy_factor := s.target_fast_recycle_energy_factor
  sol_fast_recycle_energy_factor := s.sol_fast_recycle_energy_factor
  pfr_fast_recycle_energy_factor := s.pfr_fast_recycle_energy_factor

/-- The test of lines 115-120. -/
def RecycleSettings.outOfRange (s : RecycleSettings) : Prop :=
  s.target_recycle_multiplier < 0 ∨ s.target_recycle_multiplier > 1 ∨ s.sol_recycle_multiplier < 0 ∨
  s.sol_recycle_multiplier > 1 ∨ s.pfr_recycle_multiplier < 0 ∨ s.pfr_recycle_multiplier > 1 ∨
  s.pump_recycle_multiplier < 0 ∨ s.pump_recycle_multiplier > 1

open Classical in
/-- Body of the loop of the constructor, lines 34-147.  The flags are overwritten by each species; `none`: not yet
initialised. -/
noncomputable def recyclingStep (Tnorm : ℝ) (settings : String → RecycleSettings)
    (a : List RecycleChannel × Option RecycleFlags) (name : String) : Except Err (List RecycleChannel × Option RecycleFlags) :=
  if name = "" then .ok a
  else
    let s := settings name
    if s.outOfRange then .error .custom
    else .ok (a.1 ++ [recycleChannelOf Tnorm name s],
      some ⟨s.target_recycle, s.sol_recycle, s.pfr_recycle, s.neutral_pump⟩)

/-- `Recycling::Recycling`, lines 14-148, for the list of trimmed names. -/
noncomputable def recyclingConstruct (Tnorm : ℝ) (settings : String → RecycleSettings) (species : List String) :
    Except Err (List RecycleChannel × Option RecycleFlags) :=
  species.foldlM (recyclingStep Tnorm settings) ([], none)

variable [DecidableEq ι]

/-- Density and energy source. -/
abbrev Sources (ι : Type) := Fld ι × Fld ι

/-- `density_source(i) += a; energy_source(i) += b`. -/
def addSources (s : Sources ι) (i : ι) (a b : ℝ) : Sources ι :=
  (Function.update s.1 i (s.1 i + a), Function.update s.2 i (s.2 i + b))

/-- Lower target, lines 203-239. -/
noncomputable def recycleTargetLower (m : RMesh ι) (ch : RecycleChannel) (N V energy_flow_ylow : Fld ι) (s : Sources ι)
    (i : ι) : Sources ι :=
  let g := m.ym i
  let flux := -0.5 * (N i + N g) * 0.5 * (V i + V g)
  let flux := if flux < 0 then 0 else flux
  let flow := ch.target_multiplier * flux * (m.J i + m.J g) / (Real.sqrt (m.g22 i) + Real.sqrt (m.g22 g))
    * 0.5 * (m.dx i + m.dx g) * 0.5 * (m.dz i + m.dz g)
  let volume := m.J i * m.dx i * m.dy i * m.dz i
  let ion_energy_flow := energy_flow_ylow i * -1
  let recycle_energy_flow := ion_energy_flow * ch.target_multiplier * ch.target_fast_recycle_energy_factor
      * ch.target_fast_recycle_fraction
    + flow * (1 - ch.target_fast_recycle_fraction) * ch.target_energy
  addSources s i (flow / volume) (recycle_energy_flow / volume)

/-- Upper target, lines 243-278. -/
noncomputable def recycleTargetUpper (m : RMesh ι) (ch : RecycleChannel) (N V energy_flow_ylow : Fld ι) (s : Sources ι)
    (i : ι) : Sources ι :=
  let g := m.yp i
  let flux := 0.5 * (N i + N g) * 0.5 * (V i + V g)
  let flux := if flux < 0 then 0 else flux
  let flow := ch.target_multiplier * flux * (m.J i + m.J g) / (Real.sqrt (m.g22 i) + Real.sqrt (m.g22 g))
    * 0.5 * (m.dx i + m.dx g) * 0.5 * (m.dz i + m.dz g)
  let volume := m.J i * m.dx i * m.dy i * m.dz i
  let ion_energy_flow := energy_flow_ylow g
  let recycle_energy_flow := ion_energy_flow * ch.target_multiplier * ch.target_fast_recycle_energy_factor
      * ch.target_fast_recycle_fraction
    + flow * (1 - ch.target_fast_recycle_fraction) * ch.target_energy
  addSources s i (flow / volume) (recycle_energy_flow / volume)

/-- Sinks of the pump, lines 337-371 (`is = i.xm()`, `ig = i.xp()`) and 432-466 (exchanged): particles and energy. -/
noncomputable def pumpSinks (m : RMesh ι) (Nn Tn : Fld ι) (AAn multiplier : ℝ) (i is ig : ι) : ℝ × ℝ :=
  let nnguard := Nn i ^ 2 / Nn is
  let tnguard := Tn i ^ 2 / Tn is
  let nnsheath := 0.5 * (Nn i + nnguard)
  let tnsheath := 0.5 * (Tn i + tnguard)
  let v_th := 0.25 * Real.sqrt (8 * tnsheath / (Real.pi * AAn))
  let dpolsheath := 0.5 * (m.dy i + m.dy ig) * 1 / (0.5 * (Real.sqrt (m.g22up i) + Real.sqrt (m.g22up ig)))
  let dtorsheath := 0.5 * (m.dz i + m.dz ig) * 0.5 * (Real.sqrt (m.g33 i) + Real.sqrt (m.g33 ig))
  let dasheath := dpolsheath * dtorsheath
  let dv := m.J i * m.dx i * m.dy i * m.dz i
  let pump_neutral_particle_flow := v_th * nnsheath * dasheath
  let pump_neutral_energy_flow := 2 * tnsheath * v_th * nnsheath * dasheath
  (pump_neutral_particle_flow / dv * (1 - multiplier), pump_neutral_energy_flow / dv * (1 - multiplier))

/-- SOL edge, lines 309-388. -/
noncomputable def recycleSol (m : RMesh ι) (pump : Bool) (ch : RecycleChannel) (Nn Tn : Fld ι) (AAn : ℝ)
    (particle_flow_xlow energy_flow_xlow : Fld ι) (s : Sources ι) (i : ι) : Sources ι :=
  let volume := m.J i * m.dx i * m.dy i * m.dz i
  let pumped := m.is_pump i = 1 ∧ pump = true
  let multiplier := if pumped then ch.pump_multiplier else ch.sol_multiplier
  let recycle_particle_flow := if particle_flow_xlow (m.xp i) > 0 then multiplier * particle_flow_xlow (m.xp i) else 0
  let ion_energy_flow := energy_flow_xlow (m.xp i)
  let recycle_energy_flow := ion_energy_flow * ch.sol_multiplier * ch.sol_fast_recycle_energy_factor
      * ch.sol_fast_recycle_fraction
    + recycle_particle_flow * (1 - ch.sol_fast_recycle_fraction) * ch.sol_energy
  let sinks := if pumped then pumpSinks m Nn Tn AAn multiplier i (m.xm i) (m.xp i) else (0, 0)
  addSources s i (recycle_particle_flow / volume - sinks.1) (recycle_energy_flow / volume - sinks.2)

/-- PFR edge, lines 397-485.  The flow is out of the domain if negative (line 392). -/
noncomputable def recyclePfr (m : RMesh ι) (pump : Bool) (ch : RecycleChannel) (Nn Tn : Fld ι) (AAn : ℝ)
    (particle_flow_xlow energy_flow_xlow : Fld ι) (s : Sources ι) (i : ι) : Sources ι :=
  let volume := m.J i * m.dx i * m.dy i * m.dz i
  let pumped := m.is_pump i = 1 ∧ pump = true
  let multiplier := if pumped then ch.pump_multiplier else ch.pfr_multiplier
  let recycle_particle_flow := if particle_flow_xlow i * -1 > 0 then multiplier * (particle_flow_xlow i * -1) else 0
  let ion_energy_flow := energy_flow_xlow i * -1
  let recycle_energy_flow := ion_energy_flow * ch.pfr_multiplier * ch.pfr_fast_recycle_energy_factor
      * ch.pfr_fast_recycle_fraction
    + recycle_particle_flow * (1 - ch.pfr_fast_recycle_fraction) * ch.pfr_energy
  let sinks := if pumped then pumpSinks m Nn Tn AAn multiplier i (m.xp i) (m.xm i) else (0, 0)
  addSources s i (recycle_particle_flow / volume - sinks.1) (recycle_energy_flow / volume - sinks.2)

/-- `particle_flow_xlow` and `energy_flow_xlow` of a species. -/
abbrev particleFlowX : Var := .other "particle_flow_xlow"
abbrev energyFlowX : Var := .other "energy_flow_xlow"

/-- The members `particle_flow_xlow` and `energy_flow_xlow` of the component; `none`: not allocated. -/
structure RecycleMem (ι : Type) where
  particle : Option (Fld ι)
  energy : Option (Fld ι)

/-- Lines 188-281. -/
noncomputable def recycleTargets (m : RMesh ι) (fl : RecycleFlags) (ch : RecycleChannel) (N V : Fld ι) (s : Sources ι) :
    Prog ι (Sources ι) :=
  if fl.target_recycle then do
    let b ← isSet (.sp ch.source Var.energy_flow_ylow)
    let flow ← (if b then getF ch.source Var.energy_flow_ylow else
      if ch.target_fast_recycle_fraction > 0 then M.throw .custom else pure fun _ => 0)
    pure (m.upper.foldl (recycleTargetUpper m ch N V flow) (m.lower.foldl (recycleTargetLower m ch N V flow) s))
  else pure s

/-- One of the fields of lines 292-302: the field of the species, otherwise what was read before. -/
noncomputable def recycleReadFlow (ch : RecycleChannel) (v : Var) (old : Option (Fld ι)) : Prog ι (Option (Fld ι)) := do
  let b ← isSet (.sp ch.source v)
  if b then do
    let f ← getF ch.source v
    pure (some f)
  else if ch.sol_fast_recycle_fraction > 0 ∨ ch.pfr_fast_recycle_fraction > 0 then M.throw .custom
  else pure old

/-- Lines 284-303. -/
noncomputable def recycleReadFlows (fl : RecycleFlags) (ch : RecycleChannel) (mem : RecycleMem ι) : Prog ι (RecycleMem ι) :=
  if fl.sol_recycle = true ∨ fl.pfr_recycle = true then do
    let e ← recycleReadFlow ch energyFlowX mem.energy
    let p ← recycleReadFlow ch particleFlowX mem.particle
    pure ⟨p, e⟩
  else pure mem

/-- Lines 306-389 or 392-487.  Using a field that is not allocated ends the run (an exception with `CHECK >= 1`,
otherwise a segmentation fault). -/
def recycleEdge (on : Bool) (pts : List ι) (body : Fld ι → Fld ι → Sources ι → ι → Sources ι) (mem : RecycleMem ι)
    (s : Sources ι) : Prog ι (Sources ι) :=
  if on then
    match mem.particle, mem.energy with
    | some p, some e => pure (pts.foldl (body p e) s)
    | _, _ => M.throw .custom
  else pure s

/-- Body of the loop over channels, lines 161-493. -/
noncomputable def recycleChannel (m : RMesh ι) (fl : RecycleFlags) (mem : RecycleMem ι) (ch : RecycleChannel) :
    Prog ι (RecycleMem ι) := do
  let N ← getF ch.source Var.density
  let V ← getF ch.source Var.velocity
  let _ ← getF ch.source Var.temperature
  let Nn ← getF ch.dest Var.density
  let _ ← getF ch.dest Var.pressure
  let Tn ← getF ch.dest Var.temperature
  let AAn ← getR ch.dest Var.AA
  let ds ← readSource (.sp ch.dest Var.density_source)
  let es ← readSource (.sp ch.dest Var.energy_source)
  let s ← recycleTargets m fl ch N V (ds, es)
  let mem' ← recycleReadFlows fl ch mem
  let s ← recycleEdge fl.sol_recycle m.sol (recycleSol m fl.neutral_pump ch Nn Tn AAn) mem' s
  let s ← recycleEdge fl.pfr_recycle m.pfr (recyclePfr m fl.neutral_pump ch Nn Tn AAn) mem' s
  set (.sp ch.dest Var.density_source) (.field s.1)
  set (.sp ch.dest Var.energy_source) (.field s.2)
  pure mem'

/-- `Recycling::transform`, `src/recycling.cxx:150-494`.  Returns the members for the next call. -/
noncomputable def recycling (m : RMesh ι) (fl : RecycleFlags) (channels : List RecycleChannel) (mem : RecycleMem ι) :
    Prog ι (RecycleMem ι) :=
  channels.foldlM (recycleChannel m fl) mem

end
end Hermes
