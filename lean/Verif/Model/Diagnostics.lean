import Verif.Model.Registry
import Verif.Model.Recycling
import Verif.Model.Radiation

/-!
# Diagnostics: what `outputVars` saves

Only the variables and their values; units, conversion factors and descriptions are not modelled.  `diagnose = true` throughout.
-/

namespace Hermes

/-- `state[name] = value` in `outputVars`. -/
abbrev Output (ι : Type) := String × Fld ι

section
variable {ι : Type}

/-- The value of `name` in the output: a variable that is set again keeps the last value. -/
def saved (outs : List (Output ι)) (name : String) : Option (Fld ι) := (outs.reverse.find? fun o => o.1 == name).map (·.2)

/-- `include/amjuel_hyd_ionisation.hxx:48-53` and `72-107`. -/
def ionisationOutputs (isotope : Char) (r : ElectronReaction ι) : List (Output ι) :=
  [(String.ofList ['S', isotope, '+', '_', 'i', 'z'], r.reaction_rate),
   (String.ofList ['F', isotope, '+', '_', 'i', 'z'], r.momentum_exchange),
   (String.ofList ['E', isotope, '+', '_', 'i', 'z'], r.energy_exchange),
   (String.ofList ['R', isotope, '+', '_', 'e', 'x'], fun i => -r.energy_loss i)]

/-- `include/amjuel_hyd_recombination.hxx:50-55` and `74-113`. -/
def recombinationOutputs (isotope : Char) (r : ElectronReaction ι) : List (Output ι) :=
  [(String.ofList ['S', isotope, '+', '_', 'r', 'e', 'c'], fun i => -r.reaction_rate i),
   (String.ofList ['F', isotope, '+', '_', 'r', 'e', 'c'], fun i => -r.momentum_exchange i),
   (String.ofList ['E', isotope, '+', '_', 'r', 'e', 'c'], fun i => -r.energy_exchange i),
   (String.ofList ['R', isotope, '+', '_', 'r', 'e', 'c'], fun i => -r.energy_loss i)]

/-- `include/hydrogen_charge_exchange.hxx:154-173` and `186-261`. -/
def cxOutputs (i1 i2 : Char) (r : ChargeExchange ι) : List (Output ι) :=
  if i1 = i2 then
    [(String.ofList ['F', i1, i2, '+', '_', 'c', 'x'], fun i => r.ion_mom i - r.atom_mom i),
     (String.ofList ['E', i1, i2, '+', '_', 'c', 'x'], fun i => r.ion_energy i - r.atom_energy i),
     (String.ofList ['K', i1, i2, '+', '_', 'c', 'x'], r.atom_rate)]
  else
    [(String.ofList ['F', i1, i2, '+', '_', 'c', 'x'], fun i => -r.atom_mom i),
     (String.ofList ['E', i1, i2, '+', '_', 'c', 'x'], fun i => -r.atom_energy i),
     (String.ofList ['K', i1, i2, '+', '_', 'c', 'x'], r.atom_rate),
     (String.ofList ['F', i2, '+', i1, '_', 'c', 'x'], fun i => -r.ion_mom i),
     (String.ofList ['E', i2, '+', i1, '_', 'c', 'x'], fun i => -r.ion_energy i),
     (String.ofList ['S', i1, i2, '+', '_', 'c', 'x'], fun i => -r.R i)]

/-- `R<name>`, `include/fixed_fraction_radiation.hxx:428-435`. -/
noncomputable def radiationOutputs (name : String) (o : RadOpts) (m : RadMesh ι) [DecidableEq ι] (curve : ℝ → ℝ) (Ne Te : Fld ι) : List (Output ι) :=
  [("R" ++ name, fun i => -radiationOf o m curve Ne Te i)]

/-- `simple_pump_src_shape_<name>` and `simple_pump_sink_<name>`, `include/simple_pump.hxx:47-61`. -/
noncomputable def pumpOutputs (name : String) (sink_shape : Fld ι) (residence_time : ℝ) (N : Fld ι) : List (Output ι) :=
  [("simple_pump_src_shape_" ++ name, sink_shape), ("simple_pump_sink_" ++ name, fun i => (sink_shape i * N i) * (-1 / residence_time))]

/-! ## Recycling -/

variable [DecidableEq ι]

/-- The fields that a channel reads. -/
structure RecycleInputs (ι : Type) where
  N : Fld ι
  V : Fld ι
  energy_flow_ylow : Fld ι
  Nn : Fld ι
  Tn : Fld ι
  AAn : ℝ
  particle_flow_xlow : Fld ι
  energy_flow_xlow : Fld ι

/-- A loop over the edge that skips the cells without (`pump = true`) or with (`pump = false`) a pump: lines 374-392, 469-492. -/
noncomputable def recycleEdgeShare (m : RMesh ι) (fl : RecycleFlags) (pump : Bool) (body : Sources ι → ι → Sources ι) (s : Sources ι) (i : ι) :
    Sources ι :=
  open Classical in if (m.is_pump i = 1 ∧ fl.neutral_pump = true) ↔ pump = true then body s i else s

/-- `target_recycle_density_source` and `target_recycle_energy_source`, `src/recycling.cxx:194-195`, `220`, `233`, `262`, `276`. -/
noncomputable def recycleTargetDiag (m : RMesh ι) (ch : RecycleChannel) (x : RecycleInputs ι) : Sources ι :=
  m.upper.foldl (recycleTargetUpper m ch x.N x.V x.energy_flow_ylow) (m.lower.foldl (recycleTargetLower m ch x.N x.V x.energy_flow_ylow) (fun _ => 0, fun _ => 0))

/-- `wall_recycle_*` (`pump = false`) and `pump_*` (`pump = true`), `src/recycling.cxx:286-289`, `385-391`, `485-491`.  (At the outer edge the
sinks are not subtracted in the wall diagnostic; they are zero there.) -/
noncomputable def recycleEdgeDiag (m : RMesh ι) (fl : RecycleFlags) (ch : RecycleChannel) (x : RecycleInputs ι) (pump : Bool) : Sources ι :=
  let s : Sources ι := (fun _ => 0, fun _ => 0)
  let s := if fl.sol_recycle then
    m.sol.foldl (recycleEdgeShare m fl pump (recycleSol m fl.neutral_pump ch x.Nn x.Tn x.AAn x.particle_flow_xlow x.energy_flow_xlow)) s else s
  if fl.pfr_recycle then
    m.pfr.foldl (recycleEdgeShare m fl pump (recyclePfr m fl.neutral_pump ch x.Nn x.Tn x.AAn x.particle_flow_xlow x.energy_flow_xlow)) s else s

/-- What one channel saves, `src/recycling.cxx:531-593`. -/
noncomputable def recycleChannelOutputs (m : RMesh ι) (fl : RecycleFlags) (ch : RecycleChannel) (x : RecycleInputs ι) : List (Output ι) :=
  (if fl.target_recycle then
    [("S" ++ ch.dest ++ "_target_recycle", (recycleTargetDiag m ch x).1), ("E" ++ ch.dest ++ "_target_recycle", (recycleTargetDiag m ch x).2)] else [])
  ++ (if fl.sol_recycle || fl.pfr_recycle then
    [("S" ++ ch.dest ++ "_wall_recycle", (recycleEdgeDiag m fl ch x false).1), ("E" ++ ch.dest ++ "_wall_recycle", (recycleEdgeDiag m fl ch x false).2)] else [])
  ++ (if fl.neutral_pump then
    [("S" ++ ch.dest ++ "_pump", (recycleEdgeDiag m fl ch x true).1), ("E" ++ ch.dest ++ "_pump", (recycleEdgeDiag m fl ch x true).2)] else [])

/-- `Recycling::outputVars`, `src/recycling.cxx:510-596`; `x ch` are the fields that channel `ch` read in the last call of `transform`.
(With a pump but without recycling at the edges the code saves fields that were never allocated; here they are zero.) -/
noncomputable def recyclingOutputs (m : RMesh ι) (fl : RecycleFlags) (channels : List RecycleChannel) (x : RecycleChannel → RecycleInputs ι) :
    List (Output ι) :=
  channels.flatMap fun ch => recycleChannelOutputs m fl ch (x ch)

end
end Hermes
