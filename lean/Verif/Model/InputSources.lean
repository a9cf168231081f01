import Verif.Model.Controllers
import Verif.Model.NeutralGrid
import Verif.Model.RhsEnergy
import Verif.Model.Units

/-!
# Sources that are given in the input

The constructors of `EvolveDensity`, `EvolvePressure` and `EvolveEnergy`, which read the source of the species from the grid file and the input options, and
the places where these sources are used.  The options are values: parsing and `FieldFactory` are outside the model; a time-dependent prefactor is a function
of the time `t` that `generate` is given.
-/

namespace Hermes

variable {nz : ℕ}

/-- What a user gives: the variables of the grid file, and of the section `N<name>`, `P<name>` or `E<name>` the options `source` (`none`: not set),
`source_only_in_core`, `source_prefactor` (`none`: `source_time_dependent = false`). -/
structure SourceInput (nz : ℕ) where
  mesh : String → Option (F3 nz) := fun _ => none
  source : Option (F3 nz) := none
  only_in_core : Bool := false
  prefactor : Option (ℝ → ℝ) := none

/-- Removal of the source outside the core: `src/evolve_density.cxx:114-126`, `src/evolve_pressure.cxx:132-145`, `src/evolve_energy.cxx:101-113`.
`zstart..zend` are all points in Z. -/
def zeroOutsideCore (g : Grid) (periodicY : ℤ → Bool) (source : F3 nz) : F3 nz :=
  (forRange g.xstart g.xend).foldl (fun s x =>
    if !periodicY x then
      (forRange g.ystart g.yend ×ˢ List.finRange nz).foldl (fun s q => Function.update s x (Function.update (s x) q.1 (Function.update (s x q.1) q.2 0))) s
    else s) source

/-- Reading of the source.  `var` is the name in the grid file, `factor` what that field is multiplied with (only `evolve_energy`), `norm` the divisor. -/
noncomputable def inputSource (g : Grid) (periodicY : ℤ → Bool) (var : String) (factor norm : ℝ) (s : SourceInput nz) : F3 nz :=
  let source : F3 nz := (s.mesh var).getD 0
  let source : F3 nz := factor • source
  let source : F3 nz := fun i j k => (s.source.getD source) i j k / norm
  if s.only_in_core then zeroOutsideCore g periodicY source else source

/-- `1. / units["seconds"]`, with `units["seconds"] = 1. / Omega_ci` (`hermes-3.cxx:177`). -/
noncomputable def freqNorm (c : Consts) (u : Normalisation) : ℝ := 1 / (1 / u.Omega_ci c)

/-- `source` of `EvolveDensity`, `src/evolve_density.cxx:80-126`. -/
noncomputable def densityInput (c : Consts) (u : Normalisation) (g : Grid) (periodicY : ℤ → Bool) (name : String) (s : SourceInput nz) : F3 nz :=
  inputSource g periodicY ("N" ++ name ++ "_src") 1 (u.Nnorm * freqNorm c u) s

/-- `source` of `EvolvePressure`, `src/evolve_pressure.cxx:100-145`. -/
noncomputable def pressureInput (c : Consts) (u : Normalisation) (g : Grid) (periodicY : ℤ → Bool) (name : String) (s : SourceInput nz) : F3 nz :=
  inputSource g periodicY ("P" ++ name ++ "_src") 1 (c.qe * u.Nnorm * u.Tnorm * freqNorm c u) s

/-- `source` of `EvolveEnergy`, `src/evolve_energy.cxx:84-113`; there is no prefactor. -/
noncomputable def energyInput (c : Consts) (u : Normalisation) (g : Grid) (periodicY : ℤ → Bool) (Cv : ℝ) (name : String) (s : SourceInput nz) : F3 nz :=
  inputSource g periodicY ("P" ++ name ++ "_src") Cv (c.qe * u.Nnorm * u.Tnorm * freqNorm c u) s

/-- `final_source` with the prefactor at the time `time * time_normalisation`, `src/evolve_density.cxx:198-205`, `src/evolve_pressure.cxx:404-411`. -/
noncomputable def finalSource (c : Consts) (u : Normalisation) (prefactor : Option (ℝ → ℝ)) (time : ℝ) (source : F3 nz) : F3 nz :=
  match prefactor with
  | some f => f (time * (1 / freqNorm c u)) • source
  | none => source

/-- The end of `EvolveDensity::transform`, `src/evolve_density.cxx:195-207`.  The time is read only for a time-dependent source. -/
noncomputable def addDensityInput (c : Consts) (u : Normalisation) (name : String) (prefactor : Option (ℝ → ℝ)) (source : F3 nz) : Prog (Cell nz) Unit :=
  match prefactor with
  | some f => do
    let time ← get asReal (.top "time")
    addF name .density_source (finalSource c u (some f) time source).cells
  | none => addF name .density_source (finalSource c u none 0 source).cells

/-- `EvolvePressure::finally` with the source of the input, `src/evolve_pressure.cxx:404-431`; `time` is `state["time"]`. -/
noncomputable def pressureRhsInput (o : PressureOpts) (g : Grid) (B : RhsOps nz) (lim : Limiter) (P₀ : F3 nz) (c : Consts) (u : Normalisation) (name : String)
    (inp : SourceInput nz) (time : ℝ) [NeZero nz] (s : SpeciesIn nz) (f : FieldsIn nz) : Except Err (F3 nz) :=
  pressureRhs o g B lim P₀ (finalSource c u inp.prefactor time (pressureInput c u g B.periodicY name inp)) s f

/-- `EvolveEnergy::finally` with the source of the input, `src/evolve_energy.cxx:354-369`. -/
noncomputable def energyRhsInput (o : EnergyOpts) (g : Grid) (B : RhsOps nz) (lim : Limiter) (E₀ : F3 nz) (c : Consts) (u : Normalisation) (name : String)
    (inp : SourceInput nz) [NeZero nz] (s : SpeciesIn nz) (f : FieldsIn nz) : Except Err (F3 nz) :=
  energyRhs o g B lim E₀ (energyInput c u g B.periodicY o.Cv name inp) s f

/-- `source_shape` of the section `N<name>`, divided as in `include/upstream_density_feedback.hxx:54-58`, `include/detachment_controller.hxx:136-141`. -/
noncomputable def densityShape (c : Consts) (u : Normalisation) (shape : F3 nz) : F3 nz := fun i j k => shape i j k / (u.Nnorm * freqNorm c u)

/-- `source_shape` of the section `P<name>`, divided as in `include/temperature_feedback.hxx:79-83`, `include/detachment_controller.hxx:127-132`. -/
noncomputable def pressureShape (c : Consts) (u : Normalisation) (shape : F3 nz) : F3 nz := fun i j k => shape i j k / (c.qe * u.Tnorm * u.Nnorm * freqNorm c u)

end Hermes
