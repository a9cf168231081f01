import Verif.Model.Species
import Mathlib.Analysis.SpecialFunctions.Log.Basic
import Mathlib.Analysis.SpecialFunctions.Log.Base

/-!
# Atomic reactions

`include/amjuel_reaction.hxx`, `src/hydrogen_charge_exchange.cxx`, `src/adas_reaction.cxx`.
-/

namespace Hermes

/-- Normalisations read in the constructors. -/
structure Norms where
  T : ℝ
  N : ℝ
  Freq : ℝ

section
variable {ι : Type}

/-! ## AMJUEL -/

/-- `clip`, `include/amjuel_reaction.hxx:20-26`. -/
noncomputable def clip (value lo hi : ℝ) : ℝ := if value < lo then lo else if value > hi then hi else value

/-- `coefs[n][m]` of a `rows × cols` array: `none` is a read outside the array. -/
def readCoef {rows cols : ℕ} (coefs : Fin rows → Fin cols → ℝ) (n m : ℕ) : Option ℝ :=
  if h : n < rows ∧ m < cols then some (coefs ⟨n, h.1⟩ ⟨m, h.2⟩) else none

/-- Inner loop, `include/amjuel_reaction.hxx:50-54`; the state is `(result, logn_m)`. -/
noncomputable def amjuelInner {rows cols : ℕ} (coefs : Fin rows → Fin cols → ℝ) (logntilde logT_n : ℝ)
    (n : ℕ) (result : ℝ) : Option ℝ :=
  (List.foldlM (m := Option) (fun (st : ℝ × ℝ) m =>
    (readCoef coefs n m).map fun c => (st.1 + c * st.2 * logT_n, st.2 * logntilde)) (result, 1) (List.range rows)).map Prod.fst

/-- `evaluate`, `include/amjuel_reaction.hxx:37-58`.  Note that `n` runs to `cols` and `m` to `rows`
although the array is `[rows][cols]`. -/
noncomputable def amjuelEvaluate {rows cols : ℕ} (coefs : Fin rows → Fin cols → ℝ) (T n : ℝ) : Option ℝ :=
  let n := clip n 1e14 1e22
  let T := clip T 0.1 1e4
  let logntilde := Real.log (n / 1e14)
  let logT := Real.log T
  (List.foldlM (m := Option) (fun (st : ℝ × ℝ) n =>
    (amjuelInner coefs logntilde st.2 n st.1).map fun r => (r, st.2 * logT)) (0, 1) (List.range cols)).map
    fun st => Real.exp st.1 * 1e-6

/-- What `electron_reaction` computes before contributing. -/
structure ElectronReaction (ι : Type) where
  reaction_rate : Fld ι
  momentum_exchange : Fld ι
  energy_exchange : Fld ι
  energy_loss : Fld ι
  contribs : List (Contrib Key ι)

/-- The arithmetic of `electron_reaction`, `include/amjuel_reaction.hxx:96-169`: `e + from -> to`.  `rate` and
`rad` are `evaluate(rate_coefs, ·, ·)` and `evaluate(radiation_coefs, ·, ·)`; `evel` is the electron velocity
and mass if the charges differ and the velocity is set (lines 112-115). -/
noncomputable def electronReactionOf (nm : Norms) (rate rad : ℝ → ℝ → ℝ)
    (electron_heating rate_multiplier radiation_multiplier : ℝ) (electron from_ion to_ion : String)
    (w : World ι) (Ne Te N1 T1 V1 V2 : Fld ι) (AA from_charge to_charge : ℝ) (evel : Option (Fld ι × ℝ)) :
    ElectronReaction ι :=
  let reaction_rate : Fld ι := w.avg3 (fun ne n1 te =>
    ne * n1 * rate (te * nm.T) (ne * nm.N) * nm.N / nm.Freq * rate_multiplier) Ne N1 Te
  let momentum_exchange : Fld ι := fun i => reaction_rate i * AA * V1 i
  let energy_exchange : Fld ι := fun i => reaction_rate i * (3 / 2) * T1 i
  let energy_loss : Fld ι := fun i => w.avg3 (fun ne n1 te =>
      ne * n1 * rad (te * nm.T) (ne * nm.N) * nm.N / (nm.T * nm.Freq) * radiation_multiplier) Ne N1 Te i
    - (electron_heating / nm.T) * reaction_rate i * radiation_multiplier
  { reaction_rate, momentum_exchange, energy_exchange, energy_loss
    contribs :=
      [(.sp from_ion Var.density_source, reaction_rate, false),
       (.sp to_ion Var.density_source, reaction_rate, true)]
      ++ (if from_charge ≠ to_charge then
        [(.sp electron Var.density_source, (fun i => (to_charge - from_charge) * reaction_rate i), true)]
        ++ (match evel with
          | some (Ve, Ae) => [(.sp electron Var.energy_source,
              (fun i => 0.5 * Ae * (to_charge - from_charge) * reaction_rate i * Ve i ^ 2), true)]
          | none => [])
        else [])
      ++ [(.sp from_ion Var.momentum_source, momentum_exchange, false),
       (.sp to_ion Var.momentum_source, momentum_exchange, true),
       (.sp to_ion Var.energy_source, (fun i => 0.5 * AA * reaction_rate i * (V1 i - V2 i) ^ 2), true),
       (.sp from_ion Var.energy_source, energy_exchange, false),
       (.sp to_ion Var.energy_source, energy_exchange, true),
       (.sp electron Var.energy_source, energy_loss, false)] }

/-- Lines 109-115: the electron velocity and mass are read only if the charges differ and the velocity is
set. -/
noncomputable def readElectronVelocity (w : World ι) (electron : String) (from_charge to_charge : ℝ) :
    Except Err (Option (Fld ι × ℝ)) :=
  if from_charge ≠ to_charge ∧ w.isSetF electron Var.velocity then do
    let Ve ← w.field electron Var.velocity
    let Ae ← w.real electron Var.AA
    return some (Ve, Ae)
  else return none

/-- `electron_reaction`, `include/amjuel_reaction.hxx:67-170`. -/
noncomputable def electronReaction (nm : Norms) (rate rad : ℝ → ℝ → ℝ)
    (electron_heating rate_multiplier radiation_multiplier : ℝ) (electron from_ion to_ion : String)
    (w : World ι) : Except Err (ElectronReaction ι) := do
  let Ne ← w.field electron Var.density
  let Te ← w.field electron Var.temperature
  let N1 ← w.field from_ion Var.density
  let T1 ← w.field from_ion Var.temperature
  let V1 ← w.field from_ion Var.velocity
  let AA ← w.real from_ion Var.AA
  let AA2 ← w.real to_ion Var.AA
  assert1 (AA = AA2)
  let V2 ← w.field to_ion Var.velocity
  let from_charge := w.chargeOr0 from_ion
  let to_charge := w.chargeOr0 to_ion
  let evel ← readElectronVelocity w electron from_charge to_charge
  return electronReactionOf nm rate rad electron_heating rate_multiplier radiation_multiplier electron
    from_ion to_ion w Ne Te N1 T1 V1 V2 AA from_charge to_charge evel

/-! ## Hydrogen charge exchange -/

/-- What `calculate_rates` computes. -/
structure ChargeExchange (ι : Type) where
  R : Fld ι
  atom_mom : Fld ι
  ion_mom : Fld ι
  atom_energy : Fld ι
  ion_energy : Fld ι
  atom_rate : Fld ι
  ion_rate : Fld ι
  contribs : List (Contrib Key ι)

/-- The clipped effective temperature, `src/hydrogen_charge_exchange.cxx:22-29`. -/
noncomputable def cxTeff (Tnorm Tatom Aatom Tion Aion : ℝ) : ℝ :=
  let Teff := (Tatom / Aatom + Tion / Aion) * Tnorm
  if Teff < 0.01 then 0.01 else if Teff > 10000 then 10000 else Teff

/-- The polynomial loop, `src/hydrogen_charge_exchange.cxx:30-41`. -/
noncomputable def cxLnSigmav (lnT : ℝ) : ℝ :=
  (([0.3708409, 7.949876e-3, -6.143769e-4, -4.698969e-4, -4.096807e-4, 1.440382e-4, -1.514243e-5,
      5.122435e-7] : List ℝ).foldl (fun (st : ℝ × ℝ) b => (st.1 + b * st.2, st.2 * lnT)) (-18.5028, lnT)).1

/-- The arithmetic of `HydrogenChargeExchange::calculate_rates`, `src/hydrogen_charge_exchange.cxx:21-101`:
`atom1 + ion1 -> atom2 + ion2`.  Species are references into the tree, compared by address in the code and by
name here. -/
noncomputable def chargeExchangeOf (nm : Norms) (rate_multiplier : ℝ) (no_neutral_cx_mom_gain : Bool)
    (atom1 ion1 atom2 ion2 : String) (Tatom Tion natom nion va1 vi1 va2 vi2 : Fld ι) (Aatom Aion : ℝ) :
    ChargeExchange ι :=
  let sigmav : Fld ι := fun i =>
    Real.exp (cxLnSigmav (Real.log (cxTeff nm.T (Tatom i) Aatom (Tion i) Aion)))
      * (1e-6 * nm.N / nm.Freq) * rate_multiplier
  let Natom : Fld ι := fun i => max (natom i) 1e-5
  let Nion : Fld ι := fun i => max (nion i) 1e-5
  let R : Fld ι := fun i => Natom i * Nion i * sigmav i
  let atom_mom : Fld ι := fun i => R i * Aatom * va1 i
  let ion_mom : Fld ι := fun i => R i * Aion * vi1 i
  let atom_energy : Fld ι := fun i => (3 / 2) * R i * Tatom i
  let ion_energy : Fld ι := fun i => (3 / 2) * R i * Tion i
  let atom_rate : Fld ι := fun i => Nion i * sigmav i
  let ion_rate : Fld ι := fun i => Natom i * sigmav i
  { R, atom_mom, ion_mom, atom_energy, ion_energy, atom_rate, ion_rate
    contribs :=
      (if atom1 ≠ atom2 ∨ ion1 ≠ ion2 then
        [(.sp atom1 Var.density_source, R, false), (.sp ion2 Var.density_source, R, true),
         (.sp ion1 Var.density_source, R, false), (.sp atom2 Var.density_source, R, true)]
        else [])
      ++ [(.sp atom1 Var.momentum_source, atom_mom, false)]
      ++ (if no_neutral_cx_mom_gain = false then [(.sp ion2 Var.momentum_source, atom_mom, true)] else [])
      ++ [(.sp ion1 Var.momentum_source, ion_mom, false),
          (.sp atom2 Var.momentum_source, ion_mom, true),
          (.sp ion2 Var.energy_source, (fun i => 0.5 * Aatom * R i * (vi2 i - va1 i) ^ 2), true),
          (.sp atom2 Var.energy_source, (fun i => 0.5 * Aion * R i * (va2 i - vi1 i) ^ 2), true),
          (.sp atom1 Var.energy_source, atom_energy, false),
          (.sp ion2 Var.energy_source, atom_energy, true),
          (.sp ion1 Var.energy_source, ion_energy, false),
          (.sp atom2 Var.energy_source, ion_energy, true),
          (.sp atom1 Var.collision_frequency, atom_rate, true),
          (.sp ion1 Var.collision_frequency, ion_rate, true)] }

/-- `HydrogenChargeExchange::calculate_rates`, `src/hydrogen_charge_exchange.cxx:3-102`.  (The code makes some
contributions before reading the velocities; when a velocity is missing the exception leaves them behind,
here it does not.) -/
noncomputable def chargeExchange (nm : Norms) (rate_multiplier : ℝ) (no_neutral_cx_mom_gain : Bool)
    (atom1 ion1 atom2 ion2 : String) (w : World ι) : Except Err (ChargeExchange ι) := do
  let Tatom ← w.field atom1 Var.temperature
  let Aatom ← w.real atom1 Var.AA
  let Aion2 ← w.real ion2 Var.AA
  assert1 (Aion2 = Aatom)
  let Tion ← w.field ion1 Var.temperature
  let Aion ← w.real ion1 Var.AA
  let Aatom2 ← w.real atom2 Var.AA
  assert1 (Aatom2 = Aion)
  let natom ← w.field atom1 Var.density
  let nion ← w.field ion1 Var.density
  let va1 ← w.field atom1 Var.velocity
  let vi1 ← w.field ion1 Var.velocity
  let vi2 ← w.field ion2 Var.velocity
  let va2 ← w.field atom2 Var.velocity
  return chargeExchangeOf nm rate_multiplier no_neutral_cx_mom_gain atom1 ion1 atom2 ion2 Tatom Tion natom nion
    va1 vi1 va2 vi2 Aatom Aion

/-! ## OpenADAS -/

/-- A rate table, `include/adas_reaction.hxx` (members `log_coeff`, `log_temperature`, `log_density`). -/
structure AdasTable where
  log_coeff : List (List ℝ)
  log_temperature : List ℝ
  log_density : List ℝ

/-- `get_high_index`, `src/adas_reaction.cxx:70-84`.  `std::lower_bound` is taken to give the first element
that is not less than `value` (its contract for an increasing vector).  `none`: the decrement or increment of
the iterator leaves the vector (possible only for fewer than two elements), where the `ASSERT2`s also fail. -/
noncomputable def getHighIndex (vec : List ℝ) (value : ℝ) : Option ℕ :=
  let high_it := vec.findIdx (fun x => decide (¬ x < value))
  if high_it = vec.length then (if 1 < vec.length then some (high_it - 1) else none)
  else if high_it = 0 then (if 1 < vec.length then some 1 else none)
  else some high_it

/-- `OpenADASRateCoefficient::evaluate`, `src/adas_reaction.cxx:88-124`; `Tmin`… are set in the constructor,
lines 54-58.  `none` is a read outside a vector. -/
noncomputable def adasEvaluate (t : AdasTable) (T n : ℝ) : Option ℝ := do
  let logTmin ← t.log_temperature.head?
  let logTmax ← t.log_temperature.getLast?
  let lognmin ← t.log_density.head?
  let lognmax ← t.log_density.getLast?
  let log10T := Real.logb 10 (clip T ((10 : ℝ) ^ logTmin) ((10 : ℝ) ^ logTmax))
  let log10n := Real.logb 10 (clip n ((10 : ℝ) ^ lognmin) ((10 : ℝ) ^ lognmax))
  let high_T_index ← getHighIndex t.log_temperature log10T
  let high_n_index ← getHighIndex t.log_density log10n
  let low_T_index := high_T_index - 1
  let Tl ← t.log_temperature[low_T_index]?
  let Th ← t.log_temperature[high_T_index]?
  let x := (log10T - Tl) / (Th - Tl)
  let low_n_index := high_n_index - 1
  let nl ← t.log_density[low_n_index]?
  let nh ← t.log_density[high_n_index]?
  let y := (log10n - nl) / (nh - nl)
  let rowl ← t.log_coeff[low_T_index]?
  let rowh ← t.log_coeff[high_T_index]?
  let c00 ← rowl[low_n_index]?
  let c01 ← rowl[high_n_index]?
  let c10 ← rowh[low_n_index]?
  let c11 ← rowh[high_n_index]?
  return (10 : ℝ) ^ ((c00 * (1 - y) + c01 * y) * (1 - x) + (c10 * (1 - y) + c11 * y) * x)

/-- `floor(value, 0.0)`, `src/adas_reaction.cxx:24-28`. -/
noncomputable def floor0 (x : ℝ) : ℝ := if x < 0 then 0 else x

/-- What `OpenADAS::calculate_rates` computes. -/
structure AdasReaction (ι : Type) where
  reaction_rate : Fld ι
  energy_loss : Fld ι
  contribs : List (Contrib Key ι)

/-- The arithmetic of `OpenADAS::calculate_rates`, `src/adas_reaction.cxx:144-184`.  `rate`, `rad` are the two
table lookups. -/
noncomputable def adasReactionOf (nm : Norms) (rate rad : ℝ → ℝ → ℝ) (electron_heating : ℝ)
    (electron from_ion to_ion : String) (w : World ι) (Ne Te N1 T1 V1 : Fld ι) (AA from_charge to_charge : ℝ) :
    AdasReaction ι :=
  let reaction_rate : Fld ι := w.avg3 (fun ne n1 te =>
    floor0 ne * floor0 n1 * rate (te * nm.T) (ne * nm.N) * nm.N / nm.Freq) Ne N1 Te
  let momentum_exchange : Fld ι := fun i => reaction_rate i * AA * V1 i
  let energy_exchange : Fld ι := fun i => reaction_rate i * (3 / 2) * T1 i
  let energy_loss : Fld ι := fun i => w.avg3 (fun ne n1 te =>
      floor0 ne * floor0 n1 * rad (te * nm.T) (ne * nm.N) * nm.N / (nm.T * nm.Freq)) Ne N1 Te i
    - (electron_heating / nm.T) * reaction_rate i
  { reaction_rate, energy_loss
    contribs :=
      [(.sp from_ion Var.density_source, reaction_rate, false),
       (.sp to_ion Var.density_source, reaction_rate, true)]
      ++ (if from_charge ≠ to_charge then
        [(.sp electron Var.density_source, (fun i => (to_charge - from_charge) * reaction_rate i), true)] else [])
      ++ [(.sp from_ion Var.momentum_source, momentum_exchange, false),
          (.sp to_ion Var.momentum_source, momentum_exchange, true),
          (.sp from_ion Var.energy_source, energy_exchange, false),
          (.sp to_ion Var.energy_source, energy_exchange, true),
          (.sp electron Var.energy_source, energy_loss, false)] }

/-- `OpenADAS::calculate_rates`, `src/adas_reaction.cxx:126-185`. -/
noncomputable def adasReaction (nm : Norms) (rate rad : ℝ → ℝ → ℝ) (electron_heating : ℝ)
    (electron from_ion to_ion : String) (w : World ι) : Except Err (AdasReaction ι) := do
  let Ne ← w.field electron Var.density
  let Te ← w.field electron Var.temperature
  let N1 ← w.field from_ion Var.density
  let T1 ← w.field from_ion Var.temperature
  let V1 ← w.field from_ion Var.velocity
  let AA ← w.real from_ion Var.AA
  let AA2 ← w.real to_ion Var.AA
  assert1 (AA = AA2)
  return adasReactionOf nm rate rad electron_heating electron from_ion to_ion w Ne Te N1 T1 V1 AA
    (w.chargeOr0 from_ion) (w.chargeOr0 to_ion)

/-- One half of `OpenADASChargeExchange::calculate_rates`: `src/adas_reaction.cxx:213-230` and `232-249`. -/
noncomputable def adasTransfer (R : Fld ι) (A : ℝ) (V T : Fld ι) (fr dst : String) : List (Contrib Key ι) :=
  [(.sp fr Var.density_source, R, false), (.sp dst Var.density_source, R, true),
   (.sp fr Var.momentum_source, (fun i => R i * A * V i), false),
   (.sp dst Var.momentum_source, (fun i => R i * A * V i), true),
   (.sp fr Var.energy_source, (fun i => R i * (3 / 2) * T i), false),
   (.sp dst Var.energy_source, (fun i => R i * (3 / 2) * T i), true)]

/-- `OpenADASChargeExchange::calculate_rates`, `src/adas_reaction.cxx:187-250`.  The check of the charges is
commented out in the code. -/
noncomputable def adasChargeExchange (nm : Norms) (rate : ℝ → ℝ → ℝ)
    (electron from_A from_B to_A to_B : String) (w : World ι) :
    Except Err (Fld ι × List (Contrib Key ι)) := do
  let AA ← w.real from_A Var.AA
  let AA' ← w.real to_A Var.AA
  assert1 (AA = AA')
  let AB ← w.real from_B Var.AA
  let AB' ← w.real to_B Var.AA
  assert1 (AB = AB')
  let Te ← w.field electron Var.temperature
  let Ne ← w.field electron Var.density
  let Na ← w.field from_A Var.density
  let Nb ← w.field from_B Var.density
  let R : Fld ι := w.avg4 (fun na nb ne te =>
    floor0 na * floor0 nb * rate (te * nm.T) (ne * nm.N) * nm.N / nm.Freq) Na Nb Ne Te
  let VA ← w.field from_A Var.velocity
  let TA ← w.field from_A Var.temperature
  let VB ← w.field from_B Var.velocity
  let TB ← w.field from_B Var.temperature
  return (R, adasTransfer R AA VA TA from_A to_A ++ adasTransfer R AB VB TB from_B to_B)

end
end Hermes
