import Verif.Model.Reactions

/-!
# Simple reactions

`src/ionisation.cxx` and `src/solkit_hydrogen_charge_exchange.cxx`.
-/

namespace Hermes

variable {ι : Type}

/-- What `Ionisation::transform` computes. -/
structure SimpleIonisation (ι : Type) where
  reaction_rate : Fld ι
  contribs : List (Contrib Key ι)

/-- The arithmetic of `Ionisation::transform`, `src/ionisation.cxx:36-66`.  `sigmav` is `atomic_rates.ionisation`
(`src/hydkin.cxx`), `Eionize` is normalised. -/
noncomputable def ionisationOf (nm : Norms) (sigmav : ℝ → ℝ) (Eionize : ℝ) (w : World ι) (Nn Tn Vn Ne Te : Fld ι) (AA : ℝ) :
    SimpleIonisation ι :=
  let reaction_rate : Fld ι := w.avg3 (fun ne nn te => ne * nn * sigmav (te * nm.T) * nm.N / nm.Freq) Ne Nn Te
  let momentum_exchange : Fld ι := fun i => reaction_rate i * AA * Vn i
  let energy_exchange : Fld ι := fun i => reaction_rate i * (3 / 2) * Tn i
  { reaction_rate
    contribs :=
      [(.sp "h" .density_source, reaction_rate, false),
       (.sp "h+" .density_source, reaction_rate, true),
       (.sp "h" .momentum_source, momentum_exchange, false),
       (.sp "h+" .momentum_source, momentum_exchange, true),
       (.sp "h" .energy_source, energy_exchange, false),
       (.sp "h+" .energy_source, energy_exchange, true),
       (.sp "e" .energy_source, (fun i => Eionize * reaction_rate i), false)] }

/-- `Ionisation::transform`, `src/ionisation.cxx:21-67`. -/
noncomputable def ionisation (nm : Norms) (sigmav : ℝ → ℝ) (Eionize : ℝ) (w : World ι) : Except Err (SimpleIonisation ι) := do
  let Nn ← w.field "h" .density
  let Tn ← w.field "h" .temperature
  let Vn ← w.field "h" .velocity
  let AA ← w.real "h" .AA
  let Ne ← w.field "e" .density
  let Te ← w.field "e" .temperature
  let AAi ← w.real "h+" .AA
  assert1 (AA = AAi)
  return ionisationOf nm sigmav Eionize w Nn Tn Vn Ne Te AA

/-- `IS_SET(species["velocity"]) ? GET_VALUE(Field3D, species["velocity"]) : 0.0`. -/
def World.velocityOr0 (w : World ι) (s : String) : Fld ι := (w.st.ent (.sp s .velocity)).val.getD fun _ => 0

/-- The friction, `src/solkit_hydrogen_charge_exchange.cxx:17-24`. -/
noncomputable def solkitFriction (Nnorm rho_s0 AA : ℝ) (w : World ι) (natom nion Vatom Vion : Fld ι) : Fld ι :=
  w.avg4 (fun natom nion vatom vion =>
    let R := natom * nion * 3e-19 * |vion| * (Nnorm * rho_s0)
    AA * (vion - vatom) * R) (fun i => max (natom i) 1e-5) (fun i => max (nion i) 1e-5) Vatom Vion

/-- `SOLKITHydrogenChargeExchange::calculate_rates`, `src/solkit_hydrogen_charge_exchange.cxx:5-29`: contributions to the
sources. -/
noncomputable def solkitChargeExchange (Nnorm rho_s0 : ℝ) (atom ion : String) (w : World ι) : Except Err (List (Contrib Key ι)) := do
  let AA ← w.real ion .AA
  let AAa ← w.real atom .AA
  assert1 (AAa = AA)
  let natom ← w.field atom .density
  let nion ← w.field ion .density
  let friction := solkitFriction Nnorm rho_s0 AA w natom nion (w.velocityOr0 atom) (w.velocityOr0 ion)
  return [(.sp ion .momentum_source, friction, false), (.sp atom .momentum_source, friction, true)]

end Hermes
