import Verif.Model.Value
import Mathlib.Analysis.SpecialFunctions.Pow.Real
import Mathlib.Analysis.SpecialFunctions.Log.Basic

/-!
# Fixed-fraction impurity radiation: `include/fixed_fraction_radiation.hxx`

Left out: `outputVars`.
-/

namespace Hermes
namespace Cooling

/-- `HutchinsonCarbon`, `include/fixed_fraction_radiation.hxx:17-24`. -/
noncomputable def hutchinsonCarbon (Te : ℝ) : ℝ :=
  if Te < 0 then 0
  else 2e-31 * (Te / 10) ^ (3 : ℝ) / (1 + (Te / 10) ^ (4.5 : ℝ))

/-- `Argon_adas`, `include/fixed_fraction_radiation.hxx:33-59`. -/
noncomputable def argon_adas (Te : ℝ) : ℝ :=
  let logT := Real.log Te
  if Te ≥ 1.5 ∧ Te ≤ 1500 then
    let log_out := 0
      - 8.45410692e01 * logT ^ 0
      + 1.57727040e01 * logT ^ 1
      - 1.54264860e01 * logT ^ 2
      + 1.49409902e01 * logT ^ 3
      - 1.04815113e01 * logT ^ 4
      + 5.00924595e00 * logT ^ 5
      - 1.60029106e00 * logT ^ 6
      + 3.29455609e-01 * logT ^ 7
      - 4.14036827e-02 * logT ^ 8
      + 2.87063206e-03 * logT ^ 9
      - 8.38888002e-05 * logT ^ 10
    Real.exp log_out
  else if Te < 1.5 then 1.95353412e-35
  else 1.22649600e-32

/-- `Neon_adas`, `include/fixed_fraction_radiation.hxx:62-88`. -/
noncomputable def neon_adas (Te : ℝ) : ℝ :=
  let logT := Real.log Te
  if Te ≥ 2 ∧ Te ≤ 1000 then
    let log_out := 0
      - 8.21475117e01 * logT ^ 0
      + 1.28929854e01 * logT ^ 1
      - 4.74266289e01 * logT ^ 2
      + 7.45222324e01 * logT ^ 3
      - 5.75710722e01 * logT ^ 4
      + 2.57375965e01 * logT ^ 5
      - 7.12758563e00 * logT ^ 6
      + 1.24287546e00 * logT ^ 7
      - 1.32943407e-01 * logT ^ 8
      + 7.97368445e-03 * logT ^ 9
      - 2.05487897e-04 * logT ^ 10
    Real.exp log_out
  else if Te < 2 then 6.35304113e-36
  else 1.17894628e-32

/-- `Nitrogen_adas`, `include/fixed_fraction_radiation.hxx:92-118`. -/
noncomputable def nitrogen_adas (Te : ℝ) : ℝ :=
  let logT := Real.log Te
  if Te ≥ 2 ∧ Te ≤ 500 then
    let log_out := 0
      - 5.01649969e01 * logT ^ 0
      - 1.35749724e02 * logT ^ 1
      + 2.73509608e02 * logT ^ 2
      - 2.92109992e02 * logT ^ 3
      + 1.90120639e02 * logT ^ 4
      - 7.95164871e01 * logT ^ 5
      + 2.17762218e01 * logT ^ 6
      - 3.88334992e00 * logT ^ 7
      + 4.34730098e-01 * logT ^ 8
      - 2.77683605e-02 * logT ^ 9
      + 7.72720422e-04 * logT ^ 10
    Real.exp log_out
  else if Te < 2 then 4.34835380e-34
  else 8.11096182e-33

/-- `Carbon_adas`, `include/fixed_fraction_radiation.hxx:122-148`. -/
noncomputable def carbon_adas (Te : ℝ) : ℝ :=
  let logT := Real.log Te
  if Te ≥ 1 ∧ Te ≤ 500 then
    let log_out := 0
      - 7.87837896e01 * logT ^ 0
      + 1.55326376e00 * logT ^ 1
      + 1.65898194e01 * logT ^ 2
      - 3.23804546e01 * logT ^ 3
      + 3.12784663e01 * logT ^ 4
      - 1.74826039e01 * logT ^ 5
      + 5.91393245e00 * logT ^ 6
      - 1.22974105e00 * logT ^ 7
      + 1.54004499e-01 * logT ^ 8
      - 1.06797106e-02 * logT ^ 9
      + 3.15657594e-04 * logT ^ 10
    Real.exp log_out
  else if Te < 1 then 6.00623928e-35
  else 4.53057707e-33

/-- `Krypton_adas`, `include/fixed_fraction_radiation.hxx:236-260`. -/
noncomputable def krypton_adas (Te : ℝ) : ℝ :=
  let logT := Real.log Te
  if Te ≥ 2 ∧ Te ≤ 1500 then
    let log_out := 0
      - 2.97405917e01 * logT ^ 0
      - 2.25443986e02 * logT ^ 1
      + 4.08713640e02 * logT ^ 2
      - 3.86540549e02 * logT ^ 3
      + 2.19566710e02 * logT ^ 4
      - 7.93264990e01 * logT ^ 5
      + 1.86185949e01 * logT ^ 6
      - 2.82487288e00 * logT ^ 7
      + 2.67070863e-01 * logT ^ 8
      - 1.43001273e-02 * logT ^ 9
      + 3.31179737e-04 * logT ^ 10
    Real.exp log_out
  else if Te < 2 then 8.01651285e-35
  else 6.17035971e-32

/-- `Xenon_adas`, `include/fixed_fraction_radiation.hxx:269-298`. -/
noncomputable def xenon_adas (Te : ℝ) : ℝ :=
  let logT := Real.log Te
  if Te ≥ 2 ∧ Te ≤ 1300 then
    let log_out := 0
      + 3.80572137e02 * logT ^ 0
      - 3.05839745e03 * logT ^ 1
      + 9.01104594e03 * logT ^ 2
      - 1.55327244e04 * logT ^ 3
      + 1.75819719e04 * logT ^ 4
      - 1.38754866e04 * logT ^ 5
      + 7.90608220e03 * logT ^ 6
      - 3.32041900e03 * logT ^ 7
      + 1.03912363e03 * logT ^ 8
      - 2.42980719e02 * logT ^ 9
      + 4.22211209e01 * logT ^ 10
      - 5.36813849e00 * logT ^ 11
      + 4.84652106e-01 * logT ^ 12
      - 2.94023979e-02 * logT ^ 13
      + 1.07416308e-03 * logT ^ 14
      - 1.78510623e-05 * logT ^ 15
    Real.exp log_out
  else if Te < 2 then 1.87187135e-33
  else 1.29785519e-31

/-- `Tungsten_adas`, `include/fixed_fraction_radiation.hxx:304-338`. -/
noncomputable def tungsten_adas (Te : ℝ) : ℝ :=
  let logT := Real.log Te
  if Te ≥ 1.25 ∧ Te ≤ 1500 then
    let log_out := 0
      - 7.24602210e01 * logT ^ 0
      - 2.17524363e01 * logT ^ 1
      + 1.90745408e02 * logT ^ 2
      - 7.57571067e02 * logT ^ 3
      + 1.84119395e03 * logT ^ 4
      - 2.99842204e03 * logT ^ 5
      + 3.40395125e03 * logT ^ 6
      - 2.76328977e03 * logT ^ 7
      + 1.63368844e03 * logT ^ 8
      - 7.11076320e02 * logT ^ 9
      + 2.28027010e02 * logT ^ 10
      - 5.30145974e01 * logT ^ 11
      + 8.46066686e00 * logT ^ 12
      - 7.54960450e-01 * logT ^ 13
      - 1.61054010e-02 * logT ^ 14
      + 1.65520152e-02 * logT ^ 15
      - 2.70054697e-03 * logT ^ 16
      + 2.50286873e-04 * logT ^ 17
      - 1.43319310e-05 * logT ^ 18
      + 4.75258630e-07 * logT ^ 19
      - 7.03012454e-09 * logT ^ 20
    Real.exp log_out
  else if Te < 1.25 then 2.09814651e-32
  else 1.85078767e-31

/-- `Argon_simplified1`, `include/fixed_fraction_radiation.hxx:155-177`. -/
noncomputable def argon_simplified1 (Te : ℝ) : ℝ :=
  if Te < 0.52 then 0
  else if Te ≥ 0.52 ∧ Te < 2.50 then (1.953534e-35 * (2.50 - Te) + 6.053680e-34 * (Te - 0.52)) / (2.50 - 0.52)
  else if Te ≥ 2.50 ∧ Te < 19.72 then (6.053680e-34 * (19.72 - Te) + 2.175237e-31 * (Te - 2.50)) / (19.72 - 2.50)
  else if Te ≥ 19.72 ∧ Te < 59.98 then (2.175237e-31 * (59.98 - Te) + 4.190918e-32 * (Te - 19.72)) / (59.98 - 19.72)
  else if Te ≥ 59.98 ∧ Te < 3000.00 then (4.190918e-32 * (3000.00 - Te) + 1.226496e-32 * (Te - 59.98)) / (3000.00 - 59.98)
  else 1.226496e-32

/-- `Argon_simplified2`, `include/fixed_fraction_radiation.hxx:184-203`. -/
noncomputable def argon_simplified2 (Te : ℝ) : ℝ :=
  if Te < 0.52 then 0
  else if Te ≥ 0.52 ∧ Te < 2.50 then (1.953534e-35 * (2.50 - Te) + 6.053680e-34 * (Te - 0.52)) / (2.50 - 0.52)
  else if Te ≥ 2.50 ∧ Te < 19.72 then (6.053680e-34 * (19.72 - Te) + 2.175237e-31 * (Te - 2.50)) / (19.72 - 2.50)
  else if Te ≥ 19.72 ∧ Te < 59.98 then (2.175237e-31 * (59.98 - Te) + 0.000000e+00 * (Te - 19.72)) / (59.98 - 19.72)
  else 0

/-- `Argon_simplified3`, `include/fixed_fraction_radiation.hxx:211-230`. -/
noncomputable def argon_simplified3 (Te : ℝ) : ℝ :=
  if Te < 0.52 then 0
  else if Te ≥ 0.52 ∧ Te < 2.50 then (1.953534e-35 * (2.50 - Te) + 6.053680e-34 * (Te - 0.52)) / (2.50 - 0.52)
  else if Te ≥ 2.50 ∧ Te < 19.72 then (6.053680e-34 * (19.72 - Te) + 2.175237e-31 * (Te - 2.50)) / (19.72 - 2.50)
  else if Te ≥ 19.72 ∧ Te < 38.02 then (2.175237e-31 * (38.02 - Te) + 0.000000e+00 * (Te - 19.72)) / (38.02 - 19.72)
  else 0

/-- The registered components and their curves, `include/fixed_fraction_radiation.hxx:453-484`. -/
noncomputable def registered : List (String × (ℝ → ℝ)) :=
  [("fixed_fraction_hutchinson_carbon", hutchinsonCarbon), ("fixed_fraction_carbon", carbon_adas),
   ("fixed_fraction_nitrogen", nitrogen_adas), ("fixed_fraction_neon", neon_adas), ("fixed_fraction_argon", argon_adas),
   ("fixed_fraction_argon_simplified1", argon_simplified1), ("fixed_fraction_argon_simplified2", argon_simplified2),
   ("fixed_fraction_argon_simplified3", argon_simplified3), ("fixed_fraction_krypton", krypton_adas),
   ("fixed_fraction_xenon", xenon_adas), ("fixed_fraction_tungsten", tungsten_adas)]

end Cooling

section
variable {ι : Type} [DecidableEq ι]

/-- The mesh as seen by this component: `core` are the cells `(x, y, z)` with `periodicY(x)`, lines 409-419. -/
structure RadMesh (ι : Type) where
  ym : ι → ι
  yp : ι → ι
  J : Fld ι
  lim : Limiter
  core : List ι

/-- Options and units, lines 348-372. -/
structure RadOpts where
  fraction : ℝ
  no_core_radiation : Bool
  radiation_multiplier : ℝ
  Tnorm : ℝ
  Nnorm : ℝ
  FreqNorm : ℝ
  /-- `SI::qe` -/
  qe : ℝ

/-- The integrand, lines 394-404. -/
noncomputable def radIntegrand (o : RadOpts) (curve : ℝ → ℝ) (ne te : ℝ) : ℝ :=
  if ne < 0 ∨ te < 0 then 0
  else
    let ni := o.fraction * ne
    ne * ni * curve (te * o.Tnorm) * o.radiation_multiplier * o.Nnorm / (o.qe * o.Tnorm * o.FreqNorm)

/-- `radiation`, lines 393-419. -/
noncomputable def radiationOf (o : RadOpts) (m : RadMesh ι) (curve : ℝ → ℝ) (Ne Te : Fld ι) : Fld ι :=
  let radiation : Fld ι := fun i =>
    cellAverage m.lim (fun x : Fin 2 → ℝ => radIntegrand o curve (x 0) (x 1)) ![Ne i, Te i]
      ![Ne (m.ym i), Te (m.ym i)] ![Ne (m.yp i), Te (m.yp i)] (m.J i) (m.J (m.ym i)) (m.J (m.yp i))
  if o.no_core_radiation then m.core.foldl (fun f i => Function.update f i 0) radiation else radiation

/-- `FixedFractionRadiation::transform`, lines 387-423. -/
noncomputable def fixedFractionRadiation (o : RadOpts) (m : RadMesh ι) (curve : ℝ → ℝ) : Prog ι Unit := do
  let Ne ← getNoBndryF "e" .density
  let Te ← getNoBndryF "e" .temperature
  subtractF "e" .energy_source (radiationOf o m curve Ne Te)

end
end Hermes
