import Verif.Model.Species
import Mathlib.Analysis.SpecialFunctions.Log.Basic
import Mathlib.Analysis.SpecialFunctions.Pow.Real
import Mathlib.Analysis.SpecialFunctions.Trigonometric.Basic

/-!
# Collisions

Model of `src/collisions.cxx`.  The diagnostic `collision_rates` is not modelled.

A frequency which is NaN makes the following `add` throw (`CHECK >= 1`).  In the model the arguments of
`sqrt` and `log` are checked with `valid`, which throws when the C++ function would give NaN.
-/

namespace Hermes

/-- Normalisations and constants, `src/collisions.cxx:18-24`. -/
structure CollNorms where
  Tnorm : ℝ
  Nnorm : ℝ
  rho_s0 : ℝ
  Omega_ci : ℝ
  /-- `SI::qe`, `SI::Me`, `SI::Mp`, `SI::e0` -/
  qe : ℝ
  Me : ℝ
  Mp : ℝ
  e0 : ℝ

/-- Options, `src/collisions.cxx:28-53`. -/
structure CollOpts where
  electron_electron : Bool
  electron_ion : Bool
  electron_neutral : Bool
  ion_ion : Bool
  ion_neutral : Bool
  neutral_neutral : Bool
  frictional_heating : Bool
  ei_multiplier : ℝ

/-- `floor`, `src/collisions.cxx:9-13`. -/
noncomputable def floorTo (value lo : ℝ) : ℝ := if value < lo then lo else value

open Classical in
/-- An exception unless `p` (see the head of the file). -/
noncomputable def valid (p : Prop) : Except Err Unit := if p then .ok () else .error .invalid

section
variable {ι : Type}

/-- `species.isSet(v) ? get(species[v]) : 0.0`. -/
def World.fieldOr0 (w : World ι) (s : String) (v : Var) : Fld ι := (w.st.ent (.sp s v)).val.getD fun _ => 0

/-- Lines 94-136: friction and frictional heating. -/
noncomputable def frictionOf (fh : Bool) (s1 s2 : String) (nu_12 : Fld ι) (coef A1 A2 : ℝ)
    (n1 v1 v2 : Fld ι) : List (Contrib Key ι) :=
  let F12 : Fld ι := fun i => coef * nu_12 i * A1 * n1 i * (v2 i - v1 i)
  [(.sp s1 Var.momentum_source, F12, true), (.sp s2 Var.momentum_source, F12, false)]
  ++ (if fh then
    [(.sp s1 Var.energy_source, (fun i => (A2 / (A1 + A2)) * (v2 i - v1 i) * F12 i), true),
     (.sp s2 Var.energy_source, (fun i => (A1 / (A1 + A2)) * (v2 i - v1 i) * F12 i), true)]
    else [])

/-- Lines 140-149: heat exchange. -/
noncomputable def heatExchangeOf (s1 s2 : String) (nu_12 : Fld ι) (A1 A2 : ℝ) (n1 T1 T2 : Fld ι) :
    List (Contrib Key ι) :=
  let Q12 : Fld ι := fun i => nu_12 i * 3 * n1 i * (A1 / (A1 + A2)) * (T2 i - T1 i)
  [(.sp s1 Var.energy_source, Q12, true), (.sp s2 Var.energy_source, Q12, false)]

/-- Lines 138-150. -/
noncomputable def heatExchange (s1 s2 : String) (nu_12 : Fld ι) (A1 A2 : ℝ) (n1 : Fld ι) (w : World ι) :
    Except Err (List (Contrib Key ι)) :=
  if w.isSetF s1 Var.temperature || w.isSetF s2 Var.temperature then do
    let T1 ← w.field s1 Var.temperature
    let T2 ← w.field s2 Var.temperature
    return heatExchangeOf s1 s2 nu_12 A1 A2 n1 T1 T2
  else return []

/-- `Collisions::collide`, `src/collisions.cxx:71-152`.  Species are compared by name instead of by address. -/
noncomputable def collide (fh : Bool) (s1 s2 : String) (nu_12 : Fld ι) (coef : ℝ) (w : World ι) :
    Except Err (List (Contrib Key ι)) :=
  if s1 = s2 then return [(.sp s1 Var.collision_frequency, nu_12, true)]
  else do
    let A1 ← w.real s1 Var.AA
    let A2 ← w.real s2 Var.AA
    let n1 ← w.field s1 Var.density
    let n2 ← w.field s2 Var.density
    let q ← heatExchange s1 s2 nu_12 A1 A2 n1 w
    return [(.sp s1 Var.collision_frequency, nu_12, true),
            (.sp s2 Var.collision_frequency, (fun i => nu_12 i * (A1 / A2) * n1 i / floorTo (n2 i) 1e-5), true)]
      ++ (if w.isSetF s1 Var.velocity || w.isSetF s2 Var.velocity then
        frictionOf fh s1 s2 nu_12 coef A1 A2 n1 (w.fieldOr0 s1 Var.velocity) (w.fieldOr0 s2 Var.velocity)
        else [])
      ++ q

/-! ## Frequencies (arguments in SI units and eV) -/

/-- Electron–electron, lines 175-193. -/
noncomputable def nuEE (k : CollNorms) (Te Ne : ℝ) : ℝ :=
  let Telim := floorTo Te 0.1
  let Nelim := floorTo Ne 1e10
  let logTe := Real.log Telim
  let coulomb_log := 30.4 - 0.5 * Real.log Nelim + (5 / 4) * logTe - Real.sqrt (1e-5 + (logTe - 2) ^ 2 / 16)
  let v1sq := 2 * Telim * k.qe / k.Me
  (k.qe ^ 2) ^ 2 * floorTo Ne 0 * floorTo coulomb_log 1 * 2
    / (3 * (Real.pi * 2 * v1sq) ^ (3 / 2 : ℝ) * (k.e0 * k.Me) ^ 2)

/-- Electron–ion, lines 213-243. -/
noncomputable def nuEI (k : CollNorms) (ei_multiplier Zi Ai Te Ne Ti Ni : ℝ) : ℝ :=
  let me_mi := k.Me / (k.Mp * Ai)
  let coulomb_log :=
    if Te < 0.1 ∨ Ni < 1e10 ∨ Ne < 1e10 then 10
    else if Te < Ti * me_mi then 23 - 0.5 * Real.log Ni + 1.5 * Real.log Ti - Real.log (Zi ^ 2 * Ai)
    else if Te < Real.exp 2 * Zi ^ 2 then 30 - 0.5 * Real.log Ne - Real.log Zi + 1.5 * Real.log Te
    else 31 - 0.5 * Real.log Ne + Real.log Te
  let vesq := 2 * floorTo Te 0.1 * k.qe / k.Me
  let visq := 2 * floorTo Ti 0.1 * k.qe / (k.Mp * Ai)
  (k.qe ^ 2 * Zi) ^ 2 * floorTo Ni 0 * floorTo coulomb_log 1 * (1 + me_mi)
    / (3 * (Real.pi * (vesq + visq)) ^ (3 / 2 : ℝ) * (k.e0 * k.Me) ^ 2) * ei_multiplier

/-- Momentum coefficient, lines 247-251. -/
noncomputable def momCoeff (Zi : ℝ) : ℝ :=
  if Zi = 1 then 0.51 else if Zi = 2 then 0.44 else if Zi = 3 then 0.40 else 0.38

/-- Electron–neutral, lines 276-282 (`Nn` is normalised). -/
noncomputable def nuEN (k : CollNorms) (Te Nn : ℝ) : ℝ :=
  Real.sqrt ((k.Mp / k.Me) * Te / k.Tnorm) * k.Nnorm * Nn * 5e-19 * k.rho_s0

/-- Ion–ion, lines 357-380. -/
noncomputable def nuII (k : CollNorms) (Z1 Z2 A1 A2 T1 T2 N1 N2 : ℝ) : ℝ :=
  let Tlim1 := floorTo T1 0.1
  let Tlim2 := floorTo T2 0.1
  let Nlim1 := floorTo N1 1e10
  let Nlim2 := floorTo N2 1e10
  let coulomb_log := 29.91 - Real.log ((Z1 * Z2 * (A1 + A2)) / (A1 * Tlim2 + A2 * Tlim1)
    * Real.sqrt (Nlim1 * Z1 ^ 2 / Tlim1 + Nlim2 * Z2 ^ 2 / Tlim2))
  let mass1 := A1 * k.Mp
  let mass2 := A2 * k.Mp
  let v1sq := 2 * Tlim1 * k.qe / mass1
  let v2sq := 2 * Tlim2 * k.qe / mass2
  (Z1 * k.qe * (Z2 * k.qe)) ^ 2 * Nlim2 * floorTo coulomb_log 1 * (1 + mass1 / mass2)
    / (3 * (Real.pi * (v1sq + v2sq)) ^ (3 / 2 : ℝ) * (k.e0 * mass1) ^ 2)

/-- Ion–neutral and neutral–neutral with cross-section `a0`, lines 394-402, 440-448, 468-476. -/
noncomputable def nuHard (k : CollNorms) (a0 A1 A2 T1 T2 N2 : ℝ) : ℝ :=
  Real.sqrt (T1 / (k.Tnorm * A1) + T2 / (k.Tnorm * A2)) * N2 * a0 * k.rho_s0

/-- Lines 392, 438. -/
noncomputable def a0Ion : ℝ := 5e-19
/-- Line 466. -/
noncomputable def a0Neutral : ℝ := Real.pi * (2.8e-10) ^ 2

/-! ## `Collisions::transform` -/

/-- Concatenate the results of a loop body, stopping at the first exception. -/
def collectM {α β : Type} (f : α → Except Err (List β)) : List α → Except Err (List β)
  | [] => .ok []
  | a :: as => do
    let x ← f a
    let y ← collectM f as
    return x ++ y

/-- `species.isSet("charge") and (get<BoutReal>(species["charge"]) != 0.0)`, lines 319, 346. -/
def World.charged (w : World ι) (s : String) : Prop := ∃ z, w.num s Var.charge = some z ∧ z ≠ 0
/-- `… > 0.0`, line 201, and `… < 0.0`, line 255. -/
def World.positive (w : World ι) (s : String) : Prop := ∃ z, w.num s Var.charge = some z ∧ 0 < z
def World.negative (w : World ι) (s : String) : Prop := ∃ z, w.num s Var.charge = some z ∧ z < 0

open Classical in
/-- Body of the loop over species colliding with electrons, lines 167-286. -/
noncomputable def electronWith (k : CollNorms) (o : CollOpts) (w : World ι) (Te Ne : Fld ι) (n : String) :
    Except Err (List (Contrib Key ι)) :=
  if n = "e" then
    if o.electron_electron = false then return []
    else collide o.frictional_heating "e" "e" (fun i => nuEE k (Te i) (Ne i) / k.Omega_ci) 1 w
  else if w.positive n then
    if o.electron_ion = false then return []
    else do
      let Ti ← w.field n Var.temperature
      let Ni ← w.field n Var.density
      let Zi ← w.real n Var.charge
      let Ai ← w.real n Var.AA
      collide o.frictional_heating "e" n (fun i => nuEI k o.ei_multiplier Zi Ai (Te i) (Ne i) (Ti i * k.Tnorm)
        (Ni i * k.Nnorm) / k.Omega_ci) (momCoeff Zi) w
  else if w.negative n then return []
  else
    if o.electron_neutral = false then return []
    else do
      let Nn ← w.field n Var.density
      valid (∀ i, 0 ≤ (k.Mp / k.Me) * Te i / k.Tnorm)
      collide o.frictional_heating "e" n (fun i => nuEN k (Te i) (Nn i)) 1 w

/-- The electron loop, lines 162-287. -/
noncomputable def electronLoop (k : CollNorms) (o : CollOpts) (names : List String) (w : World ι) :
    Except Err (List (Contrib Key ι)) :=
  if "e" ∈ names then do
    let Te ← w.field "e" Var.temperature
    let Ne ← w.field "e" Var.density
    collectM (electronWith k o w (fun i => Te i * k.Tnorm) (fun i => Ne i * k.Nnorm)) names
  else return []

/-- What both loops read of a species, lines 309-316, 336-343, 422-427 (temperature in eV, density in m^-3). -/
structure HeavyInput (ι : Type) where
  T : Fld ι
  N : Fld ι
  A : ℝ

noncomputable def readHeavy (k : CollNorms) (w : World ι) (n : String) : Except Err (HeavyInput ι) := do
  let N ← w.field n Var.density
  let A ← w.real n Var.AA
  return { T := fun i => w.fieldOr0 n Var.temperature i * k.Tnorm, N := fun i => N i * k.Nnorm, A := A }

/-- Elastic scattering with a constant cross-section: lines 390-404, 437-450, 466-478. -/
noncomputable def hardSphere (k : CollNorms) (o : CollOpts) (w : World ι) (a0 : ℝ) (n1 n2 : String)
    (x1 x2 : HeavyInput ι) : Except Err (List (Contrib Key ι)) := do
  valid (∀ i, 0 ≤ x1.T i / (k.Tnorm * x1.A) + x2.T i / (k.Tnorm * x2.A))
  collide o.frictional_heating n1 n2 (fun i => nuHard k a0 x1.A x2.A (x1.T i) (x2.T i) (x2.N i)) 1 w

/-- Ion–ion collisions: lines 353-383. -/
noncomputable def ionIon (k : CollNorms) (o : CollOpts) (w : World ι) (n1 n2 : String)
    (x1 x2 : HeavyInput ι) : Except Err (List (Contrib Key ι)) := do
  let Z1 ← w.real n1 Var.charge
  let Z2 ← w.real n2 Var.charge
  valid (0 < Z1 * Z2)
  collide o.frictional_heating n1 n2 (fun i => nuII k Z1 Z2 x1.A x2.A (x1.T i) (x2.T i) (x1.N i) (x2.N i)
    / k.Omega_ci) 1 w

open Classical in
/-- Body of the loop over `kv2` when species 1 is charged, lines 326-406. -/
noncomputable def chargedWith (k : CollNorms) (o : CollOpts) (w : World ι) (n1 : String) (x1 : HeavyInput ι)
    (n2 : String) : Except Err (List (Contrib Key ι)) :=
  if n2 = "e" ∨ n2 = "ebeam" then return []
  else do
    let x2 ← readHeavy k w n2
    if w.charged n2 then
      if o.ion_ion = false then return [] else ionIon k o w n1 n2 x1 x2
    else hardSphere k o w a0Ion n1 n2 x1 x2

/-- Body of the loop over `kv2` when species 1 is neutral, lines 412-480.  Note that line 429 tests only
whether the charge is set, and that `ebeam` is not skipped. -/
noncomputable def neutralWith (k : CollNorms) (o : CollOpts) (w : World ι) (n1 : String) (x1 : HeavyInput ι)
    (n2 : String) : Except Err (List (Contrib Key ι)) :=
  if n2 = "e" then return []
  else do
    let x2 ← readHeavy k w n2
    if (w.num n2 Var.charge).isSome then
      if o.ion_neutral = false then return [] else hardSphere k o w a0Ion n1 n2 x1 x2
    else
      if o.neutral_neutral = false then return [] else hardSphere k o w a0Neutral n1 n2 x1 x2

open Classical in
/-- Body of the loop over `kv1`, lines 302-482; `rest` are the species from `kv1` to the end. -/
noncomputable def heavyWith (k : CollNorms) (o : CollOpts) (w : World ι) (n1 : String) (rest : List String) :
    Except Err (List (Contrib Key ι)) :=
  if n1 = "e" ∨ n1 = "ebeam" then return []
  else do
    let x1 ← readHeavy k w n1
    if w.charged n1 then collectM (chargedWith k o w n1 x1) rest
    else collectM (neutralWith k o w n1 x1) rest

/-- The loop over pairs on and above the diagonal, lines 301-482. -/
noncomputable def heavyLoop (k : CollNorms) (o : CollOpts) (w : World ι) :
    List String → Except Err (List (Contrib Key ι))
  | [] => .ok []
  | n1 :: ns => do
    let a ← heavyWith k o w n1 (n1 :: ns)
    let b ← heavyLoop k o w ns
    return a ++ b

/-- `Collisions::transform`, `src/collisions.cxx:154-483`.  `names` are the children of `state["species"]` in
the order of the map. -/
noncomputable def collisions (k : CollNorms) (o : CollOpts) (names : List String) : SourceComponent ι := fun w => do
  let a ← electronLoop k o names w
  let b ← heavyLoop k o w names
  return a ++ b

end
end Hermes
