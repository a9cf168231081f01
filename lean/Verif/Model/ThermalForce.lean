import Verif.Model.Collisions

/-!
# Thermal force

Model of `src/thermal_force.cxx`.  `Grad_par` is a BOUT++ operator and a parameter.
-/

namespace Hermes

section
variable {ι : Type}

/-- `nz * (0.71 * SQ(Z)) * Grad_Te`, added to the ion and subtracted from the electrons,
`src/thermal_force.cxx:33-36`; `nz * beta * Grad_par(Ti)`, `117-120`. -/
def pairForce (dst src : String) (F : Fld ι) : List (Contrib Key ι) :=
  [(.sp dst Var.momentum_source, F, true), (.sp src Var.momentum_source, F, false)]

/-- Body of the electron–ion loop, `src/thermal_force.cxx:19-37`. -/
noncomputable def thermalElectronWith (w : World ι) (Grad_Te : Fld ι) (n : String) :
    Except Err (List (Contrib Key ι)) :=
  if n = "e" then return []
  else if (w.num n Var.charge).isSome = false then return []
  else do
    let Z ← w.real n Var.charge
    let nz ← w.field n Var.density
    return pairForce n "e" fun i => nz i * (0.71 * Z ^ 2) * Grad_Te i

/-- `beta`, `src/thermal_force.cxx:110-115`. -/
noncomputable def thermalBeta (mi mz Z : ℝ) : ℝ :=
  let mu := mz / (mi + mz)
  3 * (mu + 5 * Real.sqrt 2 * Z ^ 2 * (1.1 * mu ^ (5 / 2 : ℝ) - 0.35 * mu ^ (3 / 2 : ℝ)) - 1)
    / (2.6 - 2 * mu + 5.4 * mu ^ 2)

/-- Lines 96-120. -/
noncomputable def thermalLightHeavy (gradPar : Fld ι → Fld ι) (w : World ι) (light heavy : String) :
    Except Err (List (Contrib Key ι)) := do
  let mi ← w.real light Var.AA
  let Ti ← w.field light Var.temperature
  let mz ← w.real heavy Var.AA
  let Z ← w.real heavy Var.charge
  let nz ← w.field heavy Var.density
  if Z = 0 then return []
  else return pairForce heavy light fun i => nz i * thermalBeta mi mz Z * gradPar Ti i

/-- Body of the loop over `kv2`, lines 63-121. -/
noncomputable def thermalIonWith (gradPar : Fld ι → Fld ι) (w : World ι) (n1 n2 : String) :
    Except Err (List (Contrib Key ι)) :=
  if n2 = "e" ∨ (w.num n2 Var.charge).isSome = false then return []
  else do
    let A1 ← w.real n1 Var.AA
    let A2 ← w.real n2 Var.AA
    if A1 < 4 ∧ A2 > 10 then thermalLightHeavy gradPar w n1 n2
    else if A1 > 10 ∧ A2 < 4 then thermalLightHeavy gradPar w n2 n1
    else return []

/-- Body of the loop over `kv1`, lines 54-122; `rest` are the species after `kv1`. -/
noncomputable def thermalIonPairs (gradPar : Fld ι → Fld ι) (w : World ι) (n1 : String) (rest : List String) :
    Except Err (List (Contrib Key ι)) :=
  if n1 = "e" ∨ (w.num n1 Var.charge).isSome = false then .ok []
  else collectM (thermalIonWith gradPar w n1) rest

/-- Lines 54-122: pairs strictly above the diagonal. -/
noncomputable def thermalIonLoop (gradPar : Fld ι → Fld ι) (w : World ι) :
    List String → Except Err (List (Contrib Key ι))
  | [] => .ok []
  | n1 :: ns => do
    let a ← thermalIonPairs gradPar w n1 ns
    let b ← thermalIonLoop gradPar w ns
    return a ++ b

/-- Lines 11-38. -/
noncomputable def thermalElectronLoop (gradPar : Fld ι → Fld ι) (electron_ion : Bool) (names : List String)
    (w : World ι) : Except Err (List (Contrib Key ι)) :=
  if electron_ion = true ∧ "e" ∈ names then do
    let Te ← w.field "e" Var.temperature
    collectM (thermalElectronWith w (gradPar Te)) names
  else return []

/-- Lines 40-123. -/
noncomputable def thermalIonPart (gradPar : Fld ι → Fld ι) (ion_ion : Bool) (names : List String)
    (w : World ι) : Except Err (List (Contrib Key ι)) :=
  if ion_ion then thermalIonLoop gradPar w names else .ok []

/-- `ThermalForce::transform`, `src/thermal_force.cxx:6-125`. -/
noncomputable def thermalForce (gradPar : Fld ι → Fld ι) (electron_ion ion_ion : Bool) (names : List String) :
    SourceComponent ι := fun w => do
  let a ← thermalElectronLoop gradPar electron_ion names w
  let b ← thermalIonPart gradPar ion_ion names w
  return a ++ b

end
end Hermes
