import Verif.Model.Sheath

/-!
# Classical diffusion (`src/classical_diffusion.cxx`) and the electromagnetic correction (`src/electromagnetic.cxx`)

`FV::Div_a_Grad_perp`, the Laplacian solver, `mesh->communicate` and the boundary conditions of BOUT++ are parameters.
-/

namespace Hermes

section
variable {ι : Type}

/-! ## Classical diffusion -/

/-- Members of `ClassicalDiffusion`, the guard cells, and `FV::Div_a_Grad_perp(a, f)`. -/
structure ClassicalOpts (ι : Type) where
  custom_D : ℝ
  Bsq : Fld ι
  guards : ι → Bool
  divGradPerp : Fld ι → Fld ι → Fld ι

/-- Body of the first loop, `src/classical_diffusion.cxx:24-34`. -/
noncomputable def classicalPressure (Ptotal : Fld ι) (n : String) : Prog ι (Fld ι) := do
  let c ← isSet (.sp n .charge)
  if c then do
    let p ← isSetFinal (.sp n .pressure)
    if p then do
      let q ← getR n .charge
      if |q| < 1e-5 then pure Ptotal
      else do
        let P ← getF n .pressure
        pure fun i => Ptotal i + P i
    else pure Ptotal
  else pure Ptotal

/-- The diffusion coefficient before the guard cells are set to zero: lines 44-49. -/
noncomputable def classicalD (o : ClassicalOpts ι) (Ptotal Ne : Fld ι) (me : ℝ) : Prog ι (Fld ι) :=
  if o.custom_D > 0 then pure fun _ => o.custom_D
  else do
    let nu ← getF "e" .collision_frequency
    pure fun i => floorTo (Ptotal i) 1e-5 * me * floorTo (nu i) 1e-10 / (floorTo (Ne i) 1e-5 * o.Bsq i)

/-- Momentum, lines 72-77. -/
noncomputable def classicalMomentum (o : ClassicalOpts ι) (Dn N : Fld ι) (n : String) : Prog ι Unit := do
  let b ← isSetFinal (.sp n .velocity)
  if b then do
    let V ← getF n .velocity
    let AA ← getR n .AA
    addF n .momentum_source (o.divGradPerp (fun i => Dn i * AA * V i) N)
  else pure ()

/-- Conduction, lines 90-93. -/
noncomputable def classicalConduction (o : ClassicalOpts ι) (P T : Fld ι) (AA : ℝ) (n : String) : Prog ι Unit :=
  if o.custom_D < 0 then do
    let nu ← getF n .collision_frequency
    addF n .energy_source (o.divGradPerp (fun i => 2 * floorTo (P i) 1e-5 * floorTo (nu i) 1e-10 * AA / o.Bsq i) T)
  else pure ()

/-- Energy, lines 79-94. -/
noncomputable def classicalEnergy (o : ClassicalOpts ι) (Dn N : Fld ι) (n : String) : Prog ι Unit := do
  let b ← isSetFinal (.sp n .temperature)
  if b then do
    let T ← getF n .temperature
    addF n .energy_source (o.divGradPerp (fun i => Dn i * (3 / 2) * T i) N)
    let P ← getF n .pressure
    let AA ← getR n .AA
    classicalConduction o P T AA n
  else pure ()

/-- Lines 68-94. -/
noncomputable def classicalSources (o : ClassicalOpts ι) (Dn : Fld ι) (n : String) : Prog ι Unit := do
  let N ← getF n .density
  addF n .density_source (o.divGradPerp Dn N)
  classicalMomentum o Dn N n
  classicalEnergy o Dn N n

/-- Body of the second loop, lines 57-95. -/
noncomputable def classicalSpecies (o : ClassicalOpts ι) (Dn : Fld ι) (n : String) : Prog ι Unit := do
  let c ← isSet (.sp n .charge)
  if c then do
    let d ← isSetFinal (.sp n .density)
    if d then do
      let q ← getR n .charge
      if |q| < 1e-5 then pure ()
      else classicalSources o Dn n
    else pure ()
  else pure ()

/-- `ClassicalDiffusion::transform`, lines 15-96. -/
noncomputable def classicalDiffusion (o : ClassicalOpts ι) (names : List String) : Prog ι Unit := do
  let Ptotal ← names.foldlM classicalPressure (fun _ => 0)
  let me ← getR "e" .AA
  let Ne ← getF "e" .density
  let D ← classicalD o Ptotal Ne me
  let Dn : Fld ι := fun i => if o.guards i then 0 else D i
  names.forM (classicalSpecies o Dn)

/-! ## Electromagnetic -/

/-- Parameters: `beta_em`; `solve a rhs` is the solution of `Laplace(A) + a A = rhs` for `Apar` (with its dependence on the previous value and
on the boundary options, lines 136-176); `bndry` is `communicate` followed by the Dirichlet boundary condition. -/
structure EMOpts (ι : Type) where
  beta_em : ℝ
  solve : Fld ι → Fld ι → Fld ι
  bndry : Fld ι → Fld ι

/-- Body of the first loop, `src/electromagnetic.cxx:111-131`: `alpha_em` and `Ajpar`. -/
noncomputable def emTerm (a : Fld ι × Fld ι) (n : String) : Prog ι (Fld ι × Fld ι) := do
  let c ← isSetFinal (.sp n .charge)
  let m ← isSet (.sp n .momentum)
  if c && m then do
    let Z ← getR n .charge
    if |Z| < 1e-5 then pure a
    else do
      let N ← getNoBndryF n .density
      let mom ← getNonFinal asField (.sp n .momentum)
      let A ← getR n .AA
      pure (fun i => a.1 i + floorTo (N i) 1e-5 * (Z ^ 2 / A), fun i => a.2 i + mom i * (Z / A))
  else pure a

/-- Lines 192-208. -/
noncomputable def emUpdate (o : EMOpts ι) (Apar : Fld ι) (Z : ℝ) (n : String) : Prog ι Unit := do
  let A ← getR n .AA
  let N ← getNoBndryF n .density
  let nv ← getNonFinal asField (.sp n .momentum)
  let v ← getNonFinal asField (.sp n .velocity)
  setF n .momentum (o.bndry fun i => nv i - Z * N i * Apar i)
  setF n .velocity (o.bndry fun i => v i - (Z / A) * N i * Apar i / floorTo (N i) 1e-5)

/-- Body of the second loop, lines 182-209. -/
noncomputable def emSpecies (o : EMOpts ι) (Apar : Fld ι) (n : String) : Prog ι Unit := do
  let c ← isSet (.sp n .charge)
  let m ← isSet (.sp n .momentum)
  if c && m then do
    let Z ← getR n .charge
    if |Z| < 1e-5 then pure ()
    else emUpdate o Apar Z n
  else pure ()

/-- `Electromagnetic::transform`, lines 101-210.  The flutter term (lines 212-219) publishes another field and is left out. -/
noncomputable def electromagnetic (o : EMOpts ι) (names : List String) : Prog ι Unit := do
  let a ← names.foldlM emTerm (fun _ => 0, fun _ => 0)
  let Apar := o.solve (fun i => -o.beta_em * a.1 i) (fun i => -o.beta_em * a.2 i)
  set (.top "fields:Apar") (.field Apar)
  names.forM (emSpecies o Apar)

end

end Hermes
