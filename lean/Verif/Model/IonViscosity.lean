import Verif.Model.Sheath

/-!
# Ion viscosity, `src/ion_viscosity.cxx:64-254`

The differential operators are parameters.  Axisymmetric fields (`Field2D`) are fields here, produced by the average `dc` in the
direction of symmetry.  The checks for finite values and the diagnostics are left out.
-/

namespace Hermes
noncomputable section

variable {ι : Type} [DecidableEq ι]

/-- What BOUT++ provides, and the settings. -/
structure IVOpts (ι : Type) where
  eta_limit_alpha : ℝ
  perpendicular : Bool
  /-- Region `RGN_NOBNDRY`. -/
  dom : ι → Bool
  sqrtB : Fld ι
  Bxy : Fld ι
  /-- `Grad_par(log(Bxy))`. -/
  gradLogB : Fld ι
  /-- `FV::Div_par_K_Grad_par`. -/
  divParK : Fld ι → Fld ι → Fld ι
  gradPar : Fld ι → Fld ι
  /-- Boundary conditions and communication of `eta` (lines 111-112), of the stress (lines 187-202) and of their sum (line 224). -/
  bndryEta : Fld ι → Fld ι
  bndryPi : Fld ι → Fld ι
  bndrySum : Fld ι → Fld ι
  /-- `DC`: average in the direction of symmetry. -/
  dc : Fld ι → Fld ι
  /-- `Curlb_B * Grad(f)`. -/
  curv : Fld ι → Fld ι
  /-- `Div(f * Curlb_B)`. -/
  divCurv : Fld ι → Fld ι
  /-- `Div_n_bxGrad_f_B_XPPM(n, f, false, true)` with the number `n`. -/
  divBxGrad : ℝ → Fld ι → Fld ι
  /-- `bracket(f, g, BRACKET_STD)`. -/
  bracket : Fld ι → Fld ι → Fld ι

/-- `eta`, lines 95-113. -/
def ivEta (o : IVOpts ι) (nu P V : Fld ι) : Fld ι :=
  let eta : Fld ι := fun i => 1.28 * P i * (1 / nu i)
  if o.eta_limit_alpha > 0 then
    o.bndryEta fun i => eta i / (1 + |eta i * o.gradPar V i / (o.eta_limit_alpha * P i)|)
  else eta

/-- `div_Pi_cipar`, line 117. -/
def ivForcePar (o : IVOpts ι) (nu P V : Fld ι) : Fld ι := fun i =>
  o.sqrtB i * o.divParK (fun i => ivEta o nu P V i / o.Bxy i) (fun i => o.sqrtB i * V i) i

/-- `SIGN`. -/
def signOf (x : ℝ) : ℝ := if 0 ≤ x then 1 else -1

/-- Limit of the stress, lines 177-184, and boundary conditions. -/
def ivLimit (o : IVOpts ι) (Pav pi : Fld ι) : Fld ι := o.bndryPi fun i => if o.dom i ∧ |pi i| > Pav i then signOf (pi i) * Pav i else pi i

/-- `Pi_cipar`, lines 162-163 and 177-202. -/
def ivPiPar (o : IVOpts ι) (nu P V : Fld ι) : Fld ι :=
  ivLimit o (o.dc P) fun i => -0.96 * o.dc P i * o.dc (fun i => 1 / nu i) i * (2 * o.gradPar (o.dc V) i + o.dc V i * o.gradLogB i)

/-- `Pi_ciperp`, lines 170-202. -/
def ivPiPerp (o : IVOpts ι) (nu P N T phi : Fld ι) : Fld ι :=
  ivLimit o (o.dc P) fun i => -0.5 * 0.96 * o.dc P i * o.dc (fun i => 1 / nu i) i *
    (o.curv (fun i => o.dc phi i + 1.61 * o.dc T i) i - o.curv (o.dc P) i / o.dc N i)

/-- `div_Pi_ciperp`, line 204. -/
def ivForcePerp (o : IVOpts ι) (nu P N T phi : Fld ι) : Fld ι := fun i =>
  -(2 / 3) * o.gradPar (ivPiPerp o nu P N T phi) i + ivPiPerp o nu P N T phi i * o.gradLogB i

/-- `Pi_ci`, lines 211 and 224. -/
def ivPi (o : IVOpts ι) (nu P V N T phi : Fld ι) : Fld ι := o.bndrySum fun i => ivPiPar o nu P V i + ivPiPerp o nu P N T phi i

/-- `DivJ`, lines 227-228. -/
def ivDivJ (o : IVOpts ι) (nu P V N T phi : Fld ι) : Fld ι := fun i =>
  o.divCurv (fun i => 0.5 * ivPi o nu P V N T phi i) i - o.divBxGrad (1 / 3) (ivPi o nu P V N T phi) i

/-- Energy given to the ExB flow, lines 233-234.  The factor `(1 / 3)` is an integer division. -/
def ivTransfer (o : IVOpts ι) (nu P V N T phi : Fld ι) : Fld ι := fun i =>
  0.5 * ivPi o nu P V N T phi i * o.curv (fun i => o.dc phi i + o.dc P i) i -
    ((1 / 3 : ℤ) : ℝ) * o.bracket (ivPi o nu P V N T phi) (fun i => o.dc phi i + o.dc P i) i

/-- Perpendicular part, lines 149-234. -/
def ivPerpendicular (o : IVOpts ι) (n : String) (nu P V : Fld ι) : Prog ι Unit := do
  let phi ← get asField (.top "fields:phi")
  let N ← getF n .density
  let T ← getF n .temperature
  addF n .momentum_source (ivForcePerp o nu P N T phi)
  subtractF n .energy_source fun i => o.dc V i * ivForcePerp o nu P N T phi i
  add (.top "fields:DivJextra") (.field (ivDivJ o nu P V N T phi))
  subtractF n .energy_source (ivTransfer o nu P V N T phi)

/-- Parallel part, lines 95-147. -/
def ivForces (o : IVOpts ι) (n : String) : Prog ι Unit := do
  let nu ← getF n .collision_frequency
  let P ← getF n .pressure
  let V ← getF n .velocity
  addF n .momentum_source (ivForcePar o nu P V)
  subtractF n .energy_source fun i => V i * ivForcePar o nu P V i
  if o.perpendicular then ivPerpendicular o n nu P V else pure ()

/-- Body of the loop for species other than electrons, lines 75-252. -/
def ivSpecies (o : IVOpts ι) (n : String) : Prog ι Unit :=
  if n = "e" then pure ()
  else do
    let p ← isSetFinal (.sp n .pressure)
    if p then do
      let v ← isSetFinal (.sp n .velocity)
      if v then do
        let c ← isSetFinal (.sp n .charge)
        if c then do
          let Z ← getR n .charge
          if |Z| < 1e-3 then pure () else ivForces o n
        else pure ()
      else pure ()
    else pure ()

/-- `IonViscosity::transform`. -/
def ionViscosity (o : IVOpts ι) (names : List String) : Prog ι Unit := names.forM (ivSpecies o)

end
end Hermes
