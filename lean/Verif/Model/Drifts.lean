import Verif.Model.Sheath
import Mathlib.Analysis.Real.Sqrt

/-!
# Drifts and currents

`src/diamagnetic_drift.cxx`, `src/polarisation_drift.cxx`, `src/relax_potential.cxx`, and the parts of `src/vorticity.cxx` that are not about
the boundaries of the potential (for those see `Model/PhiBoundary.lean`).

The differential operators are parameters.  The diamagnetic current of a species is a multiple of the curvature vector `Curlb_B`; it is
represented by the factor.  Division by `Bsq` is never by zero.
-/

namespace Hermes
noncomputable section

/-- Operators of BOUT++ and values from the mesh. -/
structure DriftOps (ι : Type) where
  /-- `Curlb_B * Grad(f)`. -/
  curv : Fld ι → Fld ι
  /-- `Div(f * Curlb_B)`. -/
  divCurv : Fld ι → Fld ι
  /-- `FV::Div_f_v(f, a * Curlb_B, bndry_flux)`. -/
  divFlow : Fld ι → Fld ι → Fld ι
  /-- `FV::Div_a_Grad_perp(a, f)`. -/
  divAGrad : Fld ι → Fld ι → Fld ι
  /-- `Div_par(f)`. -/
  divPar : Fld ι → Fld ι
  /-- `applyBoundary("neumann")`. -/
  neumann : Fld ι → Fld ι
  /-- `toFieldAligned`, `limitFree` in the guard cells, `fromFieldAligned`: `src/vorticity.cxx:514-544`. -/
  freeP : Fld ι → Fld ι
  /-- The same for the potential with free boundaries: `src/vorticity.cxx:546-574`. -/
  freePhi : Fld ι → Fld ι
  /-- `SQ(coord->Bxy)`. -/
  Bsq : Fld ι

section
variable {ι : Type}

/-! ## Diamagnetic drift -/

/-- `diamag_form * div_form + (1. - diamag_form) * grad_form`, `src/diamagnetic_drift.cxx:83-88`. -/
def driftForm (o : DriftOps ι) (form : Fld ι) (q : ℝ) (T f : Fld ι) : Fld ι := fun i =>
  form i * o.divFlow f (fun i => T i / q) i + (1 - form i) * o.curv (fun i => f i * T i / q) i

/-- Lines 80-89, 91-97 and 99-104: `v` drifts, `s` is its source. -/
def driftOf (o : DriftOps ι) (form : Fld ι) (q : ℝ) (T : Fld ι) (factor : ℝ) (v s : Var) (n : String) : Prog ι Unit := do
  let b ← isSetFinal (.sp n v)
  if b then do
    let f ← getF n v
    subtractF n s fun i => factor * driftForm o form q T f i
  else pure ()

/-- Lines 75-104. -/
def driftSources (o : DriftOps ι) (form : Fld ι) (q : ℝ) (n : String) : Prog ι Unit := do
  let T ← getF n .temperature
  driftOf o form q T 1 .density .density_source n
  driftOf o form q T (5 / 2) .pressure .energy_source n
  driftOf o form q T 1 .momentum .momentum_source n

open Classical in
/-- Body of the loop, lines 64-105. -/
def driftSpecies (o : DriftOps ι) (form : Fld ι) (n : String) : Prog ι Unit := do
  let c ← isSet (.sp n .charge)
  if c then do
    let t ← isSet (.sp n .temperature)
    if t then do
      let q ← getR n .charge
      if |q| < 1e-5 then pure () else driftSources o form q n
    else pure ()
  else pure ()

/-- `DiamagneticDrift::transform`, lines 60-106. -/
def diamagneticDrift (o : DriftOps ι) (form : Fld ι) (names : List String) : Prog ι Unit := names.forM (driftSpecies o form)

/-! ## Currents -/

open Classical in
/-- `charge` is set and not below `1e-5` in size: `src/vorticity.cxx:239-248` and in many other places.  Otherwise the species is skipped.  Where the
program tests several values with `isSet` the order of the tests is not modelled: they change nothing. -/
def ifCharged {α : Type} (n : String) (skip : α) (m : ℝ → Prog ι α) : Prog ι α := do
  let c ← isSet (.sp n .charge)
  if c then do
    let q ← getR n .charge
    if |q| < 1e-5 then pure skip else m q
  else pure skip

/-- `isSet`, otherwise the species is skipped. -/
def ifSet {α : Type} (k : Key) (skip : α) (m : Prog ι α) : Prog ι α := do
  let c ← isSet k
  if c then m else pure skip

/-- `IS_SET_NOBOUNDARY`, otherwise the species is skipped. -/
def ifSetNB {α : Type} (k : Key) (skip : α) (m : Prog ι α) : Prog ι α := do
  let c ← isSetFinalNoBoundary k
  if c then m else pure skip

/-- `IS_SET`, otherwise the species is skipped. -/
def ifSetFinal {α : Type} (k : Key) (skip : α) (m : Prog ι α) : Prog ι α := do
  let c ← isSetFinal k
  if c then m else pure skip

/-- One species of `Pi_hat`, `src/vorticity.cxx:236-255`. -/
def piTerm (avg : ℝ) (Pi : Fld ι) (n : String) : Prog ι (Fld ι) :=
  ifSetNB (.sp n .pressure) Pi <| ifSet (.sp n .AA) Pi <| ifCharged n Pi fun q => do
    let P ← getNoBndryF n .pressure
    let AA ← getR n .AA
    pure fun i => Pi i + P i * (AA / avg / q)

/-- `Pi_hat`, lines 231-258. -/
def piHat (o : DriftOps ι) (diamagnetic_polarisation : Bool) (avg : ℝ) (names : List String) : Prog ι (Fld ι) := do
  let Pi ← (if diamagnetic_polarisation then names.foldlM (piTerm avg) (fun _ => 0) else pure fun _ => 0 : Prog ι (Fld ι))
  pure (o.neumann Pi)

/-- One species of the diamagnetic current, lines 498-583: the potential with its boundaries, and the sum of pressures. -/
def jdiaTerm (o : DriftOps ι) (a : Fld ι × Fld ι) (n : String) : Prog ι (Fld ι × Fld ι) :=
  ifSetNB (.sp n .pressure) a <| ifSetFinal (.sp n .charge) a <| ifCharged n a fun _ => do
    let P₀ ← getNoBndryF n .pressure
    let P := o.freeP P₀
    let phi := o.freePhi a.1
    subtractF n .energy_source fun i => P i * o.curv phi i
    pure (phi, fun i => a.2 i + P i)

/-- The diamagnetic current, lines 486-591: potential and `DivJdia`. -/
def vortDiamagnetic (o : DriftOps ι) (phi : Fld ι) (names : List String) : Prog ι (Fld ι × Fld ι) := do
  let a ← names.foldlM (jdiaTerm o) (phi, fun _ => 0)
  set (.top "fields:DivJdia") (.field (o.divCurv a.2))
  pure (a.1, o.divCurv a.2)

/-- One species of the collision frequency, lines 602-619: `sum_A_nu_n` and `sum_A_n`. -/
def frictionTerm (a : Fld ι × Fld ι) (n : String) : Prog ι (Fld ι × Fld ι) :=
  ifSet (.sp n .AA) a <| ifCharged n a fun _ => do
    let A ← getR n .AA
    let N ← getNoBndryF n .density
    let b ← isSetFinal (.sp n .collision_frequency)
    if b then do
      let nu ← getF n .collision_frequency
      pure (fun i => a.1 i + A * N i * nu i, fun i => a.2 i + A * N i)
    else pure (a.1, fun i => a.2 i + A * N i)

/-- `DivJcol`, lines 593-629. -/
def vortFriction (o : DriftOps ι) (avg : ℝ) (phi Pi : Fld ι) (names : List String) : Prog ι (Fld ι) := do
  let a ← names.foldlM frictionTerm (fun _ => 0, fun _ => 0)
  let nu := o.neumann fun i => a.1 i / a.2 i
  let DivJcol : Fld ι := fun i => -o.divAGrad (fun i => nu i * avg / o.Bsq i) (fun i => phi i + Pi i) i
  set (.top "fields:DivJcol") (.field DivJcol)
  pure DivJcol

/-- Options of `Vorticity`. -/
structure VortOpts (ι : Type) where
  exb_advection : Bool := true
  exb_advection_simplified : Bool := true
  diamagnetic : Bool := true
  diamagnetic_polarisation : Bool := true
  collisional_friction : Bool := false
  avg : ℝ := 2
  viscosity : Fld ι
  vort_dissipation : Bool := false
  phi_dissipation : Bool := true
  hyper_z : ℝ := -1
  phi_sheath_dissipation : Bool := false
  damp_core_vorticity : Bool := false

/-- What `transform` leaves for `finally`. -/
structure VortState (ι : Type) where
  ddt : Fld ι
  Pi : Fld ι

/-- `Vorticity::transform`, lines 221-633.  `solve Pi_hat` is the potential of lines 260-482. -/
def vorticityTransform (o : DriftOps ι) (p : VortOpts ι) (solve : Fld ι → Fld ι) (Vort : Fld ι) (names : List String) : Prog ι (VortState ι) := do
  let Pi ← piHat o p.diamagnetic_polarisation p.avg names
  let a ← (if p.diamagnetic then vortDiamagnetic o (solve Pi) names else pure (solve Pi, fun _ => 0) : Prog ι (Fld ι × Fld ι))
  let ddt ← (if p.collisional_friction then do
      let c ← vortFriction o p.avg a.1 Pi names
      pure fun i => a.2 i + c i
    else pure a.2 : Prog ι (Fld ι))
  set (.top "fields:vorticity") (.field Vort)
  set (.top "fields:phi") (.field a.1)
  pure ⟨ddt, Pi⟩

/-- Further operators of `Vorticity::finally`. -/
structure VortOps (ι : Type) where
  /-- `Div_n_bxGrad_f_B_XPPM(n, f, bndry_flux, poloidal_flows)`. -/
  exb : Fld ι → Fld ι → Fld ι
  /-- `bracket(f, g, BRACKET_ARAKAWA)`. -/
  bracket : Fld ι → Fld ι → Fld ι
  /-- `Delp2`. -/
  delp2 : Fld ι → Fld ι
  /-- `applyBoundary("free_o2")` and `communicate`. -/
  free : Fld ι → Fld ι
  /-- `FV::Div_par(f, 0.0, sound_speed)`. -/
  parDiss : Fld ι → Fld ι → Fld ι
  /-- `SQ(SQ(coord->dz)) * D4DZ4(f)`. -/
  d4dz4 : Fld ι → Fld ι
  /-- `0.5*(phi_fa[i] + phi_fa[i.ym()])` in the last cells before a sheath. -/
  sheathPhi : Fld ι → ι → Option ℝ
  /-- `fromFieldAligned`. -/
  fromFA : Fld ι → Fld ι
  /-- Average over Z in the cells next to the core boundary, zero elsewhere. -/
  coreAvg : Fld ι → Fld ι
  /-- `coord->Bxy`. -/
  B : Fld ι

/-- ExB advection, lines 641-672. -/
def vortExB (o : DriftOps ι) (w : VortOps ι) (p : VortOpts ι) (Vort Pi phi : Fld ι) : Fld ι :=
  if p.exb_advection then
    if p.exb_advection_simplified then fun i => -w.exb Vort phi i
    else
      let vEdotGradPi := w.free (w.bracket phi Pi)
      let DelpPhi := w.free fun i => 0.5 * p.avg * w.delp2 phi i / o.Bsq i
      fun i => -w.exb (fun i => 0.5 * Vort i) phi i - o.divAGrad (fun i => 0.5 * p.avg / o.Bsq i) vEdotGradPi i - w.exb DelpPhi (fun i => phi i + Pi i) i
  else fun _ => 0

/-- One species of the parallel current, lines 683-711. -/
def jparTerm (o : DriftOps ι) (w : VortOps ι) (ddt : Fld ι) (n : String) : Prog ι (Fld ι) :=
  ifSet (.sp n .momentum) ddt <| ifCharged n ddt fun Z => do
    let _ ← getF n .density
    let NV ← getF n .momentum
    let A ← getR n .AA
    let f ← isSet (.top "fields:Apar_flutter")
    if f then do
      let Apar ← get asField (.top "fields:Apar_flutter")
      pure fun i => ddt i + o.divPar (fun i => Z / A * NV i) i + w.B i * w.bracket (fun i => Z / A * NV i / w.B i) Apar i
    else pure fun i => ddt i + o.divPar (fun i => Z / A * NV i) i

/-- Terms that depend on the sound speed, lines 716-727. -/
def vortParDiss (w : VortOps ι) (p : VortOpts ι) (Vort phi ddt : Fld ι) : Prog ι (Fld ι) := do
  let ddt ← (if p.vort_dissipation then do
      let cs ← get asField (.top "sound_speed")
      pure fun i => ddt i - w.parDiss Vort cs i
    else pure ddt : Prog ι (Fld ι))
  if p.phi_dissipation then do
    let cs ← get asField (.top "sound_speed")
    pure fun i => ddt i - w.parDiss (fun i => -phi i) cs i
  else pure ddt

/-- Damping at the sheath, lines 735-756. -/
def sheathDamping (w : VortOps ι) (phi : Fld ι) : Fld ι := w.fromFA fun i =>
  match w.sheathPhi phi i with
  | some x => -floorTo (-x) 0
  | none => 0

/-- `DivJextra`, lines 674-680. -/
def divJextra : Prog ι (Fld ι) := do
  let b ← isSet (.top "fields:DivJextra")
  if b then get asField (.top "fields:DivJextra") else pure fun _ => 0

/-- `Vorticity::finally`, lines 635-773. -/
def vorticityFinally (o : DriftOps ι) (w : VortOps ι) (p : VortOpts ι) (Vort : Fld ι) (a : VortState ι) (names : List String) : Prog ι (Fld ι) := do
  let phi ← get asField (.top "fields:phi")
  let J ← divJextra
  let ddt ← names.foldlM (jparTerm o w) fun i => a.ddt i + vortExB o w p Vort a.Pi phi i + J i
  let ddt ← vortParDiss w p Vort phi fun i => ddt i + o.divAGrad p.viscosity Vort i
  pure fun i => ddt i
    - (if p.hyper_z > 0 then p.hyper_z * w.d4dz4 Vort i else 0)
    + (if p.phi_sheath_dissipation then sheathDamping w phi i else 0)
    - (if p.damp_core_vorticity then 0.01 * w.coreAvg Vort i else 0)

/-! ## Polarisation drift -/

/-- Options of `PolarisationDrift`, `src/polarisation_drift.cxx:32-59`. -/
structure PolOpts where
  boussinesq : Bool := true
  average_atomic_mass : ℝ := 2
  density_floor : ℝ := 1e-5
  advection : Bool := true
  diamagnetic_polarisation : Bool := true

/-- A field of the section `fields` if it is set, otherwise zero. -/
def fieldOrZero (k : String) : Prog ι (Fld ι) := do
  let b ← isSetFinal (.top k)
  if b then get asField (.top k) else pure fun _ => 0

/-- One species of the parallel current, lines 77-93. -/
def polCurrent (o : DriftOps ι) (J : Fld ι) (n : String) : Prog ι (Fld ι) :=
  ifSet (.sp n .momentum) J <| ifCharged n J fun Z => do
    let NV ← getF n .momentum
    let A ← getR n .AA
    pure fun i => J i + o.divPar (fun i => Z / A * NV i) i

/-- Energy exchange, lines 105-126. -/
def polEnergy (avg : ℝ) (J : Fld ι) (n : String) : Prog ι Unit :=
  ifSetNB (.sp n .pressure) () <| ifSet (.sp n .AA) () <| ifCharged n () fun q => do
    let P ← getNoBndryF n .pressure
    let AA ← getR n .AA
    addF n .energy_source fun i => P i * (AA / avg / q) * J i

/-- One species of the mass density, lines 141-154. -/
def massTerm (m : Fld ι) (n : String) : Prog ι (Fld ι) :=
  ifSet (.sp n .AA) m <| ifCharged n m fun _ => do
    let A ← getR n .AA
    let N ← getNoBndryF n .density
    pure fun i => m i + A * N i

/-- Mass density, lines 136-158. -/
def polMass (p : PolOpts) (names : List String) : Prog ι (Fld ι) :=
  if p.boussinesq then pure fun _ => p.average_atomic_mass
  else do
    let m ← names.foldlM massTerm fun _ => 0
    pure fun i => floorTo (m i) p.density_floor

/-- Lines 202-215: `v` is advected, `s` is its source. -/
def polOf (o : DriftOps ι) (coef phi_pol : Fld ι) (factor : ℝ) (v s : Var) (n : String) : Prog ι Unit := do
  let b ← isSetFinal (.sp n v)
  if b then do
    let f ← getF n v
    addF n s fun i => factor * o.divAGrad (fun i => f i * coef i) phi_pol i
  else pure ()

/-- One species, lines 187-216. -/
def polSpecies (o : DriftOps ι) (phi_pol : Fld ι) (n : String) : Prog ι Unit :=
  ifSet (.sp n .AA) () <| ifCharged n () fun Z => do
    let A ← getR n .AA
    let coef : Fld ι := fun i => A / Z / o.Bsq i
    polOf o coef phi_pol 1 .density .density_source n
    polOf o coef phi_pol (5 / 2) .pressure .energy_source n
    polOf o coef phi_pol 1 .momentum .momentum_source n

/-- Advection by the polarisation drift, lines 129-217.  `solve C b` is `phiSolver->solve(b)` with `setCoefC(C)`. -/
def polAdvection (o : DriftOps ι) (p : PolOpts) (solve : Fld ι → Fld ι → Fld ι) (J : Fld ι) (names : List String) : Prog ι Unit := do
  let m ← polMass p names
  let Jx ← fieldOrZero "fields:DivJextra"
  let Jc ← fieldOrZero "fields:DivJcol"
  let phi_pol := o.neumann (solve (fun i => m i / o.Bsq i) fun i => (J i + Jx i + Jc i) * o.Bsq i / m i)
  names.forM (polSpecies o phi_pol)

/-- `PolarisationDrift::transform`, lines 62-217. -/
def polarisationDrift (o : DriftOps ι) (p : PolOpts) (solve : Fld ι → Fld ι → Fld ι) (names : List String) : Prog ι Unit := do
  let J₀ ← fieldOrZero "fields:DivJdia"
  let J ← names.foldlM (polCurrent o) J₀
  (if p.diamagnetic_polarisation then do
    throwIf (p.boussinesq = false)
    names.forM (polEnergy p.average_atomic_mass J)
  else pure () : Prog ι Unit)
  if p.advection then polAdvection o p solve J names else pure ()

/-! ## Relaxation of the potential -/

/-- Options and members of `RelaxPotential`, `src/relax_potential.cxx:9-79`, `include/relax_potential.hxx:57-80`.  `none` is a member the constructor
leaves indeterminate. -/
structure RelaxOpts where
  exb_advection : Bool := true
  diamagnetic : Bool := true
  diamagnetic_polarisation : Bool := true
  boussinesq : Bool := true
  average_atomic_mass : ℝ := 2
  poloidal_flows : Bool := true
  lambda_1 : ℝ := 1
  lambda_2 : ℝ := 10
  bndry_flux : Option Bool

/-- The constructor, lines 9-79: no line assigns `bndry_flux`. -/
def relaxConstructor (exb_advection diamagnetic diamagnetic_polarisation boussinesq : Bool) (average_atomic_mass : ℝ) (poloidal_flows : Bool)
    (lambda_1 lambda_2 : ℝ) : RelaxOpts :=
  ⟨exb_advection, diamagnetic, diamagnetic_polarisation, boussinesq, average_atomic_mass, poloidal_flows, lambda_1, lambda_2, none⟩

open Classical in
/-- One species of the diamagnetic current, lines 108-127. -/
def relaxJdia (o : DriftOps ι) (phi J : Fld ι) (n : String) : Prog ι (Fld ι) :=
  ifSetNB (.sp n .pressure) J <| ifSetFinal (.sp n .charge) J do
    let q ← getR n .charge
    if q ≠ 0 then do
      let P ← getNoBndryF n .pressure
      subtractF n .energy_source fun i => P i * o.curv phi i
      pure fun i => J i + P i
    else pure J

/-- One species of the energy exchange, lines 137-148. -/
def relaxEnergy (DivJ : Fld ι) (n : String) : Prog ι Unit :=
  ifSetNB (.sp n .pressure) () <| ifSetFinal (.sp n .charge) () <| ifSetFinal (.sp n .AA) () do
    let P ← getNoBndryF n .pressure
    addF n .energy_source fun i => 3 / 2 * P i * DivJ i

/-- Lines 93-152: contribution to `ddt(Vort)`. -/
def relaxDiamagnetic (o : DriftOps ι) (p : RelaxOpts) (phi : Fld ι) (names : List String) : Prog ι (Fld ι) := do
  let J ← names.foldlM (relaxJdia o phi) fun _ => 0
  (if p.diamagnetic_polarisation then names.forM (relaxEnergy (o.divCurv J)) else pure () : Prog ι Unit)
  set (.top "fields:DivJdia") (.field (o.divCurv J))
  pure (o.divCurv J)

/-- `RelaxPotential::transform`, lines 81-156: `ddt(Vort)` so far. -/
def relaxTransform (o : DriftOps ι) (p : RelaxOpts) (phi1 Vort : Fld ι) (names : List String) : Prog ι (Fld ι) := do
  let phi := o.neumann fun i => phi1 i / p.lambda_2
  let ddt ← (if p.diamagnetic then relaxDiamagnetic o p phi names else pure fun _ => 0 : Prog ι (Fld ι))
  set (.top "fields:vorticity") (.field (o.neumann Vort))
  set (.top "fields:phi") (.field phi)
  pure ddt

/-- One species of the ion pressure in `ddt(phi1)`, lines 205-221. -/
def relaxPressure (o : DriftOps ι) (a : Fld ι) (n : String) : Prog ι (Fld ι) :=
  ifCharged n a fun _ => ifSet (.sp n .pressure) a do
    let A ← getR n .AA
    let P ← getF n .pressure
    pure fun i => a i + o.divAGrad (fun i => A / o.Bsq i) P i

/-- One species without the Boussinesq approximation, lines 229-250. -/
def relaxMass (o : DriftOps ι) (p : RelaxOpts) (phi a : Fld ι) (n : String) : Prog ι (Fld ι) :=
  ifCharged n a fun _ => do
    let A ← getR n .AA
    let N ← getF n .density
    let a' : Fld ι := fun i => a i + o.divAGrad (fun i => A / o.Bsq i * N i) phi i
    if p.diamagnetic_polarisation then ifSet (.sp n .pressure) a' do
      let P ← getF n .pressure
      pure fun i => a' i + o.divAGrad (fun i => A / o.Bsq i) P i
    else pure a'

/-- `ddt(phi1)`, lines 197-253. -/
def relaxPhi1 (o : DriftOps ι) (p : RelaxOpts) (phi Vort : Fld ι) (names : List String) : Prog ι (Fld ι) :=
  if p.boussinesq then do
    let a ← (if p.diamagnetic_polarisation then names.foldlM (relaxPressure o) fun _ => 0 else pure fun _ => 0 : Prog ι (Fld ι))
    pure fun i => p.lambda_1 * (o.divAGrad (fun i => p.average_atomic_mass / o.Bsq i) phi i - Vort i) + p.lambda_1 * a i
  else do
    let a ← names.foldlM (relaxMass o p phi) fun _ => 0
    pure fun i => p.lambda_1 * (a i - Vort i)

/-- One species of the parallel current, lines 179-196. -/
def relaxJpar (o : DriftOps ι) (ddt : Fld ι) (n : String) : Prog ι (Fld ι) :=
  ifSet (.sp n .momentum) ddt <| ifCharged n ddt fun Z => do
    let _ ← getF n .density
    let NV ← getF n .momentum
    let A ← getR n .AA
    pure fun i => ddt i + o.divPar (fun i => Z / A * NV i) i

/-- The ExB term, lines 166-168; `exb b` is `Div_n_bxGrad_f_B_XPPM` with `bndry_flux = b`.  Outside `some` the behaviour is undefined. -/
def relaxExB (p : RelaxOpts) (exb : Bool → Fld ι → Fld ι → Fld ι) (Vort phi : Fld ι) : Option (Fld ι) :=
  if p.exb_advection then
    match p.bndry_flux with
    | some b => some fun i => -exb b Vort phi i
    | none => none
  else some fun _ => 0

/-- `RelaxPotential::finally`, lines 158-254: `ddt(Vort)` and `ddt(phi1)`; `none` is undefined behaviour. -/
def relaxFinally (o : DriftOps ι) (p : RelaxOpts) (exb : Bool → Fld ι → Fld ι → Fld ι) (ddt : Fld ι) (names : List String) : Prog ι (Option (Fld ι × Fld ι)) := do
  let phi ← get asField (.top "fields:phi")
  let Vort ← get asField (.top "fields:vorticity")
  match relaxExB p exb Vort phi with
  | none => pure none
  | some e => do
    let J ← divJextra
    let ddtV ← names.foldlM (relaxJpar o) fun i => ddt i + e i + J i
    let ddtPhi ← relaxPhi1 o p phi Vort names
    pure (some (ddtV, ddtPhi))

end
end
end Hermes
