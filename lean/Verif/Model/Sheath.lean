import Verif.Model.Value
import Mathlib.Analysis.Real.Sqrt
import Mathlib.Analysis.SpecialFunctions.Log.Basic
import Mathlib.Analysis.SpecialFunctions.Trigonometric.Basic

/-!
# Sheath boundary conditions: `src/sheath_boundary.cxx`

Fields are in field-aligned coordinates (`toFieldAligned` and `fromFieldAligned` are the identity), numbers are real
and finite: the tests `std::isfinite(power)` are not modelled.  The loops over `mesh->iterateBndryLowerY()` and `jz`
visit a list of cells.  The fields of one species are kept as one array of records.
-/

namespace Hermes

section
variable {ι : Type}

/-- The mesh near the two ends of the field lines: the cells `(r.ind, mesh->ystart, jz)` and `(r.ind, mesh->yend, jz)`,
the neighbours `i.ym()`, `i.yp()`, and the metric. -/
structure YMesh (ι : Type) where
  ym : ι → ι
  yp : ι → ι
  lower : List ι
  upper : List ι
  J : Fld ι
  g22 : Fld ι
  dx : Fld ι
  dy : Fld ι
  dz : Fld ι

/-- `clip`, `src/sheath_boundary.cxx:10-16`. -/
noncomputable def clipTo (value lo hi : ℝ) : ℝ := if value < lo then lo else if value > hi then hi else value

/-- `limitFree`, `src/sheath_boundary.cxx:39-54` and `src/sheath_boundary_insulating.cxx:41-56`. -/
noncomputable def limitFree (fm fc : ℝ) : ℝ :=
  if fm < fc then fc
  else if fm < 1e-10 then fc
  else fc ^ 2 / fm

/-- Values of the electron fields in one cell. -/
structure ECell where
  n : ℝ
  t : ℝ
  p : ℝ
  phi : ℝ
  v : ℝ
  nv : ℝ

/-- Values of the ion fields in one cell. -/
structure ICell where
  n : ℝ
  t : ℝ
  p : ℝ
  v : ℝ
  nv : ℝ

variable [DecidableEq ι]

/-- A loop over one end.  `f i last inner` gives the record of the guard cell and what is added to the energy source of
the last cell `i`. -/
def sweep {κ : Type} (guard inner : ι → ι) (f : ι → κ → κ → κ × ℝ) (pts : List ι) (s : (ι → κ) × Fld ι) :
    (ι → κ) × Fld ι :=
  pts.foldl (fun s i =>
    let r := f i (s.1 i) (s.1 (inner i))
    (Function.update s.1 (guard i) r.1, Function.update s.2 i (s.2 i + r.2))) s

/-- Energy per time and volume for a heat flux `q`: `flux = q * (J[i] + J[g]) / (sqrt(g_22[i]) + sqrt(g_22[g]))`,
`power = flux / (dy[i] * J[i])`; for example `src/sheath_boundary.cxx:355-360`. -/
noncomputable def sheathPower (m : YMesh ι) (i g : ι) (q : ℝ) : ℝ :=
  let flux := q * (m.J i + m.J g) / (Real.sqrt (m.g22 i) + Real.sqrt (m.g22 g))
  flux / (m.dy i * m.J i)

/-! ## Reading the state -/

/-- `IS_SET_NOBOUNDARY(o) ? getNoBoundary<Field3D>(o) : d`. -/
noncomputable def readNB (k : Key) (d : Fld ι) : Prog ι (Fld ι) := do
  let b ← isSetFinalNoBoundary k
  if b then getNoBoundary asField k else pure d

/-- `o.isSet() ? getNoBoundary<Field3D>(o) : d`. -/
noncomputable def readSet (k : Key) (d : Fld ι) : Prog ι (Fld ι) := do
  let b ← isSet k
  if b then getNoBoundary asField k else pure d

/-- `o.isSet() ? getNonFinal<Field3D>(o) : zeroFrom(…)`. -/
noncomputable def readSource (k : Key) : Prog ι (Fld ι) := do
  let b ← isSet k
  if b then getNonFinal asField k else pure fun _ => 0

/-- `IS_SET(o) ? get<BoutReal>(o) : d`. -/
noncomputable def readReal (k : Key) (d : ℝ) : Prog ι ℝ := do
  let b ← isSetFinal k
  if b then get asReal k else pure d

/-- `if (o.isSet()) setBoundary(o, f)`. -/
def setBoundaryIfSet (k : Key) (f : Fld ι) : Prog ι Unit := do
  let b ← isSet k
  if b then setBoundary k (.field f) else pure ()

/-- `if (IS_SET_NOBOUNDARY(o)) setBoundary(o, f)`. -/
def setBoundaryIfSetNB (k : Key) (f : Fld ι) : Prog ι Unit := do
  let b ← isSetFinalNoBoundary k
  if b then setBoundary k (.field f) else pure ()

/-! ## SheathBoundary -/

/-- Options, `src/sheath_boundary.cxx:59-107`, and `SI::Me / SI::Mp`. -/
structure SheathOpts (ι : Type) where
  Ge : ℝ
  sin_alpha : ℝ
  lower_y : Bool
  upper_y : Bool
  always_set_phi : Bool
  floor_potential : Bool
  wall : Fld ι
  electronMass : ℝ

/-- `s_i`, lines 187-192 and 227-232.  Division by a zero electron density gives infinity or NaN: `clipTo` returns 0 or 1
for infinities, and NaN is replaced by 1. -/
noncomputable def concentration (ni ne ni' ne' : ℝ) : ℝ :=
  if ne = 0 then 1
  else if ne' = 0 then (if ni' = 0 then 1 else 0)
  else clipTo (0.5 * (3 * ni / ne - ni' / ne')) 0 1

/-- Body of the loop at the lower boundary, lines 183-214. -/
noncomputable def ionSumLower (o : SheathOpts ι) (m : YMesh ι) (Zi Mi adiabatic : ℝ) (Ne Te Ni Ti : Fld ι)
    (ion_sum : Fld ι) (i : ι) : Fld ι :=
  let ip := m.yp i
  let s_i := concentration (Ni i) (Ne i) (Ni ip) (Ne ip)
  let te := Te i
  let ti := Ti i
  let grad_ne := Ne ip - Ne i
  let grad_ni := Ni ip - Ni i
  let grads : ℝ × ℝ := if |grad_ni| < 2e-3 then (2e-3, 2e-3) else (grad_ne, grad_ni)
  let C_i_sq := clipTo ((adiabatic * ti + Zi * s_i * te * grads.1 / grads.2) / Mi) 0 100
  Function.update ion_sum i (ion_sum i + s_i * Zi * o.sin_alpha * Real.sqrt C_i_sq)

/-- Body of the loop at the upper boundary, lines 224-251. -/
noncomputable def ionSumUpper (o : SheathOpts ι) (m : YMesh ι) (Zi Mi adiabatic : ℝ) (Ne Te Ni Ti : Fld ι)
    (ion_sum : Fld ι) (i : ι) : Fld ι :=
  let im := m.ym i
  let s_i := concentration (Ni i) (Ne i) (Ni im) (Ne im)
  let te := Te i
  let ti := Ti i
  let grad_ne := Ne i - Ne im
  let grad_ni := Ni i - Ni im
  let grads : ℝ × ℝ := if |grad_ni| < 2e-3 then (2e-3, 2e-3) else (grad_ne, grad_ni)
  let C_i_sq := clipTo ((adiabatic * ti + Zi * s_i * te * grads.1 / grads.2) / Mi) 0 100
  Function.update ion_sum i (ion_sum i + s_i * Zi * o.sin_alpha * Real.sqrt C_i_sq)

/-- Lines 178-254 for one species. -/
noncomputable def ionSumBoth (o : SheathOpts ι) (m : YMesh ι) (Zi Mi adiabatic : ℝ) (Ne Te Ni Ti : Fld ι)
    (ion_sum : Fld ι) : Fld ι :=
  let s := if o.lower_y then m.lower.foldl (ionSumLower o m Zi Mi adiabatic Ne Te Ni Ti) ion_sum else ion_sum
  if o.upper_y then m.upper.foldl (ionSumUpper o m Zi Mi adiabatic Ne Te Ni Ti) s else s

/-- Lines 169-176. -/
noncomputable def ionSumRead (o : SheathOpts ι) (m : YMesh ι) (Ne Te : Fld ι) (ion_sum : Fld ι) (n : String) :
    Prog ι (Fld ι) := do
  let N ← getNoBndryF n Var.density
  let Ti ← getNoBndryF n Var.temperature
  let Mi ← getNoBoundary asReal (.sp n Var.AA)
  let Zi ← getNoBoundary asReal (.sp n Var.charge)
  let adiabatic ← readReal (.sp n Var.adiabatic) (5 / 3)
  pure (ionSumBoth o m Zi Mi adiabatic Ne Te (fun i => floorTo (N i) 0) Ti ion_sum)

/-- Body of the loop over species, lines 161-255. -/
noncomputable def ionSumTerm (o : SheathOpts ι) (m : YMesh ι) (Ne Te : Fld ι) (ion_sum : Fld ι) (n : String) :
    Prog ι (Fld ι) :=
  if n = "e" then pure ion_sum else do
    let c ← isSetFinal (.sp n Var.charge)
    if !c then pure ion_sum
    else do
      let Z ← getR n Var.charge
      if Z = 0 then pure ion_sum else ionSumRead o m Ne Te ion_sum n

/-- Body of the loops, lines 264-275 and 283-294: `phi[i.yp()] = phi[i.ym()] = phi[i]`. -/
noncomputable def sheathPotential (o : SheathOpts ι) (m : YMesh ι) (Me : ℝ) (Te ion_sum : Fld ι) (phi : Fld ι) (i : ι) :
    Fld ι :=
  let phi0 := if Te i ≤ 0 then 0
    else Te i * Real.log (Real.sqrt (Te i / (Me * (2 * Real.pi))) * (1 - o.Ge) / ion_sum i)
  let phi1 := phi0 + o.wall i
  Function.update (Function.update (Function.update phi i phi1) (m.ym i) phi1) (m.yp i) phi1

/-- Lines 257-297. -/
noncomputable def sheathPotentialBoth (o : SheathOpts ι) (m : YMesh ι) (Me : ℝ) (Te ion_sum : Fld ι) (phi : Fld ι) :
    Fld ι :=
  let a := if o.lower_y then m.lower.foldl (sheathPotential o m Me Te ion_sum) phi else phi
  if o.upper_y then m.upper.foldl (sheathPotential o m Me Te ion_sum) a else a

/-- Lines 142-298.  `garbage` is the content of the freshly allocated field. -/
noncomputable def sheathPhi (o : SheathOpts ι) (m : YMesh ι) (garbage : Fld ι) (names : List String) (Me : ℝ)
    (Ne Te : Fld ι) : Prog ι (Fld ι) := do
  let p ← isSetFinalNoBoundary (.top "fields:phi")
  if p then getNoBoundary asField (.top "fields:phi")
  else do
    let ion_sum ← names.foldlM (ionSumTerm o m Ne Te) (fun _ => 0)
    pure (sheathPotentialBoth o m Me Te ion_sum garbage)

/-- Electron loop at the lower boundary, lines 310-369. -/
noncomputable def electronLower (o : SheathOpts ι) (m : YMesh ι) (Me adiabatic : ℝ) (i : ι) (c ip : ECell) : ECell × ℝ :=
  let n_im := limitFree ip.n c.n
  let t_im := limitFree ip.t c.t
  let p_im := limitFree ip.p c.p
  let phi_im := 2 * c.phi - ip.phi
  let nesheath := 0.5 * (n_im + c.n)
  let tesheath := 0.5 * (t_im + c.t)
  let phi_wall := o.wall i
  let phisheath := if o.floor_potential then floorTo (0.5 * (phi_im + c.phi)) phi_wall else 0.5 * (phi_im + c.phi)
  let gamma_e := floorTo (2 / (1 - o.Ge) + (phisheath - phi_wall) / floorTo tesheath 1e-5) 0
  let vesheath := if tesheath < 1e-10 then 0
    else -Real.sqrt (tesheath / (2 * Real.pi * Me)) * (1 - o.Ge) * Real.exp (-(phisheath - phi_wall) / tesheath)
  let q := ((gamma_e - 1 - 1 / (adiabatic - 1)) * tesheath - 0.5 * Me * vesheath ^ 2) * nesheath * vesheath
  let q := if q > 0 then 0 else q
  let power := sheathPower m i (m.ym i) q
  (⟨n_im, t_im, p_im, phi_im, 2 * vesheath - c.v, 2 * Me * nesheath * vesheath - c.nv⟩, power)

/-- Electron loop at the upper boundary, lines 379-433. -/
noncomputable def electronUpper (o : SheathOpts ι) (m : YMesh ι) (Me adiabatic : ℝ) (i : ι) (c im : ECell) : ECell × ℝ :=
  let n_ip := limitFree im.n c.n
  let t_ip := limitFree im.t c.t
  let p_ip := limitFree im.p c.p
  let phi_ip := 2 * c.phi - im.phi
  let nesheath := 0.5 * (n_ip + c.n)
  let tesheath := 0.5 * (t_ip + c.t)
  let phi_wall := o.wall i
  let phisheath := if o.floor_potential then floorTo (0.5 * (phi_ip + c.phi)) phi_wall else 0.5 * (phi_ip + c.phi)
  let gamma_e := floorTo (2 / (1 - o.Ge) + (phisheath - phi_wall) / floorTo tesheath 1e-5) 0
  let vesheath := if tesheath < 1e-10 then 0
    else Real.sqrt (tesheath / (2 * Real.pi * Me)) * (1 - o.Ge) * Real.exp (-(phisheath - phi_wall) / tesheath)
  let q := ((gamma_e - 1 - 1 / (adiabatic - 1)) * tesheath - 0.5 * Me * vesheath ^ 2) * nesheath * vesheath
  let q := if q < 0 then 0 else q
  let power := sheathPower m i (m.yp i) q
  (⟨n_ip, t_ip, p_ip, phi_ip, 2 * vesheath - c.v, 2 * Me * nesheath * vesheath - c.nv⟩, -power)

/-- Lines 307-436. -/
noncomputable def electronSheath (o : SheathOpts ι) (m : YMesh ι) (Me adiabatic : ℝ) (s : (ι → ECell) × Fld ι) :
    (ι → ECell) × Fld ι :=
  let a := if o.lower_y then sweep m.ym m.yp (electronLower o m Me adiabatic) m.lower s else s
  if o.upper_y then sweep m.yp m.ym (electronUpper o m Me adiabatic) m.upper a else a

/-- Ion loop at the lower boundary, lines 515-584.  `e` are the electrons, with boundary values. -/
noncomputable def ionLower (m : YMesh ι) (Zi Mi adiabatic : ℝ) (e : ι → ECell) (i : ι) (c ip : ICell) : ICell × ℝ :=
  let im := m.ym i
  let n_im := limitFree ip.n c.n
  let t_im := limitFree ip.t c.t
  let p_im := limitFree ip.p c.p
  let nesheath := 0.5 * ((e im).n + (e i).n)
  let nisheath := 0.5 * (n_im + c.n)
  let tesheath := floorTo (0.5 * ((e im).t + (e i).t)) 1e-5
  let tisheath := floorTo (0.5 * (t_im + c.t)) 1e-5
  let s_i := clipTo (nisheath / floorTo nesheath 1e-10) 0 1
  let grad_ne := (e i).n - nesheath
  let grad_ni := c.n - nisheath
  let grads : ℝ × ℝ := if |grad_ni| < 1e-3 then (1e-3, 1e-3) else (grad_ne, grad_ni)
  let C_i_sq := clipTo ((adiabatic * tisheath + Zi * s_i * tesheath * grads.1 / grads.2) / Mi) 0 100
  let gamma_i := 2.5 + 0.5 * Mi * C_i_sq / tisheath
  let visheath := -Real.sqrt C_i_sq
  let q := ((gamma_i - 1 - 1 / (adiabatic - 1)) * tisheath - 0.5 * Mi * C_i_sq) * nisheath * visheath
  let q := if q > 0 then 0 else q
  let power := sheathPower m i im q
  (⟨n_im, t_im, p_im, 2 * visheath - c.v, 2 * Mi * nisheath * visheath - c.nv⟩, power)

/-- Ion loop at the upper boundary, lines 594-658. -/
noncomputable def ionUpper (m : YMesh ι) (Zi Mi adiabatic : ℝ) (e : ι → ECell) (i : ι) (c im : ICell) : ICell × ℝ :=
  let ip := m.yp i
  let n_ip := limitFree im.n c.n
  let t_ip := limitFree im.t c.t
  let p_ip := limitFree im.p c.p
  let nesheath := 0.5 * ((e ip).n + (e i).n)
  let nisheath := 0.5 * (n_ip + c.n)
  let tesheath := floorTo (0.5 * ((e ip).t + (e i).t)) 1e-5
  let tisheath := floorTo (0.5 * (t_ip + c.t)) 1e-5
  let s_i := clipTo (nisheath / floorTo nesheath 1e-10) 0 1
  let grad_ne := (e i).n - nesheath
  let grad_ni := c.n - nisheath
  let grads : ℝ × ℝ := if |grad_ni| < 1e-3 then (1e-3, 1e-3) else (grad_ne, grad_ni)
  let C_i_sq := clipTo ((adiabatic * tisheath + Zi * s_i * tesheath * grads.1 / grads.2) / Mi) 0 100
  let gamma_i := 2.5 + 0.5 * Mi * C_i_sq / tisheath
  let visheath := Real.sqrt C_i_sq
  let q := ((gamma_i - 1 - 1 / (adiabatic - 1)) * tisheath - 0.5 * C_i_sq * Mi) * nisheath * visheath
  let q := if q < 0 then 0 else q
  let power := sheathPower m i ip q
  (⟨n_ip, t_ip, p_ip, 2 * visheath - c.v, 2 * Mi * nisheath * visheath - c.nv⟩, -power)

/-- Lines 512-661. -/
noncomputable def ionSheath (o : SheathOpts ι) (m : YMesh ι) (Zi Mi adiabatic : ℝ) (e : ι → ECell)
    (s : (ι → ICell) × Fld ι) : (ι → ICell) × Fld ι :=
  let a := if o.lower_y then sweep m.ym m.yp (ionLower m Zi Mi adiabatic e) m.lower s else s
  if o.upper_y then sweep m.yp m.ym (ionUpper m Zi Mi adiabatic e) m.upper a else a

/-- Putting the electron fields back, lines 438-464. -/
def publishElectrons (always_set_phi : Bool) (r : (ι → ECell) × Fld ι) : Prog ι Unit := do
  setBoundary (.sp "e" Var.density) (.field fun i => (r.1 i).n)
  setBoundary (.sp "e" Var.temperature) (.field fun i => (r.1 i).t)
  setBoundary (.sp "e" Var.pressure) (.field fun i => (r.1 i).p)
  set (.sp "e" Var.energy_source) (.field r.2)
  setBoundaryIfSetNB (.sp "e" Var.velocity) (fun i => (r.1 i).v)
  setBoundaryIfSetNB (.sp "e" Var.momentum) (fun i => (r.1 i).nv)
  if always_set_phi then setBoundary (.top "fields:phi") (.field fun i => (r.1 i).phi)
  else setBoundaryIfSetNB (.top "fields:phi") (fun i => (r.1 i).phi)

/-- Putting the ion fields back, lines 663-684. -/
def publishIons (n : String) (r : (ι → ICell) × Fld ι) : Prog ι Unit := do
  setBoundary (.sp n Var.density) (.field fun i => (r.1 i).n)
  setBoundary (.sp n Var.temperature) (.field fun i => (r.1 i).t)
  setBoundary (.sp n Var.pressure) (.field fun i => (r.1 i).p)
  setBoundaryIfSet (.sp n Var.velocity) (fun i => (r.1 i).v)
  setBoundaryIfSet (.sp n Var.momentum) (fun i => (r.1 i).nv)
  set (.sp n Var.energy_source) (.field r.2)

/-- Lines 484-684, once the charge is known. -/
noncomputable def ionTransformCharged (o : SheathOpts ι) (m : YMesh ι) (e : ι → ECell) (n : String) (Zi : ℝ) :
    Prog ι Unit := do
  let Mi ← getR n Var.AA
  let adiabatic ← readReal (.sp n Var.adiabatic) (5 / 3)
  let N0 ← getNoBndryF n Var.density
  let N : Fld ι := fun i => floorTo (N0 i) 0
  let T ← getNoBndryF n Var.temperature
  let P ← readSet (.sp n Var.pressure) (fun i => N i * T i)
  let V ← readSet (.sp n Var.velocity) (fun _ => 0)
  let NV ← readSet (.sp n Var.momentum) (fun i => Mi * N i * V i)
  let src ← readSource (.sp n Var.energy_source)
  publishIons n (ionSheath o m Zi Mi adiabatic e (fun i => ⟨N i, T i, P i, V i, NV i⟩, src))

/-- Body of the loop over species, lines 468-685. -/
noncomputable def ionTransform (o : SheathOpts ι) (m : YMesh ι) (e : ι → ECell) (n : String) : Prog ι Unit :=
  if n = "e" then pure () else do
    let Zi ← readReal (.sp n Var.charge) 0
    if Zi = 0 then pure () else ionTransformCharged o m e n Zi

/-- The electron part of `transform`, lines 109-464; returns the electrons with boundary values. -/
noncomputable def electronTransform (o : SheathOpts ι) (m : YMesh ι) (garbage : Fld ι) (names : List String) :
    Prog ι (ι → ECell) := do
  let N0 ← getNoBndryF "e" Var.density
  let Ne : Fld ι := fun i => floorTo (N0 i) 0
  let Te ← getNoBndryF "e" Var.temperature
  let Pe ← readNB (.sp "e" Var.pressure) (fun i => Te i * Ne i)
  let adiabatic ← readReal (.sp "e" Var.adiabatic) (5 / 3)
  let Me ← readReal (.sp "e" Var.AA) o.electronMass
  let Ve ← readNB (.sp "e" Var.velocity) (fun _ => 0)
  let NVe ← readNB (.sp "e" Var.momentum) (fun _ => 0)
  let phi ← sheathPhi o m garbage names Me Ne Te
  let src ← readSource (.sp "e" Var.energy_source)
  let r := electronSheath o m Me adiabatic (fun i => ⟨Ne i, Te i, Pe i, phi i, Ve i, NVe i⟩, src)
  publishElectrons o.always_set_phi r
  pure r.1

/-- `SheathBoundary::transform`, `src/sheath_boundary.cxx:109-686`. -/
noncomputable def sheathBoundary (o : SheathOpts ι) (m : YMesh ι) (garbage : Fld ι) (names : List String) :
    Prog ι Unit := do
  let e ← electronTransform o m garbage names
  names.forM (ionTransform o m e)

end
end Hermes
