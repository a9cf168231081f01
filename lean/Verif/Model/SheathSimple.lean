import Verif.Model.Sheath

/-!
# `src/sheath_boundary_simple.cxx`, `src/sheath_boundary_insulating.cxx`, `src/noflow_boundary.cxx`

Same simplifications as in `Model/Sheath.lean`.
-/

namespace Hermes

section
variable {ι : Type}

/-! ## SheathBoundarySimple -/

/-- Boundary modes 0, 1 and 2.  (With any other number `limitFree` throws when the inner value is at least `1e-10`.) -/
inductive BMode where
  | limit | exponential | linear
deriving DecidableEq

/-- `limitFree`, `src/sheath_boundary_simple.cxx:40-68`. -/
noncomputable def limitFreeMode (fm fc : ℝ) (mode : BMode) : ℝ :=
  if fm < fc ∧ mode = .limit then fc
  else if fm < 1e-10 then fc
  else if mode = .limit ∨ mode = .exponential then fc ^ 2 / fm
  else 2 * fc - fm

/-- Options, lines 70-142. -/
structure SimpleOpts (ι : Type) where
  Ge : ℝ
  gamma_e : ℝ
  gamma_i : ℝ
  sheath_ion_polytropic : ℝ
  lower_y : Bool
  upper_y : Bool
  always_set_phi : Bool
  no_flow : Bool
  wall : Fld ι
  density_mode : BMode
  temperature_mode : BMode
  pressure_mode : BMode
  electronMass : ℝ

variable [DecidableEq ι]

/-- A loop over one end which also reports the heat flow, in cell `flowAt i`. -/
def sweepFlow {κ : Type} (guard inner flowAt : ι → ι) (f : ι → κ → κ → κ × ℝ × ℝ) (pts : List ι)
    (s : ((ι → κ) × Fld ι) × Fld ι) : ((ι → κ) × Fld ι) × Fld ι :=
  pts.foldl (fun s i =>
    let r := f i (s.1.1 i) (s.1.1 (inner i))
    ((Function.update s.1.1 (guard i) r.1, Function.update s.1.2 i (s.1.2 i + r.2.1)),
      Function.update s.2 (flowAt i) (s.2 (flowAt i) + r.2.2))) s

/-- Body of the loop at the lower boundary, lines 211-237. -/
noncomputable def simpleIonSumLower (o : SimpleOpts ι) (m : YMesh ι) (Zi Mi : ℝ) (Te Ni Ti Vi : Fld ι)
    (ion_sum : Fld ι) (i : ι) : Fld ι :=
  let ip := m.yp i
  let Ni_im := limitFreeMode (Ni ip) (Ni i) o.density_mode
  let Ti_im := limitFreeMode (Ti ip) (Ti i) o.temperature_mode
  let Te_im := limitFreeMode (Te ip) (Te i) o.temperature_mode
  let nisheath := 0.5 * (Ni_im + Ni i)
  let tesheath := floorTo (0.5 * (Te_im + Te i)) 1e-5
  let tisheath := floorTo (0.5 * (Ti_im + Ti i)) 1e-5
  let C_i_sq := (o.sheath_ion_polytropic * tisheath + Zi * tesheath) / Mi
  let visheath := -Real.sqrt C_i_sq
  let visheath := if Vi i < visheath then Vi i else visheath
  Function.update ion_sum i (ion_sum i - Zi * nisheath * visheath)

/-- Body of the loop at the upper boundary, lines 247-268. -/
noncomputable def simpleIonSumUpper (o : SimpleOpts ι) (m : YMesh ι) (Zi Mi : ℝ) (Te Ni Ti Vi : Fld ι)
    (ion_sum : Fld ι) (i : ι) : Fld ι :=
  let im := m.ym i
  let Ni_ip := limitFreeMode (Ni im) (Ni i) o.density_mode
  let Ti_ip := limitFreeMode (Ti im) (Ti i) o.temperature_mode
  let Te_ip := limitFreeMode (Te im) (Te i) o.temperature_mode
  let nisheath := 0.5 * (Ni_ip + Ni i)
  let tesheath := floorTo (0.5 * (Te_ip + Te i)) 1e-5
  let tisheath := floorTo (0.5 * (Ti_ip + Ti i)) 1e-5
  let C_i_sq := (o.sheath_ion_polytropic * tisheath + Zi * tesheath) / Mi
  let visheath := Real.sqrt C_i_sq
  let visheath := if Vi i > visheath then Vi i else visheath
  Function.update ion_sum i (ion_sum i + Zi * nisheath * visheath)

/-- Lines 206-271 for one species. -/
noncomputable def simpleIonSumBoth (o : SimpleOpts ι) (m : YMesh ι) (Zi Mi : ℝ) (Te Ni Ti Vi : Fld ι)
    (ion_sum : Fld ι) : Fld ι :=
  let s := if o.lower_y then m.lower.foldl (simpleIonSumLower o m Zi Mi Te Ni Ti Vi) ion_sum else ion_sum
  if o.upper_y then m.upper.foldl (simpleIonSumUpper o m Zi Mi Te Ni Ti Vi) s else s

/-- Lines 198-204.  (The density is not limited to non-negative values here.) -/
noncomputable def simpleIonSumRead (o : SimpleOpts ι) (m : YMesh ι) (Te : Fld ι) (ion_sum : Fld ι) (n : String) :
    Prog ι (Fld ι) := do
  let Ni ← getNoBndryF n Var.density
  let Ti ← getNoBndryF n Var.temperature
  let Mi ← getNoBoundary asReal (.sp n Var.AA)
  let Zi ← getNoBoundary asReal (.sp n Var.charge)
  let Vi ← readSet (.sp n Var.velocity) (fun _ => 0)
  pure (simpleIonSumBoth o m Zi Mi Te Ni Ti Vi ion_sum)

/-- Body of the loop over species, lines 190-272. -/
noncomputable def simpleIonSumTerm (o : SimpleOpts ι) (m : YMesh ι) (Te : Fld ι) (ion_sum : Fld ι) (n : String) :
    Prog ι (Fld ι) :=
  if n = "e" then pure ion_sum else do
    let c ← isSet (.sp n Var.charge)
    if !c then pure ion_sum
    else do
      let Z ← getR n Var.charge
      if Z = 0 then pure ion_sum else simpleIonSumRead o m Te ion_sum n

/-- Body of the loops, lines 281-298 (`inner` is `i.yp()`) and 306-323 (`inner` is `i.ym()`). -/
noncomputable def simplePotential (o : SimpleOpts ι) (m : YMesh ι) (inner : ι → ι) (Me : ℝ) (Ne Te ion_sum : Fld ι)
    (phi : Fld ι) (i : ι) : Fld ι :=
  let Ne_g := limitFreeMode (Ne (inner i)) (Ne i) o.density_mode
  let Te_g := limitFreeMode (Te (inner i)) (Te i) o.temperature_mode
  let nesheath := 0.5 * (Ne_g + Ne i)
  let tesheath := floorTo (0.5 * (Te_g + Te i)) 1e-5
  let phi0 := tesheath * Real.log (Real.sqrt (tesheath / (Me * (2 * Real.pi))) * (1 - o.Ge) * nesheath / ion_sum i)
  let phi1 := phi0 + o.wall i
  Function.update (Function.update (Function.update phi i phi1) (m.ym i) phi1) (m.yp i) phi1

/-- Lines 276-326. -/
noncomputable def simplePotentialBoth (o : SimpleOpts ι) (m : YMesh ι) (Me : ℝ) (Ne Te ion_sum : Fld ι) (phi : Fld ι) :
    Fld ι :=
  let a := if o.lower_y then m.lower.foldl (simplePotential o m m.yp Me Ne Te ion_sum) phi else phi
  if o.upper_y then m.upper.foldl (simplePotential o m m.ym Me Ne Te ion_sum) a else a

/-- Lines 176-327.  `garbage` is the content of the freshly allocated field. -/
noncomputable def simplePhi (o : SimpleOpts ι) (m : YMesh ι) (garbage : Fld ι) (names : List String) (Me : ℝ)
    (Ne Te : Fld ι) : Prog ι (Fld ι) := do
  let p ← isSetFinalNoBoundary (.top "fields:phi")
  if p then getNoBoundary asField (.top "fields:phi")
  else do
    let ion_sum ← names.foldlM (simpleIonSumTerm o m Te) (fun _ => 0)
    pure (simplePotentialBoth o m Me Ne Te ion_sum garbage)

/-- `heatflow = q * (J[i] + J[g]) / (sqrt(g_22[i]) + sqrt(g_22[g]))`, for example lines 382-383. -/
noncomputable def heatflow (m : YMesh ι) (i g : ι) (q : ℝ) : ℝ :=
  q * (m.J i + m.J g) / (Real.sqrt (m.g22 i) + Real.sqrt (m.g22 g))

/-- Electron loop at the lower boundary, lines 342-391. -/
noncomputable def simpleElectronLower (o : SimpleOpts ι) (m : YMesh ι) (Me : ℝ) (i : ι) (c ip : ECell) : ECell × ℝ × ℝ :=
  let im := m.ym i
  let n_im := limitFreeMode ip.n c.n o.density_mode
  let t_im := limitFreeMode ip.t c.t o.temperature_mode
  let p_im := limitFreeMode ip.p c.p o.pressure_mode
  let phi_im := 2 * c.phi - ip.phi
  let nesheath := 0.5 * (n_im + c.n)
  let tesheath := 0.5 * (t_im + c.t)
  let phi_wall := o.wall i
  let phisheath := floorTo (0.5 * (phi_im + c.phi)) phi_wall
  let v0 := -Real.sqrt (tesheath / (2 * Real.pi * Me)) * (1 - o.Ge)
    * Real.exp (-(phisheath - phi_wall) / floorTo tesheath 1e-5)
  let q0 := o.gamma_e * tesheath * nesheath * v0
  let vesheath := if o.no_flow then 0 else v0
  let q := q0 - (2.5 * tesheath + 0.5 * Me * vesheath ^ 2) * nesheath * vesheath
  let h := heatflow m i im q
  let power := h / (m.dy i * m.J i)
  (⟨n_im, t_im, p_im, phi_im, 2 * vesheath - c.v, 2 * Me * nesheath * vesheath - c.nv⟩, power, h * m.dx i * m.dz i)

/-- Electron loop at the upper boundary, lines 401-449. -/
noncomputable def simpleElectronUpper (o : SimpleOpts ι) (m : YMesh ι) (Me : ℝ) (i : ι) (c im : ECell) : ECell × ℝ × ℝ :=
  let ip := m.yp i
  let n_ip := limitFreeMode im.n c.n o.density_mode
  let t_ip := limitFreeMode im.t c.t o.temperature_mode
  let p_ip := limitFreeMode im.p c.p o.pressure_mode
  let phi_ip := 2 * c.phi - im.phi
  let nesheath := 0.5 * (n_ip + c.n)
  let tesheath := 0.5 * (t_ip + c.t)
  let phi_wall := o.wall i
  let phisheath := floorTo (0.5 * (phi_ip + c.phi)) phi_wall
  let v0 := Real.sqrt (tesheath / (2 * Real.pi * Me)) * (1 - o.Ge)
    * Real.exp (-(phisheath - phi_wall) / floorTo tesheath 1e-5)
  let q0 := o.gamma_e * tesheath * nesheath * v0
  let vesheath := if o.no_flow then 0 else v0
  let q := q0 - (2.5 * tesheath + 0.5 * Me * vesheath ^ 2) * nesheath * vesheath
  let h := heatflow m i ip q
  let power := h / (m.dy i * m.J i)
  (⟨n_ip, t_ip, p_ip, phi_ip, 2 * vesheath - c.v, 2 * Me * nesheath * vesheath - c.nv⟩, -power, h * m.dx i * m.dz i)

/-- Lines 339-452. -/
noncomputable def simpleElectronSheath (o : SimpleOpts ι) (m : YMesh ι) (Me : ℝ) (s : ((ι → ECell) × Fld ι) × Fld ι) :
    ((ι → ECell) × Fld ι) × Fld ι :=
  let a := if o.lower_y then sweepFlow m.ym m.yp id (simpleElectronLower o m Me) m.lower s else s
  if o.upper_y then sweepFlow m.yp m.ym m.yp (simpleElectronUpper o m Me) m.upper a else a

/-- Ion loop at the lower boundary, lines 532-585. -/
noncomputable def simpleIonLower (o : SimpleOpts ι) (m : YMesh ι) (Zi Mi : ℝ) (e : ι → ECell) (i : ι) (c ip : ICell) :
    ICell × ℝ × ℝ :=
  let im := m.ym i
  let n_im := limitFreeMode ip.n c.n o.density_mode
  let t_im := limitFreeMode ip.t c.t o.temperature_mode
  let p_im := limitFreeMode ip.p c.p o.pressure_mode
  let nisheath := 0.5 * (n_im + c.n)
  let tesheath := floorTo (0.5 * ((e im).t + (e i).t)) 1e-5
  let tisheath := floorTo (0.5 * (t_im + c.t)) 1e-5
  let C_i_sq := (o.sheath_ion_polytropic * tisheath + Zi * tesheath) / Mi
  let v0 := -Real.sqrt C_i_sq
  let v1 := if c.v < v0 then c.v else v0
  let q0 := o.gamma_i * tisheath * nisheath * v1
  let visheath := if o.no_flow then 0 else v1
  let q := q0 - (2.5 * tisheath + 0.5 * Mi * visheath ^ 2) * nisheath * visheath
  let h := heatflow m i im q
  let power := h / (m.dy i * m.J i)
  (⟨n_im, t_im, p_im, 2 * visheath - c.v, 2 * Mi * nisheath * visheath - c.nv⟩, power, h * m.dx i * m.dz i)

/-- Ion loop at the upper boundary, lines 595-649. -/
noncomputable def simpleIonUpper (o : SimpleOpts ι) (m : YMesh ι) (Zi Mi : ℝ) (e : ι → ECell) (i : ι) (c im : ICell) :
    ICell × ℝ × ℝ :=
  let ip := m.yp i
  let n_ip := limitFreeMode im.n c.n o.density_mode
  let t_ip := limitFreeMode im.t c.t o.temperature_mode
  let p_ip := limitFreeMode im.p c.p o.pressure_mode
  let nisheath := 0.5 * (n_ip + c.n)
  let tesheath := floorTo (0.5 * ((e ip).t + (e i).t)) 1e-5
  let tisheath := floorTo (0.5 * (t_ip + c.t)) 1e-5
  let C_i_sq := (o.sheath_ion_polytropic * tisheath + Zi * tesheath) / Mi
  let v0 := Real.sqrt C_i_sq
  let v1 := if c.v > v0 then c.v else v0
  let q0 := o.gamma_i * tisheath * nisheath * v1
  let visheath := if o.no_flow then 0 else v1
  let q := q0 - (2.5 * tisheath + 0.5 * Mi * visheath ^ 2) * nisheath * visheath
  let h := heatflow m i ip q
  let power := h / (m.dy i * m.J i)
  (⟨n_ip, t_ip, p_ip, 2 * visheath - c.v, 2 * Mi * nisheath * visheath - c.nv⟩, -power, h * m.dx i * m.dz i)

/-- Lines 529-652. -/
noncomputable def simpleIonSheath (o : SimpleOpts ι) (m : YMesh ι) (Zi Mi : ℝ) (e : ι → ECell)
    (s : ((ι → ICell) × Fld ι) × Fld ι) : ((ι → ICell) × Fld ι) × Fld ι :=
  let a := if o.lower_y then sweepFlow m.ym m.yp id (simpleIonLower o m Zi Mi e) m.lower s else s
  if o.upper_y then sweepFlow m.yp m.ym m.yp (simpleIonUpper o m Zi Mi e) m.upper a else a

/-- Putting the electron fields back, lines 456-483. -/
def simplePublishElectrons (always_set_phi : Bool) (r : ((ι → ECell) × Fld ι) × Fld ι) : Prog ι Unit := do
  setBoundary (.sp "e" Var.density) (.field fun i => (r.1.1 i).n)
  setBoundary (.sp "e" Var.temperature) (.field fun i => (r.1.1 i).t)
  setBoundary (.sp "e" Var.pressure) (.field fun i => (r.1.1 i).p)
  set (.sp "e" Var.energy_source) (.field r.1.2)
  add (.sp "e" Var.energy_flow_ylow) (.field r.2)
  setBoundaryIfSetNB (.sp "e" Var.velocity) (fun i => (r.1.1 i).v)
  setBoundaryIfSetNB (.sp "e" Var.momentum) (fun i => (r.1.1 i).nv)
  if always_set_phi then setBoundary (.top "fields:phi") (.field fun i => (r.1.1 i).phi)
  else setBoundaryIfSet (.top "fields:phi") (fun i => (r.1.1 i).phi)

/-- Putting the ion fields back, lines 656-678. -/
def simplePublishIons (n : String) (r : ((ι → ICell) × Fld ι) × Fld ι) : Prog ι Unit := do
  publishIons n r.1
  add (.sp n Var.energy_flow_ylow) (.field r.2)

/-- Lines 502-678, once the charge is known. -/
noncomputable def simpleIonTransformCharged (o : SimpleOpts ι) (m : YMesh ι) (e : ι → ECell) (n : String) (Zi : ℝ) :
    Prog ι Unit := do
  let Mi ← getR n Var.AA
  let N0 ← getNoBndryF n Var.density
  let N : Fld ι := fun i => floorTo (N0 i) 0
  let T ← getNoBndryF n Var.temperature
  let P ← readSet (.sp n Var.pressure) (fun i => N i * T i)
  let V ← readSet (.sp n Var.velocity) (fun _ => 0)
  let NV ← readSet (.sp n Var.momentum) (fun i => Mi * N i * V i)
  let src ← readSource (.sp n Var.energy_source)
  simplePublishIons n (simpleIonSheath o m Zi Mi e ((fun i => ⟨N i, T i, P i, V i, NV i⟩, src), fun _ => 0))

/-- `species.isSet("charge") ? get<BoutReal>(species["charge"]) : 0.0`, line 495. -/
noncomputable def readRealIfSet (k : Key) (d : ℝ) : Prog ι ℝ := do
  let b ← isSet k
  if b then get asReal k else pure d

/-- Body of the loop over species, lines 487-679. -/
noncomputable def simpleIonTransform (o : SimpleOpts ι) (m : YMesh ι) (e : ι → ECell) (n : String) : Prog ι Unit :=
  if n = "e" then pure () else do
    let Zi ← readRealIfSet (.sp n Var.charge) 0
    if Zi = 0 then pure () else simpleIonTransformCharged o m e n Zi

/-- The electron part of `transform`, lines 144-483; returns the electrons with boundary values. -/
noncomputable def simpleElectronTransform (o : SimpleOpts ι) (m : YMesh ι) (garbage : Fld ι) (names : List String) :
    Prog ι (ι → ECell) := do
  let N0 ← getNoBndryF "e" Var.density
  let Ne : Fld ι := fun i => floorTo (N0 i) 0
  let Te ← getNoBndryF "e" Var.temperature
  let Pe ← readNB (.sp "e" Var.pressure) (fun i => Te i * Ne i)
  let Me ← readReal (.sp "e" Var.AA) o.electronMass
  let Ve ← readNB (.sp "e" Var.velocity) (fun _ => 0)
  let NVe ← readNB (.sp "e" Var.momentum) (fun _ => 0)
  let phi ← simplePhi o m garbage names Me Ne Te
  let src ← readSource (.sp "e" Var.energy_source)
  let r := simpleElectronSheath o m Me ((fun i => ⟨Ne i, Te i, Pe i, phi i, Ve i, NVe i⟩, src), fun _ => 0)
  simplePublishElectrons o.always_set_phi r
  pure r.1.1

/-- `SheathBoundarySimple::transform`, `src/sheath_boundary_simple.cxx:144-680`. -/
noncomputable def sheathBoundarySimple (o : SimpleOpts ι) (m : YMesh ι) (garbage : Fld ι) (names : List String) :
    Prog ι Unit := do
  let e ← simpleElectronTransform o m garbage names
  names.forM (simpleIonTransform o m e)

/-! ## SheathBoundaryInsulating -/

/-- Options, `src/sheath_boundary_insulating.cxx:60-89`.  (`secondary_electron_coef` and `sin_alpha` are read but not
used.) -/
structure InsulatingOpts where
  gamma_e : ℝ
  lower_y : Bool
  upper_y : Bool
  electronMass : ℝ

/-- Lines 132-148: linear extrapolation of the potential. -/
noncomputable def insulatingPhi (o : InsulatingOpts) (m : YMesh ι) (phi : Fld ι) : Fld ι :=
  let a := if o.lower_y then
    m.lower.foldl (fun phi i => Function.update phi (m.ym i) (2 * phi i - phi (m.yp i))) phi else phi
  if o.upper_y then
    m.upper.foldl (fun phi i => Function.update phi (m.yp i) (2 * phi i - phi (m.ym i))) a else a

/-- First electron loop, lines 160-177 and 187-196: free density, temperature and pressure, no flow. -/
noncomputable def insulatingElectron (_ : ι) (c inner : ECell) : ECell × ℝ :=
  (⟨limitFree inner.n c.n, limitFree inner.t c.t, limitFree inner.p c.p, c.phi, -c.v, -c.nv⟩, 0)

/-- Lines 157-199. -/
noncomputable def insulatingElectrons (o : InsulatingOpts) (m : YMesh ι) (s : (ι → ECell) × Fld ι) :
    (ι → ECell) × Fld ι :=
  let a := if o.lower_y then sweep m.ym m.yp insulatingElectron m.lower s else s
  if o.upper_y then sweep m.yp m.ym insulatingElectron m.upper a else a

/-- Ion loop at the lower boundary, lines 257-330.  The last pair is what is added to `Ve[im]` and `NVe[im]`. -/
noncomputable def insulatingIonLower (m : YMesh ι) (Zi Mi adiabatic Me : ℝ) (e : ι → ECell) (i : ι) (c ip : ICell) :
    (ICell × ℝ) × (ℝ × ℝ) :=
  let im := m.ym i
  let n_im := limitFree ip.n c.n
  let t_im := limitFree ip.t c.t
  let p_im := limitFree ip.p c.p
  let nesheath := 0.5 * ((e im).n + (e i).n)
  let nisheath := 0.5 * (n_im + c.n)
  let tesheath := floorTo (0.5 * ((e im).t + (e i).t)) 1e-5
  let tisheath := floorTo (0.5 * (t_im + c.t)) 1e-5
  let s_i := clipTo (nisheath / floorTo nesheath 1e-10) 0 1
  let grad_ne := (e i).n - nesheath
  let grad_ni := c.n - nisheath
  let grads : ℝ × ℝ := if |grad_ni| < 1e-3 then (1e-3, 1e-3) else (grad_ne, grad_ni)
  let C_i_sq := clipTo ((adiabatic * tisheath + Zi * s_i * tesheath * grads.1 / grads.2) / Mi) 0 100
  let gamma_i := 2.5 + 0.5 * Mi * C_i_sq / tisheath
  let visheath := -Real.sqrt C_i_sq
  let q := ((gamma_i - 1 - 1 / (adiabatic - 1)) * tisheath - 0.5 * Mi * C_i_sq) * nisheath * visheath
  let q := if q > 0 then 0 else q
  let power := sheathPower m i im q
  ((⟨n_im, t_im, p_im, 2 * visheath - c.v, 2 * Mi * nisheath * visheath - c.nv⟩, power),
    (2 * visheath * Zi, 2 * Me * nisheath * visheath))

/-- Ion loop at the upper boundary, lines 340-408.  (`s_i` differs from the lower boundary.) -/
noncomputable def insulatingIonUpper (m : YMesh ι) (Zi Mi adiabatic Me : ℝ) (e : ι → ECell) (i : ι) (c im : ICell) :
    (ICell × ℝ) × (ℝ × ℝ) :=
  let ip := m.yp i
  let n_ip := limitFree im.n c.n
  let t_ip := limitFree im.t c.t
  let p_ip := limitFree im.p c.p
  let nesheath := 0.5 * ((e ip).n + (e i).n)
  let nisheath := 0.5 * (n_ip + c.n)
  let tesheath := floorTo (0.5 * ((e ip).t + (e i).t)) 1e-5
  let tisheath := floorTo (0.5 * (t_ip + c.t)) 1e-5
  let s_i := if nesheath > 1e-5 then nisheath / nesheath else 0
  let grad_ne := (e i).n - nesheath
  let grad_ni := c.n - nisheath
  let grads : ℝ × ℝ := if |grad_ni| < 1e-3 then (1e-3, 1e-3) else (grad_ne, grad_ni)
  let C_i_sq := clipTo ((adiabatic * tisheath + Zi * s_i * tesheath * grads.1 / grads.2) / Mi) 0 100
  let gamma_i := 2.5 + 0.5 * Mi * C_i_sq / tisheath
  let visheath := Real.sqrt C_i_sq
  let q := ((gamma_i - 1 - 1 / (adiabatic - 1)) * tisheath - 0.5 * C_i_sq * Mi) * nisheath * visheath
  let q := if q < 0 then 0 else q
  let power := sheathPower m i ip q
  ((⟨n_ip, t_ip, p_ip, 2 * visheath - c.v, 2 * Mi * nisheath * visheath - c.nv⟩, -power),
    (2 * visheath * Zi, 2 * Me * nisheath * visheath))

/-- A loop over one end which also changes the electron flow in the guard cell. -/
def sweepIon (guard inner : ι → ι) (f : (ι → ECell) → ι → ICell → ICell → (ICell × ℝ) × (ℝ × ℝ)) (pts : List ι)
    (s : ((ι → ICell) × Fld ι) × (ι → ECell)) : ((ι → ICell) × Fld ι) × (ι → ECell) :=
  pts.foldl (fun s i =>
    let r := f s.2 i (s.1.1 i) (s.1.1 (inner i))
    let eg := s.2 (guard i)
    ((Function.update s.1.1 (guard i) r.1.1, Function.update s.1.2 i (s.1.2 i + r.1.2)),
      Function.update s.2 (guard i) { eg with v := eg.v + r.2.1, nv := eg.nv + r.2.2 })) s

/-- Lines 254-411. -/
noncomputable def insulatingIonSheath (o : InsulatingOpts) (m : YMesh ι) (Zi Mi adiabatic Me : ℝ)
    (s : ((ι → ICell) × Fld ι) × (ι → ECell)) : ((ι → ICell) × Fld ι) × (ι → ECell) :=
  let a := if o.lower_y then sweepIon m.ym m.yp (insulatingIonLower m Zi Mi adiabatic Me) m.lower s else s
  if o.upper_y then sweepIon m.yp m.ym (insulatingIonUpper m Zi Mi adiabatic Me) m.upper a else a

/-- Lines 226-429, once the charge is known. -/
noncomputable def insulatingIonCharged (o : InsulatingOpts) (m : YMesh ι) (Me : ℝ) (e : ι → ECell) (n : String) (Zi : ℝ) :
    Prog ι (ι → ECell) := do
  let Mi ← getR n Var.AA
  let adiabatic ← readReal (.sp n Var.adiabatic) (5 / 3)
  let N0 ← getNoBndryF n Var.density
  let N : Fld ι := fun i => floorTo (N0 i) 0
  let T ← getNoBndryF n Var.temperature
  let P ← readSet (.sp n Var.pressure) (fun i => N i * T i)
  let V ← readSet (.sp n Var.velocity) (fun _ => 0)
  let NV ← readSet (.sp n Var.momentum) (fun i => Mi * N i * V i)
  let src ← readSource (.sp n Var.energy_source)
  let r := insulatingIonSheath o m Zi Mi adiabatic Me ((fun i => ⟨N i, T i, P i, V i, NV i⟩, src), e)
  publishIons n r.1
  pure r.2

/-- Body of the loop over species, lines 210-430. -/
noncomputable def insulatingIon (o : InsulatingOpts) (m : YMesh ι) (Me : ℝ) (e : ι → ECell) (n : String) :
    Prog ι (ι → ECell) :=
  if n = "e" then pure e else do
    let Zi ← readReal (.sp n Var.charge) 0
    if Zi = 0 then pure e else insulatingIonCharged o m Me e n Zi

/-- Electron energy at the lower boundary, lines 444-473. -/
noncomputable def insulatingPowerLower (o : InsulatingOpts) (m : YMesh ι) (Me adiabatic : ℝ) (e : ι → ECell)
    (src : Fld ι) (i : ι) : Fld ι :=
  let im := m.ym i
  let nesheath := 0.5 * ((e im).n + (e i).n)
  let tesheath := 0.5 * ((e im).t + (e i).t)
  let vesheath := 0.5 * ((e im).v + (e i).v)
  let q := ((o.gamma_e - 1 - 1 / (adiabatic - 1)) * tesheath - 0.5 * Me * vesheath ^ 2) * nesheath * vesheath
  Function.update src i (src i + sheathPower m i im q)

/-- Electron energy at the upper boundary, lines 480-507.  (`vesheath` is computed with `Ve[im]`, not `Ve[ip]`.) -/
noncomputable def insulatingPowerUpper (o : InsulatingOpts) (m : YMesh ι) (Me adiabatic : ℝ) (e : ι → ECell)
    (src : Fld ι) (i : ι) : Fld ι :=
  let ip := m.yp i
  let im := m.ym i
  let nesheath := 0.5 * ((e ip).n + (e i).n)
  let tesheath := 0.5 * ((e ip).t + (e i).t)
  let vesheath := 0.5 * ((e im).v + (e i).v)
  let q := ((o.gamma_e - 1 - 1 / (adiabatic - 1)) * tesheath - 0.5 * Me * vesheath ^ 2) * nesheath * vesheath
  Function.update src i (src i - sheathPower m i ip q)

/-- Lines 441-510. -/
noncomputable def insulatingPower (o : InsulatingOpts) (m : YMesh ι) (Me adiabatic : ℝ) (e : ι → ECell)
    (src : Fld ι) : Fld ι :=
  let a := if o.lower_y then m.lower.foldl (insulatingPowerLower o m Me adiabatic e) src else src
  if o.upper_y then m.upper.foldl (insulatingPowerUpper o m Me adiabatic e) a else a

/-- Lines 126-152. -/
noncomputable def insulatingSetPhi (o : InsulatingOpts) (m : YMesh ι) : Prog ι Unit := do
  let p ← isSetFinalNoBoundary (.top "fields:phi")
  if p then do
    let phi ← getNoBoundary asField (.top "fields:phi")
    setBoundary (.top "fields:phi") (.field (insulatingPhi o m phi))
  else pure ()

/-- `SheathBoundaryInsulating::transform`, `src/sheath_boundary_insulating.cxx:91-521`. -/
noncomputable def sheathBoundaryInsulating (o : InsulatingOpts) (m : YMesh ι) (names : List String) : Prog ι Unit := do
  let N0 ← getNoBndryF "e" Var.density
  let Ne : Fld ι := fun i => floorTo (N0 i) 0
  let Te ← getNoBndryF "e" Var.temperature
  let Pe ← readNB (.sp "e" Var.pressure) (fun i => Te i * Ne i)
  let adiabatic ← readReal (.sp "e" Var.adiabatic) (5 / 3)
  let Me ← readReal (.sp "e" Var.AA) o.electronMass
  let Ve ← readNB (.sp "e" Var.velocity) (fun _ => 0)
  let NVe ← readNB (.sp "e" Var.momentum) (fun _ => 0)
  insulatingSetPhi o m
  let e := (insulatingElectrons o m (fun i => ⟨Ne i, Te i, Pe i, 0, Ve i, NVe i⟩, fun _ => 0)).1
  setBoundary (.sp "e" Var.density) (.field fun i => (e i).n)
  setBoundary (.sp "e" Var.temperature) (.field fun i => (e i).t)
  setBoundary (.sp "e" Var.pressure) (.field fun i => (e i).p)
  let e' ← names.foldlM (insulatingIon o m Me) e
  let src ← readSource (.sp "e" Var.energy_source)
  set (.sp "e" Var.energy_source) (.field (insulatingPower o m Me adiabatic e' src))
  setBoundaryIfSetNB (.sp "e" Var.velocity) (fun i => (e' i).v)
  setBoundaryIfSetNB (.sp "e" Var.momentum) (fun i => (e' i).nv)

/-! ## NoFlowBoundary -/

/-- Loops at both ends, `src/noflow_boundary.cxx:32-54` (`sign = 1`) and 67-89 (`sign = -1`). -/
noncomputable def noFlowField (m : YMesh ι) (lower upper : Bool) (sign : ℝ) (var : Fld ι) : Fld ι :=
  let a := if lower then m.lower.foldl (fun f i => Function.update f (m.ym i) (sign * f i)) var else var
  if upper then m.upper.foldl (fun f i => Function.update f (m.yp i) (sign * f i)) a else a

/-- Bodies of the loops over names, lines 23-57 and 59-91. -/
noncomputable def noFlowVar (m : YMesh ι) (lower upper : Bool) (name : String) (sign : ℝ) (v : Var) : Prog ι Unit := do
  let b ← isSet (.sp name v)
  if b then do
    let var ← getNoBndryF name v
    setBoundary (.sp name v) (.field (noFlowField m lower upper sign var))
  else pure ()

/-- `NoFlowBoundary::transform`, `src/noflow_boundary.cxx:14-92`. -/
noncomputable def noFlowBoundary (m : YMesh ι) (lower upper : Bool) (name : String) : Prog ι Unit := do
  [Var.density, .temperature, .pressure].forM (noFlowVar m lower upper name 1)
  [Var.velocity, .momentum].forM (noFlowVar m lower upper name (-1))

end
end Hermes
