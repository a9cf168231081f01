import Verif.Model.Sheath
import Mathlib.Analysis.SpecialFunctions.Log.Basic

/-!
# The mixed neutral model, `src/neutral_mixed.cxx`

`NeutralMixed::transform` (lines 162-260) and `NeutralMixed::finally` (lines 262-509).  The differential operators and the
user-selected boundary conditions are parameters: BOUT++ is not part of the repository, and the operators of
`include/div_ops.hxx` are modelled in `Model/ParOps.lean` and `Model/PerpOps.lean`.  The initialisation, the output and
the preconditioner are left out, except for the factors of the flow diagnostics.
-/

namespace Hermes
noncomputable section

variable {ι : Type} [DecidableEq ι]

/-- Settings of the component (lines 32-130). -/
structure NMOpts (ι : Type) where
  AA : ℝ
  density_floor : ℝ
  pressure_floor : ℝ
  flux_limit : ℝ
  diffusion_limit : ℝ
  /-- `neutral_lmax`, line 281. -/
  lmax : ℝ
  sheath_ydown : Bool
  sheath_yup : Bool
  evolve_momentum : Bool
  lax_flux : Bool
  neutral_viscosity : Bool
  neutral_conduction : Bool
  density_source : Fld ι
  pressure_source : Fld ι

/-- What BOUT++ provides: the mesh, region `RGN_NOBNDRY`, boundary conditions and operators.  `…Flows` operators also return the
flows through the cell faces. -/
structure NMMesh (ι : Type) where
  m : YMesh ι
  dom : ι → Bool
  communicate : Fld ι → Fld ι
  bndryT : Fld ι → Fld ι
  bndryP : Fld ι → Fld ι
  bndryD : Fld ι → Fld ι
  neumann : Fld ι → Fld ι
  absGrad : Fld ι → Fld ι
  divPar : Fld ι → Fld ι
  gradPar : Fld ι → Fld ι
  divParFvv : Fld ι → Fld ι → Fld ι → Fld ι
  /-- `FV::Div_par_mod`: result and `flow_ylow`. -/
  divParMod : Fld ι → Fld ι → Fld ι → Fld ι × Fld ι
  /-- `Div_a_Grad_perp_flows`: result, `flow_xlow` and `flow_ylow`. -/
  divPerp : Fld ι → Fld ι → Fld ι × Fld ι × Fld ι
  /-- `Div_par_K_Grad_par_mod` without boundary flux: result and `flow_ylow`. -/
  divParK : Fld ι → Fld ι → Fld ι × Fld ι

/-- Values of the fields in one cell. -/
structure NMCell where
  n : ℝ
  t : ℝ
  p : ℝ
  plim : ℝ
  v : ℝ
  vlim : ℝ
  nv : ℝ

/-- Lines 171-186: floors, temperature and velocity, boundary conditions. -/
def nmCells (o : NMOpts ι) (c : NMMesh ι) (N P NV : Fld ι) : ι → NMCell :=
  let Nn : Fld ι := fun i => floorTo (N i) 0
  let Pn : Fld ι := fun i => floorTo (P i) 0
  let Nnlim : Fld ι := fun i => floorTo (Nn i) o.density_floor
  let Tn := c.bndryT fun i => Pn i / Nnlim i
  let V : Fld ι := fun i => NV i / (o.AA * Nnlim i)
  let Vn := c.neumann V
  let Vnlim := c.neumann V
  let Pnlim := c.bndryP fun i => floorTo (Pn i) o.pressure_floor
  fun i => ⟨Nn i, Tn i, Pn i, Pnlim i, Vn i, Vnlim i, NV i⟩

/-- Guard cell at the wall, lines 195-219 and 227-247: `a` is the last cell, `b` the one before. -/
def nmGuard (_ : ι) (a b : NMCell) : NMCell × ℝ :=
  let nnwall := 0.5 * (3 * a.n - b.n)
  let nnwall := if nnwall < 0 then 0 else nnwall
  let tnwall := a.t
  (⟨2 * nnwall - a.n, tnwall, a.p, a.plim, -a.v, -a.vlim, -a.nv⟩, 0)

/-- Lines 171-250. -/
def nmTransform (o : NMOpts ι) (c : NMMesh ι) (N P NV : Fld ι) : ι → NMCell :=
  let s := (nmCells o c N P NV, fun _ => (0 : ℝ))
  let s := if o.sheath_ydown then sweep c.m.ym c.m.yp nmGuard c.m.lower s else s
  let s := if o.sheath_yup then sweep c.m.yp c.m.ym nmGuard c.m.upper s else s
  s.1

/-- `NeutralMixed::transform`, lines 162-260.  `N`, `P`, `NV` are the evolving variables after communication. -/
def neutralMixed (o : NMOpts ι) (c : NMMesh ι) (name : String) (N P NV : Fld ι) : Prog ι Unit := do
  let s := nmTransform o c N P NV
  setF name .density fun i => (s i).n
  set (.sp name .AA) (.real o.AA)
  setF name .pressure fun i => (s i).p
  setF name .momentum fun i => (s i).nv
  setF name .velocity fun i => (s i).v
  setF name .temperature fun i => (s i).t

/-! ## Time derivatives -/

/-- Unlimited diffusion coefficient, lines 281-291.  `nu` is the published collision frequency. -/
def nmDcoll (o : NMOpts ι) (T : Fld ι) (nu : Option (Fld ι)) : Fld ι := fun i =>
  let Rnn := Real.sqrt (floorTo (T i) 1e-5 / o.AA) / o.lmax
  match nu with
  | some f => (T i / o.AA) / (f i + Rnn)
  | none => (T i / o.AA) / Rnn

/-- With the flux limit, lines 274-275 and 293-299. -/
def nmDflux (o : NMOpts ι) (c : NMMesh ι) (T Pnlim : Fld ι) (nu : Option (Fld ι)) : Fld ι := fun i =>
  let logP := c.bndryP fun i => Real.log (Pnlim i)
  if o.flux_limit > 0 ∧ c.dom i then
    min (nmDcoll o T nu i) (o.flux_limit * Real.sqrt (T i / o.AA) / (c.absGrad logP i + 1 / o.lmax))
  else nmDcoll o T nu i

/-- The diffusion coefficient before boundary conditions, lines 274-306. -/
def nmDnn0 (o : NMOpts ι) (c : NMMesh ι) (T Pnlim : Fld ι) (nu : Option (Fld ι)) : Fld ι := fun i =>
  if o.diffusion_limit > 0 ∧ c.dom i then min (nmDflux o c T Pnlim nu i) o.diffusion_limit else nmDflux o c T Pnlim nu i

/-- Reversed sign behind the walls, lines 321-341. -/
def nmWall (o : NMOpts ι) (c : NMMesh ι) (f : Fld ι) : Fld ι :=
  let f := if o.sheath_ydown then c.m.lower.foldl (fun f i => Function.update f (c.m.ym i) (-f i)) f else f
  if o.sheath_yup then c.m.upper.foldl (fun f i => Function.update f (c.m.yp i) (-f i)) f else f

/-- `Dnn`, lines 274-341. -/
def nmDnn (o : NMOpts ι) (c : NMMesh ι) (T Pnlim : Fld ι) (nu : Option (Fld ι)) : Fld ι :=
  nmWall o c (c.bndryD (c.communicate (nmDnn0 o c T Pnlim nu)))

/-- `DnnNn`, `DnnPn` and `DnnNVn`: `Dnn` (without reversed sign behind the walls) times `f`, lines 312-341. -/
def nmProduct (o : NMOpts ι) (c : NMMesh ι) (T Pnlim : Fld ι) (nu : Option (Fld ι)) (f : Fld ι) : Fld ι :=
  let D := c.bndryD (c.communicate (nmDnn0 o c T Pnlim nu))
  nmWall o c (c.bndryD fun i => D i * f i)

/-- What `finally` reads: the sources in the state, and the factor of `scale_timederivs`. -/
structure NMSources (ι : Type) where
  nu : Option (Fld ι)
  density : Option (Fld ι)
  momentum : Option (Fld ι)
  energy : Option (Fld ι)
  scale : Option (Fld ι)

/-- The fields kept from `transform`. -/
structure NMFields (ι : Type) where
  N : Fld ι
  Nlim : Fld ι
  P : Fld ι
  Plim : Fld ι
  T : Fld ι
  V : Fld ι
  NV : Fld ι

/-- Fields after `transform`: `Nnlim` keeps the guard cells it has before the walls are handled. -/
def nmFields (o : NMOpts ι) (c : NMMesh ι) (N P NV : Fld ι) : NMFields ι :=
  let s := nmTransform o c N P NV
  ⟨fun i => (s i).n, fun i => floorTo (floorTo (N i) 0) o.density_floor, fun i => (s i).p, fun i => (s i).plim, fun i => (s i).t,
    fun i => (s i).v, fun i => (s i).nv⟩

def orZero (f : Option (Fld ι)) : Fld ι := f.getD fun _ => 0

/-- `sound_speed`, lines 344-347. -/
def nmSound (o : NMOpts ι) (T : Fld ι) : Fld ι := fun i => if o.lax_flux then Real.sqrt (T i * (5 / 3) / o.AA) else 0

/-- `ddt(Nn)`, lines 368-381, before the floor. -/
def nmDdtN (o : NMOpts ι) (c : NMMesh ι) (f : NMFields ι) (s : NMSources ι) : Fld ι := fun i =>
  -(c.divParMod f.N f.V (nmSound o f.T)).1 i +
    (c.divPerp (nmProduct o c f.T f.Plim s.nu f.Nlim) (c.bndryP fun i => Real.log (f.Plim i))).1 i +
    (o.density_source i + orZero s.density i)

/-- `kappa_n` and `eta_n`, lines 349-361. -/
def nmKappa (o : NMOpts ι) (c : NMMesh ι) (f : NMFields ι) (s : NMSources ι) : Fld ι :=
  fun i => 5 / 2 * nmProduct o c f.T f.Plim s.nu f.Nlim i
def nmEta (o : NMOpts ι) (c : NMMesh ι) (f : NMFields ι) (s : NMSources ι) : Fld ι := fun i => o.AA * (2 / 5) * nmKappa o c f s i

/-- `viscosity_source`, lines 451-460. -/
def nmViscosity (o : NMOpts ι) (c : NMMesh ι) (f : NMFields ι) (s : NMSources ι) : Fld ι := fun i =>
  o.AA * (c.divPerp (nmEta o c f s) f.V).1 i + o.AA * (c.divParK (nmEta o c f s) f.V).1 i

/-- `ddt(Pn)`, lines 387-422 and 463, before the floor. -/
def nmDdtP (o : NMOpts ι) (c : NMMesh ι) (f : NMFields ι) (s : NMSources ι) : Fld ι := fun i =>
  -(c.divParMod f.P f.V (nmSound o f.T)).1 i - 2 / 3 * f.P i * c.divPar f.V i +
    5 / 3 * (c.divPerp (nmProduct o c f.T f.Plim s.nu f.Plim) (c.bndryP fun i => Real.log (f.Plim i))).1 i +
    (if o.neutral_conduction then 2 / 3 * (c.divPerp (nmKappa o c f s) f.T).1 i + 2 / 3 * (c.divParK (nmKappa o c f s) f.T).1 i else 0) +
    (o.pressure_source i + 2 / 3 * orZero s.energy i) +
    (if o.evolve_momentum && o.neutral_viscosity then -(2 / 3) * f.V i * nmViscosity o c f s i else 0)

/-- `ddt(NVn)`, lines 424-476. -/
def nmDdtNV (o : NMOpts ι) (c : NMMesh ι) (f : NMFields ι) (s : NMSources ι) : Fld ι := fun i =>
  if o.evolve_momentum then
    -o.AA * c.divParFvv f.Nlim f.V (nmSound o f.T) i - c.gradPar f.P i +
      (c.divPerp (nmProduct o c f.T f.Plim s.nu f.NV) (c.bndryP fun i => Real.log (f.Plim i))).1 i +
      (if o.neutral_viscosity then nmViscosity o c f s i else 0) + orZero s.momentum i
  else 0

/-- `if ((x < floor * 1e-2) && (ddt < 0.0)) ddt = 0.0`, lines 479-486. -/
def nmFloor (lo : ℝ) (x d : Fld ι) : Fld ι := fun i => if x i < lo * 1e-2 ∧ d i < 0 then 0 else d i

/-- Lines 489-494. -/
def nmScale (s : NMSources ι) (d : Fld ι) : Fld ι := match s.scale with
  | some f => fun i => d i * f i
  | none => d

/-- The time derivatives returned by `NeutralMixed::finally`. -/
def nmFinally (o : NMOpts ι) (c : NMMesh ι) (f : NMFields ι) (s : NMSources ι) : Fld ι × Fld ι × Fld ι :=
  (nmScale s (nmFloor o.density_floor f.N (nmDdtN o c f s)), nmScale s (nmFloor o.pressure_floor f.P (nmDdtP o c f s)),
    nmScale s (nmDdtNV o c f s))

/-! ## Diagnostics of the energy flows -/

/-- Reported parallel energy advection: `ef_adv_par_ylow *= 5/2`, line 398.  The factor is an integer division. -/
def nmEfAdvPar (o : NMOpts ι) (c : NMMesh ι) (f : NMFields ι) : Fld ι := fun i =>
  (c.divParMod f.P f.V (nmSound o f.T)).2 i * ((5 / 2 : ℤ) : ℝ)

/-- Reported perpendicular energy advection, lines 399-400. -/
def nmEfAdvPerp (o : NMOpts ι) (c : NMMesh ι) (f : NMFields ι) (s : NMSources ι) : Fld ι × Fld ι :=
  let r := (c.divPerp (nmProduct o c f.T f.Plim s.nu f.Plim) (c.bndryP fun i => Real.log (f.Plim i))).2
  (fun i => r.1 i * ((5 / 2 : ℤ) : ℝ), fun i => r.2 i * ((5 / 2 : ℤ) : ℝ))

/-- Reported conduction, lines 414-416: `*= 3/2` (integer division). -/
def nmEfCondPar (o : NMOpts ι) (c : NMMesh ι) (f : NMFields ι) (s : NMSources ι) : Fld ι := fun i =>
  (c.divParK (nmKappa o c f s) f.T).2 i * ((3 / 2 : ℤ) : ℝ)

end
end Hermes
