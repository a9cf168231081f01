import Verif.Model.Recycling

/-!
# Reflection of neutrals from walls: `src/neutral_boundary.cxx`

Same conventions as `Model/Sheath.lean`.  Left out: the diagnostic copies `target_energy_source`, `wall_energy_source`.
-/

namespace Hermes

section
variable {ι : Type} [DecidableEq ι]

/-- Options, `src/neutral_boundary.cxx:12-49`, and `Tnorm`. -/
structure NeutralOpts where
  lower_y : Bool
  upper_y : Bool
  sol : Bool
  pfr : Bool
  target_energy_refl_factor : ℝ
  sol_energy_refl_factor : ℝ
  pfr_energy_refl_factor : ℝ
  target_fast_refl_fraction : ℝ
  sol_fast_refl_fraction : ℝ
  pfr_fast_refl_fraction : ℝ
  Tnorm : ℝ

/-- Thermal speed and outgoing heat flux, lines 109-123, 167-180, 216-228, 266-278 (the four copies differ only in
the factors). -/
noncomputable def neutralHeat (Tnorm AA refl fast nnsheath tnsheath : ℝ) : ℝ :=
  let v_th := 0.25 * Real.sqrt (8 * tnsheath / (Real.pi * AA))
  let T_FC := 3 / Tnorm
  2 * nnsheath * tnsheath * v_th
    - (refl * fast) * 2 * nnsheath * tnsheath * v_th
    - (1 - fast) * T_FC * nnsheath * v_th

/-- Body of the loop over a target, lines 82-137 (`g = i.ym()`) and 142-196 (`g = i.yp()`). -/
noncomputable def neutralTarget (o : NeutralOpts) (m : YMesh ι) (AA : ℝ) (guard : ι → ι) (i : ι) (last _inner : ICell) :
    ICell × ℝ :=
  let g := guard i
  let c : ICell := { n := last.n, t := last.t, p := last.p, v := -last.v, nv := -last.nv }
  let nnsheath := 0.5 * (c.n + last.n)
  let tnsheath := 0.5 * (c.t + last.t)
  let q := neutralHeat o.Tnorm AA o.target_energy_refl_factor o.target_fast_refl_fraction nnsheath tnsheath
  let da := (m.J i + m.J g) / (Real.sqrt (m.g22 i) + Real.sqrt (m.g22 g))
    * 0.5 * (m.dx i + m.dx g) * 0.5 * (m.dz i + m.dz g)
  let flow := q * da
  let cooling_source := flow / (m.dx i * m.dy i * m.dz i * m.J i)
  (c, -cooling_source)

/-- Body of the loops over the SOL edge, lines 208-248 (`ig` at `xend+1`), and the PFR edge, lines 258-298 (`ig` at
`xstart-1`). -/
noncomputable def neutralWall (m : RMesh ι) (Tnorm AA refl fast : ℝ) (guard : ι → ι) (c : ι → ICell) (energy_source : Fld ι)
    (i : ι) : Fld ι :=
  let ig := guard i
  let nnsheath := 0.5 * ((c ig).n + (c i).n)
  let tnsheath := 0.5 * ((c ig).t + (c i).t)
  let q := neutralHeat Tnorm AA refl fast nnsheath tnsheath
  let dpol := 0.5 * (m.dy i + m.dy ig) * 1 / (0.5 * (Real.sqrt (m.g22up i) + Real.sqrt (m.g22up ig)))
  let dtor := 0.5 * (m.dz i + m.dz ig) * 0.5 * (Real.sqrt (m.g33 i) + Real.sqrt (m.g33 ig))
  let da := dpol * dtor
  let flow := q * da
  let cooling_source := flow / (m.J i * m.dx i * m.dy i * m.dz i)
  Function.update energy_source i (energy_source i - cooling_source)

/-- Both loops over targets, lines 79-199. -/
noncomputable def neutralTargets (o : NeutralOpts) (m : YMesh ι) (AA : ℝ) (s : (ι → ICell) × Fld ι) : (ι → ICell) × Fld ι :=
  let a := if o.lower_y then sweep m.ym m.yp (neutralTarget o m AA m.ym) m.lower s else s
  if o.upper_y then sweep m.yp m.ym (neutralTarget o m AA m.yp) m.upper a else a

/-- Both radial edges, lines 201-301. -/
noncomputable def neutralWalls (o : NeutralOpts) (m : RMesh ι) (AA : ℝ) (c : ι → ICell) (e : Fld ι) : Fld ι :=
  let a := if o.sol then
    m.sol.foldl (neutralWall m o.Tnorm AA o.sol_energy_refl_factor o.sol_fast_refl_fraction m.xp c) e else e
  if o.pfr then
    m.pfr.foldl (neutralWall m o.Tnorm AA o.pfr_energy_refl_factor o.pfr_fast_refl_fraction m.xm c) a else a

/-- `NeutralBoundary::transform`, lines 52-318. -/
noncomputable def neutralBoundary (o : NeutralOpts) (m : RMesh ι) (name : String) : Prog ι Unit := do
  let AA ← getR name .AA
  let Nn ← getNoBndryF name .density
  let Pn ← getNoBndryF name .pressure
  let Tn ← getNoBndryF name .temperature
  let Vn ← readNB (.sp name .velocity) 0
  let NVn ← readNB (.sp name .momentum) 0
  let energy_source ← readSource (.sp name .energy_source)
  let r := neutralTargets o m.toYMesh AA (fun i => ⟨Nn i, Tn i, Pn i, Vn i, NVn i⟩, energy_source)
  let energy := neutralWalls o m AA r.1 r.2
  setBoundary (.sp name .density) (.field fun i => (r.1 i).n)
  setBoundary (.sp name .temperature) (.field fun i => (r.1 i).t)
  setBoundary (.sp name .pressure) (.field fun i => (r.1 i).p)
  setBoundaryIfSetNB (.sp name .velocity) fun i => (r.1 i).v
  setBoundaryIfSetNB (.sp name .momentum) fun i => (r.1 i).nv
  setF name .energy_source energy

end
end Hermes
