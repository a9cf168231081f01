import Verif.Model.Limiters
import Mathlib.Analysis.Real.Sqrt

/-!
# Parallel finite-volume operators on one field line

Model of `FV::Div_par_mod`, `FV::Div_par_fvv`, `FV::Div_par_fvv_heating` (`include/div_ops.hxx`),
`Div_par_K_Grad_par_mod`, `Div_par_diffusion_index` (`src/div_ops.cxx`).

Simplifications:
* one field line (fixed `x` and aligned `z`): all these operators treat the lines `(i, k)`
  independently once the fields are field aligned.  `toFieldAligned` / `fromFieldAligned` (BOUT++) are
  not modelled;
* 2D metric (`BOUT_USE_METRIC_3D` off; the 3D branch is the same formula per `k`);
* arrays are functions `ℤ → ℝ` of the y index, guard cells included, so that all reads are in bounds.
-/

namespace Hermes

/-- One field line as seen by one processor. -/
structure Line where
  /-- first and last cell owned by this processor -/
  ystart : ℤ
  yend : ℤ
  /-- `mesh->firstY(i)`, `mesh->lastY(i)`, `mesh->periodicY(i)` -/
  firstY : Bool
  lastY : Bool
  periodicY : Bool
  /-- metric: Jacobian, `g_22`, cell sizes -/
  J : ℤ → ℝ
  g22 : ℤ → ℝ
  dx : ℤ → ℝ
  dy : ℤ → ℝ
  dz : ℤ → ℝ

/-- `ys`, `include/div_ops.hxx:537-544` (same code at 153-160 and 309-316). -/
def Line.ys (g : Line) : ℤ := if !g.firstY || g.periodicY then g.ystart - 1 else g.ystart
/-- `ye`, `include/div_ops.hxx:546-552` (same code at 162-168 and 318-324). -/
def Line.ye (g : Line) : ℤ := if !g.lastY || g.periodicY then g.yend + 1 else g.yend

/-- Is `j` the last / first point of the domain (`include/div_ops.hxx:630, 661`)? -/
def Line.isLast (g : Line) (j : ℤ) : Bool := g.lastY && (j == g.yend) && !g.periodicY
def Line.isFirst (g : Line) (j : ℤ) : Bool := g.firstY && (j == g.ystart) && !g.periodicY

/-- The indices of `for (int j = a; j <= b; j++)`. -/
def forRange (a b : ℤ) : List ℤ := (List.range (b + 1 - a).toNat).map fun n : ℕ => a + (n : ℤ)

/-- `r(j) += x`. -/
def addAt (r : ℤ → ℝ) (j : ℤ) (x : ℝ) : ℤ → ℝ := fun i => if i = j then r i + x else r i

/-- `common_factor` for the face between cells `j` and `j + 1`, `include/div_ops.hxx:558-559`; the left
face of `j` (lines 568-569) is the face between `j` and `j - 1`. -/
noncomputable def Line.faceR (g : Line) (j : ℤ) : ℝ :=
  (g.J j + g.J (j + 1)) / (Real.sqrt (g.g22 j) + Real.sqrt (g.g22 (j + 1)))
noncomputable def Line.faceL (g : Line) (j : ℤ) : ℝ :=
  (g.J j + g.J (j - 1)) / (Real.sqrt (g.g22 j) + Real.sqrt (g.g22 (j - 1)))

/-- The two accumulated fields: the divergence and the flow through the lower face. -/
structure Acc where
  result : ℤ → ℝ
  flow : ℤ → ℝ

/-- Body of the loop over `j` in `Div_par_mod`, `include/div_ops.hxx:554-686`, for given fluxes `fluxR`
(computed at 626-651) and `fluxL` (658-679).  `Div_par_fvv` has the same body without the flow. -/
noncomputable def Line.scatter (g : Line) (fluxR fluxL : ℤ → ℝ) (a : Acc) (j : ℤ) : Acc :=
  let cR := g.faceR j
  let flux_factor_rc := cR / (g.dy j * g.J j)
  let flux_factor_rp := cR / (g.dy (j + 1) * g.J (j + 1))
  let area_rp := cR * g.dx (j + 1) * g.dz (j + 1)
  let cL := g.faceL j
  let flux_factor_lc := cL / (g.dy j * g.J j)
  let flux_factor_lm := cL / (g.dy (j - 1) * g.J (j - 1))
  let area_lc := cL * g.dx j * g.dz j
  let r := addAt a.result j (fluxR j * flux_factor_rc)          -- line 653
  let r := addAt r (j + 1) (-(fluxR j * flux_factor_rp))        -- line 654
  let fl := addAt a.flow (j + 1) (fluxR j * area_rp)            -- line 656
  let r := addAt r j (-(fluxL j * flux_factor_lc))              -- line 681
  let r := addAt r (j - 1) (fluxL j * flux_factor_lm)           -- line 682
  let fl := addAt fl j (fluxL j * area_lc)                      -- line 684
  ⟨r, fl⟩

/-- The loop, starting from zero fields (`include/div_ops.hxx:527-528`). -/
noncomputable def Line.fluxLoop (g : Line) (fluxR fluxL : ℤ → ℝ) : Acc :=
  (forRange g.ys g.ye).foldl (g.scatter fluxR fluxL) ⟨fun _ => 0, fun _ => 0⟩

/-- `BOUTMAX` of four and three numbers. -/
noncomputable def max4 (a b c d : ℝ) : ℝ := max (max a b) (max c d)
noncomputable def max3 (a b c : ℝ) : ℝ := max (max a b) c

section
variable (lim : Limiter) (f v w : ℤ → ℝ)

/-- Reconstruction of a field in cell `j`, e.g. `include/div_ops.hxx:609-614`. -/
def edges (f : ℤ → ℝ) (j : ℤ) : ℝ × ℝ := lim (f (j - 1)) (f j) (f (j + 1))

/-- Right flux of `Div_par_mod`, `include/div_ops.hxx:628-651`. -/
noncomputable def Line.modFluxR (g : Line) (fixflux : Bool) (j : ℤ) : ℝ :=
  let s := edges lim f j
  let sv := edges lim v j
  if g.isLast j then
    let vpar := 0.5 * (v j + v (j + 1))
    let bndryval := 0.5 * (f j + f (j + 1))
    if fixflux then bndryval * vpar else s.2 * vpar + w j * (s.2 - bndryval)
  else
    let amax := max4 (w j) (w (j + 1)) |v j| |v (j + 1)|
    s.2 * 0.5 * (sv.2 + amax)

/-- Left flux of `Div_par_mod`, `include/div_ops.hxx:661-679`. -/
noncomputable def Line.modFluxL (g : Line) (fixflux : Bool) (j : ℤ) : ℝ :=
  let s := edges lim f j
  let sv := edges lim v j
  if g.isFirst j then
    let bndryval := 0.5 * (f j + f (j - 1))
    let vpar := 0.5 * (v j + v (j - 1))
    if fixflux then bndryval * vpar else s.1 * vpar - w j * (s.1 - bndryval)
  else
    let amax := max4 (w j) (w (j - 1)) |v j| |v (j - 1)|
    s.1 * 0.5 * (sv.1 - amax)

/-- `FV::Div_par_mod`, `include/div_ops.hxx:501-692`: divergence and `flow_ylow`. -/
noncomputable def Line.divParMod (g : Line) (fixflux : Bool) : Acc :=
  g.fluxLoop (g.modFluxR lim f v w fixflux) (g.modFluxL lim f v w fixflux)

/-- Right flux of `Div_par_fvv`, `include/div_ops.hxx:215-239`. -/
noncomputable def Line.fvvFluxR (g : Line) (fixflux : Bool) (j : ℤ) : ℝ :=
  let s := edges lim f j
  let sv := edges lim v j
  let v_mid := 0.5 * (v j + v (j + 1))
  let n_mid := 0.5 * (f j + f (j + 1))
  if g.isLast j then
    if fixflux then n_mid * v_mid * v_mid
    else s.2 * sv.2 * sv.2 + max3 (w j) |v j| |v (j + 1)| * n_mid * (sv.2 - v_mid)
  else
    let amax := max4 (w j) (w (j + 1)) |v j| |v (j + 1)|
    s.2 * 0.5 * (sv.2 + amax) * sv.2

/-- Left flux of `Div_par_fvv`, `include/div_ops.hxx:247-268`. -/
noncomputable def Line.fvvFluxL (g : Line) (fixflux : Bool) (j : ℤ) : ℝ :=
  let s := edges lim f j
  let sv := edges lim v j
  let v_mid := 0.5 * (v j + v (j - 1))
  let n_mid := 0.5 * (f j + f (j - 1))
  if g.isFirst j then
    if fixflux then n_mid * v_mid * v_mid
    else s.1 * sv.1 * sv.1 - max3 (w j) |v j| |v (j - 1)| * n_mid * (sv.1 - v_mid)
  else
    let amax := max4 (w j) (w (j - 1)) |v j| |v (j - 1)|
    s.1 * 0.5 * (sv.1 - amax) * sv.1

/-- `FV::Div_par_fvv`, `include/div_ops.hxx:126-276` (it has no flow output). -/
noncomputable def Line.divParFvv (g : Line) (fixflux : Bool) : ℤ → ℝ :=
  (g.fluxLoop (g.fvvFluxR lim f v w fixflux) (g.fvvFluxL lim f v w fixflux)).result

/-- Boundary momentum flux assumed by `Div_par_fvv_heating` at the upper end, `include/div_ops.hxx:382-392`. -/
noncomputable def heatMomR (fixflux : Bool) (j : ℤ) : ℝ :=
  let s := edges lim f j
  let sv := edges lim v j
  let v_mid := 0.5 * (v j + v (j + 1))
  let n_mid := 0.5 * (f j + f (j + 1))
  if fixflux then n_mid * v_mid * v_mid
  else s.2 * sv.2 * sv.2 + max3 (w j) |v j| |v (j + 1)| * (s.2 * sv.2 - n_mid * v_mid)

/-- The same at the lower end, `include/div_ops.hxx:435-445`. -/
noncomputable def heatMomL (fixflux : Bool) (j : ℤ) : ℝ :=
  let s := edges lim f j
  let sv := edges lim v j
  let v_mid := 0.5 * (v j + v (j - 1))
  let n_mid := 0.5 * (f j + f (j - 1))
  if fixflux then n_mid * v_mid * v_mid
  else s.1 * sv.1 * sv.1 - max3 (w j) |v j| |v (j - 1)| * (s.1 * sv.1 - n_mid * v_mid)

/-- Loop body of `Div_par_fvv_heating`, `include/div_ops.hxx:326-473`. -/
noncomputable def Line.heatStep (g : Line) (fixflux : Bool) (a : Acc) (j : ℤ) : Acc :=
  let cR := g.faceR j
  let flux_factor_rc := cR / (g.dy j * g.J j)
  let area_rp := cR * g.dx (j + 1) * g.dz (j + 1)
  let cL := g.faceL j
  let flux_factor_lc := cL / (g.dy j * g.J j)
  let area_lc := cL * g.dx j * g.dz j
  let s := edges lim f j
  let sv := edges lim v j
  -- right, lines 369-422
  let v_mid := 0.5 * (v j + v (j + 1))
  let n_mid := 0.5 * (f j + f (j + 1))
  let a : Acc :=
    if g.isLast j then
      let expected_ke := 0.5 * n_mid * v_mid * v_mid * v_mid
      let flux_mom := heatMomR lim f v w fixflux j
      let flux_part := n_mid * v_mid
      let actual_ke := v j * flux_mom - 0.5 * v j * v j * flux_part
      ⟨addAt a.result j ((actual_ke - expected_ke) * flux_factor_rc),
       addAt a.flow (j + 1) (expected_ke * area_rp)⟩
    else
      let amax := max4 (w j) (w (j + 1)) |v j| |v (j + 1)|
      let flux_part := s.2 * 0.5 * (sv.2 + amax)
      let flux_mom := flux_part * sv.2
      ⟨addAt a.result j ((amax + 0.5 * sv.2) * s.2 * (v j - v (j + 1)) * (sv.2 - v_mid) * flux_factor_rc),
       addAt a.flow (j + 1) ((v (j + 1) * flux_mom - 0.5 * (v (j + 1) * v (j + 1)) * flux_part) * area_rp)⟩
  -- left, lines 427-471
  let v_mid := 0.5 * (v j + v (j - 1))
  let n_mid := 0.5 * (f j + f (j - 1))
  let expected_ke := -0.5 * n_mid * v_mid * v_mid * v_mid
  if g.isFirst j then
    let flux_mom := heatMomL lim f v w fixflux j
    let flux_part := n_mid * v_mid
    let actual_ke := -v j * flux_mom + 0.5 * v j * v j * flux_part
    ⟨addAt a.result j ((actual_ke - expected_ke) * flux_factor_lc),
     addAt a.flow j (-(expected_ke * area_lc))⟩
  else
    let amax := max4 (w j) (w (j - 1)) |v j| |v (j - 1)|
    let flux_part := s.1 * 0.5 * (sv.1 - amax)
    let flux_mom := flux_part * sv.1
    ⟨addAt a.result j ((amax - 0.5 * sv.1) * s.1 * (v j - v (j - 1)) * (sv.1 - v_mid) * flux_factor_lc),
     addAt a.flow j ((v j * flux_mom - 0.5 * (v j * v j) * flux_part) * area_lc)⟩

/-- `FV::Div_par_fvv_heating`, `include/div_ops.hxx:280-477`. -/
noncomputable def Line.fvvHeating (g : Line) (fixflux : Bool) : Acc :=
  (forRange g.ys g.ye).foldl (g.heatStep lim f v w fixflux) ⟨fun _ => 0, fun _ => 0⟩

end

/-! ## Parallel conduction -/

/-- Flux at the upper surface of cell `i` in `Div_par_K_Grad_par_mod`, `src/div_ops.cxx:1568-1574`. -/
noncomputable def Line.condFluxUp (g : Line) (K f : ℤ → ℝ) (i : ℤ) : ℝ :=
  let c := 0.5 * (K i + K (i + 1))
  let J := 0.5 * (g.J i + g.J (i + 1))
  let g_22 := 0.5 * (g.g22 i + g.g22 (i + 1))
  let gradient := 2 * (f (i + 1) - f i) / (g.dy i + g.dy (i + 1))
  c * J * gradient / g_22

/-- Flux at the lower surface, `src/div_ops.cxx:1582-1589`. -/
noncomputable def Line.condFluxDown (g : Line) (K f : ℤ → ℝ) (i : ℤ) : ℝ :=
  let c := 0.5 * (K i + K (i - 1))
  let J := 0.5 * (g.J i + g.J (i - 1))
  let g_22 := 0.5 * (g.g22 i + g.g22 (i - 1))
  let gradient := 2 * (f i - f (i - 1)) / (g.dy i + g.dy (i - 1))
  c * J * gradient / g_22

/-- Is the flux through the upper / lower surface of `i` included (`src/div_ops.cxx:1565-1566, 1580-1581`)? -/
def Line.condUp (g : Line) (bndry_flux : Bool) (i : ℤ) : Bool :=
  bndry_flux || g.periodicY || !g.lastY || (i != g.yend)
def Line.condDown (g : Line) (bndry_flux : Bool) (i : ℤ) : Bool :=
  bndry_flux || g.periodicY || !g.firstY || (i != g.ystart)

/-- `Div_par_K_Grad_par_mod` in an interior cell, `src/div_ops.cxx:1559-1594`. -/
noncomputable def Line.divParKGradPar (g : Line) (K f : ℤ → ℝ) (bndry_flux : Bool) (i : ℤ) : ℝ :=
  (if g.condUp bndry_flux i then g.condFluxUp K f i / (g.dy i * g.J i) else 0)
    - (if g.condDown bndry_flux i then g.condFluxDown K f i / (g.dy i * g.J i) else 0)

/-- `flow_ylow` of `Div_par_K_Grad_par_mod`, `src/div_ops.cxx:1592`. -/
noncomputable def Line.condFlow (g : Line) (K f : ℤ → ℝ) (bndry_flux : Bool) (i : ℤ) : ℝ :=
  if g.condDown bndry_flux i then -g.condFluxDown K f i * g.dx i * g.dz i else 0

/-! ## Index-space parallel diffusion -/

/-- Loop body of `Div_par_diffusion_index`, `src/div_ops.cxx:46-66`. -/
noncomputable def Line.diffIndexStep (g : Line) (f : ℤ → ℝ) (bndry_flux : Bool) (r : ℤ → ℝ) (j : ℤ) :
    ℤ → ℝ :=
  if !bndry_flux && !g.periodicY && ((j == g.yend) && g.lastY) then r
  else if !bndry_flux && !g.periodicY && ((j == g.ystart - 1) && g.firstY) then r
  else
    let J := 0.5 * (g.J j + g.J (j + 1))
    let gradient := f (j + 1) - f j
    let flux := J * gradient
    addAt (addAt r j (flux / g.J j)) (j + 1) (-(flux / g.J (j + 1)))

/-- `Div_par_diffusion_index`, `src/div_ops.cxx:39-68`. -/
noncomputable def Line.diffIndex (g : Line) (f : ℤ → ℝ) (bndry_flux : Bool) : ℤ → ℝ :=
  (forRange (g.ystart - 1) g.yend).foldl (g.diffIndexStep f bndry_flux) fun _ => 0

/-! ## No-flow boundary -/

/-- `NoFlowBoundary::transform` on a density, temperature or pressure, `src/noflow_boundary.cxx:32-52`.
`iterateBndryLowerY` / `UpperY` visit the lines with a physical boundary. -/
def Line.noflowScalar (g : Line) (lower upper : Bool) (f : ℤ → ℝ) : ℤ → ℝ := fun j =>
  if lower && g.firstY && !g.periodicY && (j == g.ystart - 1) then f g.ystart
  else if upper && g.lastY && !g.periodicY && (j == g.yend + 1) then f g.yend
  else f j

/-- The same on a velocity or momentum, `src/noflow_boundary.cxx:67-87`. -/
def Line.noflowFlow (g : Line) (lower upper : Bool) (f : ℤ → ℝ) : ℤ → ℝ := fun j =>
  if lower && g.firstY && !g.periodicY && (j == g.ystart - 1) then -f g.ystart
  else if upper && g.lastY && !g.periodicY && (j == g.yend + 1) then -f g.yend
  else f j

end Hermes
