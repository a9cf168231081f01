import Verif.Model.ParOps

/-!
# Perpendicular finite-volume operators

Model of the cross-field operators of `src/div_ops.cxx` and `include/div_ops.hxx`.

* `x` and `y` indices are integers (guard cells included), `z` is cyclic: `Fin nz` with `k + 1`, `k - 1`
  wrapping round, as `(k + 1) % nz` and `(k - 1 + nz) % nz` do.
* 2D metric (functions of `x` and `y`), as for the default build.
* `toFieldAligned` / `fromFieldAligned` are BOUT++ functions: the operators that work partly on field-aligned
  data take the aligned fields as separate arguments and return the aligned part of the result separately.
-/

namespace Hermes

/-- A 3D field and the local grid. -/
abbrev F3 (nz : ℕ) := ℤ → ℤ → Fin nz → ℝ

structure Grid where
  xstart : ℤ
  xend : ℤ
  ystart : ℤ
  yend : ℤ
  firstX : Bool
  lastX : Bool
  firstY : ℤ → Bool
  lastY : ℤ → Bool
  J : ℤ → ℤ → ℝ
  dx : ℤ → ℤ → ℝ
  dy : ℤ → ℤ → ℝ
  dz : ℤ → ℤ → ℝ
  g11 : ℤ → ℤ → ℝ
  g22 : ℤ → ℤ → ℝ
  g33 : ℤ → ℤ → ℝ
  g23 : ℤ → ℤ → ℝ
  /-- covariant `g_23` -/
  g_23 : ℤ → ℤ → ℝ
  Bxy : ℤ → ℤ → ℝ

section
variable {nz : ℕ}

/-- `r(i,j,k) += x`. -/
def addAt3 (r : F3 nz) (i j : ℤ) (k : Fin nz) (x : ℝ) : F3 nz := fun i' j' k' =>
  if (i', j', k') = (i, j, k) then r i' j' k' + x else r i' j' k'

/-- The triples visited by three nested loops. -/
def loop3 (nz : ℕ) (xs xe ys ye : ℤ) : List (ℤ × ℤ × Fin nz) :=
  forRange xs xe ×ˢ (forRange ys ye ×ˢ List.finRange nz)

/-- The x-flux loop shared by `Div_a_Grad_perp_flows` (`src/div_ops.cxx:823-843`),
`Div_a_Grad_perp_upwind` (1040-1057), `Div_a_Grad_perp_upwind_flows` (1223-1243) and
`Div_a_Grad_perp_limit` (`include/div_ops.hxx:719-766`): flux `fout i j k` from cell `i` to `i + 1`. -/
noncomputable def Grid.xStep (g : Grid) (fout : F3 nz) (r : F3 nz) (p : ℤ × ℤ × Fin nz) : F3 nz :=
  let (i, j, k) := p
  let r := addAt3 r i j k (fout i j k / (g.dx i j * g.J i j))
  addAt3 r (i + 1) j k (-(fout i j k / (g.dx (i + 1) j * g.J (i + 1) j)))

noncomputable def Grid.xLoop (g : Grid) (fout : F3 nz) : F3 nz :=
  (loop3 nz (g.xstart - 1) g.xend g.ystart g.yend).foldl (g.xStep fout) fun _ _ _ => 0

/-- `flow_xlow`, `src/div_ops.cxx:840` and `1240`: set at `i + 1` from the flux between `i` and `i + 1`. -/
noncomputable def Grid.flowX (g : Grid) (fout : F3 nz) : F3 nz := fun i j k =>
  -1 * fout (i - 1) j k * g.dy (i - 1) j * g.dz (i - 1) j

/-- The z-flux loop, `src/div_ops.cxx:986-1012` (with `w = J`), `1148-1175`, `1337-1364` and
`include/div_ops.hxx:884-911` (with `w = 1`): `r(k) += fout/(w dz); r(kp) -= fout/(w dz)`. -/
noncomputable def Grid.zStep [NeZero nz] (g : Grid) (w : ℤ → ℤ → ℝ) (fout : F3 nz) (r : F3 nz)
    (p : ℤ × ℤ × Fin nz) : F3 nz :=
  let (i, j, k) := p
  let r := addAt3 r i j k (fout i j k / (w i j * g.dz i j))
  addAt3 r i j (k + 1) (-(fout i j k / (w i j * g.dz i j)))

/-- y part (assigned, not accumulated) followed by the z loop. -/
noncomputable def Grid.yzLoop [NeZero nz] (g : Grid) (yUp yDown : F3 nz) (w : ℤ → ℤ → ℝ) (fz : F3 nz) :
    F3 nz :=
  (loop3 nz g.xstart g.xend g.ystart g.yend).foldl (g.zStep w fz) fun i j k =>
    yUp i j k / (g.dy i j * g.J i j) - yDown i j k / (g.dy i j * g.J i j)

/-! ### Fluxes of `Div_a_Grad_perp_flows` -/

/-- `src/div_ops.cxx:828-832`. -/
noncomputable def Grid.flowsX (g : Grid) (a f : F3 nz) : F3 nz := fun i j k =>
  0.5 * (a i j k + a (i + 1) j k) * (g.J i j * g.g11 i j + g.J (i + 1) j * g.g11 (i + 1) j)
    * (f (i + 1) j k - f i j k) / (g.dx i j + g.dx (i + 1) j)

/-- Flux between `j` and `j + 1`, `src/div_ops.cxx:936-957`. -/
noncomputable def Grid.flowsYup [NeZero nz] (g : Grid) (a f : F3 nz) : F3 nz := fun i j k =>
  let coef := 0.5 * (g.g_23 i j / (g.J i j * g.Bxy i j) ^ 2
    + g.g_23 i (j + 1) / (g.J i (j + 1) * g.Bxy i (j + 1)) ^ 2)
  let dfdz := 0.5 * (f i j (k + 1) - f i j (k - 1) + f i (j + 1) (k + 1) - f i (j + 1) (k - 1))
    / (g.dz i j + g.dz i (j + 1))
  let dfdy := 2 * (f i (j + 1) k - f i j k) / (g.dy i (j + 1) + g.dy i j)
  0.25 * (a i j k + a i (j + 1) k) * (g.J i j * g.g23 i j + g.J i (j + 1) * g.g23 i (j + 1))
    * (dfdz - coef * dfdy)

/-- Flux between `j` and `j - 1`, `src/div_ops.cxx:960-978`. -/
noncomputable def Grid.flowsYdown [NeZero nz] (g : Grid) (a f : F3 nz) : F3 nz := fun i j k =>
  let coef := 0.5 * (g.g_23 i j / (g.J i j * g.Bxy i j) ^ 2
    + g.g_23 i (j - 1) / (g.J i (j - 1) * g.Bxy i (j - 1)) ^ 2)
  let dfdz := 0.5 * (f i j (k + 1) - f i j (k - 1) + f i (j - 1) (k + 1) - f i (j - 1) (k - 1))
    / (g.dz i j + g.dz i (j - 1))
  let dfdy := 2 * (f i j k - f i (j - 1) k) / (g.dy i j + g.dy i (j - 1))
  0.25 * (a i j k + a i (j - 1) k) * (g.J i j * g.g23 i j + g.J i (j - 1) * g.g23 i (j - 1))
    * (dfdz - coef * dfdy)

/-- Flux between `k` and `k + 1`, `src/div_ops.cxx:992-1007`. -/
noncomputable def Grid.flowsZ [NeZero nz] (g : Grid) (a f : F3 nz) : F3 nz := fun i j k =>
  let coef := g.g_23 i j / (g.dy i (j + 1) + 2 * g.dy i j + g.dy i (j - 1)) / (g.J i j * g.Bxy i j) ^ 2
  0.25 * (a i j k + a i j (k + 1)) * (g.J i j * g.g33 i j + g.J i j * g.g33 i j)
    * ((f i j (k + 1) - f i j k) / g.dz i j
      - coef * (f i (j + 1) k + f i (j + 1) (k + 1) - f i (j - 1) k - f i (j - 1) (k + 1)))

/-- `Div_a_Grad_perp_flows`, `src/div_ops.cxx:795-1023`: x part (from `a`, `f`) and field-aligned y–z part
(from the aligned `aA`, `fA`). -/
noncomputable def Grid.divPerpFlows [NeZero nz] (g : Grid) (a f aA fA : F3 nz) : F3 nz × F3 nz :=
  (g.xLoop (g.flowsX a f), g.yzLoop (g.flowsYup aA fA) (g.flowsYdown aA fA) g.J (g.flowsZ aA fA))

/-- `flow_ylow`, `src/div_ops.cxx:980`. -/
noncomputable def Grid.flowY (g : Grid) (yDown : F3 nz) : F3 nz := fun i j k =>
  -1 * yDown i j k * g.dx i j * g.dz i j

/-! ### Fluxes of `Div_a_Grad_perp_upwind` and `Div_a_Grad_perp_upwind_flows` -/

/-- `src/div_ops.cxx:1045-1051`, `1228-1234`. -/
noncomputable def Grid.upwindX (g : Grid) (a f : F3 nz) : F3 nz := fun i j k =>
  let gradient := (g.J i j * g.g11 i j + g.J (i + 1) j * g.g11 (i + 1) j)
    * (f (i + 1) j k - f i j k) / (g.dx i j + g.dx (i + 1) j)
  gradient * (if gradient > 0 then a (i + 1) j k else a i j k)

/-- `src/div_ops.cxx:1115-1126`, `1302-1313`. -/
noncomputable def Grid.upwindYup [NeZero nz] (g : Grid) (a f : F3 nz) : F3 nz := fun i j k =>
  let coef := 0.5 * (g.g_23 i j / (g.J i j * g.Bxy i j) ^ 2
    + g.g_23 i (j + 1) / (g.J i (j + 1) * g.Bxy i (j + 1)) ^ 2)
  let dfdz := 0.25 * (f i j (k + 1) - f i j (k - 1) + f i (j + 1) (k + 1) - f i (j + 1) (k - 1)) / g.dz i j
  let dfdy := 2 * (f i (j + 1) k - f i j k) / (g.dy i (j + 1) + g.dy i j)
  0.25 * (a i j k + a i (j + 1) k) * (g.J i j * g.g23 i j + g.J i (j + 1) * g.g23 i (j + 1))
    * (dfdz - coef * dfdy)

/-- `src/div_ops.cxx:1131-1141`, `1318-1328`. -/
noncomputable def Grid.upwindYdown [NeZero nz] (g : Grid) (a f : F3 nz) : F3 nz := fun i j k =>
  let coef := 0.5 * (g.g_23 i j / (g.J i j * g.Bxy i j) ^ 2
    + g.g_23 i (j - 1) / (g.J i (j - 1) * g.Bxy i (j - 1)) ^ 2)
  let dfdz := 0.25 * (f i j (k + 1) - f i j (k - 1) + f i (j - 1) (k + 1) - f i (j - 1) (k - 1)) / g.dz i j
  let dfdy := 2 * (f i j k - f i (j - 1) k) / (g.dy i j + g.dy i (j - 1))
  0.25 * (a i j k + a i (j - 1) k) * (g.J i j * g.g23 i j + g.J i (j - 1) * g.g23 i (j - 1))
    * (dfdz - coef * dfdy)

/-- The z gradient of the upwind and limited variants, `src/div_ops.cxx:1160-1167`, `1349-1356`,
`include/div_ops.hxx:896-903`. -/
noncomputable def Grid.gradZ [NeZero nz] (g : Grid) (f : F3 nz) : F3 nz := fun i j k =>
  let coef := g.g_23 i j / (g.dy i (j + 1) + 2 * g.dy i j + g.dy i (j - 1)) / (g.J i j * g.Bxy i j) ^ 2
  (f i j (k + 1) - f i j k) / g.dz i j
    - coef * (f i (j + 1) k + f i (j + 1) (k + 1) - f i (j - 1) k - f i (j - 1) (k + 1))

/-- `src/div_ops.cxx:1169`, `1358`.  Note that there is no factor `g33`. -/
noncomputable def Grid.upwindZ [NeZero nz] (g : Grid) (a f : F3 nz) : F3 nz := fun i j k =>
  let gradient := g.gradZ f i j k
  gradient * (if gradient > 0 then a i j (k + 1) else a i j k)

/-- `Div_a_Grad_perp_upwind`, `src/div_ops.cxx:1027-1184`, and `_upwind_flows`, `1204-1374`. -/
noncomputable def Grid.divPerpUpwind [NeZero nz] (g : Grid) (a f aA fA : F3 nz) : F3 nz × F3 nz :=
  (g.xLoop (g.upwindX a f), g.yzLoop (g.upwindYup aA fA) (g.upwindYdown aA fA) (fun _ _ => 1) (g.upwindZ aA fA))

/-! ### Fluxes of `Div_a_Grad_perp_limit` -/

/-- `include/div_ops.hxx:724-760`. -/
noncomputable def Grid.limitX (g : Grid) (lim : Limiter) (a q f : F3 nz) : F3 nz := fun i j k =>
  let gradient := f (i + 1) j k - f i j k
  let aedge := 0.5 * (a (i + 1) j k + a i j k)
  let gedge :=
    if ((i == g.xstart - 1) && g.firstX) || ((i == g.xend) && g.lastX) then
      0.5 * (q (i + 1) j k + q i j k)
    else if gradient > 0 then (lim (q i j k) (q (i + 1) j k) (q (i + 2) j k)).1
    else (lim (q (i - 1) j k) (q i j k) (q (i + 1) j k)).2
  gradient * aedge * gedge * (g.J i j * g.g11 i j + g.J (i + 1) j * g.g11 (i + 1) j)
    / (g.dx i j + g.dx (i + 1) j)

/-- `include/div_ops.hxx:828-852`. -/
noncomputable def Grid.limitYup [NeZero nz] (g : Grid) (a q f : F3 nz) : F3 nz := fun i j k =>
  let coef := 0.5 * (g.g_23 i j / (g.J i j * g.Bxy i j) ^ 2
    + g.g_23 i (j + 1) / (g.J i (j + 1) * g.Bxy i (j + 1)) ^ 2)
  let dfdz := 0.25 * (f i j (k + 1) - f i j (k - 1) + f i (j + 1) (k + 1) - f i (j + 1) (k - 1)) / g.dz i j
  let dfdy := 2 * (f i (j + 1) k - f i j k) / (g.dy i (j + 1) + g.dy i j)
  let aedge := 0.5 * (a i j k + a i (j + 1) k)
  let gedge := if (j == g.yend) && g.lastY i then 0.5 * (q i j k + q i (j + 1) k)
    else if dfdy > 0 then q i (j + 1) k else q i j k
  aedge * gedge * 0.5 * (g.J i j * g.g23 i j + g.J i (j + 1) * g.g23 i (j + 1)) * (dfdz - coef * dfdy)

/-- `include/div_ops.hxx:857-878`. -/
noncomputable def Grid.limitYdown [NeZero nz] (g : Grid) (a q f : F3 nz) : F3 nz := fun i j k =>
  let coef := 0.5 * (g.g_23 i j / (g.J i j * g.Bxy i j) ^ 2
    + g.g_23 i (j - 1) / (g.J i (j - 1) * g.Bxy i (j - 1)) ^ 2)
  let dfdz := 0.25 * (f i j (k + 1) - f i j (k - 1) + f i (j - 1) (k + 1) - f i (j - 1) (k - 1)) / g.dz i j
  let dfdy := 2 * (f i j k - f i (j - 1) k) / (g.dy i j + g.dy i (j - 1))
  let aedge := 0.5 * (a i j k + a i (j - 1) k)
  let gedge := if (j == g.ystart) && g.firstY i then 0.5 * (q i j k + q i (j - 1) k)
    else if dfdy > 0 then q i j k else q i (j - 1) k
  aedge * gedge * 0.5 * (g.J i j * g.g23 i j + g.J i (j - 1) * g.g23 i (j - 1)) * (dfdz - coef * dfdy)

/-- `include/div_ops.hxx:896-906`. -/
noncomputable def Grid.limitZ [NeZero nz] (g : Grid) (a q f : F3 nz) : F3 nz := fun i j k =>
  let gradient := g.gradZ f i j k
  gradient * 0.5 * (a i j (k + 1) + a i j k) * (if gradient > 0 then q i j (k + 1) else q i j k)

/-- `FV::Div_a_Grad_perp_limit`, `include/div_ops.hxx:700-921`. -/
noncomputable def Grid.divPerpLimit [NeZero nz] (g : Grid) (lim : Limiter) (a q f aA qA fA : F3 nz) :
    F3 nz × F3 nz :=
  (g.xLoop (g.limitX lim a q f),
   g.yzLoop (g.limitYup aA qA fA) (g.limitYdown aA qA fA) (fun _ _ => 1) (g.limitZ aA qA fA))

/-! ### Index-space operators and `Laplace_FV` -/

/-- `Div_Perp_Lap_FV_Index`, `src/div_ops.cxx:549-611`, in a cell (the loop only writes its own cell). -/
noncomputable def Grid.perpLapIndex [NeZero nz] (g : Grid) (a f : F3 nz) : F3 nz := fun i j k =>
  let gR := f (i + 1) j k - f i j k
  let gL := f i j k - f (i - 1) j k
  let gD := f i j k - f i j (k - 1)
  let gU := f i j (k + 1) - f i j k
  gR * 0.25 * (g.J (i + 1) j + g.J i j) * (g.dx (i + 1) j + g.dx i j) * (a (i + 1) j k + a i j k)
      / (g.dx i j * g.J i j)
    - gL * 0.25 * (g.J (i - 1) j + g.J i j) * (g.dx (i - 1) j + g.dx i j) * (a (i - 1) j k + a i j k)
      / (g.dx i j * g.J i j)
    + gU * 0.5 * (a i j k + a i j (k + 1)) - gD * 0.5 * (a i j k + a i j (k - 1))

/-- `Div_Z_FV_Index`, `src/div_ops.cxx:614-638`. -/
noncomputable def divZIndex [NeZero nz] (a f : F3 nz) : F3 nz := fun i j k =>
  (f i j (k + 1) - f i j k) * 0.5 * (a i j k + a i j (k + 1))
    - (f i j k - f i j (k - 1)) * 0.5 * (a i j k + a i j (k - 1))

/-- `D4DZ4_Index`, `src/div_ops.cxx:724-731`. -/
noncomputable def d4dz4Index [NeZero nz] (f : F3 nz) : F3 nz := fun i j k =>
  f i j (k + 1 + 1) - 4 * f i j (k + 1) + 6 * f i j k - 4 * f i j (k - 1) + f i j (k - 1 - 1)

/-- `Laplace_FV`, `src/div_ops.cxx:740-793` (2D fields). -/
noncomputable def Grid.laplaceFV (g : Grid) (κ f : ℤ → ℤ → ℝ) (i j : ℤ) : ℝ :=
  let gR := (g.g11 i j + g.g11 (i + 1) j) * (f (i + 1) j - f i j) / (g.dx (i + 1) j + g.dx i j)
  let gL := (g.g11 (i - 1) j + g.g11 i j) * (f i j - f (i - 1) j) / (g.dx (i - 1) j + g.dx i j)
  let gU := (g.g22 i j + g.g22 i (j + 1)) * (f i (j + 1) - f i j) / (g.dy i (j + 1) + g.dy i j)
  let gD := (g.g22 i (j - 1) + g.g22 i j) * (f i j - f i (j - 1)) / (g.dy i j + g.dy i (j - 1))
  gR * 0.25 * (g.J (i + 1) j + g.J i j) * (κ (i + 1) j + κ i j) / (g.dx i j * g.J i j)
    - gL * 0.25 * (g.J (i - 1) j + g.J i j) * (κ (i - 1) j + κ i j) / (g.dx i j * g.J i j)
    + gU * 0.25 * (g.J i (j + 1) + g.J i j) * (κ i (j + 1) + κ i j) / (g.dy i j * g.J i j)
    - gD * 0.25 * (g.J i (j - 1) + g.J i j) * (κ i (j - 1) + κ i j) / (g.dy i j * g.J i j)

/-- Third difference at the right face of `i` (`src/div_ops.cxx:652-653`) with the boundary formula
(657-677) already applied: the right flux of cell `i` on one row `(j, k)`. -/
noncomputable def Grid.d4RightFlux (g : Grid) (f : F3 nz) (bndry_flux : Bool) (i j : ℤ) (k : Fin nz) : ℝ :=
  let d3fdx3 := f (i + 2) j k - 3 * f (i + 1) j k + 3 * f i j k - f (i - 1) j k
  let A := 0.25 * (g.dx i j + g.dx (i + 1) j) * (g.J i j + g.J (i + 1) j)
  if g.lastX && (i == g.xend) then
    if bndry_flux then
      A * -((16 / 5) * 0.5 * (f (i + 1) j k + f i j k) - 6 * f i j k + 4 * f (i - 1) j k
        - (6 / 5) * f (i - 2) j k)
    else 0
  else A * d3fdx3

/-- Loop body of `D4DX4_FV_Index`, `src/div_ops.cxx:646-718`.  Note the test `j == mesh->xstart` (line 683). -/
noncomputable def Grid.d4Step (g : Grid) (f : F3 nz) (bndry_flux : Bool) (r : F3 nz)
    (p : ℤ × ℤ × Fin nz) : F3 nz :=
  let (i, j, k) := p
  let flux := g.d4RightFlux f bndry_flux i j k
  let r := addAt3 r i j k (flux / (g.J i j * g.dx i j))
  let r := addAt3 r (i + 1) j k (-(flux / (g.J (i + 1) j * g.dx (i + 1) j)))
  let A := 0.25 * (g.dx i j + g.dx (i + 1) j) * (g.J i j + g.J (i + 1) j)
  if j = g.xstart then
    if g.firstX then
      if bndry_flux then
        let flux := A * -(-(16 / 5) * 0.5 * (f (i - 1) j k + f i j k) + 6 * f i j k - 4 * f (i + 1) j k
          + (6 / 5) * f (i + 2) j k)
        let r := addAt3 r i j k (-(flux / (g.J i j * g.dx i j)))
        addAt3 r (i - 1) j k (flux / (g.J (i - 1) j * g.dx (i - 1) j))
      else r
    else
      let flux := A * (f (i + 1) j k - 3 * f i j k + 3 * f (i - 1) j k - f (i - 2) j k)
      let r := addAt3 r i j k (-(flux / (g.J i j * g.dx i j)))
      addAt3 r (i - 1) j k (flux / (g.J (i - 1) j * g.dx (i - 1) j))
  else r

/-- `D4DX4_FV_Index`, `src/div_ops.cxx:641-722`. -/
noncomputable def Grid.d4dx4Index (g : Grid) (f : F3 nz) (bndry_flux : Bool) : F3 nz :=
  (loop3 nz g.xstart g.xend g.ystart g.yend).foldl (g.d4Step f bndry_flux) fun _ _ _ => 0

/-! ### ExB advection, X–Z part -/

/-- Corner values of the stream function, `src/div_ops.cxx:260-267`, `1402-1409`. -/
noncomputable def cornerMM [NeZero nz] (f : F3 nz) (i j : ℤ) (k : Fin nz) : ℝ :=
  0.25 * (f i j k + f (i - 1) j k + f i j (k - 1) + f (i - 1) j (k - 1))
noncomputable def cornerMP [NeZero nz] (f : F3 nz) (i j : ℤ) (k : Fin nz) : ℝ :=
  0.25 * (f i j k + f i j (k + 1) + f (i - 1) j k + f (i - 1) j (k + 1))
noncomputable def cornerPP [NeZero nz] (f : F3 nz) (i j : ℤ) (k : Fin nz) : ℝ :=
  0.25 * (f i j k + f i j (k + 1) + f (i + 1) j k + f (i + 1) j (k + 1))
noncomputable def cornerPM [NeZero nz] (f : F3 nz) (i j : ℤ) (k : Fin nz) : ℝ :=
  0.25 * (f i j k + f (i + 1) j k + f i j (k - 1) + f (i + 1) j (k - 1))

/-- Face velocities, `src/div_ops.cxx:271-277`, `1413-1419`. -/
noncomputable def Grid.vU [NeZero nz] (g : Grid) (f : F3 nz) (i j : ℤ) (k : Fin nz) : ℝ :=
  g.J i j * (cornerMP f i j k - cornerPP f i j k) / g.dx i j
noncomputable def Grid.vD [NeZero nz] (g : Grid) (f : F3 nz) (i j : ℤ) (k : Fin nz) : ℝ :=
  g.J i j * (cornerMM f i j k - cornerPM f i j k) / g.dx i j
noncomputable def Grid.vR [NeZero nz] (g : Grid) (f : F3 nz) (i j : ℤ) (k : Fin nz) : ℝ :=
  0.5 * (g.J i j + g.J (i + 1) j) * (cornerPP f i j k - cornerPM f i j k) / g.dz i j
noncomputable def Grid.vL [NeZero nz] (g : Grid) (f : F3 nz) (i j : ℤ) (k : Fin nz) : ℝ :=
  0.5 * (g.J i j + g.J (i - 1) j) * (cornerMP f i j k - cornerMM f i j k) / g.dz i j

/-- Right and left fluxes of a cell in the x direction (`none`: no update is made).
`src/div_ops.cxx:297-353` (`Div_n_bxGrad_f_B_XPPM`, with `q = 1`) and `1440-1494`
(`Div_n_g_bxGrad_f_B_XZ`, with `q = g`). -/
noncomputable def Grid.exbRight [NeZero nz] (g : Grid) (n q f : F3 nz) (bndry_flux : Bool) (i j : ℤ)
    (k : Fin nz) : Option ℝ :=
  let vR := g.vR f i j k
  let sR := (mc (n (i - 1) j k) (n i j k) (n (i + 1) j k)).2
  let gR := 0.5 * (q (i + 1) j k + q i j k)
  if (i == g.xend) && g.lastX then
    if bndry_flux then
      some (if vR > 0 then vR * sR * gR else vR * 0.5 * (n (i + 1) j k + n i j k) * gR)
    else none
  else if vR > 0 then some (vR * sR * gR) else none

noncomputable def Grid.exbLeft [NeZero nz] (g : Grid) (n q f : F3 nz) (bndry_flux : Bool) (i j : ℤ)
    (k : Fin nz) : Option ℝ :=
  let vL := g.vL f i j k
  let sL := (mc (n (i - 1) j k) (n i j k) (n (i + 1) j k)).1
  let gL := 0.5 * (q (i - 1) j k + q i j k)
  if (i == g.xstart) && g.firstX then
    if bndry_flux then
      some (if vL < 0 then vL * sL * gL else vL * 0.5 * (n (i - 1) j k + n i j k) * gL)
    else none
  else if vL < 0 then some (vL * sL * gL) else none

/-- Up and down fluxes in z, `src/div_ops.cxx:358-378`, `1499-1516`. -/
noncomputable def Grid.exbUp [NeZero nz] (g : Grid) (n q f : F3 nz) (i j : ℤ) (k : Fin nz) : Option ℝ :=
  let vU := g.vU f i j k
  let sR := (mc (n i j (k - 1)) (n i j k) (n i j (k + 1))).2
  if vU > 0 then some (vU * sR * (0.5 * (q i j (k + 1) + q i j k)) / (g.J i j * g.dz i j)) else none
noncomputable def Grid.exbDown [NeZero nz] (g : Grid) (n q f : F3 nz) (i j : ℤ) (k : Fin nz) : Option ℝ :=
  let vD := g.vD f i j k
  let sL := (mc (n i j (k - 1)) (n i j k) (n i j (k + 1))).1
  if vD < 0 then some (vD * sL * (0.5 * (q i j (k - 1) + q i j k)) / (g.J i j * g.dz i j)) else none

/-- `r(a) += x/wa; r(b) -= x/wb` if there is a flux. -/
noncomputable def moveFlux (r : F3 nz) (flux : Option ℝ) (i j : ℤ) (k : Fin nz) (w : ℝ) (i' j' : ℤ)
    (k' : Fin nz) (w' : ℝ) : F3 nz :=
  match flux with
  | none => r
  | some x => addAt3 (addAt3 r i j k (x / w)) i' j' k' (-(x / w'))

/-- Body of the X–Z loop, `src/div_ops.cxx:250-379`, `1392-1518`. -/
noncomputable def Grid.exbStep [NeZero nz] (g : Grid) (n q f : F3 nz) (bndry_flux : Bool) (r : F3 nz)
    (p : ℤ × ℤ × Fin nz) : F3 nz :=
  let (i, j, k) := p
  let w := g.dx i j * g.J i j
  let r := moveFlux r (g.exbRight n q f bndry_flux i j k) i j k w (i + 1) j k (g.dx (i + 1) j * g.J (i + 1) j)
  let r := moveFlux r ((g.exbLeft n q f bndry_flux i j k).map (-·)) i j k w
    (i - 1) j k (g.dx (i - 1) j * g.J (i - 1) j)
  let r := moveFlux r (g.exbUp n q f i j k) i j k 1 i j (k + 1) 1
  moveFlux r ((g.exbDown n q f i j k).map (-·)) i j k 1 i j (k - 1) 1

/-- The X–Z part of `Div_n_bxGrad_f_B_XPPM` (`src/div_ops.cxx:226-380`, `q = 1`) and
`Div_n_g_bxGrad_f_B_XZ` (`1376-1521`), before `FV::communicateFluxes` (BOUT++), which adds what was
written to guard cells to the cells of the neighbouring processor.  The poloidal part is in
`Model/ExBPoloidal.lean`. -/
noncomputable def Grid.exbXZ [NeZero nz] (g : Grid) (n q f : F3 nz) (bndry_flux : Bool) : F3 nz :=
  (loop3 nz g.xstart g.xend g.ystart g.yend).foldl (g.exbStep n q f bndry_flux) fun _ _ _ => 0

end
end Hermes
