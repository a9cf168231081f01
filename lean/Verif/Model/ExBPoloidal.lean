import Verif.Model.PerpOps

/-!
# `Div_n_bxGrad_f_B_XPPM` with its poloidal part

`src/div_ops.cxx:219-548`.  The functions of BOUT++ that it calls are parameters.
-/

namespace Hermes

/-- BOUT++: `DDX` and `DDY` (with `communicate` and the boundary condition `neumann`, lines 399-401 and 458-460),
`toFieldAligned`, `fromFieldAligned`, and `FV::communicateFluxes`; `mesh->periodicY(i)`. -/
structure BoutOps (nz : ℕ) where
  ddx : F3 nz → F3 nz
  ddy : F3 nz → F3 nz
  toFA : F3 nz → F3 nz
  fromFA : F3 nz → F3 nz
  communicate : F3 nz → F3 nz
  periodicY : ℤ → Bool

section
variable {nz : ℕ}

/-- `if (positive && (nval < 0.0)) nval = 0.0`. -/
noncomputable def limitPositive (positive : Bool) (nval : ℝ) : ℝ := if positive = true ∧ nval < 0 then 0 else nval

/-- Flux from cell `i` to cell `i + 1`, lines 420-451. -/
noncomputable def Grid.polX (g : Grid) (n dfdy : F3 nz) (positive : Bool) : F3 nz := fun i j k =>
  let f_R := 0.5 * ((g.g11 (i + 1) j * g.g23 (i + 1) j / g.Bxy (i + 1) j ^ 2) * dfdy (i + 1) j k
    + (g.g11 i j * g.g23 i j / g.Bxy i j ^ 2) * dfdy i j k)
  let Vx := 0.5 * (g.J (i + 1) j + g.J i j) * f_R
  if Vx > 0 then Vx * limitPositive positive (n i j k + 0.25 * (n (i + 1) j k - n (i - 1) j k))
  else Vx * limitPositive positive (n (i + 1) j k - 0.25 * (n (i + 2) j k - n i j k))

/-- First and last column of the loop, lines 403-414. -/
def Grid.polXs (g : Grid) (bndry_flux : Bool) : ℤ := if !bndry_flux && g.firstX then g.xstart else g.xstart - 1
def Grid.polXe (g : Grid) (bndry_flux : Bool) : ℤ := if !bndry_flux && g.lastX then g.xend - 1 else g.xend

/-- X flux, lines 396-456: the loop visits also the row before `ystart`. -/
noncomputable def Grid.polXLoop (g : Grid) (n dfdy : F3 nz) (bndry_flux positive : Bool) (r : F3 nz) : F3 nz :=
  (loop3 nz (g.polXs bndry_flux) (g.polXe bndry_flux) (g.ystart - 1) g.yend).foldl (g.xStep (g.polX n dfdy positive)) r

/-- Velocity through the face between `j` and `j + 1`, lines 487-508. -/
noncomputable def Grid.polVy (g : Grid) (periodicY : ℤ → Bool) (dfdx : F3 nz) : F3 nz := fun i j k =>
  let f_U := 0.5 * ((g.g11 i (j + 1) * g.g23 i (j + 1) / g.Bxy i (j + 1) ^ 2) * dfdx i (j + 1) k
    + (g.g11 i j * g.g23 i j / g.Bxy i j ^ 2) * dfdx i j k)
  let Vy := -0.5 * (g.J i (j + 1) + g.J i j) * f_U
  let Vy := if (g.firstY i && !periodicY i && j == g.ystart - 1) = true then (if Vy > 0 then 0 else Vy) else Vy
  if (g.lastY i && !periodicY i && j == g.yend) = true then (if Vy < 0 then 0 else Vy) else Vy

/-- Flux through that face, lines 510-531. -/
noncomputable def Grid.polY (g : Grid) (periodicY : ℤ → Bool) (n dfdx : F3 nz) (positive : Bool) : F3 nz := fun i j k =>
  let Vy := g.polVy periodicY dfdx i j k
  if Vy > 0 then Vy * limitPositive positive (n i j k + 0.25 * (n i (j + 1) k - n i (j - 1) k))
  else Vy * limitPositive positive (n i (j + 1) k - 0.25 * (n i (j + 2) k - n i j k))

/-- First and last row of the loop for column `i`, lines 469-482. -/
def Grid.polYs (g : Grid) (periodicY : ℤ → Bool) (bndry_flux : Bool) (i : ℤ) : ℤ :=
  if !bndry_flux && !periodicY i && g.firstY i then g.ystart else g.ystart - 1
def Grid.polYe (g : Grid) (periodicY : ℤ → Bool) (bndry_flux : Bool) (i : ℤ) : ℤ :=
  if !bndry_flux && !periodicY i && g.lastY i then g.yend - 1 else g.yend

/-- Lines 533-534. -/
noncomputable def Grid.yStep (g : Grid) (fout : F3 nz) (r : F3 nz) (p : ℤ × ℤ × Fin nz) : F3 nz :=
  let (i, j, k) := p
  let r := addAt3 r i j k (fout i j k / (g.dy i j * g.J i j))
  addAt3 r i (j + 1) k (-(fout i j k / (g.dy i (j + 1) * g.J i (j + 1))))

/-- The triples visited by the nested loops of lines 468-485. -/
def Grid.polYPoints (g : Grid) (nz : ℕ) (periodicY : ℤ → Bool) (bndry_flux : Bool) : List (ℤ × ℤ × Fin nz) :=
  (forRange g.xstart g.xend).flatMap fun i =>
    (forRange (g.polYs periodicY bndry_flux i) (g.polYe periodicY bndry_flux i) ×ˢ List.finRange nz).map fun q => (i, q)

/-- Y flux, lines 454-541, in field-aligned coordinates. -/
noncomputable def Grid.polYLoop (g : Grid) (periodicY : ℤ → Bool) (n dfdx : F3 nz) (bndry_flux positive : Bool) : F3 nz :=
  (g.polYPoints nz periodicY bndry_flux).foldl (g.yStep (g.polY periodicY n dfdx positive)) fun _ _ _ => 0

/-- `Div_n_bxGrad_f_B_XPPM(n, f, bndry_flux, poloidal, positive)`, `src/div_ops.cxx:226-548`. -/
noncomputable def Grid.exbXPPM [NeZero nz] (g : Grid) (B : BoutOps nz) (n f : F3 nz) (bndry_flux poloidal positive : Bool) :
    F3 nz :=
  let result := B.communicate (g.exbXZ n (fun _ _ _ => 1) f bndry_flux)
  if poloidal then
    let result := g.polXLoop n (B.ddy f) bndry_flux positive result
    let yresult := B.fromFA (g.polYLoop B.periodicY (B.toFA n) (B.toFA (B.ddx f)) bndry_flux positive)
    fun i j k => result i j k + yresult i j k
  else result

end
end Hermes
