import Verif.Props.EnergyEquation
import Verif.Props.SheathSimpleExamples
import Mathlib.Analysis.Real.Pi.Bounds

/-!
# C105: the heat that leaves through the sheath of `sheath_boundary_simple`

The manual (`docs/sphinx/components.rst`, section on `sheath_boundary_simple`) says that `gamma_i` and `gamma_e` are the *total* heat
transmission coefficients: what the flow carries out, plus the sink that the component adds, is `γ T n v`.  Here both parts are put
together: the flow through the wall of the energy equation (`evolve_energy`), with the guard cells that the sheath has set, and the
energy flow that the sheath reports.
-/

namespace Hermes.SheathSimple
open Hermes Hermes.Closures Hermes.Sheath Hermes.Limiters Hermes.PerpOps Hermes.Rhs

variable {ι : Type} [DecidableEq ι] {nz : ℕ} [NeZero nz]

/-- The mesh of the sheath and the grid of the energy equation have the same metric; `cell i j k` is the cell with these indices. -/
structure SameMesh (g : Grid) (B : RhsOps nz) (m : YMesh ι) (cell : ℤ → ℤ → Fin nz → ι) : Prop where
  J : ∀ i j k, m.J (cell i j k) = g.J i j
  g22 : ∀ i j k, m.g22 (cell i j k) = B.g_22 i j
  dx : ∀ i j k, m.dx (cell i j k) = g.dx i j
  dz : ∀ i j k, m.dz (cell i j k) = g.dz i j

/-- A field of the sheath on the grid. -/
def onGrid (cell : ℤ → ℤ → Fin nz → ι) (F : Fld ι) : F3 nz := fun i j k => F (cell i j k)

/-- Last cell of a line, and its guard cell. -/
def lastCell (g : Grid) (u : Bool) : ℤ := if u then g.yend else g.ystart
def guardCell (g : Grid) (u : Bool) : ℤ := if u then g.yend + 1 else g.ystart - 1

/-- Energy per time that leaves through the wall at the end `u` of the line `(i, k)`: carried by the flow, as the energy equation has it,
and taken by the sheath, as it is reported. -/
noncomputable def heatToWall (g : Grid) (B : RhsOps nz) (lim : Limiter) (cell : ℤ → ℤ → Fin nz → ι) (E₀ w : F3 nz) (M : ℝ)
    (st st' : Store Key (Value ι)) (s : String) (u : Bool) (i : ℤ) (k : Fin nz) : ℝ :=
  let P := onGrid cell (fieldOf st' s .pressure)
  let N := onGrid cell (fieldOf st' s .density)
  let V := onGrid cell (fieldOf st' s .velocity)
  out u * parFlow g B lim (energyBoundary g B (3 / 2) M P N V E₀ + P) V w i (if u then g.yend + 1 else g.ystart) k
    + out u * added st st' s .energy_flow_ylow (if u then cell i (g.yend + 1) k else cell i g.ystart k)

omit [DecidableEq ι] in
/-- The flow through the wall, for both ends. -/
theorem carried {g : Grid} (hg : Regular g) (hs : Separable g) {B : RhsOps nz} (hto : ∀ F, B.toFA F = F) (hfrom : ∀ F, B.fromFA F = F)
    {m : YMesh ι} {cell : ℤ → ℤ → Fin nz → ι} (hm : SameMesh g B m cell) (lim : Limiter) (M : ℝ) (E₀ w : F3 nz) (P N V : Fld ι) {i : ℤ}
    (hp : B.periodicY i = false) (hf : g.firstY i = true) (hl : g.lastY i = true) (u : Bool) (k : Fin nz) :
    let a := cell i (lastCell g u) k
    let b := cell i (guardCell g u) k
    out u * parFlow g B lim (energyBoundary g B (3 / 2) M (onGrid cell P) (onGrid cell N) (onGrid cell V) E₀ + onGrid cell P) (onGrid cell V) w i
        (if u then g.yend + 1 else g.ystart) k =
      (5 / 2 * face P a b + 1 / 2 * M * face N a b * (out u * face V a b) ^ 2) * (out u * face V a b) * faceArea m a b := by
  intro a b
  obtain ⟨h1, h2⟩ := EnergyEquation.wall_energy_flow_partial hg hto hfrom lim (3 / 2) M E₀ (onGrid cell P) (onGrid cell N) (onGrid cell V) w hp hf hl k
  cases u with
  | true =>
    rw [if_pos rfl, h1]
    simp only [a, b, lastCell, guardCell, if_true, EnergyEquation.energyFlux, EnergyEquation.between, EnergyEquation.faceArea, faceArea, face, onGrid, out,
      hm.J, hm.g22, hm.dx, hm.dz]
    rw [hs.dx i (g.yend + 1) g.yend, hs.dz i i (g.yend + 1) g.yend]
    ring
  | false =>
    rw [if_neg Bool.false_ne_true, h2]
    simp only [a, b, lastCell, guardCell, if_neg Bool.false_ne_true, EnergyEquation.energyFlux, EnergyEquation.between, EnergyEquation.faceArea, faceArea,
      face, onGrid, out, hm.J, hm.g22, hm.dx, hm.dz]
    rw [add_comm (g.J i (g.ystart - 1)), add_comm (√(B.g_22 i (g.ystart - 1)))]
    ring

/-- Setting of the theorems: a line that ends at walls, on a grid whose field-aligned coordinates coincide with the grid. -/
structure Walls (g : Grid) (B : RhsOps nz) (m : YMesh ι) (cell : ℤ → ℤ → Fin nz → ι) (i : ℤ) : Prop where
  regular : Regular g
  separable : Separable g
  toFA : ∀ F, B.toFA F = F
  fromFA : ∀ F, B.fromFA F = F
  same : SameMesh g B m cell
  periodic : B.periodicY i = false
  first : g.firstY i = true
  last : g.lastY i = true

/-- C105, ions.  Per time and area the wall receives `γ T n v`, with the values at the wall, and in addition 5/2 of the difference between
the pressure at the wall and the product of density and temperature there.  With `no_flow` it is exactly `γ T n v`. -/
theorem wall_heat_ions {o : SimpleOpts ι} {m : YMesh ι} {garbage : Fld ι} {names : List String} (hm : MeshOk m)
    (hn : names.Nodup) {st st' : Store Key (Value ι)} (h : sheathBoundarySimple o m garbage names st = (.ok (), st'))
    {s : String} (hmem : s ∈ names) (hi : IsIon st s) (hv : (vals st (.sp s .velocity)).isSome)
    {g : Grid} {B : RhsOps nz} {cell : ℤ → ℤ → Fin nz → ι} {i : ℤ} (hw : Walls g B m cell i) (lim : Limiter) (E₀ w : F3 nz)
    {u : Bool} {k : Fin nz} {inn : ι} (ht : Target m o.lower_y o.upper_y u (cell i (lastCell g u) k) (cell i (guardCell g u) k) inn) :
    let a := cell i (lastCell g u) k
    let b := cell i (guardCell g u) k
    let N := face (fieldOf st' s .density) a b
    let T := max (face (fieldOf st' s .temperature) a b) 1e-5
    let P := face (fieldOf st' s .pressure) a b
    let v := ionSpeedAt o st st' s u a b
    heatToWall g B lim cell E₀ w (Sheath.mass st s) st st' s u i k =
      (o.gamma_i * T * N * v + if o.no_flow then 0 else 5 / 2 * (P - N * T) * v) * faceArea m a b := by
  intro a b N T P v
  obtain ⟨h1, -, -, h4⟩ := simple_ions hm hn h hmem hi ht
  have hc := carried hw.regular hw.separable hw.toFA hw.fromFA hw.same lim (Sheath.mass st s) E₀ w (fieldOf st' s .pressure) (fieldOf st' s .density)
    (fieldOf st' s .velocity) hw.periodic hw.first hw.last u k
  have hface : (if u then cell i (g.yend + 1) k else cell i g.ystart k) =
      if u then cell i (guardCell g u) k else cell i (lastCell g u) k := by cases u <;> rfl
  have ho : out u * out u = 1 := by cases u <;> simp [out]
  unfold heatToWall
  dsimp only at hc ⊢
  rw [hc, hface, h4, h1 hv, ← mul_assoc (out u), ho, one_mul]
  unfold sheathHeat
  cases o.no_flow with
  | true => simp only [if_true]; simp only [N, T, v, a, b]; ring
  | false => simp only [if_neg Bool.false_ne_true]; simp only [N, T, P, v, a, b]; ring

/-- C105, electrons. -/
theorem wall_heat_electrons {o : SimpleOpts ι} {m : YMesh ι} {garbage : Fld ι} {names : List String} (hm : MeshOk m)
    (hn : names.Nodup) {st st' : Store Key (Value ι)} (h : sheathBoundarySimple o m garbage names st = (.ok (), st'))
    (hv : (vals st (.sp "e" .velocity)).isSome)
    {g : Grid} {B : RhsOps nz} {cell : ℤ → ℤ → Fin nz → ι} {i : ℤ} (hw : Walls g B m cell i) (lim : Limiter) (E₀ w : F3 nz)
    {u : Bool} {k : Fin nz} {inn : ι} (ht : Target m o.lower_y o.upper_y u (cell i (lastCell g u) k) (cell i (guardCell g u) k) inn) :
    let a := cell i (lastCell g u) k
    let b := cell i (guardCell g u) k
    let N := face (fieldOf st' "e" .density) a b
    let T := face (fieldOf st' "e" .temperature) a b
    let P := face (fieldOf st' "e" .pressure) a b
    let v := electronSpeed (electronMassOf o st) o.Ge T (potentialDrop o (phiUsed o m garbage names st) a inn)
    heatToWall g B lim cell E₀ w (electronMassOf o st) st st' "e" u i k =
      (o.gamma_e * T * N * v + if o.no_flow then 0 else 5 / 2 * (P - N * T) * v) * faceArea m a b := by
  intro a b N T P v
  obtain ⟨h1, -, -, h4, -⟩ := simple_electrons_phi hm hn h ht
  have hc := carried hw.regular hw.separable hw.toFA hw.fromFA hw.same lim (electronMassOf o st) E₀ w (fieldOf st' "e" .pressure)
    (fieldOf st' "e" .density) (fieldOf st' "e" .velocity) hw.periodic hw.first hw.last u k
  have hface : (if u then cell i (g.yend + 1) k else cell i g.ystart k) =
      if u then cell i (guardCell g u) k else cell i (lastCell g u) k := by cases u <;> rfl
  have ho : out u * out u = 1 := by cases u <;> simp [out]
  unfold heatToWall
  dsimp only at hc ⊢
  rw [hc, hface, h4, h1 hv, ← mul_assoc (out u), ho, one_mul]
  unfold sheathHeat
  cases o.no_flow with
  | true => simp only [if_true]; simp only [N, T, v, a, b]; ring
  | false => simp only [if_neg Bool.false_ne_true]; simp only [N, T, P, v, a, b]; ring

/-- C105.  `gamma_i` is the total heat transmission coefficient if the pressure at the wall is density times temperature there, or with
`no_flow`.  Partial: the component extrapolates the three separately. -/
theorem gamma_is_total_partial {o : SimpleOpts ι} {m : YMesh ι} {garbage : Fld ι} {names : List String} (hm : MeshOk m)
    (hn : names.Nodup) {st st' : Store Key (Value ι)} (h : sheathBoundarySimple o m garbage names st = (.ok (), st'))
    {s : String} (hmem : s ∈ names) (hi : IsIon st s) (hv : (vals st (.sp s .velocity)).isSome)
    {g : Grid} {B : RhsOps nz} {cell : ℤ → ℤ → Fin nz → ι} {i : ℤ} (hw : Walls g B m cell i) (lim : Limiter) (E₀ w : F3 nz)
    {u : Bool} {k : Fin nz} {inn : ι} (ht : Target m o.lower_y o.upper_y u (cell i (lastCell g u) k) (cell i (guardCell g u) k) inn)
    (hP : o.no_flow = false → face (fieldOf st' s .pressure) (cell i (lastCell g u) k) (cell i (guardCell g u) k) =
      face (fieldOf st' s .density) (cell i (lastCell g u) k) (cell i (guardCell g u) k)
        * max (face (fieldOf st' s .temperature) (cell i (lastCell g u) k) (cell i (guardCell g u) k)) 1e-5) :
    let a := cell i (lastCell g u) k
    let b := cell i (guardCell g u) k
    heatToWall g B lim cell E₀ w (Sheath.mass st s) st st' s u i k =
      o.gamma_i * max (face (fieldOf st' s .temperature) a b) 1e-5 * face (fieldOf st' s .density) a b * ionSpeedAt o st st' s u a b * faceArea m a b := by
  intro a b
  rw [wall_heat_ions hm hn h hmem hi hv hw lim E₀ w ht]
  cases hf : o.no_flow with
  | true => rw [if_pos rfl, add_zero]
  | false => rw [if_neg Bool.false_ne_true, hP hf, sub_self, mul_zero, zero_mul, add_zero]

/-! ## When the coefficient is right -/

/-- The pressure at the wall and the product of density and temperature there, for the default extrapolation. -/
theorem pressure_gap {n t nm tm : ℝ} (hn : 1e-10 ≤ nm) (ht : 1e-10 ≤ tm) (hp : 1e-10 ≤ nm * tm) :
    (n * t + limitFreeMode (nm * tm) (n * t) .exponential) / 2
        - (n + limitFreeMode nm n .exponential) / 2 * ((t + limitFreeMode tm t .exponential) / 2) =
      n * t * (1 - n / nm) * (1 - t / tm) / 4 := by
  have lf : ∀ {x y : ℝ}, 1e-10 ≤ x → limitFreeMode x y .exponential = y ^ 2 / x := by
    intro x y hx
    unfold limitFreeMode
    rw [if_neg (by rintro ⟨-, h⟩; exact absurd h (by decide)), if_neg (not_lt.mpr hx), if_pos (Or.inr rfl)]
  have h1 : nm ≠ 0 := (lt_of_lt_of_le (by norm_num) hn).ne'
  have h2 : tm ≠ 0 := (lt_of_lt_of_le (by norm_num) ht).ne'
  rw [lf hn, lf ht, lf hp]
  field_simp
  ring

/-- C105.  With the default extrapolation the wall receives `gamma_i T n v` from an ideal gas if and only if its density or its temperature
is the same in the last two cells. -/
theorem gamma_is_total_iff {o : SimpleOpts ι} {m : YMesh ι} {garbage : Fld ι} {names : List String} (hm : MeshOk m)
    (hn : names.Nodup) {st st' : Store Key (Value ι)} (h : sheathBoundarySimple o m garbage names st = (.ok (), st'))
    {s : String} (hmem : s ∈ names) (hi : IsIon st s) (hv : (vals st (.sp s .velocity)).isSome)
    {g : Grid} {B : RhsOps nz} {cell : ℤ → ℤ → Fin nz → ι} {i : ℤ} (hw : Walls g B m cell i) (lim : Limiter) (E₀ w : F3 nz)
    {u : Bool} {k : Fin nz} {inn : ι} (ht : Target m o.lower_y o.upper_y u (cell i (lastCell g u) k) (cell i (guardCell g u) k) inn)
    (hflow : o.no_flow = false) (hdm : o.density_mode = .exponential) (htm : o.temperature_mode = .exponential) (hpm : o.pressure_mode = .exponential)
    (hgas : ∀ c ∈ [cell i (lastCell g u) k, inn], fieldOf st' s .pressure c = fieldOf st' s .density c * fieldOf st' s .temperature c)
    (hN : 0 < fieldOf st' s .density (cell i (lastCell g u) k)) (hT : 2e-5 ≤ fieldOf st' s .temperature (cell i (lastCell g u) k))
    (hNm : 1e-10 ≤ fieldOf st' s .density inn) (hTm : 1e-10 ≤ fieldOf st' s .temperature inn)
    (hPm : 1e-10 ≤ fieldOf st' s .density inn * fieldOf st' s .temperature inn)
    (hspeed : ionSpeedAt o st st' s u (cell i (lastCell g u) k) (cell i (guardCell g u) k) ≠ 0)
    (hA : faceArea m (cell i (lastCell g u) k) (cell i (guardCell g u) k) ≠ 0) :
    let a := cell i (lastCell g u) k
    let b := cell i (guardCell g u) k
    heatToWall g B lim cell E₀ w (Sheath.mass st s) st st' s u i k =
        o.gamma_i * face (fieldOf st' s .temperature) a b * face (fieldOf st' s .density) a b * ionSpeedAt o st st' s u a b * faceArea m a b ↔
      fieldOf st' s .density a = fieldOf st' s .density inn ∨ fieldOf st' s .temperature a = fieldOf st' s .temperature inn := by
  intro a b
  have hl := fun (v : Var) (hv : v ∈ [Var.density, .temperature, .pressure]) => simple_limitFree hm hn h (Or.inr ⟨hmem, hi⟩) (v := v) hv ht
  have h1 := hl .density (by decide)
  have h2 := hl .temperature (by decide)
  have h3 := hl .pressure (by decide)
  simp only [modeOf, hdm, htm, hpm] at h1 h2 h3
  have ga := hgas (cell i (lastCell g u) k) (by simp)
  rw [ga, hgas inn (by simp)] at h3
  have gap := pressure_gap (n := fieldOf st' s .density a) (t := fieldOf st' s .temperature a) hNm hTm hPm
  rw [← h1, ← h2, ← h3, ← ga] at gap
  change face (fieldOf st' s .pressure) a b - face (fieldOf st' s .density) a b * face (fieldOf st' s .temperature) a b = _ at gap
  have hTm0 : (0 : ℝ) < fieldOf st' s .temperature inn := lt_of_lt_of_le (by norm_num) hTm
  have hNm0 : (0 : ℝ) < fieldOf st' s .density inn := lt_of_lt_of_le (by norm_num) hNm
  have hTa : (0 : ℝ) < fieldOf st' s .temperature a := lt_of_lt_of_le (by norm_num) hT
  have hTf : (1e-5 : ℝ) ≤ face (fieldOf st' s .temperature) a b := by
    have hb : 0 ≤ fieldOf st' s .temperature b := by
      rw [h2]
      unfold limitFreeMode
      rw [if_neg (by rintro ⟨-, h⟩; exact absurd h (by decide)), if_neg (not_lt.mpr hTm), if_pos (Or.inr rfl)]
      positivity
    unfold face
    have : (2e-5 : ℝ) ≤ fieldOf st' s .temperature a := hT
    norm_num at this ⊢
    linarith
  have hw' := wall_heat_ions hm hn h hmem hi hv hw lim E₀ w ht
  dsimp only at hw'
  rw [hw', max_eq_left hTf, hflow, if_neg Bool.false_ne_true, gap, ga]
  generalize ionSpeedAt o st st' s u a b = v at hspeed ⊢
  generalize faceArea m a b = A at hA ⊢
  generalize face (fieldOf st' s .temperature) a b = Tf
  generalize face (fieldOf st' s .density) a b = Nf
  have key : (o.gamma_i * Tf * Nf * v + 5 / 2 * (fieldOf st' s .density a * fieldOf st' s .temperature a * (1 - fieldOf st' s .density a / fieldOf st' s .density inn)
      * (1 - fieldOf st' s .temperature a / fieldOf st' s .temperature inn) / 4) * v) * A = o.gamma_i * Tf * Nf * v * A ↔
      (1 - fieldOf st' s .density a / fieldOf st' s .density inn) * (1 - fieldOf st' s .temperature a / fieldOf st' s .temperature inn) = 0 := by
    constructor
    · intro e
      have e' : (5 / 8 * fieldOf st' s .density a * fieldOf st' s .temperature a * v * A) *
          ((1 - fieldOf st' s .density a / fieldOf st' s .density inn) * (1 - fieldOf st' s .temperature a / fieldOf st' s .temperature inn)) = 0 := by
        linear_combination e
      have hN' : fieldOf st' s .density a ≠ 0 := hN.ne'
      have hc : 5 / 8 * fieldOf st' s .density a * fieldOf st' s .temperature a * v * A ≠ 0 := by
        have := hTa.ne'
        have h58 : (5 / 8 : ℝ) ≠ 0 := by norm_num
        exact mul_ne_zero (mul_ne_zero (mul_ne_zero (mul_ne_zero h58 hN') this) hspeed) hA
      exact (mul_eq_zero.mp e').resolve_left hc
    · intro e
      linear_combination (5 / 8 * fieldOf st' s .density a * fieldOf st' s .temperature a * v * A) * e
  rw [key, mul_eq_zero, sub_eq_zero, sub_eq_zero, eq_comm, div_eq_one_iff_eq hNm0.ne', eq_comm (a := (1 : ℝ)), div_eq_one_iff_eq hTm0.ne']

/-! ## The coefficients without the component -/

/-- What a flow carries is `γ T n v` with this `γ`. -/
noncomputable def underlying (M T v : ℝ) : ℝ := 5 / 2 + M * v ^ 2 / (2 * T)

theorem underlying_spec {M T : ℝ} (hT : T ≠ 0) (n v : ℝ) : (2.5 * T + 0.5 * M * v ^ 2) * n * v = underlying M T v * T * n * v := by
  unfold underlying; field_simp; ring

/-- For singly charged ions with the temperature of the electrons, that reach the wall with the sound speed, it is 3.5, as the manual says. -/
theorem underlying_ions {M T : ℝ} (hM : 0 < M) (hT : 1e-5 ≤ T) : underlying M T (soundSpeed 1 1 M T T) = 3.5 := by
  have h0 : 0 < T := lt_of_lt_of_le (by norm_num) hT
  unfold underlying soundSpeed
  rw [max_eq_left hT, Real.sq_sqrt (by positivity)]
  field_simp
  norm_num

/-- For electrons the manual says 3.5 too; it is less than 2.6 for every temperature and potential. -/
theorem underlying_electrons {Me Ge T drop : ℝ} (hMe : 0 < Me) (hT : 0 < T) (h0 : 0 ≤ Ge) (hGe : Ge ≤ 1) (hd : 0 ≤ drop) :
    underlying Me T (electronSpeed Me Ge T drop) < 2.6 := by
  have hpi := Real.pi_gt_three
  have h1 := electronSpeed_nonneg (Me := Me) (te := T) (drop := drop) hGe
  have h2 := electronSpeed_le (Me := Me) (te := T) hGe hd
  generalize electronSpeed Me Ge T drop = v at h1 h2 ⊢
  have h3 : v ≤ √(T / (2 * Real.pi * Me)) := h2.trans (mul_le_of_le_one_right (Real.sqrt_nonneg _) (by linarith))
  have h4 : v ^ 2 ≤ T / (2 * Real.pi * Me) := by
    calc v ^ 2 ≤ √(T / (2 * Real.pi * Me)) ^ 2 := by gcongr
      _ = _ := Real.sq_sqrt (by positivity)
  have h5 : Me * v ^ 2 / (2 * T) ≤ 1 / (4 * Real.pi) := by
    calc Me * v ^ 2 / (2 * T) ≤ Me * (T / (2 * Real.pi * Me)) / (2 * T) := by gcongr
      _ = 1 / (4 * Real.pi) := by field_simp; norm_num
  have h6 : 1 / (4 * Real.pi) < 1 / 12 := by
    apply one_div_lt_one_div_of_lt <;> linarith
  unfold underlying
  norm_num
  linarith

/-! ## A case where the coefficient is exceeded -/

/-- The line of six cells as the two columns of the small box: the cells 2 and 3 of the box are the last two cells of the line. -/
def boxCell (_ j : ℤ) (_ : Fin 2) : Fin 6 := if j = 4 then 5 else if j = 3 then 4 else 3

theorem box_walls : Walls boxGrid (DensityEquation.plainRhs 2) line boxCell 2 where
  regular := DensityEquation.boxGrid_regular
  separable := ⟨fun _ _ _ => rfl, fun _ _ _ => rfl, fun _ _ _ _ => rfl⟩
  toFA _ := rfl
  fromFA _ := rfl
  same := ⟨fun _ _ _ => rfl, fun _ _ _ => rfl, fun _ _ _ => rfl, fun _ _ _ => rfl⟩
  periodic := rfl
  first := rfl
  last := rfl

theorem box_target (mode : BMode) : Target line (defaults mode).lower_y (defaults mode).upper_y true
    (boxCell 2 (lastCell boxGrid true) 0) (boxCell 2 (guardCell boxGrid true) 0) 3 := upper_end mode

/-- Pressure of the ions where the sheath does not set it. -/
theorem interior_pressure (mode : BMode) (n te ti : Fin 6 → ℝ) (hn : ∀ j, 0 ≤ n j) {st' : Store Key (Value (Fin 6))}
    (h : sheathBoundarySimple (defaults mode) line 0 ["d+", "e"] (twoTemp n te ti) = (.ok (), st')) {j : Fin 6} (hj : j = 4 ∨ j = 3) :
    fieldOf st' "d+" .pressure j = n j * ti j := by
  have hno : ∀ u' i' inn', ¬ Target line (defaults mode).lower_y (defaults mode).upper_y u' i' j inn' := by
    intro u' i' inn' h'
    have := h'.ne line_ok (upper_end mode)
    rcases hj with rfl | rfl
    · exact this.1 rfl
    · exact this.2 rfl
  obtain ⟨r, hr, hp, -⟩ := ion_published plasma_nodup h (n := "d+") (by simp) (twoTemp_ion n te ti)
  rw [hr, bothEndsFlow_fst] at hp
  rw [fieldOf_some hp.p]
  dsimp only
  rw [bothEnds_other hno]
  show floorTo (n j) 0 * ti j = _
  rw [floorTo_eq_max, max_eq_left (hn j)]

/-- Density and temperature both fall from 2 to 1 in the last two cells. -/
noncomputable def falling : Fin 6 → ℝ := fun j => if j = 3 then 2 else 1

/-- C105 fails: with the default settings, density and ion temperature falling toward the wall by a factor of 2 per cell, the wall receives
more than `gamma_i T n v`: with the pressure 5/8 at the wall instead of 3/4 · 3/4, by 5/32 · v. -/
theorem gamma_exceeded : ∃ st', sheathBoundarySimple (defaults .exponential) line 0 ["d+", "e"] (twoTemp falling (fun _ => 1) falling) = (.ok (), st') ∧
    0 < ionSpeedAt (defaults .exponential) (twoTemp falling (fun _ => 1) falling) st' "d+" true 4 5 ∧
    ∀ (lim : Limiter) (E₀ w : F3 2), heatToWall boxGrid (DensityEquation.plainRhs 2) lim boxCell E₀ w 2 (twoTemp falling (fun _ => 1) falling) st' "d+" true 2 0 =
      ((defaults .exponential).gamma_i * (3 / 4) * (3 / 4) + 5 / 32) *
        ionSpeedAt (defaults .exponential) (twoTemp falling (fun _ => 1) falling) st' "d+" true 4 5 := by
  obtain ⟨st', h⟩ := twoTemp_runs .exponential falling (fun _ => 1) falling
  have hpos : ∀ j : Fin 6, (0 : ℝ) ≤ falling j := by intro j; unfold falling; split <;> norm_num
  have f4 : falling 4 = 1 := if_neg (by decide)
  have f3 : falling 3 = 2 := if_pos rfl
  have h4 := last_cells _ _ _ _ hpos h (s := "d+") (Or.inl rfl) (j := 4) (Or.inl rfl)
  have h3 := last_cells _ _ _ _ hpos h (s := "d+") (Or.inl rfl) (j := 3) (Or.inr rfl)
  have p4 := interior_pressure _ _ _ _ hpos h (j := 4) (Or.inl rfl)
  have p3 := interior_pressure _ _ _ _ hpos h (j := 3) (Or.inr rfl)
  rw [if_neg (by decide)] at h4 h3
  have hl := fun (v : Var) (hv : v ∈ [Var.density, .temperature, .pressure]) =>
    simple_limitFree line_ok plasma_nodup h (twoTemp_sheath falling (fun _ => 1) falling (Or.inl rfl)) (v := v) hv (upper_end .exponential)
  have hn5 := hl .density (by decide)
  have ht5 := hl .temperature (by decide)
  have hp5 := hl .pressure (by decide)
  have lf : ∀ {x y : ℝ}, 1e-10 ≤ x → limitFreeMode x y .exponential = y ^ 2 / x := by
    intro x y hx
    unfold limitFreeMode
    rw [if_neg (by rintro ⟨-, h⟩; exact absurd h (by decide)), if_neg (not_lt.mpr hx), if_pos (Or.inr rfl)]
  simp only [modeOf, defaults] at hn5 ht5 hp5
  rw [h4.1, h3.1, f4, f3, lf (by norm_num)] at hn5
  rw [h4.2, h3.2, f4, f3, lf (by norm_num)] at ht5
  rw [p4, p3, f4, f3, lf (by norm_num)] at hp5
  have fN : face (fieldOf st' "d+" .density) 4 5 = 3 / 4 := by unfold face; rw [h4.1, hn5, f4]; norm_num
  have fT : face (fieldOf st' "d+" .temperature) 4 5 = 3 / 4 := by unfold face; rw [h4.2, ht5, f4]; norm_num
  have fP : face (fieldOf st' "d+" .pressure) 4 5 = 5 / 8 := by unfold face; rw [p4, hp5, f4]; norm_num
  refine ⟨st', h, ?_, fun lim E₀ w => ?_⟩
  · unfold ionSpeedAt ionSpeed soundSpeed
    refine lt_max_of_lt_right (Real.sqrt_pos.mpr ?_)
    have hq : Sheath.charge (twoTemp falling (fun _ => 1) falling) "d+" = 1 := rfl
    have hM : Sheath.mass (twoTemp falling (fun _ => 1) falling) "d+" = 2 := rfl
    have e1 : (0 : ℝ) < max (face (fieldOf st' "d+" .temperature) 4 5) 1e-5 := lt_max_of_lt_right (by norm_num)
    have e2 : (0 : ℝ) < max (face (fieldOf st' "e" .temperature) 4 5) 1e-5 := lt_max_of_lt_right (by norm_num)
    rw [hq, hM]
    simp only [defaults]
    positivity
  · have hw := wall_heat_ions line_ok plasma_nodup h (s := "d+") (by simp) (twoTemp_ion _ _ _) rfl box_walls lim E₀ w (box_target .exponential)
    have ha : boxCell 2 (lastCell boxGrid true) 0 = 4 := by decide
    have hb : boxCell 2 (guardCell boxGrid true) 0 = 5 := by decide
    dsimp only at hw
    have hM : Sheath.mass (twoTemp falling (fun _ => 1) falling) "d+" = 2 := rfl
    rw [hM] at hw
    rw [hw, show (boxCell 2 (lastCell boxGrid true) 0) = 4 from rfl, show (boxCell 2 (guardCell boxGrid true) 0) = 5 from rfl, fN, fT, fP]
    have hA : faceArea line 4 5 = 1 := by unfold faceArea; simp only [line]; norm_num
    rw [hA, show (defaults .exponential).no_flow = false from rfl, if_neg Bool.false_ne_true, max_eq_left (by norm_num)]
    ring

/-- The equivalence applies to the falling profiles: neither density nor temperature is flat, so the coefficient is not `gamma_i`. -/
example (lim : Limiter) (E₀ w : F3 2) : ∃ st', sheathBoundarySimple (defaults .exponential) line 0 ["d+", "e"] (twoTemp falling (fun _ => 1) falling) = (.ok (), st') ∧
    heatToWall boxGrid (DensityEquation.plainRhs 2) lim boxCell E₀ w 2 (twoTemp falling (fun _ => 1) falling) st' "d+" true 2 0 ≠
      (defaults .exponential).gamma_i * face (fieldOf st' "d+" .temperature) 4 5 * face (fieldOf st' "d+" .density) 4 5 *
        ionSpeedAt (defaults .exponential) (twoTemp falling (fun _ => 1) falling) st' "d+" true 4 5 * faceArea line 4 5 := by
  obtain ⟨st', h, hsp, -⟩ := gamma_exceeded
  have hpos : ∀ j : Fin 6, (0 : ℝ) ≤ falling j := by intro j; unfold falling; split <;> norm_num
  have f4 : falling 4 = 1 := if_neg (by decide)
  have f3 : falling 3 = 2 := if_pos rfl
  have h4 := last_cells _ _ _ _ hpos h (s := "d+") (Or.inl rfl) (j := 4) (Or.inl rfl)
  have h3 := last_cells _ _ _ _ hpos h (s := "d+") (Or.inl rfl) (j := 3) (Or.inr rfl)
  have p4 := interior_pressure _ _ _ _ hpos h (j := 4) (Or.inl rfl)
  have p3 := interior_pressure _ _ _ _ hpos h (j := 3) (Or.inr rfl)
  rw [if_neg (by decide), f4] at h4
  rw [if_neg (by decide), f3] at h3
  refine ⟨st', h, fun e => ?_⟩
  have ha : boxCell 2 (lastCell boxGrid true) 0 = 4 := rfl
  have hb : boxCell 2 (guardCell boxGrid true) 0 = 5 := rfl
  have hi := gamma_is_total_iff line_ok plasma_nodup h (s := "d+") (by simp) (twoTemp_ion _ _ _) rfl box_walls lim E₀ w (box_target .exponential)
    rfl rfl rfl rfl
    (by
      rw [ha]
      intro c hc
      simp only [List.mem_cons, List.not_mem_nil, or_false] at hc
      rcases hc with rfl | rfl
      · rw [p4, h4.1, h4.2, f4]
      · rw [p3, h3.1, h3.2, f3])
    (by rw [ha, h4.1]; norm_num) (by rw [ha, h4.2]; norm_num) (by rw [h3.1]; norm_num) (by rw [h3.2]; norm_num) (by rw [h3.1, h3.2]; norm_num)
    (by rw [ha, hb]; exact hsp.ne') (by rw [ha, hb]; unfold faceArea; simp only [line]; norm_num)
  dsimp only at hi
  rw [ha, hb] at hi
  rcases hi.mp e with h' | h'
  · rw [h4.1, h3.1] at h'; norm_num at h'
  · rw [h4.2, h3.2] at h'; norm_num at h'

/-- A uniform plasma: the wall receives `gamma_i T n v` from the ions. -/
example : ∃ st', sheathBoundarySimple (defaults .exponential) line 0 ["d+", "e"] (twoTemp (fun _ => 1) (fun _ => 1) fun _ => 1) = (.ok (), st') ∧
    ∀ (lim : Limiter) (E₀ w : F3 2), heatToWall boxGrid (DensityEquation.plainRhs 2) lim boxCell E₀ w 2 (twoTemp (fun _ => 1) (fun _ => 1) fun _ => 1) st' "d+" true 2 0 =
      3.5 * ionSpeedAt (defaults .exponential) (twoTemp (fun _ => 1) (fun _ => 1) fun _ => 1) st' "d+" true 4 5 := by
  obtain ⟨st', h⟩ := twoTemp_runs .exponential (fun _ => 1) (fun _ => 1) fun _ => 1
  have h4 := last_cells _ _ _ _ (fun _ => zero_le_one) h (s := "d+") (Or.inl rfl) (j := 4) (Or.inl rfl)
  have h3 := last_cells _ _ _ _ (fun _ => zero_le_one) h (s := "d+") (Or.inl rfl) (j := 3) (Or.inr rfl)
  have p4 := interior_pressure _ _ _ _ (fun _ => zero_le_one) h (j := 4) (Or.inl rfl)
  have p3 := interior_pressure _ _ _ _ (fun _ => zero_le_one) h (j := 3) (Or.inr rfl)
  rw [if_neg (by decide)] at h4 h3
  rw [mul_one] at p4 p3
  have hl := fun (v : Var) (hv : v ∈ [Var.density, .temperature, .pressure]) =>
    simple_limitFree line_ok plasma_nodup h (twoTemp_sheath (fun _ => 1) (fun _ => 1) (fun _ => 1) (Or.inl rfl)) (v := v) hv (upper_end .exponential)
  have lf : limitFreeMode 1 1 .exponential = 1 := by
    unfold limitFreeMode
    rw [if_neg (by rintro ⟨-, h⟩; exact absurd h (by decide)), if_neg (by norm_num), if_pos (Or.inr rfl)]
    norm_num
  have fN : face (fieldOf st' "d+" .density) 4 5 = 1 := by
    have := hl .density (by decide)
    rw [h4.1, h3.1, show modeOf (defaults .exponential) .density = .exponential from rfl, lf] at this
    unfold face; rw [h4.1, this]; norm_num
  have fT : face (fieldOf st' "d+" .temperature) 4 5 = 1 := by
    have := hl .temperature (by decide)
    rw [h4.2, h3.2, show modeOf (defaults .exponential) .temperature = .exponential from rfl, lf] at this
    unfold face; rw [h4.2, this]; norm_num
  have fP : face (fieldOf st' "d+" .pressure) 4 5 = 1 := by
    have := hl .pressure (by decide)
    rw [p4, p3, show modeOf (defaults .exponential) .pressure = .exponential from rfl, lf] at this
    unfold face; rw [p4, this]; norm_num
  refine ⟨st', h, fun lim E₀ w => ?_⟩
  have hw := gamma_is_total_partial line_ok plasma_nodup h (s := "d+") (by simp) (twoTemp_ion _ _ _) rfl box_walls lim E₀ w (box_target .exponential)
    (fun _ => by
      rw [show (boxCell 2 (lastCell boxGrid true) 0) = 4 from rfl, show (boxCell 2 (guardCell boxGrid true) 0) = 5 from rfl, fN, fT, fP]
      norm_num)
  dsimp only at hw
  have hM : Sheath.mass (twoTemp (fun _ => 1) (fun _ => 1) fun _ => 1) "d+" = 2 := rfl
  rw [hM] at hw
  have hA : faceArea line 4 5 = 1 := by unfold faceArea; simp only [line]; norm_num
  rw [hw, show (boxCell 2 (lastCell boxGrid true) 0) = 4 from rfl, show (boxCell 2 (guardCell boxGrid true) 0) = 5 from rfl, fN, fT, hA,
    show (defaults .exponential).gamma_i = 3.5 from rfl, max_eq_left (by norm_num)]
  ring

end Hermes.SheathSimple
