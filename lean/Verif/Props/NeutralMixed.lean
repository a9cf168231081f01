import Verif.Model.NeutralMixed
import Verif.Props.NoFlow
import Verif.Props.SheathCurrent

/-!
# The mixed neutral model: walls, non-negative values and diffusion coefficient (C57), energy flow diagnostics (C55)
-/

set_option linter.unusedSectionVars false
set_option linter.unusedVariables false

namespace Hermes.NeutralMixedModel
open Hermes.Closures Hermes.Sheath

variable {ι : Type} [DecidableEq ι]

/-! ## Specification -/

/-- The boundary conditions change only cells outside the domain, and the walls lie outside the domain. -/
structure Guards (o : NMOpts ι) (c : NMMesh ι) : Prop where
  mesh : MeshOk c.m
  bndryT : ∀ f i, c.dom i → c.bndryT f i = f i
  bndryP : ∀ f i, c.dom i → c.bndryP f i = f i
  bndryD : ∀ f i, c.dom i → c.bndryD f i = f i
  neumann : ∀ f i, c.dom i → c.neumann f i = f i
  communicate : ∀ f i, c.dom i → c.communicate f i = f i
  /-- The last cells and the ones before are in the domain, the guard cells are not. -/
  last : ∀ u i g inn, Target c.m o.sheath_ydown o.sheath_yup u i g inn → c.dom i ∧ c.dom inn ∧ c.dom g = false

/-- Cell `i` is the last one before a wall, `g` is behind the wall, `inn` is the cell before `i`. -/
abbrev AtWall (o : NMOpts ι) (c : NMMesh ι) (u : Bool) (i g inn : ι) : Prop := Target c.m o.sheath_ydown o.sheath_yup u i g inn

/-- Value on the wall. -/
noncomputable def mid (f : Fld ι) (i g : ι) : ℝ := (f i + f g) / 2

/-! ## What the component publishes -/

theorem nmTransform_eq (o : NMOpts ι) (c : NMMesh ι) (N P NV : Fld ι) :
    nmTransform o c N P NV = (bothEnds c.m o.sheath_ydown o.sheath_yup nmGuard nmGuard (nmCells o c N P NV, fun _ => 0)).1 := rfl

theorem transform_ok {o : NMOpts ι} {c : NMMesh ι} {name : String} {N P NV : Fld ι} {st st' : Store Key (Value ι)}
    (h : neutralMixed o c name N P NV st = (.ok (), st')) :
    (fieldOf st' name .density = fun i => (nmTransform o c N P NV i).n) ∧ (fieldOf st' name .pressure = fun i => (nmTransform o c N P NV i).p) ∧
    (fieldOf st' name .momentum = fun i => (nmTransform o c N P NV i).nv) ∧ (fieldOf st' name .velocity = fun i => (nmTransform o c N P NV i).v) ∧
    (fieldOf st' name .temperature = fun i => (nmTransform o c N P NV i).t) ∧ realOf st' name .AA = o.AA ∧
    ∀ k, (∀ v ∈ [Var.density, .AA, .pressure, .momentum, .velocity, .temperature], k ≠ .sp name v) → vals st' k = vals st k := by
  unfold neutralMixed at h
  obtain ⟨s1, e1, h⟩ := set_bind_ok h
  obtain ⟨s2, e2, h⟩ := set_bind_ok h
  obtain ⟨s3, e3, h⟩ := set_bind_ok h
  obtain ⟨s4, e4, h⟩ := set_bind_ok h
  obtain ⟨s5, e5, h⟩ := set_bind_ok h
  have e6 := set_ok h
  rw [e5, e4, e3, e2, e1] at e6
  refine ⟨fieldOf_some ?_, fieldOf_some ?_, fieldOf_some ?_, fieldOf_some ?_, fieldOf_some ?_, realOf_some ?_, fun k hk => ?_⟩
  all_goals rw [e6]
  any_goals simp [Function.update_apply]
  simp only [List.mem_cons, List.not_mem_nil, or_false, forall_eq_or_imp, forall_eq] at hk
  obtain ⟨h1, h2, h3, h4, h5, h6⟩ := hk
  simp [h1, h2, h3, h4, h5, h6]

section
variable {o : NMOpts ι} {c : NMMesh ι} {N P NV : Fld ι}

theorem in_domain (hg : Guards o c) {i : ι} (hi : c.dom i) : nmTransform o c N P NV i = nmCells o c N P NV i := by
  rw [nmTransform_eq]
  refine bothEnds_other fun u j inn ht => ?_
  have := (hg.last u j i inn ht).2.2
  rw [hi] at this
  cases this

theorem at_wall (hg : Guards o c) {u : Bool} {i g inn : ι} (hw : AtWall o c u i g inn) :
    nmTransform o c N P NV g = (nmGuard i (nmCells o c N P NV i) (nmCells o c N P NV inn)).1 := by
  rw [nmTransform_eq, (bothEnds_target hg.mesh hw).1]
  cases u <;> rfl

end

/-- **C57.**  In the domain the published density and pressure are the evolving ones limited to non-negative values, and the temperature is not
negative. -/
theorem published_nonneg {o : NMOpts ι} {c : NMMesh ι} (hg : Guards o c) (hf : 0 < o.density_floor) {name : String} {N P NV : Fld ι}
    {st st' : Store Key (Value ι)} (h : neutralMixed o c name N P NV st = (.ok (), st')) {i : ι} (hi : c.dom i) :
    fieldOf st' name .density i = max (N i) 0 ∧ fieldOf st' name .pressure i = max (P i) 0 ∧ 0 ≤ fieldOf st' name .temperature i := by
  obtain ⟨h1, h2, -, -, h3, -⟩ := transform_ok h
  rw [h1, h2, h3]
  dsimp only
  rw [in_domain hg hi]
  unfold nmCells
  dsimp only
  rw [hg.bndryT _ i hi]
  simp only [floorTo_eq_max]
  exact ⟨trivial, trivial, div_nonneg (le_max_right _ _) (le_trans hf.le (le_max_right _ _))⟩

/-- **C57.**  Velocity, momentum and temperature agree with density and pressure, in cells with density above the floor. -/
theorem published_consistent {o : NMOpts ι} {c : NMMesh ι} (hg : Guards o c) (hf : 0 < o.density_floor) (hA : o.AA ≠ 0) {name : String} {N P NV : Fld ι}
    {st st' : Store Key (Value ι)} (h : neutralMixed o c name N P NV st = (.ok (), st')) {i : ι} (hi : c.dom i) (hN : o.density_floor ≤ N i) :
    fieldOf st' name .momentum i = realOf st' name .AA * fieldOf st' name .density i * fieldOf st' name .velocity i ∧
    fieldOf st' name .pressure i = fieldOf st' name .density i * fieldOf st' name .temperature i := by
  obtain ⟨h1, h2, h4, h5, h3, h6, -⟩ := transform_ok h
  rw [h1, h2, h3, h4, h5, h6]
  dsimp only
  rw [in_domain hg hi]
  unfold nmCells
  dsimp only
  rw [hg.bndryT _ i hi, hg.neumann _ i hi]
  simp only [floorTo_eq_max]
  rw [max_eq_left (hf.le.trans hN), max_eq_left hN]
  have : N i ≠ 0 := (hf.trans_le hN).ne'
  constructor <;> field_simp

/-- **C57.**  At a wall: the density on the wall is not negative, the flow and the momentum on the wall are zero, and pressure and temperature do not
change across the wall. -/
theorem wall_values {o : NMOpts ι} {c : NMMesh ι} (hg : Guards o c) {name : String} {N P NV : Fld ι}
    {st st' : Store Key (Value ι)} (h : neutralMixed o c name N P NV st = (.ok (), st')) {u : Bool} {i g inn : ι} (hw : AtWall o c u i g inn) :
    mid (fieldOf st' name .density) i g = max ((3 * fieldOf st' name .density i - fieldOf st' name .density inn) / 2) 0 ∧
    mid (fieldOf st' name .velocity) i g = 0 ∧ mid (fieldOf st' name .momentum) i g = 0 ∧
    fieldOf st' name .pressure g = fieldOf st' name .pressure i ∧ fieldOf st' name .temperature g = fieldOf st' name .temperature i := by
  obtain ⟨h1, h2, h4, h5, h3, h6, -⟩ := transform_ok h
  obtain ⟨d1, d2, -⟩ := hg.last u i g inn hw
  rw [h1, h2, h3, h4, h5]
  unfold mid
  dsimp only
  rw [at_wall hg hw, in_domain hg d1, in_domain hg d2]
  generalize nmCells o c N P NV i = a
  generalize nmCells o c N P NV inn = b
  unfold nmGuard
  dsimp only
  refine ⟨?_, by ring, by ring, rfl, rfl⟩
  split
  · rename_i hh
    rw [max_eq_right (by linarith)]
    ring
  · rename_i hh
    rw [max_eq_left (by linarith)]
    ring

/-- **C57.**  The pressure in the guard cell behind a wall is not negative; the density there is bounded below by minus the density in front. -/
theorem guard_bounds {o : NMOpts ι} {c : NMMesh ι} (hg : Guards o c) {name : String} {N P NV : Fld ι}
    {st st' : Store Key (Value ι)} (h : neutralMixed o c name N P NV st = (.ok (), st')) {u : Bool} {i g inn : ι} (hw : AtWall o c u i g inn) :
    0 ≤ fieldOf st' name .pressure g ∧ -fieldOf st' name .density i ≤ fieldOf st' name .density g := by
  obtain ⟨w1, -, -, w4, -⟩ := wall_values hg h hw
  obtain ⟨h1, h2, -⟩ := transform_ok h
  obtain ⟨d1, -, -⟩ := hg.last u i g inn hw
  constructor
  · rw [w4, h2]
    dsimp only
    rw [in_domain hg d1]
    show 0 ≤ floorTo (P i) 0
    rw [floorTo_eq_max]
    exact le_max_right _ _
  · have := le_max_right ((3 * fieldOf st' name .density i - fieldOf st' name .density inn) / 2) 0
    rw [← w1] at this
    unfold mid at this
    linarith

/-! ## Diffusion coefficient -/

section
variable {o : NMOpts ι} {c : NMMesh ι} {T Plim : Fld ι} {nu : Option (Fld ι)}

theorem nmWall_eq (o : NMOpts ι) (c : NMMesh ι) (f : Fld ι) : nmWall o c f = noFlowField c.m o.sheath_ydown o.sheath_yup (-1) f := by
  unfold nmWall noFlowField
  simp only [neg_one_mul]

theorem nmWall_dom (hg : Guards o c) {f : Fld ι} {i : ι} (hi : c.dom i) : nmWall o c f i = f i := by
  rw [nmWall_eq]
  refine Hermes.NoFlow.noFlowField_other fun u j inn ht => ?_
  have := (hg.last u j i inn ht).2.2
  rw [hi] at this
  cases this

theorem nmWall_guard (hg : Guards o c) {f : Fld ι} {u : Bool} {i g inn : ι} (hw : AtWall o c u i g inn) : nmWall o c f g = -f i := by
  rw [nmWall_eq, Hermes.NoFlow.noFlowField_target hg.mesh hw, neg_one_mul]

theorem nmDnn_dom (hg : Guards o c) {i : ι} (hi : c.dom i) : nmDnn o c T Plim nu i = nmDnn0 o c T Plim nu i := by
  unfold nmDnn
  rw [nmWall_dom hg hi, hg.bndryD _ i hi, hg.communicate _ i hi]

/-- **C57.**  The diffusion coefficient is not negative. -/
theorem diffusion_nonneg (hg : Guards o c) (hA : 0 < o.AA) (hl : 0 < o.lmax) {i : ι} (hi : c.dom i) (hT : 0 ≤ T i)
    (hnu : ∀ f, nu = some f → 0 ≤ f i) (hgrad : ∀ f i, 0 ≤ c.absGrad f i) : 0 ≤ nmDnn o c T Plim nu i := by
  rw [nmDnn_dom hg hi]
  have hR : 0 ≤ Real.sqrt (floorTo (T i) 1e-5 / o.AA) / o.lmax := by positivity
  have h0 : 0 ≤ nmDcoll o T nu i := by
    unfold nmDcoll
    dsimp only
    cases nu with
    | none => exact div_nonneg (div_nonneg hT hA.le) hR
    | some f => exact div_nonneg (div_nonneg hT hA.le) (add_nonneg (hnu f rfl) hR)
  have h1 : 0 ≤ nmDflux o c T Plim nu i := by
    unfold nmDflux
    dsimp only
    split
    · rename_i hfl
      exact le_min h0 (div_nonneg (mul_nonneg hfl.1.le (Real.sqrt_nonneg _)) (add_nonneg (hgrad _ _) (by positivity)))
    · exact h0
  unfold nmDnn0
  split
  · rename_i hd
    exact le_min h1 hd.1.le
  · exact h1

/-- **C57.**  With a flux limit, the diffusive speed `D |grad log P|` is at most the given fraction of the thermal speed. -/
theorem flux_limited (hg : Guards o c) (hfl : 0 < o.flux_limit) (hl : 0 < o.lmax) {i : ι} (hi : c.dom i)
    (hgrad : ∀ f i, 0 ≤ c.absGrad f i) :
    nmDnn o c T Plim nu i * c.absGrad (c.bndryP fun i => Real.log (Plim i)) i ≤ o.flux_limit * Real.sqrt (T i / o.AA) := by
  rw [nmDnn_dom hg hi]
  set G := c.absGrad (c.bndryP fun i => Real.log (Plim i)) i with hG
  have hG0 : 0 ≤ G := hgrad _ _
  have hpos : 0 < G + 1 / o.lmax := by positivity
  have hle : nmDnn0 o c T Plim nu i ≤ o.flux_limit * Real.sqrt (T i / o.AA) / (G + 1 / o.lmax) := by
    have h1 : nmDflux o c T Plim nu i ≤ o.flux_limit * Real.sqrt (T i / o.AA) / (G + 1 / o.lmax) := by
      unfold nmDflux
      dsimp only
      rw [if_pos ⟨hfl, hi⟩]
      exact min_le_right _ _
    unfold nmDnn0
    split
    · exact (min_le_left _ _).trans h1
    · exact h1
  have hs : 0 ≤ o.flux_limit * Real.sqrt (T i / o.AA) := by positivity
  calc nmDnn0 o c T Plim nu i * G ≤ o.flux_limit * Real.sqrt (T i / o.AA) / (G + 1 / o.lmax) * G := by gcongr
    _ = o.flux_limit * Real.sqrt (T i / o.AA) * (G / (G + 1 / o.lmax)) := by ring
    _ ≤ o.flux_limit * Real.sqrt (T i / o.AA) * 1 := by
      gcongr
      rw [div_le_one hpos]
      have : 0 < 1 / o.lmax := by positivity
      linarith
    _ = _ := mul_one _

/-- **C57.**  With a diffusion limit, the coefficient is at most that limit. -/
theorem diffusion_limited (hg : Guards o c) (hd : 0 < o.diffusion_limit) {i : ι} (hi : c.dom i) : nmDnn o c T Plim nu i ≤ o.diffusion_limit := by
  rw [nmDnn_dom hg hi]
  unfold nmDnn0
  rw [if_pos ⟨hd, hi⟩]
  exact min_le_right _ _

/-- **C57.**  On a wall the coefficients of all diffusive fluxes are zero. -/
theorem wall_no_diffusion (hg : Guards o c) {u : Bool} {i g inn : ι} (hw : AtWall o c u i g inn) (f : Fld ι) :
    mid (nmDnn o c T Plim nu) i g = 0 ∧ mid (nmProduct o c T Plim nu f) i g = 0 := by
  obtain ⟨d1, -, -⟩ := hg.last u i g inn hw
  unfold mid nmDnn nmProduct
  rw [nmWall_guard hg hw, nmWall_guard hg hw, nmWall_dom hg d1, nmWall_dom hg d1]
  constructor <;> ring

end

/-! ## Time derivatives -/

section
variable {o : NMOpts ι} {c : NMMesh ι} {f : NMFields ι} {s : NMSources ι}

/-- **C57.**  Density and pressure below a hundredth of the floor are not driven lower. -/
theorem not_driven_lower (hs : ∀ g, s.scale = some g → ∀ i, 0 ≤ g i) (i : ι) :
    (f.N i < o.density_floor * 1e-2 → 0 ≤ (nmFinally o c f s).1 i) ∧ (f.P i < o.pressure_floor * 1e-2 → 0 ≤ (nmFinally o c f s).2.1 i) := by
  have key : ∀ (lo : ℝ) (x d : Fld ι), x i < lo * 1e-2 → 0 ≤ nmScale s (nmFloor lo x d) i := by
    intro lo x d hx
    have h0 : 0 ≤ nmFloor lo x d i := by
      unfold nmFloor
      split
      · exact le_rfl
      · rename_i hh
        exact not_lt.1 fun hd => hh ⟨hx, hd⟩
    unfold nmScale
    cases hg : s.scale with
    | none => exact h0
    | some g => exact mul_nonneg h0 (hs g hg i)
  exact ⟨key _ _ _, key _ _ _⟩

/-- **C57.**  Otherwise the time derivatives are the sum of the terms. -/
theorem derivative_unchanged (hs : s.scale = none) (i : ι) :
    (o.density_floor * 1e-2 ≤ f.N i → (nmFinally o c f s).1 i = nmDdtN o c f s i) ∧
    (o.pressure_floor * 1e-2 ≤ f.P i → (nmFinally o c f s).2.1 i = nmDdtP o c f s i) ∧
    (nmFinally o c f s).2.2 i = nmDdtNV o c f s i := by
  unfold nmFinally nmScale
  rw [hs]
  dsimp only
  unfold nmFloor
  exact ⟨fun h => if_neg fun hh => absurd hh.1 (not_lt.2 h), fun h => if_neg fun hh => absurd hh.1 (not_lt.2 h), rfl⟩

/-- C53.  The factor that scales the time derivatives multiplies all three. -/
theorem scaled_together (o : NMOpts ι) (c : NMMesh ι) (f : NMFields ι) (s : NMSources ι) (k : Fld ι) (i : ι) :
    (nmFinally o c f { s with scale := some k }).1 i = k i * (nmFinally o c f { s with scale := none }).1 i ∧
    (nmFinally o c f { s with scale := some k }).2.1 i = k i * (nmFinally o c f { s with scale := none }).2.1 i ∧
    (nmFinally o c f { s with scale := some k }).2.2 i = k i * (nmFinally o c f { s with scale := none }).2.2 i :=
  ⟨mul_comm _ _, mul_comm _ _, mul_comm _ _⟩

/-- **C56, C57.**  Viscosity: the work done by the viscous force is taken from (or, where the force opposes the flow, given to) the thermal energy
`3/2 P`.  Compare the time derivatives with and without viscosity. -/
theorem viscosity_energy (i : ι) :
    3 / 2 * (nmDdtP { o with neutral_viscosity := true } c f s i - nmDdtP { o with neutral_viscosity := false } c f s i) +
      f.V i * (nmDdtNV { o with neutral_viscosity := true } c f s i - nmDdtNV { o with neutral_viscosity := false } c f s i) = 0 := by
  have hv : nmViscosity { o with neutral_viscosity := true } c f s = nmViscosity { o with neutral_viscosity := false } c f s := rfl
  have hk : nmKappa { o with neutral_viscosity := true } c f s = nmKappa { o with neutral_viscosity := false } c f s := rfl
  have hp : ∀ T Pl nu g, nmProduct { o with neutral_viscosity := true } c T Pl nu g = nmProduct { o with neutral_viscosity := false } c T Pl nu g :=
    fun _ _ _ _ => rfl
  have hso : ∀ T : Fld ι, nmSound { o with neutral_viscosity := true } T = nmSound { o with neutral_viscosity := false } T := fun _ => rfl
  unfold nmDdtP nmDdtNV
  rw [hv, hk, hso]
  simp only [hp]
  cases o.evolve_momentum
  · simp
  · simp
    ring

/-- The total number of neutrals in a set of cells changes only through the sources, if the transport operators conserve: particle balance. -/
theorem particle_balance [Fintype ι] {vol : Fld ι} (hd : ∀ a b d, ∑ i, vol i * (c.divParMod a b d).1 i = 0)
    (hp : ∀ a b, ∑ i, vol i * (c.divPerp a b).1 i = 0) (hs : s.scale = none) (hN : ∀ i, o.density_floor * 1e-2 ≤ f.N i) :
    ∑ i, vol i * (nmFinally o c f s).1 i = ∑ i, vol i * (o.density_source i + orZero s.density i) := by
  have : ∀ i, vol i * (nmFinally o c f s).1 i = -(vol i * (c.divParMod f.N f.V (nmSound o f.T)).1 i) +
      vol i * (c.divPerp (nmProduct o c f.T f.Plim s.nu f.Nlim) (c.bndryP fun i => Real.log (f.Plim i))).1 i +
      vol i * (o.density_source i + orZero s.density i) := by
    intro i
    rw [(derivative_unchanged hs i).1 (hN i)]
    unfold nmDdtN
    ring
  simp only [this, Finset.sum_add_distrib, Finset.sum_neg_distrib, hd, hp, neg_zero, zero_add]

/-! ## Diagnostics (C55) -/

/-- The reported energy advection is twice the flow of pressure. -/
theorem advection_reported_partial (i : ι) :
    nmEfAdvPar o c f i = 2 * (c.divParMod f.P f.V (nmSound o f.T)).2 i ∧
    (nmEfAdvPerp o c f s).1 i =
      2 * (c.divPerp (nmProduct o c f.T f.Plim s.nu f.Plim) (c.bndryP fun i => Real.log (f.Plim i))).2.1 i ∧
    (nmEfAdvPerp o c f s).2 i =
      2 * (c.divPerp (nmProduct o c f.T f.Plim s.nu f.Plim) (c.bndryP fun i => Real.log (f.Plim i))).2.2 i := by
  have : ((5 / 2 : ℤ) : ℝ) = 2 := by norm_num
  unfold nmEfAdvPar nmEfAdvPerp
  dsimp only
  rw [this]
  exact ⟨mul_comm _ _, mul_comm _ _, mul_comm _ _⟩

/-- The reported advection is never 5/2 of the pressure flow, unless there is no flow. -/
theorem advection_reported_wrong {i : ι} (h : (c.divParMod f.P f.V (nmSound o f.T)).2 i ≠ 0) :
    nmEfAdvPar o c f i ≠ 5 / 2 * (c.divParMod f.P f.V (nmSound o f.T)).2 i := by
  rw [(advection_reported_partial (s := ⟨none, none, none, none, none⟩) i).1]
  intro e
  apply h
  linarith

/-- The reported conduction is the energy flow itself: the factor `3/2` is one. -/
theorem conduction_reported (i : ι) : nmEfCondPar o c f s i = (c.divParK (nmKappa o c f s) f.T).2 i := by
  have : ((3 / 2 : ℤ) : ℝ) = 1 := by norm_num
  unfold nmEfCondPar
  rw [this, mul_one]

end

/-! ## The hypotheses can be met -/

section
open Hermes.Sheath

/-- One field line with six cells; cells 0 and 5 are guard cells. -/
noncomputable def line : NMMesh (Fin 6) where
  m := { ym := fun i => i - 1, yp := fun i => i + 1, lower := [1], upper := [4], J := fun _ => 1, g22 := fun _ => 1, dx := fun _ => 1,
         dy := fun _ => 1, dz := fun _ => 1 }
  dom i := decide (i ≠ 0 ∧ i ≠ 5)
  communicate f := f
  bndryT f := f
  bndryP f := f
  bndryD f := f
  neumann f := f
  absGrad f i := |f (i + 1) - f (i - 1)| / 2
  divPar f i := (f (i + 1) - f (i - 1)) / 2
  gradPar f i := (f (i + 1) - f (i - 1)) / 2
  divParFvv f v _ i := (f (i + 1) * v (i + 1) ^ 2 - f (i - 1) * v (i - 1) ^ 2) / 2
  divParMod f v _ := (fun i => (f (i + 1) * v (i + 1) - f (i - 1) * v (i - 1)) / 2, fun i => (f i * v i + f (i - 1) * v (i - 1)) / 2)
  divPerp _ _ := (fun _ => 0, fun _ => 0, fun _ => 0)
  divParK k f := (fun i => k i * (f (i + 1) - 2 * f i + f (i - 1)), fun i => k i * (f i - f (i - 1)))

noncomputable def settings : NMOpts (Fin 6) :=
  ⟨2, 1e-8, 1e-10, 0.2, -1, 0.1, true, true, true, true, true, true, fun _ => 0, fun _ => 0⟩

theorem line_guards : Guards settings line where
  mesh := ⟨by decide, by decide⟩
  bndryT _ _ _ := rfl
  bndryP _ _ _ := rfl
  bndryD _ _ _ := rfl
  neumann _ _ _ := rfl
  communicate _ _ _ := rfl
  last := by
    rintro u i g inn (⟨-, hi⟩ | ⟨-, hi⟩)
    · have : i = 1 := List.mem_singleton.1 hi
      subst this; exact ⟨by decide, by decide, by decide⟩
    · have : i = 4 := List.mem_singleton.1 hi
      subst this; exact ⟨by decide, by decide, by decide⟩

theorem line_run (N P NV : Fld (Fin 6)) : ∃ st', neutralMixed settings line "d" N P NV (stateOf fun _ _ => none) = (.ok (), st') := ⟨_, rfl⟩

/-- The hypotheses of the theorems above are met by a run with a wall at both ends. -/
example : Guards settings line ∧ 0 < settings.density_floor ∧ 0 < settings.AA ∧ 0 < settings.lmax ∧ 0 < settings.flux_limit ∧
    (∀ f i, 0 ≤ line.absGrad f i) ∧ AtWall settings line false 1 0 2 ∧ AtWall settings line true 4 5 3 ∧
    ∃ st', neutralMixed settings line "d" (fun i => i) (fun _ => 1) (fun _ => 1) (stateOf fun _ _ => none) = (.ok (), st') := by
  refine ⟨line_guards, by norm_num [settings], by norm_num [settings], by norm_num [settings], by norm_num [settings],
    fun f i => by unfold line; dsimp only; positivity, .lower rfl (List.mem_singleton.2 rfl), .upper rfl (List.mem_singleton.2 rfl), line_run _ _ _⟩

/-- The published density can be negative in the guard cell behind a wall: when the density drops steeply towards the wall, the wall value is cut to
zero and the guard cell gets minus the value in front of the wall. -/
theorem guard_density_negative : ∃ (N : Fld (Fin 6)) (st' : Store Key (Value (Fin 6))), (∀ i, 0 ≤ N i) ∧
    neutralMixed settings line "d" N (fun _ => 1) (fun _ => 0) (stateOf fun _ _ => none) = (.ok (), st') ∧ fieldOf st' "d" .density 0 < 0 := by
  obtain ⟨st', h⟩ := line_run (fun i => if i = 2 then 5 else 1) (fun _ => 1) (fun _ => 0)
  refine ⟨_, st', fun i => by split <;> norm_num, h, ?_⟩
  have hw : AtWall settings line false 1 0 2 := .lower rfl (List.mem_singleton.2 rfl)
  obtain ⟨w, -⟩ := wall_values line_guards h hw
  have hd : ∀ i, line.dom i → fieldOf st' "d" .density i = max (if i = 2 then 5 else 1) 0 := fun i hi =>
    (published_nonneg line_guards (by norm_num [settings]) h hi).1
  have h1 := hd 1 (by decide)
  have h2 := hd 2 (by decide)
  rw [if_neg (by decide)] at h1
  rw [if_pos rfl] at h2
  rw [h1, h2] at w
  unfold mid at w
  rw [h1] at w
  norm_num at w
  linarith

/-- Reported advection of energy is not 5/2 of the pressure flow in a concrete state. -/
theorem advection_wrong_example : ∃ f : NMFields (Fin 6), nmEfAdvPar settings line f 2 ≠
    5 / 2 * (line.divParMod f.P f.V (nmSound settings f.T)).2 2 := by
  refine ⟨⟨fun _ => 1, fun _ => 1, fun _ => 1, fun _ => 1, fun _ => 1, fun _ => 1, fun _ => 2⟩, advection_reported_wrong ?_⟩
  unfold line
  norm_num

end

end Hermes.NeutralMixedModel
