import Verif.Model.RhsEnergy
import Verif.Props.MomentumEquation
import Verif.Props.Reactions
import Mathlib.Analysis.SpecialFunctions.ExpDeriv

/-!
# C70: the energy equation

`energyRhs o g B lim E₀ source s f` is the `ddt(E)` that `EvolveEnergy::finally` gives to the time integrator; `E` is
`Cv p + 1/2 m n V²`.
-/

namespace Hermes.EnergyEquation
open Finset Hermes Hermes.Limiters Hermes.PerpOps Hermes.Rhs Hermes.DensityEquation

variable {nz : ℕ} [NeZero nz]

/-- What a successful evaluation computes. -/
theorem energyRhs_ok {o : EnergyOpts} {g : Grid} {B : RhsOps nz} {lim : Limiter} {E₀ source : F3 nz} {s : SpeciesIn nz}
    {f : FieldsIn nz} {r : F3 nz} (h : energyRhs o g B lim E₀ source s f = .ok r) :
    ∃ P T N V AA w cond, s.pressure = some P ∧ s.temperature = some T ∧ s.density = some N ∧ s.velocity = some V ∧ s.AA = some AA ∧
      waveSpeed s f = .ok w ∧ energyConduction o g B s f P T N AA = .ok cond ∧
      r = match f.scale_timederivs with
        | none => energyTerms o g B lim source s f (energyBoundary g B o.Cv AA P N V E₀) P T N V w cond
        | some sc => energyTerms o g B lim source s f (energyBoundary g B o.Cv AA P N V E₀) P T N V w cond * sc := by
  unfold energyRhs at h
  obtain ⟨P, h1, h⟩ := except_bind_ok h
  obtain ⟨T, h2, h⟩ := except_bind_ok h
  obtain ⟨N, h3, h⟩ := except_bind_ok h
  obtain ⟨V, h4, h⟩ := except_bind_ok h
  obtain ⟨AA, h5, h⟩ := except_bind_ok h
  obtain ⟨w, h6, h⟩ := except_bind_ok h
  obtain ⟨cond, h7, h⟩ := except_bind_ok h
  refine ⟨P, T, N, V, AA, w, cond, need_ok h1, need_ok h2, need_ok h3, need_ok h4, need_ok h5, h6, h7, ?_⟩
  cases hsc : f.scale_timederivs with
  | none => rw [hsc] at h; cases h; rfl
  | some sc => rw [hsc] at h; cases h; rfl

/-! ## Energy balance -/

/-- Energy carried through the ends of the lines by the flow along the field. -/
noncomputable def endOutflow (g : Grid) (B : RhsOps nz) (lim : Limiter) (F V w : F3 nz) : ℝ :=
  ∑ i ∈ Icc g.xstart g.xend, ∑ k, (parFlow g B lim F V w i (g.yend + 1) k - parFlow g B lim F V w i g.ystart k)

/-- The fields that conduction needs to repeat on periodic lines. -/
def Conducted (o : EnergyOpts) (g : Grid) (B : RhsOps nz) (s : SpeciesIn nz) (P T N : F3 nz) (AA : ℝ) (q : F3 nz) : Prop :=
  q = T ∨ ∃ kappa nu, s.collision_frequency = some nu ∧ energyKappa o B P T N nu AA = .ok kappa ∧ q = kappaGuard g B kappa

/-- No energy crosses the sides: radial fluxes are off, every field line ends in the domain or closes on itself. -/
structure Sides (o : EnergyOpts) (g : Grid) (B : RhsOps nz) (s : SpeciesIn nz) (f : FieldsIn nz) (E P T N : F3 nz) (AA : ℝ) : Prop where
  radial : o.bndry_flux = false
  lines : ∀ i, g.xstart ≤ i ∧ i ≤ g.xend → ColumnClosed g B none f.phi E (Conducted o g B s P T N AA) i
  lowN : ∀ c, s.low_n_coeff = some c → content g (B.divParK (c * T) N) = 0 ∧ content g (B.divParK c P) = 0

/-- Heat conducted into the domain because the field is perturbed: along the lines, and through the radial boundaries. -/
noncomputable def flutterHeat (o : EnergyOpts) (g : Grid) (B : RhsOps nz) (s : SpeciesIn nz) (f : FieldsIn nz) (P T N : F3 nz) (AA : ℝ) : ℝ :=
  match o.thermal_conduction, s.collision_frequency, f.Apar_flutter with
  | true, some nu, some A => match energyKappa o B P T N nu AA with
    | .ok kappa => content g (B.divPar (kappaGuard g B kappa * B.communicate (B.bracket T A)))
        - PressureEquation.radialOutflow g (kappaGuard g B kappa) (B.communicate (B.bracket T A) + B.communicate (B.gradPar T)) A
    | .error _ => 0
  | _, _, _ => 0

/-- Energy and work of the pressure that leave along the perturbed field. -/
noncomputable def flutterOut (g : Grid) (f : FieldsIn nz) (F V : F3 nz) : ℝ :=
  match f.Apar_flutter with
  | none => 0
  | some A => PressureEquation.radialOutflow g F V (-A)

theorem content_conduction {o : EnergyOpts} {g : Grid} (hg : Regular g) (hs : Separable g) {B : RhsOps nz} (hB : Assumed g B)
    {s : SpeciesIn nz} {f : FieldsIn nz} {E P T N cond : F3 nz} {AA : ℝ} (hi : Sides o g B s f E P T N AA)
    (hc : energyConduction o g B s f P T N AA = .ok cond) : content g cond = flutterHeat o g B s f P T N AA := by
  unfold energyConduction at hc
  unfold flutterHeat
  cases ht : o.thermal_conduction with
  | false => rw [ht] at hc; cases hc; exact content_zero g
  | true =>
    rw [ht, if_pos rfl] at hc
    obtain ⟨nu, hnu, hc⟩ := except_bind_ok hc
    obtain ⟨kappa, hk, hc⟩ := except_bind_ok hc
    have ez := content_conduction_closed hg hs hB.shifts (Or.inr ⟨kappa, nu, need_ok hnu, hk, rfl⟩) (Or.inl rfl) hi.lines
    rw [need_ok hnu]
    cases hA : f.Apar_flutter with
    | none =>
      rw [hA] at hc
      cases hc
      exact ez
    | some A =>
      rw [hA] at hc
      cases hc
      simp only [hk]
      rw [content_add, ez, content_sub, content_divNG hg hs hB.one]
      unfold PressureEquation.radialOutflow
      ring

/-- C70.  Energy balance: the energy of the species in the domain changes by the sources, by the work `V · F` of the momentum
sources, by the enthalpy and kinetic energy carried through the ends of the lines, and by what a perturbed magnetic field carries through the radial
boundaries; the ExB flow, heat conduction and dissipation only move it.  For every state, geometry, limiter and choice of options. -/
theorem energy_balance {o : EnergyOpts} {g : Grid} (hg : Regular g) (hs : Separable g) {B : RhsOps nz}
    (hB : Assumed g B) {lim : Limiter} {E₀ source P T N V w : F3 nz} {AA : ℝ} {s : SpeciesIn nz} {f : FieldsIn nz}
    (hsc : f.scale_timederivs = none) (hP : s.pressure = some P) (hT : s.temperature = some T)
    (hN : s.density = some N) (hV : s.velocity = some V) (hAA : s.AA = some AA) (hw : waveSpeed s f = .ok w)
    (hi : Sides o g B s f (energyBoundary g B o.Cv AA P N V E₀) P T N AA) {r : F3 nz}
    (h : energyRhs o g B lim E₀ source s f = .ok r) :
    content g r = content g source + content g (s.energy_source.getD 0) + content g (V * s.momentum_source.getD 0)
      - endOutflow g B lim (energyBoundary g B o.Cv AA P N V E₀ + P) V w
      - flutterOut g f (energyBoundary g B o.Cv AA P N V E₀ + P) V + flutterHeat o g B s f P T N AA := by
  obtain ⟨P', T', N', V', AA', w', cond, h1, h2, h3, h4, h5, h6, h7, hr⟩ := energyRhs_ok h
  rw [hP] at h1; rw [hT] at h2; rw [hN] at h3; rw [hV] at h4; rw [hAA] at h5; rw [hw] at h6
  cases h1; cases h2; cases h3; cases h4; cases h5; cases h6
  rw [hsc] at hr
  simp only at hr
  set E := energyBoundary g B o.Cv AA P N V E₀
  have e1 : content g (exbOf g B s.isCharged f E o.bndry_flux o.poloidal_flows) = 0 := by
    rw [hi.radial]
    exact content_exbOf_closed hg hs hB.shifts hB.one hi.lines _
  have e2 : content g (energyAdvection g B lim f E P V w) = -endOutflow g B lim (E + P) V w - flutterOut g f (E + P) V := by
    unfold energyAdvection flutterOut
    rw [content_add, content_neg, content_parMod hg hs hB.shifts]
    cases f.Apar_flutter with
    | none => simp only [content_zero]; unfold endOutflow; ring
    | some A =>
      simp only
      rw [content_neg, content_divNG hg hs hB.one]
      unfold endOutflow PressureEquation.radialOutflow
      ring
  have e3 : content g (energyLow B s P T N) = 0 := by
    unfold energyLow
    cases hc : s.low_n_coeff with
    | none => exact content_zero g
    | some c =>
      simp only
      rw [content_add, (hi.lowN c hc).1, (hi.lowN c hc).2, add_zero]
  have e4 : content g (energyHyper o g B E) = 0 := by
    unfold energyHyper
    split_ifs
    · rw [content_neg]
      rw [show content g (fun i j k => o.hyper_z * ((g.dz i j) ^ 2) ^ 2 * B.d4dz4 E i j k) = content g (0 : F3 nz) from
        content_congr fun i j _ _ => by rw [← Finset.mul_sum, hB.d4dz4]; simp, content_zero, neg_zero]
    · exact content_zero g
  rw [hr]
  unfold energyTerms energyEqSources
  rw [content_add, content_add, content_add, content_add, content_add, content_neg, e1, e2, e3, content_conduction hg hs hB hi h7, e4,
    content_add, content_add]
  ring

/-- C70.  Closed domain: if the velocity vanishes at the ends of the lines, or the lines close on themselves, the energy
changes only by the sources and the work of the momentum sources.  Partial: without magnetic flutter (`flutter_takes_energy`). -/
theorem energy_conserved_partial {o : EnergyOpts} {g : Grid} (hg : Regular g) (hs : Separable g) {B : RhsOps nz}
    (hB : Assumed g B) {lim : Limiter} {E₀ source P T N V w : F3 nz} {AA : ℝ} {s : SpeciesIn nz} {f : FieldsIn nz}
    (hsc : f.scale_timederivs = none) (hA : f.Apar_flutter = none) (hP : s.pressure = some P) (hT : s.temperature = some T)
    (hN : s.density = some N) (hV : s.velocity = some V) (hAA : s.AA = some AA) (hw : waveSpeed s f = .ok w)
    (hi : Sides o g B s f (energyBoundary g B o.Cv AA P N V E₀) P T N AA)
    (hc : ∀ i, g.xstart ≤ i ∧ i ≤ g.xend → ColumnClosed g B (some V) none (energyBoundary g B o.Cv AA P N V E₀ + P) (Eq w) i) {r : F3 nz}
    (h : energyRhs o g B lim E₀ source s f = .ok r) :
    content g r = content g source + content g (s.energy_source.getD 0) + content g (V * s.momentum_source.getD 0) := by
  rw [energy_balance hg hs hB hsc hP hT hN hV hAA hw hi h]
  have h1 : ∀ F, flutterOut g f F V = 0 := fun F => by unfold flutterOut; rw [hA]
  have h2 : flutterHeat o g B s f P T N AA = 0 := by
    unfold flutterHeat
    rw [hA]
    cases o.thermal_conduction <;> cases s.collision_frequency <;> rfl
  rw [h1, h2, sub_zero, add_zero]
  have z := content_parMod_closed hg hs hB.shifts lim (w := w) rfl hc
  rw [content_parMod hg hs hB.shifts] at z
  unfold endOutflow
  rw [z, sub_zero]

/-! ## What leaves through a wall -/

/-- Energy flux along the field of a gas with pressure `p`, density `n`, velocity `v`: enthalpy and kinetic energy. -/
noncomputable def energyFlux (Cv AA p n v : ℝ) : ℝ := ((Cv + 1) * p + 1 / 2 * AA * n * v ^ 2) * v

/-- Value halfway between two cells of a line. -/
noncomputable def between (F : F3 nz) (i a b : ℤ) (k : Fin nz) : ℝ := (F i a k + F i b k) / 2

/-- Area of the face between two cells. -/
noncomputable def faceArea (g : Grid) (B : RhsOps nz) (i a b : ℤ) : ℝ :=
  (g.J i a + g.J i b) / (√(B.g_22 i a) + √(B.g_22 i b)) * g.dx i b * g.dz i b

/-- C70.  Through each end of a line that ends at a wall goes exactly the enthalpy and the kinetic energy of the flow at the wall, for
every state, whatever the wave speed and the limiter.  Partial: field-aligned coordinates that coincide with the grid. -/
theorem wall_energy_flow_partial {g : Grid} (hg : Regular g) {B : RhsOps nz} (hto : ∀ F, B.toFA F = F) (hfrom : ∀ F, B.fromFA F = F)
    (lim : Limiter) (Cv AA : ℝ) (E₀ P N V w : F3 nz) {i : ℤ} (hp : B.periodicY i = false) (hf : g.firstY i = true) (hl : g.lastY i = true)
    (k : Fin nz) :
    parFlow g B lim (energyBoundary g B Cv AA P N V E₀ + P) V w i (g.yend + 1) k =
      energyFlux Cv AA (between P i g.yend (g.yend + 1) k) (between N i g.yend (g.yend + 1) k) (between V i g.yend (g.yend + 1) k)
        * faceArea g B i g.yend (g.yend + 1) ∧
    parFlow g B lim (energyBoundary g B Cv AA P N V E₀ + P) V w i g.ystart k =
      energyFlux Cv AA (between P i (g.ystart - 1) g.ystart k) (between N i (g.ystart - 1) g.ystart k) (between V i (g.ystart - 1) g.ystart k)
        * faceArea g B i (g.ystart - 1) g.ystart := by
  have hn := hg.y_nonempty
  have hcl : ParOps.Closed (g.line B i) := ⟨hf, hl, hp⟩
  have e1 : energyBoundary g B Cv AA P N V E₀ i g.yend k = E₀ i g.yend k := by
    simp only [energyBoundary, hto, hfrom]
    rw [if_neg (by omega), if_neg (by omega)]
  have e2 : energyBoundary g B Cv AA P N V E₀ i (g.yend + 1) k = 2 * sheathEnergy Cv AA P N V i (g.yend + 1) g.yend k - E₀ i g.yend k := by
    simp only [energyBoundary, hto, hfrom]
    rw [if_neg (by omega), if_pos ⟨trivial, hl, hp⟩]
  have e3 : energyBoundary g B Cv AA P N V E₀ i g.ystart k = E₀ i g.ystart k := by
    simp only [energyBoundary, hto, hfrom]
    rw [if_neg (by omega), if_neg (by omega)]
  have e4 : energyBoundary g B Cv AA P N V E₀ i (g.ystart - 1) k = 2 * sheathEnergy Cv AA P N V i (g.ystart - 1) g.ystart k - E₀ i g.ystart k := by
    simp only [energyBoundary, hto, hfrom]
    rw [if_pos ⟨trivial, hf, hp⟩]
  have hu := ParOps.upper_end_flow_is_midpoint hcl hn lim (alongY (B.toFA (energyBoundary g B Cv AA P N V E₀ + P)) i k)
    (alongY (B.toFA V) i k) (alongY (B.toFA w) i k)
  have hd := ParOps.lower_end_flow_is_midpoint hcl hn lim (alongY (B.toFA (energyBoundary g B Cv AA P N V E₀ + P)) i k)
    (alongY (B.toFA V) i k) (alongY (B.toFA w) i k)
  unfold parFlow Grid.parMod
  refine ⟨hu.trans ?_, hd.trans ?_⟩
  · simp only [alongY, hto, Pi.add_apply, show (g.line B i).yend = g.yend from rfl, e1, e2, sheathEnergy, energyFlux, between, faceArea,
      show (g.line B i).J = g.J i from rfl, show (g.line B i).g22 = B.g_22 i from rfl, show (g.line B i).dx = g.dx i from rfl,
      show (g.line B i).dz = g.dz i from rfl]
    ring
  · simp only [alongY, hto, Pi.add_apply, show (g.line B i).ystart = g.ystart from rfl, e3, e4, sheathEnergy, energyFlux, between, faceArea,
      show (g.line B i).J = g.J i from rfl, show (g.line B i).g22 = B.g_22 i from rfl, show (g.line B i).dx = g.dx i from rfl,
      show (g.line B i).dz = g.dz i from rfl]
    ring

/-! ## The logarithm -/

/-- C70.  The conductivity is `κ P / (ν A)`; with a limit the heat flux it gives is at most the free-streaming flux `α n T √(T/A)`, in both directions, and
is not changed in sign. -/
theorem energy_conductivity {o : EnergyOpts} {B : RhsOps nz} (hcomm : ∀ f, B.communicate f = f) {P T N nu kappa : F3 nz} {AA : ℝ}
    (h : energyKappa o B P T N nu AA = .ok kappa) (i j : ℤ) (k : Fin nz) (hnu : 1e-10 ≤ nu i j k) :
    let spitzer := o.kappa_coefficient * P i j k / (nu i j k * AA)
    let free := o.kappa_limit_alpha * N i j k * T i j k * Real.sqrt (T i j k / AA)
    (o.kappa_limit_alpha ≤ 0 → kappa i j k = spitzer) ∧
    (0 < o.kappa_limit_alpha → |kappa i j k * B.gradPar T i j k| ≤ max free 1e-10 ∧
      ∃ c : ℝ, 0 < c ∧ c ≤ 1 ∧ kappa i j k = c * spitzer) := by
  intro spitzer free
  have hf : floor3 nu 1e-10 i j k = nu i j k := by unfold floor3; rw [if_neg (not_lt.2 hnu)]
  have hs : o.kappa_coefficient * P i j k * (1 / nu i j k) / AA = spitzer := by
    simp only [spitzer, one_div, div_eq_mul_inv, mul_inv]; ring
  unfold energyKappa at h
  simp only at h
  constructor
  · intro h0
    rw [if_neg (not_lt.2 h0)] at h
    obtain rfl := Except.ok.inj h
    beta_reduce
    rw [hf, hs]
  · intro h0
    rw [if_pos h0] at h
    split_ifs at h with h1
    obtain rfl := Except.ok.inj h
    simp only [hcomm, hf, Pi.mul_apply, hs]
    have hm : floor3 (fun i j k => o.kappa_limit_alpha * N i j k * T i j k * Real.sqrt (T i j k / AA)) 1e-10 i j k = max free 1e-10 := by
      unfold floor3
      split_ifs with h2
      · exact (max_eq_right h2.le).symm
      · exact (max_eq_left (not_lt.1 h2)).symm
    rw [hm]
    have hp : 0 < max free 1e-10 := lt_max_of_lt_right (by norm_num)
    generalize max free 1e-10 = M at *
    have hd : 0 < 1 + |spitzer * B.gradPar T i j k / M| := by positivity
    refine ⟨?_, 1 / (1 + |spitzer * B.gradPar T i j k / M|), by positivity, ?_, by ring⟩
    · rw [div_mul_eq_mul_div, abs_div, abs_of_pos hd, div_le_iff₀ hd, abs_div, abs_of_pos hp]
      have := abs_nonneg (spitzer * B.gradPar T i j k)
      field_simp
      linarith
    · rw [div_le_one hd]
      linarith [abs_nonneg (spitzer * B.gradPar T i j k / M)]

/-- C70.  With `evolve_log` the energy `exp(logE)` changes at the same rate as without. -/
theorem log_form_same_rate (ddt E : F3 nz) (i j : ℤ) (k : Fin nz) {L : ℝ → ℝ} {t : ℝ} (hE : E i j k = Real.exp (L t))
    (hL : HasDerivAt L (logEnergyRhs ddt E i j k) t) : HasDerivAt (fun τ => Real.exp (L τ)) (ddt i j k) t := by
  have h := hL.exp
  have e : Real.exp (L t) * logEnergyRhs ddt E i j k = ddt i j k := by
    unfold logEnergyRhs
    rw [hE]
    field_simp
  rwa [e] at h

/-! ## Where the full statement fails -/

/-- Coordinates shifted by one cell in `z`. -/
noncomputable def shiftedRhs : RhsOps 2 := { plainRhs 2 with toFA := fun F i j k => F i j (k + 1), fromFA := fun F i j k => F i j (k - 1) }

/-- One of the two lines has pressure and flow, the other is empty. -/
noncomputable def oneLine : F3 2 := fun _ _ k => if k = 0 then 1 else 0

/-- With shifted coordinates the energy in the guard cells comes from the pressure, density and velocity of other lines
(`src/evolve_energy.cxx:204-232`: `E` is transformed to field-aligned coordinates, `P`, `N` and `V` are not).  A line with pressure 1 and velocity
1 meets the wall; the density is negligible.  What leaves is 1, instead of `Cv + 1 = 5/2` as without the shift. -/
theorem shifted_wall_flow : (∑ k, parFlow boxGrid (plainRhs 2) upwind (energyBoundary boxGrid (plainRhs 2) (3 / 2) 1 oneLine 0 oneLine 0 + oneLine)
      oneLine 0 2 4 k = 5 / 2) ∧
    ∑ k, parFlow boxGrid shiftedRhs upwind (energyBoundary boxGrid shiftedRhs (3 / 2) 1 oneLine 0 oneLine 0 + oneLine) oneLine 0 2 4 k = 1 := by
  constructor
  · have h := fun k => (wall_energy_flow_partial (g := boxGrid) boxGrid_regular (B := plainRhs 2) (fun _ => rfl) (fun _ => rfl) upwind (3 / 2) 1 0 oneLine 0
      oneLine 0 (i := 2) rfl rfl rfl k).1
    have e : boxGrid.yend + 1 = 4 := by norm_num [boxGrid]
    simp only [e] at h
    simp only [h, Fin.sum_univ_two]
    norm_num [energyFlux, between, faceArea, oneLine, boxGrid, plainRhs]
  · have h := fun k => ParOps.upper_end_flow_is_midpoint (g := boxGrid.line shiftedRhs 2) ⟨rfl, rfl, rfl⟩ (by norm_num [Grid.line, boxGrid]) upwind
      (alongY (shiftedRhs.toFA (energyBoundary boxGrid shiftedRhs (3 / 2) 1 oneLine 0 oneLine 0 + oneLine)) 2 k)
      (alongY (shiftedRhs.toFA oneLine) 2 k) (alongY (shiftedRhs.toFA 0) 2 k)
    have e : (boxGrid.line shiftedRhs 2).yend + 1 = 4 := by norm_num [boxGrid, Grid.line]
    simp only [e] at h
    unfold parFlow Grid.parMod
    simp only [h, Fin.sum_univ_two]
    have e2 : (1 + 1 : Fin 2) = 0 := rfl
    norm_num [alongY, shiftedRhs, plainRhs, energyBoundary, sheathEnergy, oneLine, boxGrid, Grid.line, ExB.plainOps, e2]

/-- Rate of change of the thermal energy `E - 1/2 m n V²`, with `momentum = m n V`. -/
noncomputable def thermalRate (AA : ℝ) (V rN rM rE : F3 nz) : F3 nz := fun i j k =>
  rE i j k - V i j k * rM i j k + 1 / 2 * AA * V i j k ^ 2 * rN i j k

/-- A potential that varies only along the field lines drives no ExB flow. -/
theorem exb_line_potential {g : Grid} {B : RhsOps nz} (hcomm : ∀ F, B.communicate F = F) (n : F3 nz) (b : Bool) (phi : ℤ → ℝ) {i j : ℤ}
    (k : Fin nz) (hj : g.ystart ≤ j ∧ j ≤ g.yend) : g.exbXPPM B.toBoutOps n (fun _ j _ => phi j) b false true i j k = 0 := by
  have vR : ∀ i j (k : Fin nz), g.vR (fun _ j _ => phi j) i j k = 0 := by
    intros; simp [Grid.vR, cornerPP, cornerPM]
  have vL : ∀ i j (k : Fin nz), g.vL (fun _ j _ => phi j) i j k = 0 := by
    intros; simp [Grid.vL, cornerMP, cornerMM]
  have vU : ∀ i j (k : Fin nz), g.vU (fun _ j _ => phi j) i j k = 0 := by
    intros; simp [Grid.vU, cornerMP, cornerPP]
  have vD : ∀ i j (k : Fin nz), g.vD (fun _ j _ => phi j) i j k = 0 := by
    intros; simp [Grid.vD, cornerMM, cornerPM]
  have hx : ∀ (q : F3 nz) i j (k : Fin nz), g.exbFaceX n q (fun _ j _ => phi j) b i j k = 0 := by
    intro q i j k
    simp only [Grid.exbFaceX, Grid.exbRight, Grid.exbLeft, vR, vL, lt_irrefl, if_false, zero_mul]
    split_ifs <;> simp
  have hz : ∀ (q : F3 nz) i j (k : Fin nz), g.exbFaceZ n q (fun _ j _ => phi j) i j k = 0 := by
    intro q i j k
    simp [Grid.exbFaceZ, Grid.exbUp, Grid.exbDown, vU, vD]
  unfold Grid.exbXPPM
  simp only [Bool.false_eq_true, if_false, hcomm]
  rw [g.exbXZ_apply n _ _ b k hj]
  simp [hx, hz]

/-- The electric field along the lines accelerates the species (`evolve_momentum`), but the work it does is not in the energy
equation: for any species with charge `Z`, in any state, switching on a potential that varies only along the field lines leaves `ddt(E)` as it is,
so the thermal energy is heated at the rate `Z N V ∇φ`: the whole work is taken from or given to the heat. -/
theorem electric_work_missing {oN : DensityOpts} {oM : MomentumOpts} {oE : EnergyOpts} {g : Grid} {B : RhsOps nz} (hcomm : ∀ F, B.communicate F = F)
    {lim : Limiter} {N₀ NV_err E₀ source N V : F3 nz} {s : SpeciesIn nz} {f f' : FieldsIn nz} {Z AA : ℝ} {phi : ℤ → ℝ} (hphi : f.phi = none)
    (hf' : f' = { f with phi := some fun _ j _ => phi j }) (hA : f.Apar = none) (hA' : f.Apar_flutter = none) (hsc : f.scale_timederivs = none) (hpN : oN.poloidal_flows = false)
    (hpM : oM.poloidal_flows = false) (hpE : oE.poloidal_flows = false) (hZ : s.charge = some Z) (hZ0 : Z ≠ 0) (hN : s.density = some N)
    (hV : s.velocity = some V) {rN rN' rM rM' rE rE' : F3 nz}
    (h1 : densityRhs oN g B lim N₀ s f = .ok rN) (h1' : densityRhs oN g B lim N₀ s f' = .ok rN')
    (h2 : momentumRhs oM g B lim NV_err s f = .ok rM) (h2' : momentumRhs oM g B lim NV_err s f' = .ok rM')
    (h3 : energyRhs oE g B lim E₀ source s f = .ok rE) (h3' : energyRhs oE g B lim E₀ source s f' = .ok rE')
    {i j : ℤ} (k : Fin nz) (hj : g.ystart ≤ j ∧ j ≤ g.yend) :
    rE' i j k = rE i j k ∧
    thermalRate AA V rN' rM' rE' i j k - thermalRate AA V rN rM rE i j k = Z * N i j k * V i j k * B.gradPar (fun _ j _ => phi j) i j k := by
  have q1 : f'.phi = some fun _ j _ => phi j := by rw [hf']
  have q2 : f'.Apar = none := by rw [hf', ← hA]
  have q3 : f'.Apar_flutter = none := by rw [hf', ← hA']
  have q4 : f'.scale_timederivs = none := by rw [hf', ← hsc]
  have q5 : waveSpeed s f' = waveSpeed s f := by rw [hf']; rfl
  clear hf'
  have x : ∀ (c : Prop) (n : F3 nz) (b : Bool), exbOf g B c f' n b false i j k = 0 := by
    intro c n b
    unfold exbOf
    rw [q1]
    simp only
    split_ifs
    · exact exb_line_potential hcomm n b phi k hj
    · rfl
  have x0 : ∀ (c : Prop) (n : F3 nz) (b : Bool), exbOf g B c f n b false i j k = 0 := by
    intro c n b
    unfold exbOf
    rw [hphi]
    rfl
  have eN : rN' i j k = rN i j k := by
    obtain ⟨d, Sn, a1, a2, -, -, -, a3⟩ := densityRhs_ok h1
    obtain ⟨d', Sn', b1, b2, -, -, -, b3⟩ := densityRhs_ok h1'
    rw [a1] at b1; rw [a2] at b2
    cases b1; cases b2
    rw [hsc] at a3
    rw [q4] at b3
    simp only at a3 b3
    rw [a3, b3]
    unfold total parPart flutterPart exbPart
    simp only [Pi.add_apply, Pi.sub_apply, Pi.neg_apply, hpN, x, x0, q5, q3, hA']
  have eE : rE' i j k = rE i j k := by
    obtain ⟨P, T, N1, V1, A1, w, c, a1, a2, a3, a4, a5, a6, a7, a8⟩ := energyRhs_ok h3
    obtain ⟨P', T', N1', V1', A1', w', c', b1, b2, b3, b4, b5, b6, b7, b8⟩ := energyRhs_ok h3'
    rw [a1] at b1; rw [a2] at b2; rw [a3] at b3; rw [a4] at b4; rw [a5] at b5
    cases b1; cases b2; cases b3; cases b4; cases b5
    have b6' : waveSpeed s f = .ok w' := q5 ▸ b6
    rw [a6] at b6'
    cases b6'
    have b7' : energyConduction oE g B s f P T N1 A1 = .ok c' := by
      unfold energyConduction at b7 ⊢
      rw [q3] at b7
      rw [hA']
      exact b7
    rw [a7] at b7'
    cases b7'
    rw [hsc] at a8
    rw [q4] at b8
    simp only at a8 b8
    rw [a8, b8]
    unfold energyTerms energyAdvection
    rw [q3, hA']
    simp only [Pi.add_apply, Pi.neg_apply, hpE, x, x0]
  have eM : rM' i j k = rM i j k - Z * N i j k * B.gradPar (fun _ j _ => phi j) i j k := by
    obtain ⟨A1, NV, N1, w, V1, low, a1, a2, a3, a4, a5, a6, a7⟩ := MomentumEquation.momentumRhs_ok h2
    obtain ⟨A1', NV', N1', w', V1', low', b1, b2, b3, b4, b5, b6, b7⟩ := MomentumEquation.momentumRhs_ok h2'
    rw [a1] at b1; rw [a2] at b2; rw [a3] at b3; rw [a5] at b5
    cases b1; cases b2; cases b3; cases b5
    rw [a6] at b6
    cases b6
    have b4' : waveSpeed s f = .ok w' := q5 ▸ b4
    rw [a4] at b4'
    cases b4'
    rw [hN] at a3
    cases a3
    rw [hsc] at a7
    rw [q4] at b7
    simp only at a7 b7
    rw [a7, b7]
    have m0 : momentumElectric oM g B lim s f NV N V1 w = 0 := by unfold momentumElectric; rw [hphi]
    have m1 : momentumElectric oM g B lim s f' NV N V1 w i j k =
        -(Z * N i j k * B.gradPar (fun _ j _ => phi j) i j k) := by
      unfold momentumElectric
      rw [q1, hZ]
      simp only
      rw [if_neg hZ0, hpM]
      have p1 : momentumApar oM g B lim s f' Z (fun _ j _ => phi j) N V1 w = 0 := by
        unfold momentumApar; rw [q2]
      have p2 : momentumPhiFlutter B f' Z (fun _ j _ => phi j) N = 0 := by
        unfold momentumPhiFlutter; rw [q3]
      rw [p1, p2]
      simp only [Pi.add_apply, Pi.sub_apply, Pi.neg_apply, Pi.smul_apply, Pi.mul_apply, Pi.zero_apply, exb_line_potential hcomm NV _ phi k hj,
        smul_eq_mul]
      ring
    have m2 : momentumFlutter g B s f' NV V1 = momentumFlutter g B s f NV V1 := by unfold momentumFlutter; rw [q3, hA']
    rw [m0, m2]
    simp only [Pi.add_apply, Pi.sub_apply, Pi.zero_apply, m1]
    ring
  refine ⟨eE, ?_⟩
  unfold thermalRate
  rw [eN, eE, eM]
  ring

/-! ### Reactions -/

/-- What the energy equation adds to `E` for the sources that a component contributed: `energy_source + V momentum_source`. -/
noncomputable def energyGain {ι : Type} (w : World ι) (after : Store Key (Fld ι)) (s : String) (i : ι) : ℝ :=
  gain w.st after s Var.energy_source i + velocity w s i * gain w.st after s Var.momentum_source i

/-- It is what `energyEqSources` adds for these gains. -/
theorem energyGain_spec (V a b : F3 nz) (s : SpeciesIn nz) :
    energyEqSources 0 V { s with energy_source := some a, momentum_source := some b } = a + V * b := by
  simp [energyEqSources]

/-- An ionisation or recombination conserves the energy of the heavy species when it is `3/2 p + 1/2 m n V²` with an evolving pressure
(`amjuel_conserves`), because the energy source contains the heat of mixing `1/2 m (V₁ - V₂)²`.  In the energy equation this heat comes in again
through the change of the density: the energy of the two species grows at the rate `1/2 m (V₂² - V₁²) R`. -/
theorem reaction_energy_not_conserved {ι : Type} (nm : Norms) (rate rad : ℝ → ℝ → ℝ) (heat kr kR : ℝ) (e fr dst : String)
    (hef : e ≠ fr) (hed : e ≠ dst) (hfd : fr ≠ dst) (w : World ι) (r : ElectronReaction ι)
    (hr : electronReaction nm rate rad heat kr kR e fr dst w = .ok r) (hu : SourcesUnread w.st)
    (he : w.num e Var.charge = some (-1)) :
    let t := (Reactions.amjuel nm rate rad heat kr kR e fr dst).transform w
    t.1 = .ok () ∧ ∀ i, totalEnergyRate w t.2 fr i + totalEnergyRate w t.2 dst i = 0 ∧
      energyGain w t.2 fr i + energyGain w t.2 dst i = 1 / 2 * mass w dst * (velocity w dst i ^ 2 - velocity w fr i ^ 2) * r.reaction_rate i := by
  intro t
  have h := Reactions.amjuel_conserves nm rate rad heat kr kR e fr dst hef hed hfd w r hr hu he
  obtain ⟨-, -, -, -, -, -, A, -, -, -, -, -, -, hA1, hA2, -⟩ := Reactions.electronReaction_ok hr
  refine ⟨h.1, fun i => ?_⟩
  obtain ⟨a1, -, -, -, a5, -, a7⟩ := h.2.2 i
  refine ⟨a5, ?_⟩
  have m : mass w fr = mass w dst := by unfold mass; rw [hA1, hA2]
  unfold totalEnergyRate at a5
  unfold energyGain
  rw [m] at a5
  rw [← a7]
  linear_combination a5 + 1 / 2 * mass w dst * velocity w fr i ^ 2 * a1

/-- Deuterium atoms at rest that become ions moving with velocity 1: energy is created. -/
theorem ionisation_creates_energy : ∃ (nm : Norms) (w : World (Fin 1)),
    let t := (Reactions.amjuel nm (fun _ _ => 1) (fun _ _ => 0) 0 1 1 "e" "d" "d+").transform w
    t.1 = .ok () ∧ totalEnergyRate w t.2 "d" 0 + totalEnergyRate w t.2 "d+" 0 = 0 ∧ energyGain w t.2 "d" 0 + energyGain w t.2 "d+" 0 = 1 := by
  obtain ⟨r, hr⟩ := Reactions.demo_electron ⟨1, 1, 1⟩ (fun _ _ => 1) (fun _ _ => 0) 0 1 1 (fun _ => 1) (fun _ => 1)
    (fun s => if s = "d" then 0 else 1)
  have h := reaction_energy_not_conserved ⟨1, 1, 1⟩ (fun _ _ => 1) (fun _ _ => 0) 0 1 1 "e" "d" "d+" (by decide) (by decide) (by decide)
    _ r hr (Reactions.demo_unread _ _ _) (Reactions.demo_charges _ _ _).2.2
  refine ⟨_, _, h.1, (h.2 0).1, (h.2 0).2.trans ?_⟩
  obtain ⟨Ne, Te, N1, T1, V1, V2, A, h1, h2, h3, -, -, -, -, -, ev, -, rfl⟩ := Reactions.electronReaction_ok hr
  simp only [Reactions.demo, Option.some.injEq] at h1 h2 h3
  subst h1 h2 h3
  simp only [electronReactionOf, Reactions.demo_avg3]
  simp [Reactions.demo, mass, velocity]

/-! ## The conditions are met -/

noncomputable def eOpts : EnergyOpts := { bndry_flux := false, kappa_coefficient := 3, kappa_limit_alpha := 0.2, hyper_z := 1 }

noncomputable def eSpecies : SpeciesIn 3 :=
  { AA := some 2, charge := some 1, velocity := some outerFlow, density := some 1, pressure := some peak, temperature := some peak,
    collision_frequency := some 1, energy_source := some 1, momentum_source := some outerFlow }

theorem e_runs : ∃ r, energyRhs eOpts boxGrid (plainRhs 3) mc peak 0 eSpecies (boxFields none) = .ok r := by
  have h : ∃ k, energyKappa eOpts (plainRhs 3) peak peak 1 1 2 = .ok k := by
    unfold energyKappa
    simp only
    rw [if_pos (by norm_num [eOpts]), if_neg]
    · exact ⟨_, rfl⟩
    · rintro ⟨i, j, k, h⟩
      unfold peak at h
      split_ifs at h <;> norm_num at h
  obtain ⟨kap, hk⟩ := h
  have hc : ∃ c, energyConduction eOpts boxGrid (plainRhs 3) eSpecies (boxFields none) peak peak 1 2 = .ok c := by
    unfold energyConduction
    rw [if_pos (show eOpts.thermal_conduction = true from rfl)]
    simp only [eSpecies, need, boxFields]
    show ∃ c, (energyKappa eOpts (plainRhs 3) peak peak 1 1 2 >>= _) = .ok c
    rw [hk]
    exact ⟨_, rfl⟩
  obtain ⟨c, hc⟩ := hc
  unfold energyRhs
  show ∃ r, (energyConduction eOpts boxGrid (plainRhs 3) eSpecies (boxFields none) peak peak 1 2 >>= _) = .ok r
  rw [hc]
  exact ⟨_, rfl⟩

theorem e_sides (E P T N : F3 3) (AA : ℝ) : Sides eOpts boxGrid (plainRhs 3) eSpecies (boxFields none) E P T N AA where
  radial := rfl
  lines i hi := Or.inl ⟨rfl, rfl, rfl, fun V hV => by cases hV⟩
  lowN c hc := by cases hc

theorem e_closed (E P w : F3 3) (i : ℤ) (hi : boxGrid.xstart ≤ i ∧ i ≤ boxGrid.xend) :
    ColumnClosed boxGrid (plainRhs 3) (some outerFlow) none (E + P) (Eq w) i := by
  rcases (closed_box none (o := closedOpts) rfl rfl peak).lines i hi with h | h
  · exact Or.inl h
  · exact absurd h.1.periodic (by simp [plainRhs, ExB.plainOps])

/-- A flow of which the energy grows by the heat source `12` and by the work of the momentum source `6`. -/
example : ∃ r, energyRhs eOpts boxGrid (plainRhs 3) mc peak 0 eSpecies (boxFields none) = .ok r ∧ content boxGrid r = 18 := by
  obtain ⟨r, hr⟩ := e_runs
  refine ⟨r, hr, ?_⟩
  rw [energy_conserved_partial (P := peak) (T := peak) (N := 1) (V := outerFlow) (AA := 2) (w := 1) boxGrid_regular boxGrid_separable (plainRhs_assumed 3)
    rfl rfl rfl rfl rfl rfl rfl rfl (e_sides _ _ _ _ _) (fun i hi => e_closed _ _ _ i hi) hr]
  have hI : Icc (2 : ℤ) 3 = {2, 3} := by decide
  have hJ : Icc boxGrid.ystart boxGrid.yend = {2, 3} := hI
  have hK : Icc boxGrid.xstart boxGrid.xend = {2, 3} := hI
  simp only [content, hJ, hK, eSpecies, Option.getD_some]
  norm_num [volume, boxGrid, outerFlow]

/-- `3/2 p + 1/2 m n V²` of the flow with mass 2 and density 1. -/
noncomputable def flowEnergy : F3 3 := fun i j k => 3 / 2 * peak i j k + 1 / 2 * 2 * 1 * outerFlow i j k ^ 2

/-- Full statement fails with magnetic flutter: energy leaves a closed domain along the bent field, because `finally` calls `Div_n_g_bxGrad_f_B_XZ`
without its `bndry_flux` argument.  No sources, no conduction; the energy is that of the pressure and the flow. -/
theorem flutter_takes_energy : ∃ (o : EnergyOpts) (s : SpeciesIn 3) (f : FieldsIn 3) (r : F3 3),
    s.pressure = some peak ∧ s.density = some 1 ∧ s.velocity = some outerFlow ∧ s.AA = some 2 ∧ o.Cv = 3 / 2 ∧
    Sides o boxGrid (plainRhs 3) s f (energyBoundary boxGrid (plainRhs 3) o.Cv 2 peak 1 outerFlow flowEnergy) peak peak 1 2 ∧
    (∀ E P w i, boxGrid.xstart ≤ i ∧ i ≤ boxGrid.xend → ColumnClosed boxGrid (plainRhs 3) s.velocity none (E + P) (Eq w) i) ∧
    s.energy_source = none ∧ s.momentum_source = none ∧ f.scale_timederivs = none ∧
    energyRhs o boxGrid (plainRhs 3) mc flowEnergy 0 s f = .ok r ∧ content boxGrid r < 0 := by
  let o : EnergyOpts := { eOpts with thermal_conduction := false }
  let s : SpeciesIn 3 := { eSpecies with energy_source := none, momentum_source := none }
  have hi : ∀ E, Sides o boxGrid (plainRhs 3) s (boxFields (some bend)) E peak peak 1 2 := fun E => {
    radial := rfl
    lines := fun i hi => Or.inl ⟨rfl, rfl, rfl, fun V hV => by cases hV⟩
    lowN := fun c hc => by cases hc }
  obtain ⟨r, hr⟩ : ∃ r, energyRhs o boxGrid (plainRhs 3) mc flowEnergy 0 s (boxFields (some bend)) = .ok r := ⟨_, rfl⟩
  refine ⟨o, s, boxFields (some bend), r, rfl, rfl, rfl, rfl, ?_, hi _, fun E P w i hi => e_closed E P w i hi, rfl, rfl, rfl, hr, ?_⟩
  · rfl
  rw [energy_balance (P := peak) (T := peak) (N := 1) (V := outerFlow) (AA := 2) (w := 1) boxGrid_regular boxGrid_separable (plainRhs_assumed 3)
    rfl rfl rfl rfl rfl rfl rfl (hi _) hr]
  have z := content_parMod_closed boxGrid_regular boxGrid_separable (plainRhs_assumed 3).shifts mc (w := 1) (V := outerFlow) rfl
    (fun i hi => e_closed (energyBoundary boxGrid (plainRhs 3) o.Cv 2 peak 1 outerFlow flowEnergy) peak 1 i hi)
  rw [content_parMod boxGrid_regular boxGrid_separable (plainRhs_assumed 3).shifts] at z
  have h1 : flutterHeat o boxGrid (plainRhs 3) s (boxFields (some bend)) peak peak 1 2 = 0 := rfl
  have h2 : outerFlow * s.momentum_source.getD 0 = 0 := mul_zero _
  have h3 : s.energy_source.getD 0 = 0 := rfl
  unfold endOutflow
  rw [z, h1, h2, h3, content_zero]
  set F := energyBoundary boxGrid (plainRhs 3) o.Cv 2 peak 1 outerFlow flowEnergy + peak with hF
  have hFv : ∀ i j k, j = 2 ∨ j = 3 → F i j k = 5 / 2 * peak i j k + outerFlow i j k ^ 2 := by
    intro i j k hj
    rw [hF]
    have : energyBoundary boxGrid (plainRhs 3) o.Cv 2 peak 1 outerFlow flowEnergy i j k = flowEnergy i j k := by
      simp only [energyBoundary, plainRhs, ExB.plainOps]
      rw [if_neg (by rcases hj with rfl | rfl <;> norm_num [boxGrid]), if_neg (by rcases hj with rfl | rfl <;> norm_num [boxGrid])]
    rw [Pi.add_apply, Pi.add_apply, Pi.add_apply, this]
    unfold flowEnergy
    ring
  have e : ∀ j, j = 2 ∨ j = 3 → ∀ k : Fin 3, (boxGrid.exbFaceX F outerFlow (-bend) true boxGrid.xend j k
      - boxGrid.exbFaceX F outerFlow (-bend) true (boxGrid.xstart - 1) j k)
      * (boxGrid.dy boxGrid.xstart j * boxGrid.dz boxGrid.xstart j) = if k = 0 then 3 else if k = 2 then -1 / 2 else 0 := by
    intro j hj k
    have hc : ∀ c : ℝ, mc c c c = (c, c) := constant_exact mc_monotone
    have m1 : mc 5 6 6 = (6, 6) := by norm_num [mc, minmod3]
    have m2 : mc 0 1 1 = (1, 1) := by norm_num [mc, minmod3]
    rcases hj with rfl | rfl <;> fin_cases k <;>
      norm_num [Grid.exbFaceX, boxGrid, Grid.exbRight, Grid.exbLeft, Grid.vR, Grid.vL, cornerPP, cornerPM, cornerMP, cornerMM, outerFlow, peak, hc,
        m1, m2, hFv, bend, Fin.ext_iff, Fin.val_add, Fin.val_sub]
  have hI : Icc (2 : ℤ) 3 = {2, 3} := by decide
  have hJ : Icc boxGrid.ystart boxGrid.yend = {2, 3} := hI
  have hout : flutterOut boxGrid (boxFields (some bend)) F outerFlow = 5 := by
    show PressureEquation.radialOutflow boxGrid F outerFlow (-bend) = 5
    unfold PressureEquation.radialOutflow
    rw [hJ, Finset.sum_pair (by norm_num), Finset.sum_congr rfl fun k _ => e 2 (Or.inl rfl) k,
      Finset.sum_congr rfl fun k _ => e 3 (Or.inr rfl) k]
    simp only [Fin.sum_univ_three]
    rw [if_pos trivial, if_neg (show ¬((1 : Fin 3) = 0) by decide), if_neg (show ¬((1 : Fin 3) = 2) by decide),
      if_neg (show ¬((2 : Fin 3) = 0) by decide), if_pos trivial]
    norm_num
  rw [hout]
  norm_num

/-- Uniform flow towards the upper wall: `5/2 · 2 + 1/2 · 2 · 1 · 3² = 14` per particle flux 3. -/
example : parFlow boxGrid (plainRhs 3) mc (energyBoundary boxGrid (plainRhs 3) (3 / 2) 2 2 1 3 0 + 2) 3 1 2 4 0 = 42 := by
  have h := (wall_energy_flow_partial (g := boxGrid) boxGrid_regular (B := plainRhs 3) (fun _ => rfl) (fun _ => rfl) mc (3 / 2) 2 0 2 1 3 1 (i := 2) rfl
    rfl rfl 0).1
  have e : boxGrid.yend + 1 = 4 := by norm_num [boxGrid]
  rw [e] at h
  rw [h]
  norm_num [energyFlux, between, faceArea, boxGrid, plainRhs]

/-- The conditions of `electric_work_missing`, with work that is not zero. -/
example : ∃ (rN rN' rM rM' rE rE' : F3 1), let s : SpeciesIn 1 := { MomentumEquation.collideSpecies with charge := some 1 }
    let f : FieldsIn 1 := { fastest_wave := some 0 }
    let oE : EnergyOpts := { poloidal_flows := false, thermal_conduction := false, kappa_coefficient := 3 }
    let f' : FieldsIn 1 := { f with phi := some fun _ j _ => (j : ℝ) }
    densityRhs { MomentumEquation.oN with poloidal_flows := false } boxGrid (plainRhs 1) upwind 1 s f = .ok rN ∧
    densityRhs { MomentumEquation.oN with poloidal_flows := false } boxGrid (plainRhs 1) upwind 1 s f' = .ok rN' ∧
    momentumRhs { MomentumEquation.oM with poloidal_flows := false } boxGrid (plainRhs 1) upwind 0 s f = .ok rM ∧
    momentumRhs { MomentumEquation.oM with poloidal_flows := false } boxGrid (plainRhs 1) upwind 0 s f' = .ok rM' ∧
    energyRhs oE boxGrid (plainRhs 1) upwind 2 0 s f = .ok rE ∧ energyRhs oE boxGrid (plainRhs 1) upwind 2 0 s f' = .ok rE' ∧
    rE' 2 2 0 = rE 2 2 0 ∧ thermalRate 1 MomentumEquation.collide rN' rM' rE' 2 2 0 - thermalRate 1 MomentumEquation.collide rN rM rE 2 2 0 = 1 := by
  refine ⟨_, _, _, _, _, _, rfl, rfl, rfl, rfl, rfl, rfl, ?_⟩
  have h := electric_work_missing (oN := { MomentumEquation.oN with poloidal_flows := false })
    (oM := { MomentumEquation.oM with poloidal_flows := false })
    (oE := { poloidal_flows := false, thermal_conduction := false, kappa_coefficient := 3 }) (g := boxGrid) (B := plainRhs 1) (fun _ => rfl) (lim := upwind)
    (N₀ := 1) (NV_err := 0) (E₀ := 2) (source := 0) (N := 1) (V := MomentumEquation.collide)
    (s := { MomentumEquation.collideSpecies with charge := some 1 }) (f := { fastest_wave := some 0 }) (Z := 1) (AA := 1) (phi := fun j => (j : ℝ)) rfl rfl rfl
    rfl rfl rfl rfl rfl rfl one_ne_zero rfl rfl rfl rfl rfl rfl rfl rfl (i := 2) (j := 2) 0 (by norm_num [boxGrid])
  refine ⟨h.1, h.2.trans ?_⟩
  norm_num [MomentumEquation.collide, plainRhs]

end Hermes.EnergyEquation
