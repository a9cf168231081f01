import Verif.Model.RhsMomentum
import Verif.Lemmas.RhsClosed
import Verif.Props.DensityEquation
import Mathlib.Tactic.LinearCombination

/-!
# C61: the pressure equation

`pressureRhs o g B lim P₀ source s f` is the `ddt(P)` that `EvolvePressure::finally` gives to the time integrator.  The
thermal energy is `(3/2) ∫ P`.
-/

namespace Hermes.PressureEquation
open Finset Hermes Hermes.Limiters Hermes.PerpOps Hermes.Rhs Hermes.DensityEquation

variable {nz : ℕ} [NeZero nz]

/-- What a successful evaluation computes. -/
theorem pressureRhs_ok {o : PressureOpts} {g : Grid} {B : RhsOps nz} {lim : Limiter} {P₀ source : F3 nz} {s : SpeciesIn nz}
    {f : FieldsIn nz} {r : F3 nz} (h : pressureRhs o g B lim P₀ source s f = .ok r) :
    ∃ pressure T N adv cond, s.pressure = some pressure ∧ s.temperature = some T ∧ s.density = some N ∧
      pressureAdvection o g B lim s f (B.setBoundaryTo P₀ pressure) N = .ok adv ∧
      pressureConduction o g B s f (B.setBoundaryTo P₀ pressure) T N = .ok cond ∧
      r = match f.scale_timederivs with
        | none => -exbOf g B s.isCharged f (B.setBoundaryTo P₀ pressure) o.bndry_flux o.poloidal_flows + adv
            + pressureLow o g B s (B.setBoundaryTo P₀ pressure) T N + cond + pressureHyper o (B.setBoundaryTo P₀ pressure) T
            + pressureSources source s + (N * T - B.setBoundaryTo P₀ pressure)
        | some sc => (-exbOf g B s.isCharged f (B.setBoundaryTo P₀ pressure) o.bndry_flux o.poloidal_flows + adv
            + pressureLow o g B s (B.setBoundaryTo P₀ pressure) T N + cond + pressureHyper o (B.setBoundaryTo P₀ pressure) T
            + pressureSources source s + (N * T - B.setBoundaryTo P₀ pressure)) * sc := by
  unfold pressureRhs at h
  obtain ⟨pressure, h1, h⟩ := except_bind_ok h
  obtain ⟨T, h2, h⟩ := except_bind_ok h
  obtain ⟨N, h3, h⟩ := except_bind_ok h
  obtain ⟨adv, h4, h⟩ := except_bind_ok h
  obtain ⟨cond, h5, h⟩ := except_bind_ok h
  refine ⟨pressure, T, N, adv, cond, need_ok h1, need_ok h2, need_ok h3, h4, h5, ?_⟩
  cases hsc : f.scale_timederivs with
  | none => rw [hsc] at h; cases h; rfl
  | some sc => rw [hsc] at h; cases h; rfl

/-! ## Thermal energy -/

/-- Work done on the species by its own flow: `V ∇P`, or `-P ∇·V` in the other form. -/
noncomputable def work (o : PressureOpts) (B : RhsOps nz) (s : SpeciesIn nz) (P : F3 nz) : F3 nz :=
  match s.velocity with
  | none => 0
  | some V => if o.p_div_v then -(floor3 P 0 * B.divPar V) else V * B.gradPar P

/-- Heating by numerical viscosity. -/
noncomputable def viscousHeating (o : PressureOpts) (g : Grid) (B : RhsOps nz) (lim : Limiter) (s : SpeciesIn nz) (f : FieldsIn nz)
    (N : F3 nz) : F3 nz :=
  match s.velocity, waveSpeed s f, s.AA with
  | some V, .ok w, some AA => if o.numerical_viscous_heating then
      AA • g.fvvHeating3 B lim (floor3 N o.density_floor) V w o.fix_momentum_boundary_flux else 0
  | _, _, _ => 0

/-- The fields that, apart from pressure and velocity, have to repeat on periodic lines. -/
def Other (o : PressureOpts) (g : Grid) (B : RhsOps nz) (s : SpeciesIn nz) (f : FieldsIn nz) (P T N q : F3 nz) : Prop :=
  waveSpeed s f = .ok q ∨ q = T ∨
    ∃ kappa nu AA, s.collision_frequency = some nu ∧ s.AA = some AA ∧ kappaPar o B P T N nu AA = .ok kappa ∧ q = kappaGuard g B kappa

/-- A domain that no heat should leave. -/
structure Insulated (o : PressureOpts) (g : Grid) (B : RhsOps nz) (s : SpeciesIn nz) (f : FieldsIn nz) (P T N : F3 nz) : Prop where
  radial : o.bndry_flux = false
  lines : ∀ i, g.xstart ≤ i ∧ i ≤ g.xend → ColumnClosed g B s.velocity f.phi P (Other o g B s f P T N) i
  lowN : ∀ c, s.low_n_coeff = some c → content g (B.divParK (c * T) N) = 0 ∧ content g (B.divParK c P) = 0
  flatP : o.low_n_diffuse_perp = true ∨ o.low_p_diffuse_perp = true → ZeroGradientX g P
  flatT : o.low_T_diffuse_perp = true → ZeroGradientX g T

theorem content_lap_flat {g : Grid} (hg : Regular g) (hs : Separable g) (a : F3 nz) {F : F3 nz} (h : ZeroGradientX g F) :
    content g (g.perpLapIndex a F) = 0 := by
  rw [content_perpLap hg hs]
  exact lapInflow_zero h

theorem content_low {o : PressureOpts} {g : Grid} (hg : Regular g) (hs : Separable g) {B : RhsOps nz} {s : SpeciesIn nz}
    {f : FieldsIn nz} {P T N : F3 nz} (hi : Insulated o g B s f P T N) : content g (pressureLow o g B s P T N) = 0 := by
  unfold pressureLow
  rw [content_add, content_add, content_add]
  have hz : ∀ {a b c d : ℝ}, a = 0 → b = 0 → c = 0 → d = 0 → a + b + c + d = 0 := by
    rintro a b c d rfl rfl rfl rfl
    norm_num
  refine hz ?_ ?_ ?_ ?_
  · cases hc : s.low_n_coeff with
    | none => exact content_zero g
    | some c =>
      simp only
      rw [content_add, (hi.lowN c hc).1, (hi.lowN c hc).2, add_zero]
  · split_ifs with h
    · exact content_lap_flat hg hs _ (hi.flatP (Or.inl h))
    · exact content_zero g
  · split_ifs with h
    · rw [content_smul', content_lap_flat hg hs _ (hi.flatT h), mul_zero]
    · exact content_zero g
  · split_ifs with h
    · exact content_lap_flat hg hs _ (hi.flatP (Or.inr h))
    · exact content_zero g

theorem content_pressureHyper (g : Grid) (o : PressureOpts) (P T : F3 nz) : content g (pressureHyper o P T) = 0 := by
  have d : ∀ F : F3 nz, content g (d4dz4Index F) = 0 := by
    intro F
    rw [← content_zero (nz := nz) g]
    refine content_congr fun i j _ _ => ?_
    rw [d4dz4Index_conserves]
    simp
  unfold pressureHyper
  rw [content_add]
  split_ifs <;> simp [content_neg, content_smul', d, content_zero]

/-- What flows out through the radial boundaries along a field perturbed by `A`, if `F V` flows along it. -/
noncomputable def radialOutflow (g : Grid) (F V A : F3 nz) : ℝ :=
  ∑ j ∈ Icc g.ystart g.yend, ∑ k, (g.exbFaceX F V A true g.xend j k - g.exbFaceX F V A true (g.xstart - 1) j k)
    * (g.dy g.xstart j * g.dz g.xstart j)

/-- Enthalpy `5/2 P V` that leaves along the perturbed field. -/
noncomputable def flutterEnthalpy (g : Grid) (s : SpeciesIn nz) (f : FieldsIn nz) (P : F3 nz) : ℝ :=
  match s.velocity, f.Apar_flutter with
  | some V, some A => 5 / 2 * radialOutflow g P V (-A)
  | _, _ => 0

/-- Work that the flow along the perturbed field does, `V b·∇P`. -/
noncomputable def flutterWork (B : RhsOps nz) (s : SpeciesIn nz) (f : FieldsIn nz) (P : F3 nz) : F3 nz :=
  match s.velocity, f.Apar_flutter with
  | some V, some A => V * B.bracket P A
  | _, _ => 0

/-- Heat conducted into the domain because the field is perturbed: along the lines, and through the radial boundaries. -/
noncomputable def flutterHeat (o : PressureOpts) (g : Grid) (B : RhsOps nz) (s : SpeciesIn nz) (f : FieldsIn nz) (P T N : F3 nz) : ℝ :=
  match o.thermal_conduction, s.collision_frequency, s.AA, f.Apar_flutter with
  | true, some nu, some AA, some A => match kappaPar o B P T N nu AA with
    | .ok kappa => content g (B.divPar (kappaGuard g B kappa * B.neumann (B.bracket T A)))
        - radialOutflow g (kappaGuard g B kappa) (B.neumann (B.bracket T A) + B.neumann (B.gradPar T)) A
    | .error _ => 0
  | _, _, _, _ => 0

/-- C61.  Thermal energy of an insulated domain: it changes by the sources, by the work done by the flow, by the numerical
viscous heating, by the relaxation towards `N T` and by what a perturbed magnetic field carries through the radial boundaries; advection, ExB flow,
conduction and dissipation only move it.  For every state, geometry, limiter and choice of the remaining options. -/
theorem thermal_energy_balance {o : PressureOpts} {g : Grid} (hg : Regular g) (hs : Separable g) {B : RhsOps nz}
    (hB : Assumed g B) {lim : Limiter} {P₀ source pressure T N : F3 nz} {s : SpeciesIn nz} {f : FieldsIn nz}
    (hsc : f.scale_timederivs = none) (hp : s.pressure = some pressure) (hT : s.temperature = some T)
    (hN : s.density = some N) (hi : Insulated o g B s f (B.setBoundaryTo P₀ pressure) T N) {r : F3 nz}
    (h : pressureRhs o g B lim P₀ source s f = .ok r) :
    3 / 2 * content g r = 3 / 2 * content g source + content g (s.energy_source.getD 0)
      + content g (work o B s (B.setBoundaryTo P₀ pressure)) + content g (viscousHeating o g B lim s f N)
      + 3 / 2 * content g (N * T - B.setBoundaryTo P₀ pressure)
      + (content g (flutterWork B s f (B.setBoundaryTo P₀ pressure)) - flutterEnthalpy g s f (B.setBoundaryTo P₀ pressure)
        + flutterHeat o g B s f (B.setBoundaryTo P₀ pressure) T N) := by
  obtain ⟨p', T', N', adv, cond, hp', hT', hN', ha, hc, hr⟩ := pressureRhs_ok h
  rw [hp] at hp'; rw [hT] at hT'; rw [hN] at hN'
  cases hp'; cases hT'; cases hN'
  rw [hsc] at hr
  simp only at hr
  set P := B.setBoundaryTo P₀ pressure
  have e1 : content g (exbOf g B s.isCharged f P o.bndry_flux o.poloidal_flows) = 0 := by
    rw [hi.radial]
    exact content_exbOf_closed hg hs hB.shifts hB.one hi.lines _
  have e2 : 3 / 2 * content g adv = content g (work o B s P) + content g (viscousHeating o g B lim s f N)
      + (content g (flutterWork B s f P) - flutterEnthalpy g s f P) := by
    unfold pressureAdvection at ha
    have hl := hi.lines
    cases hv : s.velocity with
    | none =>
      rw [hv] at ha
      cases ha
      simp [work, viscousHeating, flutterWork, flutterEnthalpy, hv, content_zero]
    | some V =>
      rw [hv] at ha hl
      obtain ⟨w, hw, ha⟩ := except_bind_ok ha
      obtain ⟨heat, hh, ha⟩ := except_bind_ok ha
      cases ha
      have z := content_parMod_closed hg hs hB.shifts lim (w := w) (Or.inl hw) hl
      have zf : 3 / 2 * content g (pressureFlutter g B f P V) = content g (flutterWork B s f P) - flutterEnthalpy g s f P := by
        unfold pressureFlutter flutterWork flutterEnthalpy
        rw [hv]
        cases f.Apar_flutter with
        | none => simp [content_zero]
        | some A =>
          simp only
          rw [content_add, content_neg, content_smul', content_smul', content_divNG hg hs hB.one]
          unfold radialOutflow
          ring
      have eh : 3 / 2 * content g heat = content g (viscousHeating o g B lim s f N) := by
        unfold viscousHeating
        rw [hv, hw]
        unfold pressureHeating at hh
        cases hn : o.numerical_viscous_heating with
        | false =>
          rw [hn] at hh
          have hz : heat = 0 := by
            cases hd : o.diagnose with
            | false => rw [hd] at hh; cases hh; rfl
            | true =>
              rw [hd] at hh
              obtain ⟨AA, -, hh⟩ := except_bind_ok hh
              cases hh
              rfl
          rw [hz]
          cases s.AA <;> simp [content_zero]
        | true =>
          rw [hn] at hh
          obtain ⟨AA, hAA, hh⟩ := except_bind_ok hh
          cases hh
          rw [need_ok hAA]
          simp only [if_true]
          rw [content_smul', content_smul']
          ring
      rw [content_add, content_add, mul_add, mul_add, eh, zf]
      rw [add_right_comm]
      congr 2
      unfold pressureFlow work
      rw [hv]
      cases o.p_div_v with
      | false =>
        simp only [Bool.false_eq_true, if_false]
        rw [content_add, content_neg, content_smul', content_smul', z]
        ring
      | true =>
        simp only [if_true]
        rw [content_sub, content_neg, content_smul', content_neg, z]
        ring
  have e3 : 3 / 2 * content g cond = flutterHeat o g B s f P T N := by
    unfold pressureConduction at hc
    unfold flutterHeat
    cases ht : o.thermal_conduction with
    | false => rw [ht] at hc; cases hc; simp [content_zero]
    | true =>
      rw [ht, if_pos rfl] at hc
      obtain ⟨nu, hnu, hc⟩ := except_bind_ok hc
      obtain ⟨AA, hAA, hc⟩ := except_bind_ok hc
      obtain ⟨kappa, hk, hc⟩ := except_bind_ok hc
      have ez := content_conduction_closed hg hs hB.shifts (Or.inr (Or.inr ⟨kappa, nu, AA, need_ok hnu, need_ok hAA, hk, rfl⟩))
        (Or.inr (Or.inl rfl)) hi.lines
      rw [need_ok hnu, need_ok hAA]
      cases hA : f.Apar_flutter with
      | none =>
        rw [hA] at hc
        cases hc
        rw [content_smul', ez]
        simp
      | some A =>
        rw [hA] at hc
        cases hc
        simp only [hk]
        rw [content_add, content_smul', content_smul', ez, content_sub, content_divNG hg hs hB.one]
        unfold radialOutflow
        ring
  have e4 : 3 / 2 * content g (pressureSources source s) = 3 / 2 * content g source + content g (s.energy_source.getD 0) := by
    unfold pressureSources
    cases s.energy_source with
    | none => simp [content_zero]
    | some E =>
      simp only [Option.getD_some]
      rw [content_add, content_smul']
      ring
  rw [hr, content_add, content_add, content_add, content_add, content_add, content_add, content_neg, e1, content_low hg hs hi,
    content_pressureHyper]
  linear_combination e2 + e3 + e4

/-- C61.  Without magnetic flutter nothing leaves.  Partial: with it heat leaves (`flutter_takes_heat`). -/
theorem thermal_energy_balance_partial {o : PressureOpts} {g : Grid} (hg : Regular g) (hs : Separable g) {B : RhsOps nz}
    (hB : Assumed g B) {lim : Limiter} {P₀ source pressure T N : F3 nz} {s : SpeciesIn nz} {f : FieldsIn nz}
    (hsc : f.scale_timederivs = none) (hA : f.Apar_flutter = none) (hp : s.pressure = some pressure) (hT : s.temperature = some T)
    (hN : s.density = some N) (hi : Insulated o g B s f (B.setBoundaryTo P₀ pressure) T N) {r : F3 nz}
    (h : pressureRhs o g B lim P₀ source s f = .ok r) :
    3 / 2 * content g r = 3 / 2 * content g source + content g (s.energy_source.getD 0)
      + content g (work o B s (B.setBoundaryTo P₀ pressure)) + content g (viscousHeating o g B lim s f N)
      + 3 / 2 * content g (N * T - B.setBoundaryTo P₀ pressure) := by
  rw [thermal_energy_balance hg hs hB hsc hp hT hN hi h]
  have h1 : flutterWork B s f (B.setBoundaryTo P₀ pressure) = 0 := by unfold flutterWork; rw [hA]; cases s.velocity <;> rfl
  have h2 : flutterEnthalpy g s f (B.setBoundaryTo P₀ pressure) = 0 := by unfold flutterEnthalpy; rw [hA]; cases s.velocity <;> rfl
  have h3 : flutterHeat o g B s f (B.setBoundaryTo P₀ pressure) T N = 0 := by
    unfold flutterHeat
    rw [hA]
    cases o.thermal_conduction <;> cases s.collision_frequency <;> cases s.AA <;> rfl
  rw [h1, h2, h3, content_zero]
  ring

/-! ## Cold cells -/

theorem kappaPar_nonneg {o : PressureOpts} {g : Grid} {B : RhsOps nz} (hcomm : ∀ f, B.communicate f = f) (hk : 0 ≤ o.kappa_coefficient)
    {P T N nu kappa : F3 nz} {AA : ℝ} (hA : 0 < AA) (h : kappaPar o B P T N nu AA = .ok kappa) (i j : ℤ) (k : Fin nz) :
    0 ≤ kappaGuard g B kappa i j k := by
  have hf : ∀ i j k, 0 ≤ floor3 P 0 i j k := by
    intro i j k
    unfold floor3
    split_ifs with h
    · exact le_rfl
    · exact not_lt.1 h
  have hn : ∀ i j k, 0 < floor3 nu 1e-10 i j k := by
    intro i j k
    unfold floor3
    split_ifs with h
    · norm_num
    · exact lt_of_lt_of_le (by norm_num) (not_lt.1 h)
  have h0 : ∀ i j k, 0 ≤ o.kappa_coefficient * floor3 P 0 i j k * (1 / floor3 nu 1e-10 i j k) / AA := by
    intro i j k
    have := hf i j k
    have := hn i j k
    positivity
  have hkappa : ∀ i j k, 0 ≤ kappa i j k := by
    intro i j k
    unfold kappaPar at h
    simp only at h
    split_ifs at h with h1 h2
    · cases h
      rw [hcomm]
      exact div_nonneg (h0 i j k) (by positivity)
    · cases h
      exact h0 i j k
  unfold kappaGuard
  split_ifs <;> exact hkappa _ _ _

/-- C61.  With `p_div_v` the pressure of a cold cell is not driven below zero: in an inner cell with zero pressure and
temperature, where neither is negative anywhere, `ddt(P)` is at least the source, for every potential, velocity, limiter and
collision frequency.  Partial: without the poloidal part of the ExB flow, flutter, hyper-diffusion and numerical viscous heating,
for field-aligned coordinates that coincide with the grid. -/
theorem cold_cell_not_cooled_partial {o : PressureOpts} {g : Grid} (hg : Positive g) {B : RhsOps nz} (h22 : ∀ i j, 0 < B.g_22 i j)
    (hto : ∀ f, B.toFA f = f) (hfrom : ∀ f, B.fromFA f = f) (hcomm : ∀ f, B.communicate f = f)
    {lim : Limiter} (hl : MonotoneLim lim) {P₀ source pressure T N : F3 nz} {s : SpeciesIn nz} {f : FieldsIn nz}
    (hp : s.pressure = some pressure) (hT : s.temperature = some T) (hN : s.density = some N) (hAA : ∀ AA, s.AA = some AA → 0 < AA)
    (hdiv : o.p_div_v = true) (hpol : f.phi = none ∨ o.poloidal_flows = false) (hA : f.Apar_flutter = none) (hz : o.hyper_z ≤ 0)
    (hzT : o.hyper_z_T ≤ 0) (hvis : o.numerical_viscous_heating = false) (hlow : s.low_n_coeff = none) (hk : 0 ≤ o.kappa_coefficient)
    (hn0 : 0 < o.density_floor) (hp0 : 0 < o.pressure_floor) (hsc : f.scale_timederivs = none)
    (hP : ∀ i j k, 0 ≤ B.setBoundaryTo P₀ pressure i j k) (hTn : ∀ i j k, 0 ≤ T i j k) {i j : ℤ} {k : Fin nz}
    (hi : g.xstart ≤ i ∧ i ≤ g.xend) (hj : ParOps.Inner (g.line B i) j) (h0 : B.setBoundaryTo P₀ pressure i j k = 0)
    (hT0 : T i j k = 0) {r : F3 nz} (h : pressureRhs o g B lim P₀ source s f = .ok r) :
    source i j k + 2 / 3 * s.energy_source.getD 0 i j k ≤ r i j k := by
  obtain ⟨p', T', N', adv, cond, hp', hT', hN', ha, hc, hr⟩ := pressureRhs_ok h
  rw [hp] at hp'; rw [hT] at hT'; rw [hN] at hN'
  cases hp'; cases hT'; cases hN'
  rw [hsc] at hr
  simp only at hr
  set P := B.setBoundaryTo P₀ pressure
  have hL : ParOps.Positive (g.line B i) := ⟨hg.J i, h22 i, hg.dx i, hg.dy i, hg.dz i⟩
  have e1 : exbOf g B s.isCharged f P o.bndry_flux o.poloidal_flows i j k ≤ 0 := by
    unfold exbOf
    rcases hpol with h1 | h1
    · rw [h1]; exact le_rfl
    · cases f.phi with
      | none => exact le_rfl
      | some phi =>
        simp only
        split_ifs
        · unfold Grid.exbXPPM
          simp only [h1, hcomm]
          exact ExB.exb_empty_cell_not_drained hg P _ phi hP (fun _ _ _ => zero_le_one) _ k hi ⟨hj.1, hj.2.1⟩ h0
        · exact le_rfl
  have e2 : 0 ≤ adv i j k := by
    unfold pressureAdvection at ha
    cases hv : s.velocity with
    | none => rw [hv] at ha; cases ha; exact le_rfl
    | some V =>
      rw [hv] at ha
      obtain ⟨w, hw, ha⟩ := except_bind_ok ha
      obtain ⟨heat, hh, ha⟩ := except_bind_ok ha
      cases ha
      have zf : pressureFlutter g B f P V = 0 := by unfold pressureFlutter; rw [hA]
      have zh : heat = 0 := by
        unfold pressureHeating at hh
        rw [hvis] at hh
        cases hd : o.diagnose with
        | false => rw [hd] at hh; cases hh; rfl
        | true =>
          rw [hd] at hh
          obtain ⟨AA, -, hh⟩ := except_bind_ok hh
          cases hh
          rfl
      rw [zf, zh]
      unfold pressureFlow
      rw [hdiv]
      have z : (g.divParMod3 B lim P V w true) i j k ≤ 0 := by
        simp only [Grid.divParMod3, hfrom, Grid.parMod, hto]
        exact ParOps.empty_cell_not_drained hL hl _ _ _ hj (fun _ _ _ => hP _ _ _) h0
      have z2 : floor3 P 0 i j k = 0 := by unfold floor3; rw [h0]; simp
      simp only [if_true, Pi.add_apply, Pi.sub_apply, Pi.neg_apply, Pi.smul_apply, Pi.mul_apply, Pi.zero_apply, z2, zero_mul, smul_zero]
      linarith
  have e3 : 0 ≤ cond i j k := by
    unfold pressureConduction at hc
    cases ht : o.thermal_conduction with
    | false => rw [ht] at hc; cases hc; exact le_rfl
    | true =>
      rw [ht, if_pos rfl] at hc
      obtain ⟨nu, hnu, hc⟩ := except_bind_ok hc
      obtain ⟨AA, hA', hc⟩ := except_bind_ok hc
      obtain ⟨kappa, hka, hc⟩ := except_bind_ok hc
      rw [hA] at hc
      cases hc
      simp only [Pi.smul_apply, smul_eq_mul, Grid.conduction3, hfrom, hto]
      refine mul_nonneg (by norm_num) ?_
      refine (ParOps.conduction_downhill hL _ _ (fun _ => kappaPar_nonneg (g := g) hcomm hk (hAA AA (need_ok hA')) hka _ _ _) false j).2 ⟨?_, ?_⟩
      · simp only [alongY, hT0]; exact hTn _ _ _
      · simp only [alongY, hT0]; exact hTn _ _ _
  have fl : ∀ (P : F3 nz) (c : ℝ), 0 < c → ∀ i j k, 0 ≤ c / floor3 P (1e-3 * c) i j k := by
    intro P c hc i j k
    have : 0 < 1e-3 * c := by positivity
    unfold floor3
    split_ifs with h1
    · positivity
    · exact div_nonneg hc.le (this.le.trans (not_lt.1 h1))
  have e4 : 0 ≤ pressureLow o g B s P T N i j k := by
    unfold pressureLow
    rw [hlow]
    have hz : ∀ {a b c : ℝ}, 0 ≤ a → 0 ≤ b → 0 ≤ c → 0 ≤ 0 + a + b + c := by
      intro a b c ha hb hc
      linarith
    refine hz ?_ ?_ ?_
    · split_ifs
      · exact perpLapIndex_fills_minima hg _ _ (fl N _ hn0) k (h0.le.trans (hP _ _ _)) (h0.le.trans (hP _ _ _))
          (h0.le.trans (hP _ _ _)) (h0.le.trans (hP _ _ _))
      · exact le_rfl
    · split_ifs
      · simp only [Pi.smul_apply, smul_eq_mul]
        refine mul_nonneg (by norm_num) (perpLapIndex_fills_minima hg _ _ ?_ k (hT0.le.trans (hTn _ _ _)) (hT0.le.trans (hTn _ _ _))
          (hT0.le.trans (hTn _ _ _)) (hT0.le.trans (hTn _ _ _)))
        intro i j k
        simp only [floor3]
        split_ifs with a b b
        all_goals first | exact le_rfl | exact not_lt.1 b
      · exact le_rfl
    · split_ifs
      · exact perpLapIndex_fills_minima hg _ _ (fl P _ hp0) k (h0.le.trans (hP _ _ _)) (h0.le.trans (hP _ _ _))
          (h0.le.trans (hP _ _ _)) (h0.le.trans (hP _ _ _))
      · exact le_rfl
  have e5 : pressureHyper o P T i j k = 0 := by
    unfold pressureHyper
    rw [if_neg (not_lt.2 hz), if_neg (not_lt.2 hzT)]
    simp
  have e6 : pressureSources source s i j k = source i j k + 2 / 3 * s.energy_source.getD 0 i j k := by
    unfold pressureSources
    cases s.energy_source <;> simp
  rw [hr]
  simp only [Pi.add_apply, Pi.sub_apply, Pi.neg_apply, Pi.mul_apply]
  rw [e5, e6, h0, hT0, mul_zero]
  linarith

/-! ## Non-vacuity, and the default form -/

noncomputable def heatOpts : PressureOpts :=
  { bndry_flux := false, density_floor := 1, temperature_floor := 1, pressure_floor := 1, kappa_coefficient := 3, kappa_limit_alpha := 1 }

/-- Uniform density, pressure peaked in `z`, an outer column with flow. -/
noncomputable def heatSpecies : SpeciesIn 3 :=
  { AA := some 2, charge := some 1, velocity := some outerFlow, density := some 1, pressure := some peak, temperature := some peak,
    collision_frequency := some 1, energy_source := some 1 }

theorem heat_runs : ∃ r, pressureRhs heatOpts boxGrid (plainRhs 3) mc peak 0 heatSpecies (boxFields none) = .ok r := by
  have h : ∃ k, kappaPar heatOpts (plainRhs 3) peak peak 1 1 2 = .ok k := by
    unfold kappaPar
    simp only
    rw [if_pos (by norm_num [heatOpts]), if_neg]
    · exact ⟨_, rfl⟩
    · rintro ⟨i, j, k, h⟩
      unfold peak at h
      split_ifs at h <;> norm_num at h
  obtain ⟨kap, hk⟩ := h
  have hc : ∃ c, pressureConduction heatOpts boxGrid (plainRhs 3) heatSpecies (boxFields none) peak peak 1 = .ok c := by
    unfold pressureConduction
    rw [if_pos (show heatOpts.thermal_conduction = true from rfl)]
    simp only [heatSpecies, need, boxFields]
    show ∃ c, (kappaPar heatOpts (plainRhs 3) peak peak 1 1 2 >>= _) = .ok c
    rw [hk]
    exact ⟨_, rfl⟩
  obtain ⟨c, hc⟩ := hc
  unfold pressureRhs
  show ∃ r, (pressureConduction heatOpts boxGrid (plainRhs 3) heatSpecies (boxFields none) peak peak 1 >>= _) = .ok r
  rw [hc]
  exact ⟨_, rfl⟩

/-- The conditions of `thermal_energy_balance_partial`. -/
theorem heat_insulated : Insulated heatOpts boxGrid (plainRhs 3) heatSpecies (boxFields none) peak peak 1 where
  radial := rfl
  lines i hi := by
    have h := (closed_box none (o := closedOpts) rfl rfl peak).lines i hi
    rcases h with h | h
    · exact Or.inl h
    · exact absurd h.1.periodic (by simp [plainRhs, ExB.plainOps])
  lowN c hc := by cases hc
  flatP := by rintro (h | h) <;> cases h
  flatT := by intro h; cases h

example : ∃ r, pressureRhs heatOpts boxGrid (plainRhs 3) mc peak 0 heatSpecies (boxFields none) = .ok r ∧
    3 / 2 * content boxGrid r = 12 + content boxGrid (work heatOpts (plainRhs 3) heatSpecies peak) := by
  obtain ⟨r, hr⟩ := heat_runs
  refine ⟨r, hr, ?_⟩
  rw [thermal_energy_balance_partial (pressure := peak) (T := peak) (N := 1) boxGrid_regular boxGrid_separable (plainRhs_assumed 3) rfl rfl rfl
    rfl rfl heat_insulated hr]
  have h1 : content boxGrid (heatSpecies.energy_source.getD 0) = 12 := by
    have hI : Icc (2 : ℤ) 3 = {2, 3} := by decide
    have hJ : Icc boxGrid.ystart boxGrid.yend = {2, 3} := hI
    have hK : Icc boxGrid.xstart boxGrid.xend = {2, 3} := hI
    simp only [content, hJ, hK, heatSpecies, Option.getD_some]
    norm_num [volume, boxGrid]
  have h2 : (viscousHeating heatOpts boxGrid (plainRhs 3) mc heatSpecies (boxFields none) 1) = 0 := rfl
  have h3 : (1 : F3 3) * peak - (plainRhs 3).setBoundaryTo peak peak = 0 := by
    rw [one_mul]
    exact sub_self peak
  rw [h1, h2, h3, content_zero]
  show 3 / 2 * 0 + 12 + content boxGrid (work heatOpts (plainRhs 3) heatSpecies peak) + 0 + 3 / 2 * 0 = _
  ring

/-- Full statement fails with magnetic flutter: heat leaves an insulated domain along the bent field, because `finally` calls
`Div_n_g_bxGrad_f_B_XZ` without its `bndry_flux` argument.  No source, no work, no conduction, `P = N T`. -/
theorem flutter_takes_heat : ∃ (o : PressureOpts) (s : SpeciesIn 3) (f : FieldsIn 3) (P r : F3 3),
    Insulated o boxGrid (plainRhs 3) s f P P 1 ∧ s.pressure = some P ∧ s.temperature = some P ∧ s.density = some 1 ∧
    s.energy_source = none ∧ work o (plainRhs 3) s P = 0 ∧ o.numerical_viscous_heating = false ∧ f.scale_timederivs = none ∧
    pressureRhs o boxGrid (plainRhs 3) mc P 0 s f = .ok r ∧ 3 / 2 * content boxGrid r = -5 := by
  let o : PressureOpts := { heatOpts with thermal_conduction := false }
  let s : SpeciesIn 3 := { heatSpecies with energy_source := none }
  have hi : Insulated o boxGrid (plainRhs 3) s (boxFields (some bend)) peak peak 1 := {
    radial := rfl
    lines := fun i hi => by
      have h := (closed_box (some bend) (o := closedOpts) rfl rfl peak).lines i hi
      rcases h with h | h
      · exact Or.inl h
      · exact absurd h.1.periodic (by simp [plainRhs, ExB.plainOps])
    lowN := fun c hc => by cases hc
    flatP := by rintro (h | h) <;> cases h
    flatT := by intro h; cases h }
  have hw : work o (plainRhs 3) s peak = 0 := by
    funext i j k
    show (outerFlow * (plainRhs 3).gradPar peak) i j k = 0
    simp [plainRhs, peak]
  have hr : ∃ r, pressureRhs o boxGrid (plainRhs 3) mc peak 0 s (boxFields (some bend)) = .ok r := ⟨_, rfl⟩
  obtain ⟨r, hr⟩ := hr
  refine ⟨o, s, boxFields (some bend), peak, r, hi, rfl, rfl, rfl, rfl, hw, rfl, rfl, hr, ?_⟩
  rw [thermal_energy_balance (pressure := peak) (T := peak) (N := 1) boxGrid_regular boxGrid_separable (plainRhs_assumed 3) rfl rfl rfl rfl hi hr]
  have h1 : (plainRhs 3).setBoundaryTo peak peak = peak := rfl
  have h2 : viscousHeating o boxGrid (plainRhs 3) mc s (boxFields (some bend)) 1 = 0 := rfl
  have h3 : s.energy_source.getD 0 = 0 := rfl
  have h4 : flutterWork (plainRhs 3) s (boxFields (some bend)) peak = 0 := by
    show outerFlow * (0 : F3 3) = 0
    exact mul_zero _
  have h5 : flutterEnthalpy boxGrid s (boxFields (some bend)) peak = 5 := by
    show 5 / 2 * radialOutflow boxGrid peak outerFlow (-bend) = 5
    unfold radialOutflow
    rw [peak_outflow]
    norm_num
  have h6 : flutterHeat o boxGrid (plainRhs 3) s (boxFields (some bend)) peak peak 1 = 0 := rfl
  rw [h1, hw, h2, h3, h4, h5, h6, one_mul, sub_self, content_zero]
  norm_num

/-! The default form `V ∇P` may cool a cold cell. -/

/-- `boxGrid` with periodic field lines. -/
noncomputable def ringRhs : RhsOps 3 := { plainRhs 3 with periodicY := fun _ => true }

noncomputable def ringOpts (form : Bool) : PressureOpts :=
  { density_floor := 1, temperature_floor := 1, pressure_floor := 1, kappa_coefficient := 3, thermal_conduction := false, p_div_v := form }

/-- Warm below the cell, cold at and above it. -/
noncomputable def step : F3 3 := fun _ j _ => if j < 2 then 1 else 0

/-- Flow away from the cell on both sides. -/
noncomputable def apart : F3 3 := fun _ j _ => if j < 2 then -3 else 1

noncomputable def ringSpecies : SpeciesIn 3 :=
  { AA := some 1, velocity := some apart, density := some 1, pressure := some step, temperature := some step }

theorem ring_runs (form : Bool) : ∃ r, pressureRhs (ringOpts form) boxGrid ringRhs mc step 0 ringSpecies { fastest_wave := some 0 } = .ok r :=
  ⟨_, rfl⟩

/-- In the default form the full statement fails: the pressure of a cell at zero pressure, with no negative pressure anywhere,
falls below zero, although the same cell in the same state is not cooled with `p_div_v`. -/
theorem default_form_cools_cold_cell : ∃ r r', pressureRhs (ringOpts false) boxGrid ringRhs mc step 0 ringSpecies { fastest_wave := some 0 } = .ok r ∧
    pressureRhs (ringOpts true) boxGrid ringRhs mc step 0 ringSpecies { fastest_wave := some 0 } = .ok r' ∧
    (∀ i j k, 0 ≤ step i j k) ∧ step 2 2 0 = 0 ∧ ParOps.Inner (boxGrid.line ringRhs 2) 2 ∧ r 2 2 0 < 0 ∧ 0 ≤ r' 2 2 0 := by
  obtain ⟨r', hr'⟩ := ring_runs true
  have h1 : ∀ i j k, 0 ≤ step i j k := by
    intro i j k
    unfold step
    split_ifs <;> norm_num
  have h2 : ParOps.Inner (boxGrid.line ringRhs 2) 2 := ⟨le_rfl, by norm_num [Grid.line, boxGrid], rfl, rfl⟩
  have h0 : step 2 2 0 = 0 := by norm_num [step]
  refine ⟨_, r', rfl, hr', h1, h0, h2, ?_, ?_⟩
  swap
  · have h := cold_cell_not_cooled_partial (pressure := step) (T := step) (N := 1) boxGrid_positive (fun _ _ => one_pos) (fun _ => rfl) (fun _ => rfl) (fun _ => rfl)
      mc_monotone rfl rfl rfl (by intro AA h; cases h; norm_num) rfl (Or.inl rfl) rfl (by norm_num [ringOpts]) (by norm_num [ringOpts]) rfl rfl
      (by norm_num [ringOpts]) (by norm_num [ringOpts]) (by norm_num [ringOpts]) rfl h1 h1 (i := 2) (k := 0)
      (by norm_num [boxGrid]) h2 h0 h0 hr'
    simpa [ringSpecies] using h
  have hc : ∀ c : ℝ, mc c c c = (c, c) := constant_exact mc_monotone
  have m1 : mc 1 0 0 = (0, 0) := by
    have := mc_monotone.extremum 1 0 0 (Or.inr ⟨by norm_num, le_rfl⟩)
    exact Prod.ext this.1 this.2
  have m2 : mc (-3) (-3) 1 = (-3, -3) := by
    have := mc_monotone.extremum (-3) (-3) 1 (Or.inr ⟨le_rfl, by norm_num⟩)
    exact Prod.ext this.1 this.2
  have D : boxGrid.divParMod3 ringRhs mc step apart 0 true 2 2 0 = 0 := by
    show ((boxGrid.line ringRhs 2).divParMod mc (fun j => step 2 j 0) (fun j => apart 2 j 0) (fun _ => 0) true).result 2 = 0
    unfold Line.divParMod
    rw [Line.fluxLoop_result, ParOps.inner_total_upper h2, ParOps.inner_total_lower h2]
    have a : ∀ j, (boxGrid.line ringRhs 2).isLast j = false ∧ (boxGrid.line ringRhs 2).isFirst j = false := by
      intro j
      simp [Line.isLast, Line.isFirst, Grid.line, ringRhs]
    norm_num [Line.modFluxR, Line.modFluxL, a, edges, step, apart, hc, m1, m2, max4]
  have e : pressureFlow (ringOpts false) boxGrid ringRhs mc step apart 0 2 2 0 = -1 / 3 := by
    have e0 : pressureFlow (ringOpts false) boxGrid ringRhs mc step apart 0 =
        -((5 / 3 : ℝ) • boxGrid.divParMod3 ringRhs mc step apart 0 true) + (2 / 3 : ℝ) • (apart * ringRhs.gradPar step) := rfl
    simp only [e0, Pi.add_apply, Pi.neg_apply, Pi.smul_apply, Pi.mul_apply, D]
    norm_num [ringRhs, plainRhs, step, apart]
  have e1 : pressureLow (ringOpts false) boxGrid ringRhs ringSpecies step step 1 = 0 + 0 + 0 + 0 := rfl
  have e2 : pressureHyper (ringOpts false) step step = 0 := by
    unfold pressureHyper
    rw [if_neg (by norm_num [ringOpts]), if_neg (by norm_num [ringOpts]), add_zero]
  have e' : (-exbOf boxGrid ringRhs ringSpecies.isCharged { fastest_wave := some 0 } step (ringOpts false).bndry_flux (ringOpts false).poloidal_flows
      + (pressureFlow (ringOpts false) boxGrid ringRhs mc step apart 0 + pressureFlutter boxGrid ringRhs { fastest_wave := some 0 } step apart + 0)
      + pressureLow (ringOpts false) boxGrid ringRhs ringSpecies step step 1 + 0 + pressureHyper (ringOpts false) step step
      + pressureSources 0 ringSpecies + (1 * step - step)) 2 2 0 < 0 := by
    rw [e1, e2]
    simp only [exbOf, pressureFlutter, pressureSources, ringSpecies, Pi.add_apply, Pi.sub_apply, Pi.mul_apply, Pi.neg_apply, Pi.zero_apply, e]
    norm_num
  exact e'

/-! ## The conductivity at the ends -/

/-- **C61.**  At the ends of an open line the conductivity of the boundary face is that of the cell inside, whatever was in the
guard cells; no cell of the domain and no cell of a periodic line is changed. -/
theorem conductivity_at_ends (g : Grid) (hg : g.ystart ≤ g.yend) (B : RhsOps nz) (kappa : F3 nz) (i : ℤ) (k : Fin nz) :
    (B.periodicY i = false → g.firstY i = true →
      (kappaGuard g B kappa i (g.ystart - 1) k + kappaGuard g B kappa i g.ystart k) / 2 = kappa i g.ystart k) ∧
    (B.periodicY i = false → g.lastY i = true →
      (kappaGuard g B kappa i g.yend k + kappaGuard g B kappa i (g.yend + 1) k) / 2 = kappa i g.yend k) ∧
    (∀ j, g.ystart ≤ j → j ≤ g.yend → kappaGuard g B kappa i j k = kappa i j k) ∧
    (B.periodicY i = true → ∀ j, kappaGuard g B kappa i j k = kappa i j k) := by
  have hin : ∀ j, g.ystart ≤ j → j ≤ g.yend → kappaGuard g B kappa i j k = kappa i j k := by
    intro j h1 h2
    unfold kappaGuard
    rw [if_neg (by omega), if_neg (by omega)]
  refine ⟨fun hp hf => ?_, fun hp hl => ?_, hin, fun hp j => ?_⟩
  · rw [hin _ le_rfl hg]
    unfold kappaGuard
    rw [if_pos ⟨rfl, hf, hp⟩]
    ring
  · rw [hin _ hg le_rfl]
    unfold kappaGuard
    rw [if_neg (by omega), if_pos ⟨rfl, hl, hp⟩]
    ring
  · unfold kappaGuard
    rw [hp]
    simp

end Hermes.PressureEquation
