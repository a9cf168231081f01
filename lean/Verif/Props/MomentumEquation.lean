import Verif.Props.PressureEquation

/-!
# C62: the momentum equation, and the energy of density, momentum and pressure equation together

`momentumRhs o g B lim NV_err s f` is the `ddt(NV)` that `EvolveMomentum::finally` gives to the time integrator, with `NV` the
mass density times velocity.  The energy of a species is `∫ (3/2 P + AA N V²/2)`; with `NV = AA N V` its rate of change is
`∫ (3/2 ddt(P) + V ddt(NV) - AA V²/2 ddt(N))`.
-/

namespace Hermes.MomentumEquation
open Finset Hermes Hermes.Limiters Hermes.PerpOps Hermes.Rhs Hermes.DensityEquation Hermes.PressureEquation

variable {nz : ℕ} [NeZero nz]

/-- What a successful evaluation computes. -/
theorem momentumRhs_ok {o : MomentumOpts} {g : Grid} {B : RhsOps nz} {lim : Limiter} {NV_err : F3 nz} {s : SpeciesIn nz}
    {f : FieldsIn nz} {r : F3 nz} (h : momentumRhs o g B lim NV_err s f = .ok r) :
    ∃ AA NV N w V low, s.AA = some AA ∧ s.momentum = some NV ∧ s.density = some N ∧ waveSpeed s f = .ok w ∧ s.velocity = some V ∧
      momentumLow o g B s NV N V = .ok low ∧
      r = match f.scale_timederivs with
        | none => momentumElectric o g B lim s f NV N V w
            - AA • g.divParFvv3 B lim (floor3 N o.density_floor) V w o.fix_momentum_boundary_flux
            + momentumPressure B s + momentumFlutter g B s f NV V + low + momentumHyper o g B NV + s.momentum_source.getD 0 + NV_err
        | some sc => (momentumElectric o g B lim s f NV N V w
            - AA • g.divParFvv3 B lim (floor3 N o.density_floor) V w o.fix_momentum_boundary_flux
            + momentumPressure B s + momentumFlutter g B s f NV V + low + momentumHyper o g B NV + s.momentum_source.getD 0 + NV_err) * sc := by
  unfold momentumRhs at h
  obtain ⟨AA, h1, h⟩ := except_bind_ok h
  obtain ⟨NV, h2, h⟩ := except_bind_ok h
  obtain ⟨N, h3, h⟩ := except_bind_ok h
  obtain ⟨w, h4, h⟩ := except_bind_ok h
  obtain ⟨V, h5, h⟩ := except_bind_ok h
  obtain ⟨low, h6, h⟩ := except_bind_ok h
  refine ⟨AA, NV, N, w, V, low, need_ok h1, need_ok h2, need_ok h3, h4, need_ok h5, h6, ?_⟩
  cases hsc : f.scale_timederivs with
  | none => rw [hsc] at h; cases h; rfl
  | some sc => rw [hsc] at h; cases h; rfl

/-! ## Products with shifted fields -/

/-- The transformation to field-aligned coordinates moves values by whole cells. -/
structure Relabels (B : RhsOps nz) (σ : ℤ → ℤ → Equiv.Perm (Fin nz)) : Prop where
  toFA : ∀ f i j k, B.toFA f i j k = f i j (σ i j k)
  fromFA : ∀ f i j k, B.fromFA f i j k = f i j ((σ i j).symm k)

theorem Relabels.shifts {B : RhsOps nz} {σ} (h : Relabels B σ) : ExB.Shifts B.toBoutOps :=
  ⟨fun r i j => by
    rw [Finset.sum_congr rfl fun k _ => h.fromFA r i j k]
    exact Equiv.sum_comp (σ i j).symm fun k => r i j k⟩

theorem content_mul_fromFA (g : Grid) {B : RhsOps nz} {σ} (h : Relabels B σ) (a b : F3 nz) :
    content g (a * B.fromFA b) = content g (B.toFA a * b) := by
  refine content_congr fun i j _ _ => ?_
  simp only [Pi.mul_apply, h.fromFA, h.toFA]
  have := Equiv.sum_comp (σ i j) fun k => a i j k * b i j ((σ i j).symm k)
  simpa using this.symm

/-! ## Total energy -/

/-- Sources of energy. -/
noncomputable def energySources (s : SpeciesIn nz) (AA : ℝ) (V source : F3 nz) : F3 nz :=
  (3 / 2 : ℝ) • source + s.energy_source.getD 0 + V * s.momentum_source.getD 0 - (AA / 2) • (V * V * s.density_source.getD 0)

/-- Only the dynamics along the field, with consistent settings of the three components and a state above the floors. -/
structure ParallelDynamics (oN : DensityOpts) (oP : PressureOpts) (oM : MomentumOpts) (B : RhsOps nz) (N₀ P₀ NV_err : F3 nz)
    (s : SpeciesIn nz) (f : FieldsIn nz) (AA : ℝ) (N V P T : F3 nz) : Prop where
  hasAA : s.AA = some AA
  hasN : s.density = some N
  hasV : s.velocity = some V
  hasP : s.pressure = some P
  hasT : s.temperature = some T
  phi : f.phi = none
  flutter : f.Apar_flutter = none
  scale : f.scale_timederivs = none
  low_n : s.low_n_coeff = none ∧ oN.low_n_diffuse = false
  perpN : oN.low_n_diffuse_perp = false ∧ oN.low_p_diffuse_perp = false
  perpP : oP.low_n_diffuse_perp = false ∧ oP.low_T_diffuse_perp = false ∧ oP.low_p_diffuse_perp = false
  perpM : oM.low_n_diffuse_perp = false ∧ oM.low_p_diffuse_perp = false
  hyper : oN.hyper_z ≤ 0 ∧ oP.hyper_z ≤ 0 ∧ oP.hyper_z_T ≤ 0 ∧ oM.hyper_z ≤ 0
  form : oP.p_div_v = false
  fix : oM.fix_momentum_boundary_flux = true ∧ oP.fix_momentum_boundary_flux = true
  floors : floor3 N oM.density_floor = N ∧ floor3 N oP.density_floor = N
  consistent : B.setBoundaryTo N₀ N = N ∧ B.setBoundaryTo P₀ P = P ∧ N * T = P ∧ NV_err = 0

/-- Rate of change of the energy density. -/
noncomputable def energyRate (AA : ℝ) (V rN rM rP : F3 nz) : F3 nz := (3 / 2 : ℝ) • rP + V * rM - (AA / 2) • (V * V * rN)

/-- Kinetic energy that the discrete density and momentum equations lose on line `(i, k)`. -/
noncomputable def lineLoss (g : Grid) (B : RhsOps nz) (lim : Limiter) (N V w : F3 nz) (i : ℤ) (k : Fin nz) : ℝ :=
  ParOps.content (g.line B i) (ParOps.kineticLoss (g.line B i) lim (alongY (B.toFA N) i k) (alongY (B.toFA V) i k) (alongY (B.toFA w) i k))

/-- Numerical excess of the heating on line `(i, k)`. -/
noncomputable def lineExcess (g : Grid) (B : RhsOps nz) (lim : Limiter) (N V w : F3 nz) (i : ℤ) (k : Fin nz) : ℝ :=
  (∑ j ∈ Icc g.ystart (g.yend - 1), ParOps.faceExcess (g.line B i) lim (alongY (B.toFA N) i k) (alongY (B.toFA V) i k)
    (alongY (B.toFA w) i k) j) * (g.dx i g.ystart * g.dz i g.ystart)

theorem content_loss {g : Grid} {B : RhsOps nz} {σ} (hσ : Relabels B σ) (lim : Limiter) (N V w : F3 nz) :
    content g (V * g.divParFvv3 B lim N V w true) - 1 / 2 * content g (V * V * g.divParMod3 B lim N V w true) =
      ∑ i ∈ Icc g.xstart g.xend, ∑ k, lineLoss g B lim N V w i k := by
  unfold Grid.divParFvv3 Grid.divParMod3
  rw [content_mul_fromFA g hσ, content_mul_fromFA g hσ, ← content_smul', ← content_sub, content_lines g B]
  refine Finset.sum_congr rfl fun i _ => Finset.sum_congr rfl fun k _ => ?_
  unfold lineLoss
  congr 1
  funext j
  simp only [ParOps.kineticLoss, Pi.sub_apply, Pi.mul_apply, Pi.smul_apply, smul_eq_mul, hσ.toFA, alongY, Grid.parMod]
  ring

theorem content_heating {g : Grid} (hg : Regular g) (hs : Separable g) {B : RhsOps nz} (hB : ExB.Shifts B.toBoutOps) (lim : Limiter)
    {N V w : F3 nz} (hc : ∀ i, g.xstart ≤ i ∧ i ≤ g.xend → ClosedEnds g B V i) :
    content g (g.fvvHeating3 B lim N V w true) =
      ∑ i ∈ Icc g.xstart g.xend, ∑ k, (lineLoss g B lim N V w i k + lineExcess g B lim N V w i k) := by
  unfold Grid.fvvHeating3
  rw [content_fromFA g hB, content_lines g B]
  refine Finset.sum_congr rfl fun i hi => Finset.sum_congr rfl fun k _ => ?_
  have hci := hc i (mem_Icc.1 hi)
  have h := ParOps.kinetic_energy_balance_closed (line_regular hg B i) (line_uniform hs B i) (closed_line hci) lim
    (alongY (B.toFA N) i k) (alongY (B.toFA V) i k) (alongY (B.toFA w) i k)
  have u : alongY (B.toFA V) i k (g.line B i).yend + alongY (B.toFA V) i k ((g.line B i).yend + 1) = 0 := hci.upper k
  have l : alongY (B.toFA V) i k (g.line B i).ystart + alongY (B.toFA V) i k ((g.line B i).ystart - 1) = 0 := hci.lower k
  rw [u, l] at h
  have e : ((0 : ℝ) / 2) ^ 3 = 0 := by norm_num
  rw [e] at h
  simp only [mul_zero, zero_div, sub_zero, add_zero] at h
  have h' : ParOps.content (g.line B i) ((g.line B i).fvvHeating lim (alongY (B.toFA N) i k) (alongY (B.toFA V) i k)
      (alongY (B.toFA w) i k) true).result - lineLoss g B lim N V w i k = lineExcess g B lim N V w i k := h
  linarith

/-- **C62.**  Energy of a species in the three equations together.  On field lines closed by a no-flow condition the energy of
the species changes by the sources, by `AA` times the numerical heating minus the kinetic energy lost, and by nothing else: the
work done by the pressure gradient on the flow is taken from the thermal energy exactly, cell by cell; advection of pressure and
heat conduction only move energy.  For every state, wave speed, limiter, geometry, number of cells and strength of conduction.
Partial: parallel dynamics only, in the default form of the work term, above the density floor. -/
theorem species_energy_partial {oN : DensityOpts} {oP : PressureOpts} {oM : MomentumOpts} {g : Grid} (hg : Regular g) (hs : Separable g)
    {B : RhsOps nz} {σ} (hσ : Relabels B σ) {lim : Limiter} {N₀ P₀ NV_err source : F3 nz} {s : SpeciesIn nz} {f : FieldsIn nz} {AA : ℝ}
    {N V P T w : F3 nz} (hd : ParallelDynamics oN oP oM B N₀ P₀ NV_err s f AA N V P T) (hw : waveSpeed s f = .ok w)
    (hc : ∀ i, g.xstart ≤ i ∧ i ≤ g.xend → ClosedEnds g B V i) {rN rM rP : F3 nz}
    (hN : densityRhs oN g B lim N₀ s f = .ok rN) (hM : momentumRhs oM g B lim NV_err s f = .ok rM)
    (hP : pressureRhs oP g B lim P₀ source s f = .ok rP) :
    content g (energyRate AA V rN rM rP) = content g (energySources s AA V source) +
      AA * ∑ i ∈ Icc g.xstart g.xend, ∑ k, (if oP.numerical_viscous_heating then lineExcess g B lim N V w i k else -lineLoss g B lim N V w i k) := by
  have hB := hσ.shifts
  obtain ⟨cN, cP, cT, cM⟩ := hd.consistent
  -- density
  have eN : rN = -g.divParMod3 B lim N V w true + s.density_source.getD 0 := by
    obtain ⟨d, Sn, h1, h2, -, -, -, h3⟩ := densityRhs_ok hN
    rw [hd.hasN] at h1
    cases h1
    rw [h3, hd.scale, h2, cN]
    have a1 : exbPart oN g B f N = 0 := by unfold exbPart exbOf; rw [hd.phi]
    have a2 : parPart g B lim s f N = g.divParMod3 B lim N V w true := by unfold parPart; rw [hd.hasV, hw]
    have a3 : flutterPart g B s f N = 0 := by unfold flutterPart; rw [hd.flutter]; cases s.velocity <;> rfl
    have a4 : lowNPart oN B s N = 0 := by unfold lowNPart; rw [hd.low_n.2]
    have a5 : perpNPart oN g N = 0 := by unfold perpNPart; rw [hd.perpN.1]; rfl
    have a6 : perpPPart oN g s N = 0 := by unfold perpPPart; rw [hd.perpN.2]
    have a7 : hyperPart oN g B N = 0 := by unfold hyperPart; rw [if_neg (not_lt.2 hd.hyper.1)]
    simp only [total, a1, a2, a3, a4, a5, a6, a7, neg_zero, zero_sub, sub_zero, add_zero, Option.getD_some]
  -- momentum
  have eM : rM = -(AA • g.divParFvv3 B lim N V w true) - B.gradPar P + s.momentum_source.getD 0 := by
    obtain ⟨AA', NV, N', w', V', low, h1, h2, h3, h4, h5, h6, h7⟩ := momentumRhs_ok hM
    rw [hd.hasAA] at h1; rw [hd.hasN] at h3; rw [hw] at h4; rw [hd.hasV] at h5
    cases h1; cases h3; cases h4; cases h5
    have a1 : momentumElectric oM g B lim s f NV N V w = 0 := by unfold momentumElectric; rw [hd.phi]
    have a2 : momentumPressure B s = -B.gradPar P := by unfold momentumPressure; rw [hd.hasP]
    have a3 : momentumFlutter g B s f NV V = 0 := by unfold momentumFlutter; rw [hd.flutter]
    have a4 : low = 0 := by
      unfold momentumLow at h6
      rw [hd.low_n.1, hd.perpM.1, hd.perpM.2] at h6
      cases h6
      simp
    have a5 : momentumHyper oM g B NV = 0 := by unfold momentumHyper; rw [if_neg (not_lt.2 hd.hyper.2.2.2)]
    rw [h7, hd.scale]
    simp only [a1, a2, a3, a4, a5, cM, hd.floors.1, hd.fix.1, add_zero, zero_sub]
    rw [← sub_eq_add_neg]
  -- pressure
  obtain ⟨p', T', N', adv, cond, h1, h2, h3, h4, h5, h6⟩ := pressureRhs_ok hP
  rw [hd.hasP] at h1; rw [hd.hasT] at h2; rw [hd.hasN] at h3
  cases h1; cases h2; cases h3
  rw [cP] at h4 h5 h6
  have hadv : ∃ heat : F3 nz, adv = -((5 / 3 : ℝ) • g.divParMod3 B lim P V w true) + (2 / 3 : ℝ) • (V * B.gradPar P) + heat ∧
      3 / 2 * content g heat = if oP.numerical_viscous_heating then AA * content g (g.fvvHeating3 B lim N V w true) else 0 := by
    unfold pressureAdvection at h4
    rw [hd.hasV] at h4
    obtain ⟨w', hw', h4⟩ := except_bind_ok h4
    rw [hw] at hw'
    cases hw'
    obtain ⟨heat, hh, h4⟩ := except_bind_ok h4
    cases h4
    refine ⟨heat, ?_, ?_⟩
    · have zf : pressureFlutter g B f P V = 0 := by unfold pressureFlutter; rw [hd.flutter]
      rw [zf, add_zero]
      unfold pressureFlow
      rw [hd.form]
      rfl
    · unfold pressureHeating at hh
      rw [hd.hasAA] at hh
      cases hn : oP.numerical_viscous_heating with
      | false =>
        rw [hn] at hh
        have hz : heat = 0 := by
          cases hdi : oP.diagnose with
          | false => rw [hdi] at hh; cases hh; rfl
          | true =>
            rw [hdi] at hh
            cases hh
            rfl
        rw [hz, content_zero]
        simp
      | true =>
        rw [hn] at hh
        cases hh
        simp only [if_true]
        rw [content_smul', hd.floors.2, hd.fix.2]
        ring
  obtain ⟨heat, hadv, hheat⟩ := hadv
  have hcond : content g cond = 0 := by
    unfold pressureConduction at h5
    cases ht : oP.thermal_conduction with
    | false => rw [ht] at h5; cases h5; exact content_zero g
    | true =>
      rw [ht, if_pos rfl] at h5
      obtain ⟨nu, hnu, h5⟩ := except_bind_ok h5
      obtain ⟨AA', hAA, h5⟩ := except_bind_ok h5
      obtain ⟨kappa, hk, h5⟩ := except_bind_ok h5
      rw [hd.flutter] at h5
      cases h5
      rw [content_smul', content_conduction_closed (velocity := some V) (phi := none) (adv := P) (others := fun _ => True) hg hs hB trivial trivial
        fun i hi => Or.inl ⟨(hc i hi).open_line, (hc i hi).first, (hc i hi).last, fun V' hV' => by cases hV'; exact hc i hi⟩, mul_zero]
  have hflow : content g (g.divParMod3 B lim P V w true) = 0 :=
    content_parMod_closed (phi := none) (others := fun _ => True) hg hs hB lim trivial
      fun i hi => Or.inl ⟨(hc i hi).open_line, (hc i hi).first, (hc i hi).last, fun V' hV' => by cases hV'; exact hc i hi⟩
  have hlow : pressureLow oP g B s P T N = 0 := by
    unfold pressureLow
    rw [hd.low_n.1, hd.perpP.1, hd.perpP.2.1, hd.perpP.2.2]
    simp
  have hhyp : pressureHyper oP P T = 0 := by
    unfold pressureHyper
    rw [if_neg (not_lt.2 hd.hyper.2.1), if_neg (not_lt.2 hd.hyper.2.2.1), add_zero]
  have hexb : exbOf g B s.isCharged f P oP.bndry_flux oP.poloidal_flows = 0 := by unfold exbOf; rw [hd.phi]
  have hsrc : pressureSources source s = source + (2 / 3 : ℝ) • s.energy_source.getD 0 := by
    unfold pressureSources
    cases s.energy_source <;> simp
  have eP : rP = -((5 / 3 : ℝ) • g.divParMod3 B lim P V w true) + (2 / 3 : ℝ) • (V * B.gradPar P) + heat + cond + source
      + (2 / 3 : ℝ) • s.energy_source.getD 0 := by
    rw [h6, hd.scale]
    simp only [hadv, hlow, hhyp, hexb, hsrc, cT, sub_self, neg_zero, zero_add, add_zero]
    abel
  -- together
  have key : energyRate AA V rN rM rP = energySources s AA V source - (5 / 2 : ℝ) • g.divParMod3 B lim P V w true
      + (3 / 2 : ℝ) • heat + (3 / 2 : ℝ) • cond - AA • (V * g.divParFvv3 B lim N V w true)
      + (AA / 2) • (V * V * g.divParMod3 B lim N V w true) := by
    funext i j k
    simp only [energyRate, energySources, eN, eM, eP, Pi.add_apply, Pi.sub_apply, Pi.neg_apply, Pi.mul_apply, Pi.smul_apply, smul_eq_mul]
    ring
  have loss := content_loss (g := g) hσ lim N V w
  rw [key, content_add, content_sub, content_add, content_add, content_sub, content_smul', content_smul', content_smul', content_smul',
    content_smul', hflow, hcond, hheat]
  cases oP.numerical_viscous_heating with
  | true =>
    simp only [if_true]
    have hh := content_heating hg hs hB lim (N := N) (w := w) hc
    simp only [Finset.sum_add_distrib] at hh
    rw [hh]
    linear_combination (-AA) * loss
  | false =>
    simp only [Bool.false_eq_true, if_false, Finset.sum_neg_distrib]
    linear_combination (-AA) * loss

/-- C62.  With the numerical viscous heating switched on no energy is lost: for a limiter that stays within the midpoint of a
face and non-negative density the energy changes at least by the sources. -/
theorem energy_never_lost_partial {oN : DensityOpts} {oP : PressureOpts} {oM : MomentumOpts} {g : Grid} (hg : Regular g) (hp : Positive g)
    (hs : Separable g) {B : RhsOps nz} (h22 : ∀ i j, 0 < B.g_22 i j) {σ} (hσ : Relabels B σ) {lim : Limiter} (hl : MonotoneLim lim)
    (hm : ParOps.WithinMidpoint lim) {N₀ P₀ NV_err source : F3 nz} {s : SpeciesIn nz} {f : FieldsIn nz} {AA : ℝ}
    {N V P T w : F3 nz} (hd : ParallelDynamics oN oP oM B N₀ P₀ NV_err s f AA N V P T) (hw : waveSpeed s f = .ok w)
    (hc : ∀ i, g.xstart ≤ i ∧ i ≤ g.xend → ClosedEnds g B V i) (hv : oP.numerical_viscous_heating = true) (hAA : 0 ≤ AA)
    (hN0 : ∀ i j k, 0 ≤ N i j k) {rN rM rP : F3 nz}
    (hN : densityRhs oN g B lim N₀ s f = .ok rN) (hM : momentumRhs oM g B lim NV_err s f = .ok rM)
    (hP : pressureRhs oP g B lim P₀ source s f = .ok rP) :
    content g (energySources s AA V source) ≤ content g (energyRate AA V rN rM rP) := by
  rw [species_energy_partial hg hs hσ hd hw hc hN hM hP, hv]
  simp only [if_true]
  refine le_add_of_nonneg_right (mul_nonneg hAA (Finset.sum_nonneg fun i _ => Finset.sum_nonneg fun k _ => ?_))
  have hL : ParOps.Positive (g.line B i) := ⟨hp.J i, h22 i, hp.dx i, hp.dy i, hp.dz i⟩
  refine mul_nonneg (Finset.sum_nonneg fun j _ => ParOps.faceExcess_nonneg hL hl hm _ _ (fun j => ?_) j)
    (mul_nonneg (hp.dx _ _).le (hp.dz _ _).le)
  unfold alongY
  rw [hσ.toFA]
  exact hN0 _ _ _

/-! ## Momentum -/

/-- The forces on a species, apart from the inertia. -/
noncomputable def force (B : RhsOps nz) (s : SpeciesIn nz) (f : FieldsIn nz) (NV_err : F3 nz) : F3 nz :=
  s.momentum_source.getD 0 + NV_err + momentumPressure B s +
    match f.phi, s.charge, s.density with
    | some phi, some Z, some N => -(Z • (N * B.gradPar phi))
    | _, _, _ => 0

theorem content_fvv_closed {g : Grid} (hg : Regular g) (hs : Separable g) {B : RhsOps nz} (hB : ExB.Shifts B.toBoutOps) (lim : Limiter)
    {n V w : F3 nz} (hc : ∀ i, g.xstart ≤ i ∧ i ≤ g.xend → ClosedEnds g B V i) : content g (g.divParFvv3 B lim n V w true) = 0 := by
  unfold Grid.divParFvv3
  rw [content_fromFA g hB, content_lines g B]
  refine Finset.sum_eq_zero fun i hi => Finset.sum_eq_zero fun k _ => ?_
  have hci := hc i (mem_Icc.1 hi)
  have h := ParOps.momentum_changes_at_ends (line_regular hg B i) (line_uniform hs B i) (closed_line hci) lim
    (alongY (B.toFA n) i k) (alongY (B.toFA V) i k) (alongY (B.toFA w) i k)
  have u : alongY (B.toFA V) i k (g.line B i).yend + alongY (B.toFA V) i k ((g.line B i).yend + 1) = 0 := hci.upper k
  have l : alongY (B.toFA V) i k (g.line B i).ystart + alongY (B.toFA V) i k ((g.line B i).ystart - 1) = 0 := hci.lower k
  rw [u, l] at h
  refine h.trans ?_
  norm_num

/-- Forces along the perturbed field: `-∇P` and `-Z N ∇φ` have a component along it. -/
noncomputable def flutterForce (B : RhsOps nz) (s : SpeciesIn nz) (f : FieldsIn nz) : F3 nz :=
  match f.Apar_flutter with
  | none => 0
  | some A =>
    (match f.phi, s.charge, s.density with
      | some phi, some Z, some N => -(Z • (N * B.bracket phi A))
      | _, _, _ => 0) - (match s.pressure with | none => 0 | some P => B.bracket P A)

/-- `Z A ∂n/∂t`: what the canonical momentum `M n V + Z n A` gains where particles appear.  `∂n/∂t` consists of the density
source, the flow along the field, the ExB flow and the low-density dissipation. -/
noncomputable def inductionGain (o : MomentumOpts) (g : Grid) (B : RhsOps nz) (lim : Limiter) (s : SpeciesIn nz) (f : FieldsIn nz) : F3 nz :=
  match f.phi, s.charge, f.Apar, s.density, s.velocity, waveSpeed s f with
  | some phi, some Z, some A, some N, some V, .ok w => Z • (A * (s.density_source.getD 0 - g.divParMod3 B lim N V w true
      - g.exbXPPM B.toBoutOps N phi o.bndry_flux o.poloidal_flows true
      + (if o.low_n_diffuse_perp then
          g.perpLapIndex (fun i j k => o.density_floor / floor3 N (1e-3 * o.density_floor) i j k) N else 0)))
  | _, _, _, _, _, _ => 0

/-- Momentum that leaves along the perturbed field through the radial boundary. -/
noncomputable def flutterMomentum (g : Grid) (s : SpeciesIn nz) (f : FieldsIn nz) : ℝ :=
  match s.momentum, s.velocity, f.Apar_flutter with
  | some NV, some V, some A => radialOutflow g NV V (-A)
  | _, _, _ => 0

/-- Momentum that the dissipation in index space moves through the radial boundary. -/
noncomputable def momentumInflow (o : MomentumOpts) (g : Grid) (s : SpeciesIn nz) : ℝ :=
  (match o.low_n_diffuse_perp, s.density, s.momentum with
    | true, some N, some NV => lapInflow g (fun i j k => o.density_floor / floor3 N (1e-3 * o.density_floor) i j k) NV
    | _, _, _ => 0) +
  (match o.low_p_diffuse_perp, s.pressure, s.momentum with
    | true, some P, some NV => lapInflow g (fun i j k => o.pressure_floor / floor3 P (1e-3 * o.pressure_floor) i j k) NV
    | _, _, _ => 0)

/-- What the low-density diffusion along the field, an operator of BOUT++, adds. -/
noncomputable def lowNMomentum (o : MomentumOpts) (B : RhsOps nz) (s : SpeciesIn nz) : F3 nz :=
  match s.low_n_coeff, s.density, s.velocity with
  | some c, some N, some V => B.divParK (c * V) N + B.divParK (c * floor3 N o.density_floor) V
  | _, _, _ => 0

theorem content_lap {g : Grid} (hg : Regular g) (hs : Separable g) (a N : F3 nz) : content g (g.perpLapIndex a N) = lapInflow g a N := by
  unfold lapInflow
  exact content_perpLap hg hs a N

theorem content_low {o : MomentumOpts} {g : Grid} (hg : Regular g) (hs : Separable g) {B : RhsOps nz} {s : SpeciesIn nz} {NV N V low : F3 nz}
    (hV : s.velocity = some V) (h2 : s.momentum = some NV) (h3 : s.density = some N) (h6 : momentumLow o g B s NV N V = .ok low) :
    content g low = momentumInflow o g s + content g (lowNMomentum o B s) := by
  unfold momentumLow at h6
  obtain ⟨c, hc', h6⟩ := except_bind_ok h6
  cases h6
  unfold momentumInflow lowNMomentum
  rw [hV, h2, h3, content_add, content_add]
  have e3 : content g c = (match o.low_p_diffuse_perp, s.pressure, some NV with
      | true, some P, some NV => lapInflow g (fun i j k => o.pressure_floor / floor3 P (1e-3 * o.pressure_floor) i j k) NV
      | _, _, _ => 0) := by
    cases hlp : o.low_p_diffuse_perp with
    | false => rw [hlp] at hc'; cases hc'; exact content_zero g
    | true =>
      rw [hlp, if_pos rfl] at hc'
      obtain ⟨P, hP, hc'⟩ := except_bind_ok hc'
      cases hc'
      rw [need_ok hP, content_lap hg hs]
  rw [e3]
  cases s.low_n_coeff <;> cases o.low_n_diffuse_perp <;> simp only [if_true, Bool.false_eq_true, if_false, content_zero, content_lap hg hs] <;> ring

/-- **C62.**  Momentum of a domain with radial fluxes switched off and field lines closed at both ends, with every term of the
equation: it changes by the momentum sources, the pressure gradient and the electric force along the field and its perturbation,
and by the change of `Z n A`; by what flows along the perturbed field and by dissipation through the radial boundary; and by the
low-density diffusion of BOUT++.  The flows along the field and the ExB flow only move it. -/
theorem momentum_balance {o : MomentumOpts} {g : Grid} (hg : Regular g) (hs : Separable g) {B : RhsOps nz} (hB : Assumed g B)
    {lim : Limiter} {NV_err V : F3 nz} {s : SpeciesIn nz} {f : FieldsIn nz} (hsc : f.scale_timederivs = none)
    (hr : o.bndry_flux = false) (hfix : o.fix_momentum_boundary_flux = true) (hV : s.velocity = some V)
    (hc : ∀ i, g.xstart ≤ i ∧ i ≤ g.xend → ClosedEnds g B V i) {r : F3 nz}
    (h : momentumRhs o g B lim NV_err s f = .ok r) :
    content g r = content g (force B s f NV_err) + content g (flutterForce B s f) + content g (inductionGain o g B lim s f)
      - flutterMomentum g s f + momentumInflow o g s + content g (lowNMomentum o B s) := by
  obtain ⟨AA, NV, N, w, V', low, h1, h2, h3, h4, h5, h6, h7⟩ := momentumRhs_ok h
  rw [hV] at h5
  cases h5
  rw [hsc] at h7
  simp only at h7
  have a5 : content g (momentumHyper o g B NV) = 0 := by
    rw [← content_zero (nz := nz) g]
    refine content_congr fun i j _ _ => ?_
    unfold momentumHyper
    split_ifs
    · simp only [Pi.neg_apply, Finset.sum_neg_distrib, ← Finset.mul_sum, hB.d4dz4]; simp
    · rfl
  have a4 : content g low = momentumInflow o g s + content g (lowNMomentum o B s) := content_low hg hs hV h2 h3 h6
  have a3 : content g (momentumFlutter g B s f NV V) = -flutterMomentum g s f - content g (match f.Apar_flutter with
      | none => 0
      | some A => (match s.pressure with | none => 0 | some P => B.bracket P A)) := by
    unfold momentumFlutter flutterMomentum
    rw [h2, hV]
    cases f.Apar_flutter with
    | none => simp [content_zero]
    | some A =>
      simp only
      rw [content_sub, content_neg, content_divNG hg hs hB.one]
      rfl
  have a6 := content_fvv_closed hg hs hB.shifts lim (n := floor3 N o.density_floor) (w := w) hc
  have a1 : content g (momentumElectric o g B lim s f NV N V w) = content g (match f.phi, s.charge, s.density with
      | some phi, some Z, some N => -(Z • (N * B.gradPar phi))
      | _, _, _ => 0) + content g (inductionGain o g B lim s f) + content g (match f.Apar_flutter with
      | none => 0
      | some A => (match f.phi, s.charge, s.density with
        | some phi, some Z, some N => -(Z • (N * B.bracket phi A))
        | _, _, _ => 0)) := by
    unfold momentumElectric inductionGain
    rw [h3, hV, h4]
    cases hphi : f.phi with
    | none => simp only; cases f.Apar_flutter <;> simp [content_zero]
    | some phi =>
      cases hq : s.charge with
      | none => simp only; cases f.Apar_flutter <;> simp [content_zero]
      | some Z =>
        simp only
        by_cases hZ : Z = 0
        · subst hZ
          rw [if_pos rfl]
          cases f.Apar <;> cases f.Apar_flutter <;> simp [content_zero]
        · rw [if_neg hZ, content_add, content_add, content_sub, content_neg, hr,
            content_xppm_closed (velocity := some V) (others := fun _ => True) hg hs hB.shifts hB.one
              (fun i hi => Or.inl ⟨(hc i hi).open_line, (hc i hi).first, (hc i hi).last, fun V' hV' => by cases hV'; exact hc i hi⟩)]
          unfold momentumApar momentumPhiFlutter
          rw [hr, content_neg]
          cases f.Apar <;> cases f.Apar_flutter <;> simp only [content_zero] <;> ring
  have a7 : content g (flutterForce B s f) = content g (match f.Apar_flutter with
      | none => 0
      | some A => (match f.phi, s.charge, s.density with
        | some phi, some Z, some N => -(Z • (N * B.bracket phi A))
        | _, _, _ => 0)) - content g (match f.Apar_flutter with
      | none => 0
      | some A => (match s.pressure with | none => 0 | some P => B.bracket P A)) := by
    unfold flutterForce
    cases f.Apar_flutter with
    | none => simp [content_zero]
    | some A => simp only [content_sub]
  rw [h7, hfix, a7]
  unfold force
  simp only [content_add, content_sub, content_smul', a6, a1, a3, a4, a5]
  ring

/-- C62.  Without magnetic flutter, `A_par` and dissipation the momentum changes by the momentum sources, the pressure gradient
and the electric force, and by nothing else. -/
theorem momentum_balance_partial {o : MomentumOpts} {g : Grid} (hg : Regular g) (hs : Separable g) {B : RhsOps nz} (hB : Assumed g B)
    {lim : Limiter} {NV_err V : F3 nz} {s : SpeciesIn nz} {f : FieldsIn nz} (hsc : f.scale_timederivs = none) (hA : f.Apar_flutter = none)
    (hA' : f.Apar = none) (hr : o.bndry_flux = false) (hfix : o.fix_momentum_boundary_flux = true) (hl : s.low_n_coeff = none)
    (hn : o.low_n_diffuse_perp = false) (hp : o.low_p_diffuse_perp = false) (hV : s.velocity = some V)
    (hc : ∀ i, g.xstart ≤ i ∧ i ≤ g.xend → ClosedEnds g B V i) {r : F3 nz}
    (h : momentumRhs o g B lim NV_err s f = .ok r) : content g r = content g (force B s f NV_err) := by
  rw [momentum_balance hg hs hB hsc hr hfix hV hc h]
  have e1 : flutterForce B s f = 0 := by unfold flutterForce; rw [hA]
  have e2 : inductionGain o g B lim s f = 0 := by
    unfold inductionGain
    rw [hA']
    cases f.phi <;> cases s.charge <;> rfl
  have e3 : flutterMomentum g s f = 0 := by
    unfold flutterMomentum
    rw [hA]
    cases s.momentum <;> cases s.velocity <;> rfl
  have e4 : momentumInflow o g s = 0 := by
    unfold momentumInflow
    rw [hn, hp]
    simp
  have e5 : lowNMomentum o B s = 0 := by unfold lowNMomentum; rw [hl]
  rw [e1, e2, e3, e4, e5, content_zero]
  ring

/-- Mass one, density `peak`, flow along the field in the outer column. -/
noncomputable def bentSpecies : SpeciesIn 3 :=
  { AA := some 1, velocity := some outerFlow, density := some peak, momentum := some (peak * outerFlow) }

/-- The full statement fails: with `bndry_flux = false` and closed field lines the magnetic flutter term moves momentum through
the radial boundary.  No forces act on the species. -/
theorem flutter_takes_momentum : ∃ (o : MomentumOpts) (f : FieldsIn 3) (r : F3 3), o.bndry_flux = false ∧
    o.fix_momentum_boundary_flux = true ∧ o.low_n_diffuse_perp = false ∧ o.low_p_diffuse_perp = false ∧ f.scale_timederivs = none ∧
    (∀ i, boxGrid.xstart ≤ i ∧ i ≤ boxGrid.xend → ClosedEnds boxGrid (plainRhs 3) outerFlow i) ∧
    force (plainRhs 3) bentSpecies f 0 = 0 ∧ flutterForce (plainRhs 3) bentSpecies f = 0 ∧
    momentumRhs o boxGrid (plainRhs 3) mc 0 bentSpecies f = .ok r ∧ content boxGrid r = -2 := by
  let o : MomentumOpts := { bndry_flux := false, density_floor := 1, pressure_floor := 1, fix_momentum_boundary_flux := true }
  let f : FieldsIn 3 := { fastest_wave := some 1, Apar_flutter := some bend }
  have hc : ∀ i, boxGrid.xstart ≤ i ∧ i ≤ boxGrid.xend → ClosedEnds boxGrid (plainRhs 3) outerFlow i := fun i hi => by
    rcases (closed_box (some bend) (o := closedOpts) rfl rfl peak).lines i hi with h | h
    · exact h.2.2.2 _ rfl
    · exact absurd h.1.periodic (by simp [plainRhs, ExB.plainOps])
  have hf0 : force (plainRhs 3) bentSpecies f 0 = 0 := by
    show (0 : F3 3) + 0 + 0 + 0 = 0
    simp
  have hf1 : flutterForce (plainRhs 3) bentSpecies f = 0 := by
    show (0 : F3 3) - 0 = 0
    simp
  obtain ⟨r, hr⟩ : ∃ r, momentumRhs o boxGrid (plainRhs 3) mc 0 bentSpecies f = .ok r := ⟨_, rfl⟩
  refine ⟨o, f, r, rfl, rfl, rfl, rfl, rfl, hc, hf0, hf1, hr, ?_⟩
  rw [momentum_balance (V := outerFlow) boxGrid_regular boxGrid_separable (plainRhs_assumed 3) rfl rfl rfl rfl hc hr, hf0, hf1]
  have e1 : inductionGain o boxGrid (plainRhs 3) mc bentSpecies f = 0 := rfl
  have e2 : flutterMomentum boxGrid bentSpecies f = 2 := by
    show radialOutflow boxGrid (peak * outerFlow) outerFlow (-bend) = 2
    unfold radialOutflow
    have hI : Icc (2 : ℤ) 3 = {2, 3} := by decide
    have e : ∀ j, j = 2 ∨ j = 3 → ∀ k : Fin 3, (boxGrid.exbFaceX (peak * outerFlow) outerFlow (-bend) true boxGrid.xend j k
        - boxGrid.exbFaceX (peak * outerFlow) outerFlow (-bend) true (boxGrid.xstart - 1) j k)
        * (boxGrid.dy boxGrid.xstart j * boxGrid.dz boxGrid.xstart j) = if k = 0 then 1 else 0 := by
      intro j hj k
      have hc : ∀ c : ℝ, mc c c c = (c, c) := constant_exact mc_monotone
      have hm : mc 0 2 2 = (2, 2) := by norm_num [mc, minmod3]
      rcases hj with rfl | rfl <;> fin_cases k <;>
        norm_num [Grid.exbFaceX, boxGrid, Grid.exbRight, Grid.exbLeft, Grid.vR, Grid.vL, cornerPP, cornerPM, cornerMP, cornerMM, outerFlow, peak, hc,
          bend, Fin.ext_iff, Fin.val_add, Fin.val_sub, hm]
    have : Icc boxGrid.ystart boxGrid.yend = {2, 3} := hI
    rw [this, Finset.sum_pair (by norm_num), Finset.sum_congr rfl fun k _ => e 2 (Or.inl rfl) k,
      Finset.sum_congr rfl fun k _ => e 3 (Or.inr rfl) k]
    norm_num [Fin.sum_univ_three]
  have e3 : momentumInflow o boxGrid bentSpecies = 0 := by
    show (0 : ℝ) + 0 = 0
    norm_num
  have e4 : lowNMomentum o (plainRhs 3) bentSpecies = 0 := rfl
  rw [e1, e2, e3, e4, content_zero]
  norm_num

/-! ## Two cells that run into each other -/

noncomputable def collide : F3 1 := fun _ j _ => if j = 2 ∨ j = 4 then 1 else -1

noncomputable def collideSpecies : SpeciesIn 1 :=
  { AA := some 1, velocity := some collide, momentum := some collide, density := some 1, pressure := some 1, temperature := some 1,
    density_source := some 0, momentum_source := some 0, energy_source := some 0, collision_frequency := some 1 }

noncomputable def stillFields : FieldsIn 1 := { fastest_wave := some 0 }

noncomputable def oN : DensityOpts := { density_floor := 1e-5, pressure_floor := 1e-5, charge := 1 }
noncomputable def oM : MomentumOpts := { density_floor := 1e-5, pressure_floor := 1e-5, fix_momentum_boundary_flux := true }
noncomputable def oP (heating : Bool) : PressureOpts :=
  { density_floor := 1e-5, temperature_floor := 1e-5, pressure_floor := 1e-5, kappa_coefficient := 3,
    numerical_viscous_heating := heating, fix_momentum_boundary_flux := true }

theorem floor_one (c : ℝ) (hc : c ≤ 1) : floor3 (1 : F3 1) c = 1 := by
  funext i j k
  unfold floor3
  rw [if_neg]
  · exact not_lt.2 hc

theorem collide_dynamics (heating : Bool) : ParallelDynamics oN (oP heating) oM (plainRhs 1) 1 1 0 collideSpecies stillFields 1 1 collide 1 1 where
  hasAA := rfl
  hasN := rfl
  hasV := rfl
  hasP := rfl
  hasT := rfl
  phi := rfl
  flutter := rfl
  scale := rfl
  low_n := ⟨rfl, rfl⟩
  perpN := ⟨rfl, rfl⟩
  perpP := ⟨rfl, rfl, rfl⟩
  perpM := ⟨rfl, rfl⟩
  hyper := by refine ⟨?_, ?_, ?_, ?_⟩ <;> norm_num [oN, oM, oP]
  form := rfl
  fix := ⟨rfl, rfl⟩
  floors := ⟨floor_one _ (by norm_num [oM]), floor_one _ (by norm_num [oP])⟩
  consistent := ⟨rfl, rfl, one_mul 1, rfl⟩

theorem plain_relabels : Relabels (plainRhs 1) (fun _ _ => Equiv.refl _) := ⟨fun _ _ _ _ => rfl, fun _ _ _ _ => rfl⟩

theorem collide_closed (i : ℤ) : ClosedEnds boxGrid (plainRhs 1) collide i := by
  refine ⟨rfl, rfl, rfl, fun k => ?_, fun k => ?_⟩ <;> norm_num [plainRhs, ExB.plainOps, collide, boxGrid]

theorem collide_excess (i : ℤ) (k : Fin 1) : lineExcess boxGrid (plainRhs 1) upwind 1 collide 0 i k = 2 := by
  have hI : Icc boxGrid.ystart (boxGrid.yend - 1) = {2} := by decide
  unfold lineExcess
  rw [hI, Finset.sum_singleton]
  norm_num [ParOps.faceExcess, Line.faceR, ParOps.speedUp, edges, upwind, alongY, collide, plainRhs, ExB.plainOps, Grid.line, boxGrid]

theorem collide_heating (i : ℤ) (k : Fin 1) : ParOps.content (boxGrid.line (plainRhs 1) i)
    ((boxGrid.line (plainRhs 1) i).fvvHeating upwind (alongY ((plainRhs 1).toFA 1) i k) (alongY ((plainRhs 1).toFA collide) i k)
      (alongY ((plainRhs 1).toFA 0) i k) true).result = 6 := by
  unfold ParOps.content
  have hI : Icc (boxGrid.line (plainRhs 1) i).ystart (boxGrid.line (plainRhs 1) i).yend = {2, 3} := by
    show Icc (2 : ℤ) 3 = {2, 3}
    decide
  have h1 : (boxGrid.line (plainRhs 1) i).ystart = 2 := rfl
  have h2 : (boxGrid.line (plainRhs 1) i).yend = 3 := rfl
  rw [hI, Finset.sum_pair (by decide), ParOps.heating_gather _ _ _ _ _ _ (by rw [h1]) (by rw [h2]; norm_num),
    ParOps.heating_gather _ _ _ _ _ _ (by rw [h1]; norm_num) (by rw [h2])]
  norm_num [ParOps.volume, Line.faceR, ParOps.heatR, ParOps.heatL, Line.isLast, Line.isFirst, edges, upwind, alongY, collide, plainRhs,
    ExB.plainOps, Grid.line, boxGrid, heatMomR, heatMomL, ParOps.speedUp]

theorem collide_loss (i : ℤ) (k : Fin 1) : lineLoss boxGrid (plainRhs 1) upwind 1 collide 0 i k = 4 := by
  have hci := collide_closed i
  have h := ParOps.kinetic_energy_balance_closed (line_regular boxGrid_regular (plainRhs 1) i) (line_uniform boxGrid_separable (plainRhs 1) i)
    (closed_line hci) upwind (alongY ((plainRhs 1).toFA 1) i k) (alongY ((plainRhs 1).toFA collide) i k) (alongY ((plainRhs 1).toFA 0) i k)
  have u : alongY ((plainRhs 1).toFA collide) i k (boxGrid.line (plainRhs 1) i).yend
    + alongY ((plainRhs 1).toFA collide) i k ((boxGrid.line (plainRhs 1) i).yend + 1) = 0 := hci.upper k
  have l : alongY ((plainRhs 1).toFA collide) i k (boxGrid.line (plainRhs 1) i).ystart
    + alongY ((plainRhs 1).toFA collide) i k ((boxGrid.line (plainRhs 1) i).ystart - 1) = 0 := hci.lower k
  rw [u, l, collide_heating] at h
  have e : ((0 : ℝ) / 2) ^ 3 = 0 := by norm_num
  rw [e] at h
  simp only [mul_zero, zero_div, sub_zero, add_zero] at h
  have h' : 6 - lineLoss boxGrid (plainRhs 1) upwind 1 collide 0 i k = lineExcess boxGrid (plainRhs 1) upwind 1 collide 0 i k := h
  rw [collide_excess] at h'
  linarith

theorem collide_runs (heating : Bool) : ∃ rN rM rP, densityRhs oN boxGrid (plainRhs 1) upwind 1 collideSpecies stillFields = .ok rN ∧
    momentumRhs oM boxGrid (plainRhs 1) upwind 0 collideSpecies stillFields = .ok rM ∧
    pressureRhs (oP heating) boxGrid (plainRhs 1) upwind 1 0 collideSpecies stillFields = .ok rP := by
  have hk : ∃ kap, kappaPar (oP heating) (plainRhs 1) (1 : F3 1) 1 1 1 1 = .ok kap := by
    unfold kappaPar
    simp only
    rw [if_neg (by norm_num [oP])]
    exact ⟨_, rfl⟩
  obtain ⟨kap, hk⟩ := hk
  have hc : ∃ c, pressureConduction (oP heating) boxGrid (plainRhs 1) collideSpecies stillFields 1 1 1 = .ok c := by
    unfold pressureConduction
    rw [if_pos (show (oP heating).thermal_conduction = true from rfl)]
    show ∃ c, (kappaPar (oP heating) (plainRhs 1) (1 : F3 1) 1 1 1 1 >>= _) = .ok c
    rw [hk]
    exact ⟨_, rfl⟩
  obtain ⟨c, hc⟩ := hc
  have ha : ∃ a, pressureAdvection (oP heating) boxGrid (plainRhs 1) upwind collideSpecies stillFields 1 1 = .ok a := by
    cases heating <;> exact ⟨_, rfl⟩
  obtain ⟨a, ha⟩ := ha
  refine ⟨_, _, (-exbOf boxGrid (plainRhs 1) collideSpecies.isCharged stillFields 1 (oP heating).bndry_flux (oP heating).poloidal_flows + a
    + pressureLow (oP heating) boxGrid (plainRhs 1) collideSpecies 1 1 1 + c + pressureHyper (oP heating) 1 1
            + pressureSources 0 collideSpecies + (1 * 1 - 1)), rfl, rfl, ?_⟩
  unfold pressureRhs
  show (pressureAdvection (oP heating) boxGrid (plainRhs 1) upwind collideSpecies stillFields 1 1 >>= _) = _
  rw [ha]
  show (pressureConduction (oP heating) boxGrid (plainRhs 1) collideSpecies stillFields 1 1 1 >>= _) = _
  rw [hc]
  rfl

/-- **C62, negations.**  The energy of a closed box is not conserved by the three equations.  Two cells of unit density and
pressure run into each other with no sources: with the default `numerical_viscous_heating = false` the dissipated kinetic energy
disappears; with `true` the heating is larger than the dissipated energy, and energy appears. -/
theorem closed_box_energy_not_conserved (heating : Bool) : ∃ rN rM rP : F3 1,
    densityRhs oN boxGrid (plainRhs 1) upwind 1 collideSpecies stillFields = .ok rN ∧
    momentumRhs oM boxGrid (plainRhs 1) upwind 0 collideSpecies stillFields = .ok rM ∧
    pressureRhs (oP heating) boxGrid (plainRhs 1) upwind 1 0 collideSpecies stillFields = .ok rP ∧
    content boxGrid (energySources collideSpecies 1 collide 0) = 0 ∧
    content boxGrid (energyRate 1 collide rN rM rP) = if heating then 4 else -8 := by
  obtain ⟨rN, rM, rP, hN, hM, hP⟩ := collide_runs heating
  have h0 : content boxGrid (energySources collideSpecies 1 collide 0) = 0 := by
    have : energySources collideSpecies 1 collide 0 = 0 := by simp [energySources, collideSpecies]
    rw [this, content_zero]
  refine ⟨rN, rM, rP, hN, hM, hP, h0, ?_⟩
  have h := species_energy_partial boxGrid_regular boxGrid_separable plain_relabels (collide_dynamics heating) (w := 0) rfl
    (fun i _ => collide_closed i) hN hM hP
  rw [h, h0]
  have hv : (oP heating).numerical_viscous_heating = heating := rfl
  have hI : Icc boxGrid.xstart boxGrid.xend = {2, 3} := by decide
  rw [hv, hI]
  simp only [collide_excess, collide_loss]
  cases heating <;> norm_num

/-! ## Momentum of either sign in the ExB flow -/

noncomputable def slantMomentum (sign : ℝ) : SpeciesIn 3 :=
  { AA := some 1, charge := some 1, velocity := some fun _ _ _ => sign, momentum := some fun _ _ _ => sign, density := some 1, momentum_source := some 0 }

/-- **C62, negation.**  The ExB term should carry momentum whatever its sign: reversing the momentum should reverse the term.
It does not, because `finally` calls the operator with `positive = true`, which sets negative momentum at the faces between
poloidal cells to zero.  Two states that differ only in the sign of velocity and momentum, on a slanted field with a radial
electric field: switching the potential on changes `ddt(NV)` of a cell by one when the momentum is positive, and leaves it
unchanged when the momentum is negative. -/
theorem negative_momentum_not_carried : ∃ (phi : F3 3) (r r₀ : Bool → F3 3),
    (∀ up : Bool, momentumRhs { density_floor := 1, pressure_floor := 1, bndry_flux := false } ExB.slantGrid (plainRhs 3) mc 0
      (slantMomentum (if up then 1 else -1)) { phi := some phi, fastest_wave := some 1 } = .ok (r up)) ∧
    (∀ up : Bool, momentumRhs { density_floor := 1, pressure_floor := 1, bndry_flux := false } ExB.slantGrid (plainRhs 3) mc 0
      (slantMomentum (if up then 1 else -1)) { phi := none, fastest_wave := some 1 } = .ok (r₀ up)) ∧
    r true 2 2 0 - r₀ true 2 2 0 = 1 ∧ r false 2 2 0 - r₀ false 2 2 0 = 0 := by
  let phi : F3 3 := fun i _ _ => (i : ℝ)
  have key : ∀ c : ℝ, ∃ r r₀ : F3 3, momentumRhs { density_floor := 1, pressure_floor := 1, bndry_flux := false } ExB.slantGrid (plainRhs 3) mc 0
      (slantMomentum c) { phi := some phi, fastest_wave := some 1 } = .ok r ∧
      momentumRhs { density_floor := 1, pressure_floor := 1, bndry_flux := false } ExB.slantGrid (plainRhs 3) mc 0
      (slantMomentum c) { phi := none, fastest_wave := some 1 } = .ok r₀ ∧ r 2 2 0 - r₀ 2 2 0 = limitPositive true c := by
    intro c
    refine ⟨_, _, rfl, rfl, ?_⟩
    simp only [Pi.add_apply, Pi.sub_apply]
    have e : momentumElectric { density_floor := 1, pressure_floor := 1, bndry_flux := false } ExB.slantGrid (plainRhs 3) mc (slantMomentum c)
        { phi := some phi, fastest_wave := some 1 } (fun _ _ _ => c) 1 (fun _ _ _ => c) 1 2 2 0 = limitPositive true c := by
      unfold momentumElectric slantMomentum
      simp only
      rw [if_neg one_ne_zero]
      have := ExB.slant_value (fun _ => c) true (j := 2) (by norm_num)
      simp only [momentumApar, momentumPhiFlutter, add_zero, Pi.sub_apply, Pi.neg_apply]
      have e1 : ExB.slantGrid.exbXPPM (plainRhs 3).toBoutOps (fun _ _ _ => c) phi false true true 2 2 0 = _ := this
      rw [e1]
      norm_num [plainRhs, phi]
    have e0 : momentumElectric { density_floor := 1, pressure_floor := 1, bndry_flux := false } ExB.slantGrid (plainRhs 3) mc (slantMomentum c)
        { phi := none, fastest_wave := some 1 } (fun _ _ _ => c) 1 (fun _ _ _ => c) 1 2 2 0 = 0 := rfl
    simp only [e, e0]
    have f0 : momentumFlutter ExB.slantGrid (plainRhs 3) (slantMomentum c) { phi := some phi, fastest_wave := some 1 } (fun _ _ _ => c) (fun _ _ _ => c)
      = momentumFlutter ExB.slantGrid (plainRhs 3) (slantMomentum c) { phi := none, fastest_wave := some 1 } (fun _ _ _ => c) (fun _ _ _ => c) := rfl
    rw [f0]
    ring
  obtain ⟨r, r₀, h1, h2, h3⟩ := key 1
  obtain ⟨s, s₀, h4, h5, h6⟩ := key (-1)
  refine ⟨phi, fun up => if up then r else s, fun up => if up then r₀ else s₀, ?_, ?_, ?_, ?_⟩
  · rintro (_ | _)
    · exact h4
    · exact h1
  · rintro (_ | _)
    · exact h5
    · exact h2
  · show r 2 2 0 - r₀ 2 2 0 = 1
    rw [h3]
    norm_num [limitPositive]
  · show s 2 2 0 - s₀ 2 2 0 = 0
    rw [h6]
    norm_num [limitPositive]

end Hermes.MomentumEquation
