import Verif.Lemmas.Rhs
import Verif.Props.ParPositivity
import Mathlib.Tactic.FinCases

/-!
# C60: the density equation

`densityRhs o g B lim N₀ s f` is the `ddt(N)` that `EvolveDensity::finally` gives to the time integrator.  `content g r` is
the volume integral over the domain.
-/

namespace Hermes.DensityEquation
open Finset Hermes Hermes.Limiters Hermes.PerpOps Hermes.Rhs

variable {nz : ℕ} [NeZero nz]

/-! ## The terms -/

noncomputable def exbPart (o : DensityOpts) (g : Grid) (B : RhsOps nz) (f : FieldsIn nz) (N : F3 nz) : F3 nz :=
  exbOf g B (1e-5 < |o.charge|) f N o.bndry_flux o.poloidal_flows

noncomputable def parPart (g : Grid) (B : RhsOps nz) (lim : Limiter) (s : SpeciesIn nz) (f : FieldsIn nz) (N : F3 nz) : F3 nz :=
  match s.velocity, waveSpeed s f with
  | some V, .ok w => g.divParMod3 B lim N V w true
  | _, _ => 0

noncomputable def flutterPart (g : Grid) (B : RhsOps nz) (s : SpeciesIn nz) (f : FieldsIn nz) (N : F3 nz) : F3 nz :=
  match s.velocity, f.Apar_flutter with
  | some V, some A => g.divNG B N V (-A)
  | _, _ => 0

noncomputable def lowNPart (o : DensityOpts) (B : RhsOps nz) (s : SpeciesIn nz) (N : F3 nz) : F3 nz :=
  match o.low_n_diffuse, s.low_n_coeff with
  | true, some K => B.divParK K N
  | _, _ => 0

noncomputable def perpNPart (o : DensityOpts) (g : Grid) (N : F3 nz) : F3 nz :=
  if o.low_n_diffuse_perp then g.perpLapIndex (fun i j k => o.density_floor / floor3 N (1e-3 * o.density_floor) i j k) N else 0

noncomputable def perpPPart (o : DensityOpts) (g : Grid) (s : SpeciesIn nz) (N : F3 nz) : F3 nz :=
  match o.low_p_diffuse_perp, s.pressure with
  | true, some P => g.perpLapIndex (fun i j k => o.pressure_floor / floor3 P (1e-3 * o.pressure_floor) i j k) N
  | _, _ => 0

noncomputable def hyperPart (o : DensityOpts) (g : Grid) (B : RhsOps nz) (N : F3 nz) : F3 nz :=
  if 0 < o.hyper_z then fun i j k => o.hyper_z * ((g.dz i j) ^ 2) ^ 2 * B.d4dz4 N i j k else 0

/-- All terms apart from the scaling. -/
noncomputable def total (o : DensityOpts) (g : Grid) (B : RhsOps nz) (lim : Limiter) (s : SpeciesIn nz) (f : FieldsIn nz) (N Sn : F3 nz) : F3 nz :=
  -exbPart o g B f N - parPart g B lim s f N - flutterPart g B s f N + lowNPart o B s N + perpNPart o g N + perpPPart o g s N
    - hyperPart o g B N + Sn

theorem need_ok {α : Type} {a : Option α} {x : α} (h : need a = .ok x) : a = some x := by
  cases a with
  | none => cases h
  | some y => cases h; rfl

theorem except_bind_ok {ε α β : Type} {x : Except ε α} {f : α → Except ε β} {b : β} (h : (x >>= f) = .ok b) :
    ∃ a, x = .ok a ∧ f a = .ok b := by
  cases x with
  | error e => cases h
  | ok a => exact ⟨a, rfl, h⟩

/-- What a successful evaluation computes. -/
theorem densityRhs_ok {o : DensityOpts} {g : Grid} {B : RhsOps nz} {lim : Limiter} {N₀ : F3 nz} {s : SpeciesIn nz} {f : FieldsIn nz}
    {r : F3 nz} (h : densityRhs o g B lim N₀ s f = .ok r) :
    ∃ density Sn, s.density = some density ∧ s.density_source = some Sn ∧
      (∀ V, s.velocity = some V → ∃ w, waveSpeed s f = .ok w) ∧
      (o.low_n_diffuse = true → ∃ K, s.low_n_coeff = some K) ∧ (o.low_p_diffuse_perp = true → ∃ P, s.pressure = some P) ∧
      r = match f.scale_timederivs with
        | none => total o g B lim s f (B.setBoundaryTo N₀ density) Sn
        | some sc => total o g B lim s f (B.setBoundaryTo N₀ density) Sn * sc := by
  unfold densityRhs at h
  obtain ⟨density, hd, h⟩ := except_bind_ok h
  obtain ⟨d1, hp, h⟩ := except_bind_ok h
  obtain ⟨d2, hn, h⟩ := except_bind_ok h
  obtain ⟨d3, hP, h⟩ := except_bind_ok h
  obtain ⟨Sn, hS, h⟩ := except_bind_ok h
  set N := B.setBoundaryTo N₀ density with hN
  have e1 : d1 = -exbPart o g B f N - parPart g B lim s f N - flutterPart g B s f N ∧
      (∀ V, s.velocity = some V → ∃ w, waveSpeed s f = .ok w) := by
    unfold parPart flutterPart
    cases hv : s.velocity with
    | none =>
      rw [hv] at hp
      cases hp
      simp [exbPart]
    | some V =>
      rw [hv] at hp
      obtain ⟨w, hw, hp⟩ := except_bind_ok hp
      rw [hw]
      refine ⟨?_, fun _ _ => ⟨w, rfl⟩⟩
      cases hA : f.Apar_flutter with
      | none => rw [hA] at hp; cases hp; simp [exbPart]
      | some A => rw [hA] at hp; cases hp; rfl
  obtain ⟨e1, hw⟩ := e1
  have e2 : d2 = d1 + lowNPart o B s N ∧ (o.low_n_diffuse = true → ∃ K, s.low_n_coeff = some K) := by
    unfold lowNPart
    cases ho : o.low_n_diffuse with
    | false => rw [ho] at hn; cases hn; simp
    | true =>
      rw [ho] at hn
      simp only [if_true] at hn
      obtain ⟨K, hK, hn⟩ := except_bind_ok hn
      cases hn
      rw [need_ok hK]
      exact ⟨rfl, fun _ => ⟨K, rfl⟩⟩
  obtain ⟨e2, hlow⟩ := e2
  have e3 : d3 = d2 + perpNPart o g N + perpPPart o g s N ∧ (o.low_p_diffuse_perp = true → ∃ P, s.pressure = some P) := by
    have e : (if o.low_n_diffuse_perp = true then
        d2 + g.perpLapIndex (fun i j k => o.density_floor / floor3 N (1e-3 * o.density_floor) i j k) N else d2)
        = d2 + perpNPart o g N := by
      unfold perpNPart; split_ifs <;> simp
    rw [e] at hP
    unfold perpPPart
    cases ho : o.low_p_diffuse_perp with
    | false => rw [ho] at hP; cases hP; simp
    | true =>
      rw [ho] at hP
      simp only [if_true] at hP
      obtain ⟨P, hPP, hP⟩ := except_bind_ok hP
      cases hP
      rw [need_ok hPP]
      exact ⟨rfl, fun _ => ⟨P, rfl⟩⟩
  obtain ⟨e3, hpp⟩ := e3
  have e4 : (if 0 < o.hyper_z then d3 - fun i j k => o.hyper_z * ((g.dz i j) ^ 2) ^ 2 * B.d4dz4 N i j k else d3)
      = d3 - hyperPart o g B N := by
    unfold hyperPart; split_ifs <;> simp
  rw [e4] at h
  have e5 : d3 - hyperPart o g B N + Sn = total o g B lim s f N Sn := by
    unfold total; rw [e3, e2, e1]
  rw [e5] at h
  refine ⟨density, Sn, need_ok hd, need_ok hS, hw, hlow, hpp, ?_⟩
  cases hsc : f.scale_timederivs with
  | none => rw [hsc] at h; cases h; rfl
  | some sc => rw [hsc] at h; cases h; rfl

/-! ## Flows through the boundary of the domain -/

/-- ExB flow out of the domain. -/
noncomputable def exbOutflow (o : DensityOpts) (g : Grid) (B : RhsOps nz) (f : FieldsIn nz) (N : F3 nz) : ℝ :=
  match f.phi with
  | some phi => if 1e-5 < |o.charge| then
      ∑ j ∈ Icc g.ystart g.yend, ∑ k, (ExB.flowX g B.toBoutOps N phi o.bndry_flux o.poloidal_flows true g.xend j k
        - ExB.flowX g B.toBoutOps N phi o.bndry_flux o.poloidal_flows true (g.xstart - 1) j k)
      + ∑ i ∈ Icc g.xstart g.xend, ∑ k, (ExB.flowY g B.toBoutOps N phi o.bndry_flux o.poloidal_flows true i g.yend k
        - ExB.flowY g B.toBoutOps N phi o.bndry_flux o.poloidal_flows true i (g.ystart - 1) k)
    else 0
  | none => 0

/-- Parallel flow out of the two ends of all lines. -/
noncomputable def parOutflow (g : Grid) (B : RhsOps nz) (lim : Limiter) (s : SpeciesIn nz) (f : FieldsIn nz) (N : F3 nz) : ℝ :=
  match s.velocity, waveSpeed s f with
  | some V, .ok w => ∑ i ∈ Icc g.xstart g.xend, ∑ k, (parFlow g B lim N V w i (g.yend + 1) k - parFlow g B lim N V w i g.ystart k)
  | _, _ => 0

/-- Flow along the perturbed field through the radial boundaries. -/
noncomputable def flutterOutflow (g : Grid) (s : SpeciesIn nz) (f : FieldsIn nz) (N : F3 nz) : ℝ :=
  match s.velocity, f.Apar_flutter with
  | some V, some A => ∑ j ∈ Icc g.ystart g.yend, ∑ k, (g.exbFaceX N V (-A) true g.xend j k - g.exbFaceX N V (-A) true (g.xstart - 1) j k)
      * (g.dy g.xstart j * g.dz g.xstart j)
  | _, _ => 0

/-- Flow into the domain by the dissipation in index space with coefficient `a`. -/
noncomputable def lapInflow (g : Grid) (a N : F3 nz) : ℝ :=
  ∑ j ∈ Icc g.ystart g.yend, ∑ k, (lapFace g a N g.xend j k - lapFace g a N (g.xstart - 1) j k) * (g.dy g.xstart j * g.dz g.xstart j)

noncomputable def perpNInflow (o : DensityOpts) (g : Grid) (N : F3 nz) : ℝ :=
  if o.low_n_diffuse_perp then lapInflow g (fun i j k => o.density_floor / floor3 N (1e-3 * o.density_floor) i j k) N else 0

noncomputable def perpPInflow (o : DensityOpts) (g : Grid) (s : SpeciesIn nz) (N : F3 nz) : ℝ :=
  match o.low_p_diffuse_perp, s.pressure with
  | true, some P => lapInflow g (fun i j k => o.pressure_floor / floor3 P (1e-3 * o.pressure_floor) i j k) N
  | _, _ => 0

/-- What is assumed of BOUT++. -/
structure Assumed (g : Grid) (B : RhsOps nz) : Prop where
  shifts : ExB.Shifts B.toBoutOps
  one : ExB.OneProcessorX g B.toBoutOps
  d4dz4 : ∀ (r : F3 nz) i j, ∑ k, B.d4dz4 r i j k = 0

theorem content_hyper {g : Grid} {B : RhsOps nz} (hB : Assumed g B) (o : DensityOpts) (N : F3 nz) : content g (hyperPart o g B N) = 0 := by
  rw [← content_zero (nz := nz) g]
  refine content_congr fun i j _ _ => ?_
  unfold hyperPart
  split_ifs
  · rw [← Finset.mul_sum, hB.d4dz4]; simp
  · rfl

/-- **C60.**  Particle balance.  For every state, geometry, limiter and choice of options the rate of change of the number of
particles is the integral of the density source, minus what flows through the boundaries, plus what the low-density diffusion
along the field (an operator of BOUT++) adds.  No other term creates or destroys particles. -/
theorem density_balance {o : DensityOpts} {g : Grid} (hg : Regular g) (hs : Separable g) {B : RhsOps nz} (hB : Assumed g B)
    {lim : Limiter} {N₀ : F3 nz} {s : SpeciesIn nz} {f : FieldsIn nz} (hsc : f.scale_timederivs = none) {r : F3 nz}
    (h : densityRhs o g B lim N₀ s f = .ok r) :
    ∃ density Sn, s.density = some density ∧ s.density_source = some Sn ∧
      content g r = content g Sn
        - exbOutflow o g B f (B.setBoundaryTo N₀ density) - parOutflow g B lim s f (B.setBoundaryTo N₀ density)
        - flutterOutflow g s f (B.setBoundaryTo N₀ density)
        + perpNInflow o g (B.setBoundaryTo N₀ density) + perpPInflow o g s (B.setBoundaryTo N₀ density)
        + content g (lowNPart o B s (B.setBoundaryTo N₀ density)) := by
  obtain ⟨density, Sn, hd, hS, -, -, -, hr⟩ := densityRhs_ok h
  rw [hsc] at hr
  refine ⟨density, Sn, hd, hS, ?_⟩
  simp only at hr
  set N := B.setBoundaryTo N₀ density
  have e1 : content g (exbPart o g B f N) = exbOutflow o g B f N := by
    unfold exbPart exbOf exbOutflow
    cases f.phi with
    | none => exact content_zero g
    | some phi =>
      simp only
      split_ifs
      · exact ExB.xppm_balance hg hs hB.shifts hB.one _ _ _ _ _
      · exact content_zero g
  have e2 : content g (parPart g B lim s f N) = parOutflow g B lim s f N := by
    unfold parPart parOutflow
    cases s.velocity with
    | none => exact content_zero g
    | some V =>
      cases waveSpeed s f with
      | error e => exact content_zero g
      | ok w => exact content_parMod hg hs hB.shifts lim N V w
  have e3 : content g (flutterPart g B s f N) = flutterOutflow g s f N := by
    unfold flutterPart flutterOutflow
    cases s.velocity with
    | none => exact content_zero g
    | some V =>
      cases f.Apar_flutter with
      | none => exact content_zero g
      | some A => exact content_divNG hg hs hB.one N V (-A) true
  have e4 : content g (perpNPart o g N) = perpNInflow o g N := by
    unfold perpNPart perpNInflow
    split_ifs
    · exact content_perpLap hg hs _ _
    · exact content_zero g
  have e5 : content g (perpPPart o g s N) = perpPInflow o g s N := by
    unfold perpPPart perpPInflow
    cases o.low_p_diffuse_perp with
    | false => exact content_zero g
    | true =>
      cases s.pressure with
      | none => exact content_zero g
      | some P => exact content_perpLap hg hs _ _
  rw [hr]
  unfold total
  rw [content_add, content_sub, content_add, content_add, content_add, content_sub, content_sub, content_neg, e1, e2, e3, e4, e5,
    content_hyper hB]
  ring

/-! ## A closed domain -/

/-- The lines of column `i` are closed: either they end inside the domain with no flow through the ends, or they are periodic. -/
def LinesClosed (g : Grid) (B : RhsOps nz) (s : SpeciesIn nz) (f : FieldsIn nz) (N : F3 nz) (i : ℤ) : Prop :=
  (B.periodicY i = false ∧ g.firstY i = true ∧ g.lastY i = true ∧ ∀ V, s.velocity = some V → ClosedEnds g B V i) ∨
  (GeometryWraps g B i ∧ ∃ σ, FieldWraps g (B.toFA N) i σ ∧ (∀ V, s.velocity = some V → FieldWraps g (B.toFA V) i σ) ∧
    (∀ w, waveSpeed s f = .ok w → FieldWraps g (B.toFA w) i σ) ∧
    ∀ phi, f.phi = some phi → ExB.Wraps g (B.toFA N) (B.toFA (B.ddx phi)) i σ)

/-- A domain from which nothing should escape: no flux through the radial boundary, closed field lines, no gradient at the
radial boundary where the dissipation acts. -/
structure ClosedDomain (o : DensityOpts) (g : Grid) (B : RhsOps nz) (s : SpeciesIn nz) (f : FieldsIn nz) (N : F3 nz) : Prop where
  radial : o.bndry_flux = false
  lines : ∀ i, g.xstart ≤ i ∧ i ≤ g.xend → LinesClosed g B s f N i
  lowN : content g (lowNPart o B s N) = 0

theorem lapInflow_zero {g : Grid} {a N : F3 nz} (h : ZeroGradientX g N) : lapInflow g a N = 0 := by
  unfold lapInflow
  refine Finset.sum_eq_zero fun j _ => Finset.sum_eq_zero fun k _ => ?_
  unfold lapFace
  rw [sub_add_cancel, (h j k).1, (h j k).2]
  simp

theorem exbOutflow_closed {o : DensityOpts} {g : Grid} (hg : Regular g) {B : RhsOps nz} (hB : Assumed g B) {s : SpeciesIn nz}
    {f : FieldsIn nz} {N : F3 nz} (hb : o.bndry_flux = false) (hl : ∀ i, g.xstart ≤ i ∧ i ≤ g.xend → LinesClosed g B s f N i) :
    exbOutflow o g B f N = 0 := by
  unfold exbOutflow
  cases hphi : f.phi with
  | none => rfl
  | some phi =>
    simp only [hb]
    split_ifs
    swap
    · rfl
    have h1 : ∀ j (k : Fin nz), ExB.flowX g B.toBoutOps N phi false o.poloidal_flows true g.xend j k
        - ExB.flowX g B.toBoutOps N phi false o.poloidal_flows true (g.xstart - 1) j k = 0 := by
      intro j k
      rw [(ExB.xppm_no_radial_leak hg _ N phi _ _ j k).1 hB.one.lastX, (ExB.xppm_no_radial_leak hg _ N phi _ _ j k).2 hB.one.firstX,
        sub_zero]
    simp only [h1, Finset.sum_const_zero, zero_add]
    refine Finset.sum_eq_zero fun i hi => ?_
    rcases hl i (mem_Icc.1 hi) with ⟨hp, hf, hla, -⟩ | ⟨hgw, σ, -, -, -, hw⟩
    · refine Finset.sum_eq_zero fun k _ => ?_
      rw [(ExB.xppm_no_poloidal_leak g _ N phi _ _ k hp).1 hla, (ExB.xppm_no_poloidal_leak g _ N phi _ _ k hp).2 hf, sub_zero]
    · rw [Finset.sum_sub_distrib, ExB.xppm_periodic g _ N phi false _ _ σ hgw.periodic (hw phi hphi), sub_self]

theorem parOutflow_closed {g : Grid} (hg : Regular g) (hs : Separable g) {B : RhsOps nz} {lim : Limiter} {s : SpeciesIn nz}
    {f : FieldsIn nz} {N : F3 nz} (hl : ∀ i, g.xstart ≤ i ∧ i ≤ g.xend → LinesClosed g B s f N i) :
    parOutflow g B lim s f N = 0 := by
  unfold parOutflow
  cases hV : s.velocity with
  | none => rfl
  | some V =>
    cases hW : waveSpeed s f with
    | error e => rfl
    | ok w =>
      simp only
      refine Finset.sum_eq_zero fun i hi => ?_
      rcases hl i (mem_Icc.1 hi) with ⟨-, -, -, hc⟩ | ⟨hgw, σ, hN, hv, hww, -⟩
      · refine Finset.sum_eq_zero fun k _ => ?_
        rw [(closed_no_flow hg (hc V hV) lim N w k).1, (closed_no_flow hg (hc V hV) lim N w k).2, sub_zero]
      · rw [Finset.sum_sub_distrib, periodic_flow hg hs hgw lim σ hN (hv V hV) (hww w hW), sub_self]

/-- C60.  In a closed domain the number of particles changes only by the sources, whatever the density, velocity, potential,
limiter and geometry.  Partial: without magnetic flutter (`flutter_leaks`), and with zero radial gradient of the density at the
boundary if one of the dissipation options is on (`dissipation_leaks`): these two terms ignore `bndry_flux`. -/
theorem density_conserved_partial {o : DensityOpts} {g : Grid} (hg : Regular g) (hs : Separable g) {B : RhsOps nz} (hB : Assumed g B)
    {lim : Limiter} {N₀ : F3 nz} {s : SpeciesIn nz} {f : FieldsIn nz} (hsc : f.scale_timederivs = none) {r density Sn : F3 nz}
    (hd : s.density = some density) (hS : s.density_source = some Sn)
    (hc : ClosedDomain o g B s f (B.setBoundaryTo N₀ density)) (hA : f.Apar_flutter = none)
    (hx : o.low_n_diffuse_perp = true ∨ o.low_p_diffuse_perp = true → ZeroGradientX g (B.setBoundaryTo N₀ density))
    (h : densityRhs o g B lim N₀ s f = .ok r) : content g r = content g Sn := by
  obtain ⟨d', S', hd', hS', e⟩ := density_balance hg hs hB hsc h
  rw [hd] at hd'
  rw [hS] at hS'
  cases hd'
  cases hS'
  set N := B.setBoundaryTo N₀ density
  have f1 : flutterOutflow g s f N = 0 := by
    unfold flutterOutflow
    rw [hA]
    cases s.velocity <;> rfl
  have f2 : perpNInflow o g N = 0 := by
    unfold perpNInflow
    split_ifs with h1
    · exact lapInflow_zero (hx (Or.inl h1))
    · rfl
  have f3 : perpPInflow o g s N = 0 := by
    unfold perpPInflow
    cases h1 : o.low_p_diffuse_perp with
    | false => rfl
    | true =>
      cases s.pressure with
      | none => rfl
      | some P => exact lapInflow_zero (hx (Or.inr h1))
  rw [e, exbOutflow_closed hg hB hc.radial hc.lines, parOutflow_closed hg hs hc.lines, f1, f2, f3, hc.lowN]
  ring

/-! ## Empty cells -/

/-- C60.  The density of an empty cell is not driven below zero: in an inner cell where the density is zero and nowhere
negative, `ddt(N)` is at least the source (times the scale factor, if there is one), for every potential, velocity, wave speed
and monotone limiter.  Partial: without the poloidal part of the ExB flow, magnetic flutter and the hyper-diffusion in `z`, for
field-aligned coordinates that coincide with the grid, and with the diffusion of BOUT++ along the field assumed to fill minima. -/
theorem empty_cell_filled_partial {o : DensityOpts} {g : Grid} (hg : Positive g) {B : RhsOps nz} (h22 : ∀ i j, 0 < B.g_22 i j)
    (hto : ∀ f, B.toFA f = f) (hfrom : ∀ f, B.fromFA f = f) (hcomm : ∀ f, B.communicate f = f)
    {lim : Limiter} (hl : MonotoneLim lim) {N₀ density Sn : F3 nz} {s : SpeciesIn nz} {f : FieldsIn nz}
    (hd : s.density = some density) (hS : s.density_source = some Sn) (hpol : f.phi = none ∨ o.poloidal_flows = false)
    (hA : f.Apar_flutter = none) (hz : o.hyper_z ≤ 0) (hn : 0 < o.density_floor) (hp : 0 < o.pressure_floor)
    (hN : ∀ i j k, 0 ≤ B.setBoundaryTo N₀ density i j k) {i j : ℤ} {k : Fin nz} (hi : g.xstart ≤ i ∧ i ≤ g.xend)
    (hj : ParOps.Inner (g.line B i) j) (h0 : B.setBoundaryTo N₀ density i j k = 0)
    (hK : ∀ K, 0 ≤ B.divParK K (B.setBoundaryTo N₀ density) i j k) {r : F3 nz} (h : densityRhs o g B lim N₀ s f = .ok r) :
    (f.scale_timederivs = none → Sn i j k ≤ r i j k) ∧
    (∀ sc, f.scale_timederivs = some sc → 0 ≤ sc i j k → Sn i j k * sc i j k ≤ r i j k) := by
  obtain ⟨d', S', hd', hS', -, -, -, hr⟩ := densityRhs_ok h
  rw [hd] at hd'
  rw [hS] at hS'
  cases hd'
  cases hS'
  set N := B.setBoundaryTo N₀ density
  have e1 : exbPart o g B f N i j k ≤ 0 := by
    unfold exbPart exbOf
    rcases hpol with h1 | h1
    · rw [h1]; exact le_rfl
    · cases f.phi with
      | none => exact le_rfl
      | some phi =>
        simp only
        split_ifs
        · unfold Grid.exbXPPM
          simp only [h1, hcomm]
          exact ExB.exb_empty_cell_not_drained hg N _ phi hN (fun _ _ _ => zero_le_one) _ k hi ⟨hj.1, hj.2.1⟩ h0
        · exact le_rfl
  have e2 : parPart g B lim s f N i j k ≤ 0 := by
    unfold parPart
    cases s.velocity with
    | none => exact le_rfl
    | some V =>
      cases waveSpeed s f with
      | error e => exact le_rfl
      | ok w =>
        simp only [Grid.divParMod3, hfrom, Grid.parMod, hto]
        exact ParOps.empty_cell_not_drained (g := g.line B i)
          ⟨hg.J i, h22 i, hg.dx i, hg.dy i, hg.dz i⟩ hl _ _ _ hj (fun _ _ _ => hN _ _ _) h0
  have e3 : flutterPart g B s f N i j k = 0 := by
    unfold flutterPart
    rw [hA]
    cases s.velocity <;> rfl
  have e4 : 0 ≤ lowNPart o B s N i j k := by
    unfold lowNPart
    cases o.low_n_diffuse with
    | false => exact le_rfl
    | true => cases s.low_n_coeff with
      | none => exact le_rfl
      | some K => exact hK K
  have fl : ∀ (P : F3 nz) (c : ℝ), 0 < c → ∀ i j k, 0 ≤ c / floor3 P (1e-3 * c) i j k := by
    intro P c hc i j k
    have : 0 < 1e-3 * c := by positivity
    unfold floor3
    split_ifs with h1
    · positivity
    · exact div_nonneg hc.le (this.le.trans (not_lt.1 h1))
  have e5 : 0 ≤ perpNPart o g N i j k := by
    unfold perpNPart
    split_ifs
    · exact perpLapIndex_fills_minima hg _ _ (fl N _ hn) k (h0.le.trans (hN _ _ _)) (h0.le.trans (hN _ _ _))
        (h0.le.trans (hN _ _ _)) (h0.le.trans (hN _ _ _))
    · exact le_rfl
  have e6 : 0 ≤ perpPPart o g s N i j k := by
    unfold perpPPart
    cases o.low_p_diffuse_perp with
    | false => exact le_rfl
    | true => cases s.pressure with
      | none => exact le_rfl
      | some P =>
        exact perpLapIndex_fills_minima hg _ _ (fl P _ hp) k (h0.le.trans (hN _ _ _)) (h0.le.trans (hN _ _ _))
          (h0.le.trans (hN _ _ _)) (h0.le.trans (hN _ _ _))
  have e7 : hyperPart o g B N i j k = 0 := by
    unfold hyperPart
    rw [if_neg (not_lt.2 hz)]
    rfl
  have e : Sn i j k ≤ total o g B lim s f N Sn i j k := by
    simp only [total, Pi.add_apply, Pi.sub_apply, Pi.neg_apply]
    rw [e3, e7]
    linarith
  refine ⟨fun hsc => ?_, fun sc hsc h1 => ?_⟩
  · rw [hr, hsc]; exact e
  · rw [hr, hsc]
    exact mul_le_mul_of_nonneg_right e h1

/-! ## Non-vacuity, and two leaks -/

/-- Plain differences, no shift, one processor. -/
noncomputable def plainRhs (nz : ℕ) [NeZero nz] : RhsOps nz where
  toBoutOps := ExB.plainOps nz
  g_22 _ _ := 1
  setBoundaryTo _ b := b
  divParK _ _ := 0
  d4dz4 f := fun i j k => f i j (k + 1) - 2 * f i j k + f i j (k - 1)
  gradPar f := fun i j k => (f i (j + 1) k - f i (j - 1) k) / 2
  divPar f := fun i j k => (f i (j + 1) k - f i (j - 1) k) / 2
  bracket _ _ := 0
  neumann f := f

theorem plainRhs_assumed (nz : ℕ) [NeZero nz] : Assumed boxGrid (plainRhs nz) where
  shifts := ⟨fun _ _ _ => rfl⟩
  one := ⟨rfl, rfl, fun _ _ _ _ _ => rfl⟩
  d4dz4 f i j := by
    simp only [plainRhs, Finset.sum_add_distrib, Finset.sum_sub_distrib, ← Finset.mul_sum]
    have h1 := Equiv.sum_comp (Equiv.addRight (1 : Fin nz)) (fun k => f i j k)
    have h2 := Equiv.sum_comp (Equiv.subRight (1 : Fin nz)) (fun k => f i j k)
    simp only [Equiv.coe_addRight, Equiv.subRight_apply] at h1 h2
    rw [h1, h2]
    ring

theorem boxGrid_regular : Regular boxGrid := boxGrid_positive.regular (by norm_num [boxGrid]) (by norm_num [boxGrid])

/-- Flow along the field that turns round at both ends, in the outer column only. -/
noncomputable def outerFlow : F3 3 := fun i j _ => if 3 ≤ i then (if j = 2 ∨ j = 3 then 1 else -1) else 0

/-- A density peaked in `z`. -/
noncomputable def peak : F3 3 := fun _ _ k => if k = 0 then 2 else 0

noncomputable def closedOpts : DensityOpts := { bndry_flux := false, density_floor := 1, pressure_floor := 1, charge := 1 }

noncomputable def boxSpecies (N : F3 3) : SpeciesIn 3 := { velocity := some outerFlow, density := some N, density_source := some 0 }

noncomputable def boxFields (A : Option (F3 3)) : FieldsIn 3 :=
  { phi := some (fun i _ k => if k = 1 then i else 0), fastest_wave := some 1, Apar_flutter := A }

/-- The conditions of `density_conserved_partial` hold in a case with flow and potential. -/
theorem closed_box (A : Option (F3 3)) {o : DensityOpts} (ho : o.bndry_flux = false) (hn : o.low_n_diffuse = false) (N : F3 3) :
    ClosedDomain o boxGrid (plainRhs 3) (boxSpecies N) (boxFields A) N where
  radial := ho
  lines i _ := Or.inl ⟨rfl, rfl, rfl, fun V hV => by
    cases hV
    refine ⟨rfl, rfl, rfl, fun k => ?_, fun k => ?_⟩
    · simp only [plainRhs, ExB.plainOps, outerFlow, boxGrid]
      split_ifs <;> simp_all
    · simp only [plainRhs, ExB.plainOps, outerFlow, boxGrid]
      split_ifs <;> simp_all⟩
  lowN := by
    unfold lowNPart
    rw [hn]
    exact content_zero _

theorem box_runs (A : Option (F3 3)) {o : DensityOpts} (hn : o.low_n_diffuse = false) (hp : o.low_p_diffuse_perp = false) (N : F3 3) :
    ∃ r, densityRhs o boxGrid (plainRhs 3) mc N (boxSpecies N) (boxFields A) = .ok r := by
  unfold densityRhs
  rw [hn, hp]
  cases A <;> exact ⟨_, rfl⟩

/-- In this case only flutter and dissipation change the number of particles. -/
theorem box_balance (A : Option (F3 3)) {o : DensityOpts} (ho : o.bndry_flux = false) (hn : o.low_n_diffuse = false)
    (hp : o.low_p_diffuse_perp = false) {N r : F3 3} (h : densityRhs o boxGrid (plainRhs 3) mc N (boxSpecies N) (boxFields A) = .ok r) :
    content boxGrid r = -flutterOutflow boxGrid (boxSpecies N) (boxFields A) N + perpNInflow o boxGrid N := by
  have hc := closed_box A ho hn N
  obtain ⟨d, S, hd, hS, e⟩ := density_balance boxGrid_regular boxGrid_separable (plainRhs_assumed 3) rfl h
  cases hd
  cases hS
  have hN : (plainRhs 3).setBoundaryTo N N = N := rfl
  have hz : perpPInflow o boxGrid (boxSpecies N) N = 0 := by unfold perpPInflow; rw [hp]
  rw [hN, exbOutflow_closed boxGrid_regular (plainRhs_assumed 3) hc.radial hc.lines,
    parOutflow_closed boxGrid_regular boxGrid_separable hc.lines, hc.lowN, content_zero, hz] at e
  rw [e]
  ring

example : ∃ r, densityRhs closedOpts boxGrid (plainRhs 3) mc peak (boxSpecies peak) (boxFields none) = .ok r ∧ content boxGrid r = 0 := by
  obtain ⟨r, hr⟩ := box_runs none (o := closedOpts) rfl rfl peak
  refine ⟨r, hr, ?_⟩
  rw [← content_zero (nz := 3) boxGrid]
  refine density_conserved_partial boxGrid_regular boxGrid_separable (plainRhs_assumed 3) rfl rfl rfl
    (closed_box none rfl rfl _) rfl ?_ hr
  rintro (h | h) <;> simp [closedOpts] at h

/-- The conditions of `empty_cell_filled_partial`: an empty cell of a periodic line with neighbours in `z` that are not empty. -/
example : ∃ B : RhsOps 3, ∃ r, (∀ i j, 0 < B.g_22 i j) ∧ (∀ f, B.toFA f = f) ∧ (∀ f, B.fromFA f = f) ∧ (∀ f, B.communicate f = f) ∧
    (∀ i j k, 0 ≤ B.setBoundaryTo peak peak i j k) ∧ ParOps.Inner (boxGrid.line B 2) 2 ∧ B.setBoundaryTo peak peak 2 2 1 = 0 ∧
    (∀ K, 0 ≤ B.divParK K (B.setBoundaryTo peak peak) 2 2 1) ∧
    densityRhs { closedOpts with poloidal_flows := false } boxGrid B mc peak (boxSpecies peak) (boxFields none) = .ok r ∧ 0 ≤ r 2 2 1 := by
  let B : RhsOps 3 := { plainRhs 3 with periodicY := fun _ => true }
  obtain ⟨r, hr⟩ : ∃ r, densityRhs { closedOpts with poloidal_flows := false } boxGrid B mc peak (boxSpecies peak) (boxFields none) = .ok r :=
    ⟨_, rfl⟩
  have h1 : ∀ i j k, 0 ≤ B.setBoundaryTo peak peak i j k := by
    intro i j k
    simp only [B, plainRhs, peak]
    split_ifs <;> norm_num
  have h2 : ParOps.Inner (boxGrid.line B 2) 2 := ⟨le_rfl, by norm_num [Grid.line, boxGrid], rfl, rfl⟩
  refine ⟨B, r, fun _ _ => one_pos, fun _ => rfl, fun _ => rfl, fun _ => rfl, h1, h2, rfl, fun _ => le_rfl, hr, ?_⟩
  exact (empty_cell_filled_partial boxGrid_positive (fun _ _ => one_pos) (fun _ => rfl) (fun _ => rfl) (fun _ => rfl) mc_monotone rfl rfl
    (Or.inr rfl) rfl (by norm_num [closedOpts]) (by norm_num [closedOpts]) (by norm_num [closedOpts]) h1
    (by norm_num [boxGrid]) h2 (k := 1) rfl (fun _ => le_rfl) hr).1 rfl

/-- A vector potential that bends the field lines radially. -/
noncomputable def bend : F3 3 := fun _ _ k => if k = 1 then -1 else 0

/-- What leaves through the outer boundary with the flow along the bent field. -/
theorem peak_outflow : ∑ j ∈ Icc boxGrid.ystart boxGrid.yend, ∑ k, (boxGrid.exbFaceX peak outerFlow (-bend) true boxGrid.xend j k
    - boxGrid.exbFaceX peak outerFlow (-bend) true (boxGrid.xstart - 1) j k) * (boxGrid.dy boxGrid.xstart j * boxGrid.dz boxGrid.xstart j) = 2 := by
  have hI : Icc (2 : ℤ) 3 = {2, 3} := by decide
  have e : ∀ j, j = 2 ∨ j = 3 → ∀ k : Fin 3, (boxGrid.exbFaceX peak outerFlow (-bend) true boxGrid.xend j k
      - boxGrid.exbFaceX peak outerFlow (-bend) true (boxGrid.xstart - 1) j k)
      * (boxGrid.dy boxGrid.xstart j * boxGrid.dz boxGrid.xstart j) = if k = 0 then 1 else 0 := by
    intro j hj k
    have hc : ∀ c : ℝ, mc c c c = (c, c) := constant_exact mc_monotone
    rcases hj with rfl | rfl <;> fin_cases k <;>
      norm_num [Grid.exbFaceX, boxGrid, Grid.exbRight, Grid.exbLeft, Grid.vR, Grid.vL, cornerPP, cornerPM, cornerMP, cornerMM, outerFlow, peak, hc,
        bend, Fin.ext_iff, Fin.val_add, Fin.val_sub]
  have : Icc boxGrid.ystart boxGrid.yend = {2, 3} := hI
  rw [this, Finset.sum_pair (by norm_num), Finset.sum_congr rfl fun k _ => e 2 (Or.inl rfl) k,
    Finset.sum_congr rfl fun k _ => e 3 (Or.inr rfl) k]
  norm_num [Fin.sum_univ_three]

/-- Full statement fails: with `bndry_flux = false` and closed field lines the magnetic flutter term still moves particles
through the radial boundary, because `finally` calls `Div_n_g_bxGrad_f_B_XZ` without its `bndry_flux` argument. -/
theorem flutter_leaks : ∃ (o : DensityOpts) (s : SpeciesIn 3) (f : FieldsIn 3) (N r : F3 3),
    ClosedDomain o boxGrid (plainRhs 3) s f N ∧ s.density = some N ∧ s.density_source = some 0 ∧ f.scale_timederivs = none ∧
    o.low_n_diffuse_perp = false ∧ o.low_p_diffuse_perp = false ∧
    densityRhs o boxGrid (plainRhs 3) mc N s f = .ok r ∧ content boxGrid r < 0 := by
  obtain ⟨r, hr⟩ := box_runs (some bend) (o := closedOpts) rfl rfl peak
  refine ⟨closedOpts, _, _, peak, r, closed_box _ rfl rfl peak, rfl, rfl, rfl, rfl, rfl, hr, ?_⟩
  rw [box_balance _ rfl rfl rfl hr]
  have hf : flutterOutflow boxGrid (boxSpecies peak) (boxFields (some bend)) peak = 2 := peak_outflow
  rw [hf]
  norm_num [perpNInflow, closedOpts]

/-- A linear density. -/
noncomputable def ramp : F3 3 := fun i _ _ => i

/-- Full statement fails: the low-density dissipation moves particles through the radial boundary with `bndry_flux = false`
unless the density has zero gradient there, because `Div_Perp_Lap_FV_Index` does not use its last argument. -/
theorem dissipation_leaks : ∃ (o : DensityOpts) (s : SpeciesIn 3) (f : FieldsIn 3) (N r : F3 3),
    ClosedDomain o boxGrid (plainRhs 3) s f N ∧ s.density = some N ∧ s.density_source = some 0 ∧ f.scale_timederivs = none ∧
    f.Apar_flutter = none ∧ densityRhs o boxGrid (plainRhs 3) mc N s f = .ok r ∧ content boxGrid r < 0 := by
  obtain ⟨r, hr⟩ := box_runs none (o := { closedOpts with low_n_diffuse_perp := true }) rfl rfl ramp
  refine ⟨_, _, _, ramp, r, closed_box none rfl rfl ramp, rfl, rfl, rfl, rfl, hr, ?_⟩
  rw [box_balance _ rfl rfl rfl hr]
  have hI : Icc (2 : ℤ) 3 = {2, 3} := by decide
  have hJ : Icc boxGrid.ystart boxGrid.yend = {2, 3} := hI
  simp only [perpNInflow, if_true, lapInflow, hJ]
  rw [Finset.sum_pair (by norm_num)]
  norm_num [flutterOutflow, boxSpecies, boxFields, closedOpts, Fin.sum_univ_three, lapFace, boxGrid, ramp, floor3]

/-! ## The wave speed -/

/-- **C60.**  The speed with which the parallel advection is stabilised: the one given by `fastest_wave`, or else the sound speed
of the species, `AA w² = T` with `w ≥ 0`; it exists whenever mass and temperature are set and the temperature is not negative. -/
theorem wave_speed_is_sound_speed (s : SpeciesIn nz) (f : FieldsIn nz) :
    (∀ w, f.fastest_wave = some w → waveSpeed s f = .ok w) ∧
    (∀ T AA, f.fastest_wave = none → s.temperature = some T → s.AA = some AA → 0 < AA → (∀ i j k, 0 ≤ T i j k) →
      ∃ w, waveSpeed s f = .ok w ∧ ∀ i j k, 0 ≤ w i j k ∧ AA * w i j k ^ 2 = T i j k) := by
  constructor
  · intro w h
    unfold waveSpeed
    rw [h]
  · intro T AA h hT hA hpos hn
    refine ⟨fun i j k => Real.sqrt (T i j k / AA), ?_, fun i j k => ⟨Real.sqrt_nonneg _, ?_⟩⟩
    · unfold waveSpeed
      rw [h, hT, hA]
      simp only
      rw [if_neg]
      rintro ⟨i, j, k, hlt⟩
      exact absurd hlt (not_lt.2 (div_nonneg (hn i j k) hpos.le))
    · rw [Real.sq_sqrt (div_nonneg (hn i j k) hpos.le)]
      field_simp

end Hermes.DensityEquation
