import Verif.Lemmas.ScalingEquations
import Verif.Model.Metric
import Verif.Props.DensityEquation

/-!
# C75: the transport equations in different units

`EvolveDensity::finally`, `EvolveMomentum::finally`, `EvolvePressure::finally` and `EvolveEnergy::finally` get a grid, a state and a potential that were
divided by reference values.  The time derivatives, converted back with the factors that are saved in the output files, do not depend on these reference
values.
-/

namespace Hermes.Units
open Hermes

variable {nz : ℕ} [NeZero nz]

/-! ## A grid, a state and operators given in SI units, in the units of a simulation -/

/-- The components of the metric in one point; those that the transport operators do not use are zero. -/
noncomputable def metricAt (G : Grid) (i j : ℤ) : Metric :=
  { dx := G.dx i j, Bxy := G.Bxy i j, g11 := G.g11 i j, g22 := G.g22 i j, g33 := G.g33 i j, g12 := 0, g13 := 0, g23 := G.g23 i j, J := G.J i j,
    g_11 := 0, g_22 := 0, g_33 := 0, g_12 := 0, g_13 := 0, g_23 := G.g_23 i j }

/-- The grid after the normalisation of the metric in `Hermes::init`, `hermes-3.cxx:250-267`. -/
noncomputable def gridIn (c : Consts) (u : Normalisation) (G : Grid) : Grid :=
  let m i j := normaliseMetric (u.rho_s0 c) u.Bnorm (metricAt G i j)
  { G with
    J := fun i j => (m i j).J, dx := fun i j => (m i j).dx, g11 := fun i j => (m i j).g11, g22 := fun i j => (m i j).g22, g33 := fun i j => (m i j).g33
    g23 := fun i j => (m i j).g23, g_23 := fun i j => (m i j).g_23, Bxy := fun i j => (m i j).Bxy }

/-- The operators of BOUT++ on the normalised grid.  Derivatives along the field are inverse lengths, those in `x` and the bracket inverse fluxes
(`dx / (rho_s0² Bnorm)`). -/
noncomputable def opsIn (c : Consts) (u : Normalisation) (B : RhsOps nz) : RhsOps nz :=
  { B with
    ddx := fun f => (u.rho_s0 c * u.rho_s0 c * u.Bnorm) • B.ddx f
    g_22 := fun i j => B.g_22 i j / u.rho_s0 c ^ 2
    divParK := fun K f => u.rho_s0 c ^ 2 • B.divParK K f
    gradPar := fun f => u.rho_s0 c • B.gradPar f
    divPar := fun f => u.rho_s0 c • B.divPar f
    bracket := fun f h => (u.rho_s0 c * u.rho_s0 c * u.Bnorm) • B.bracket f h }

/-- A field in SI units divided by its conversion factor. -/
noncomputable def fieldIn (c : Consts) (u : Normalisation) (v : Var) (f : F3 nz) : F3 nz := (u.conversion c v)⁻¹ • f

/-- The state of a species. -/
noncomputable def speciesIn (c : Consts) (u : Normalisation) (S : SpeciesIn nz) : SpeciesIn nz :=
  { S with
    density := S.density.map (fieldIn c u .density)
    velocity := S.velocity.map (fieldIn c u .velocity)
    momentum := S.momentum.map (fieldIn c u .momentum)
    temperature := S.temperature.map (fieldIn c u .temperature)
    pressure := S.pressure.map (fieldIn c u .pressure)
    density_source := S.density_source.map (fieldIn c u .density_source)
    energy_source := S.energy_source.map (fieldIn c u .energy_source)
    momentum_source := S.momentum_source.map (fieldIn c u .momentum_source)
    collision_frequency := S.collision_frequency.map (fieldIn c u .collision_frequency) }

/-- The potential is in volts, the vector potential in tesla metres, the wave speed in metres per second. -/
noncomputable def fieldsIn (c : Consts) (u : Normalisation) (F : FieldsIn nz) : FieldsIn nz :=
  { F with
    phi := F.phi.map (u.Tnorm⁻¹ • ·)
    Apar := F.Apar.map ((u.rho_s0 c * u.Bnorm)⁻¹ • ·)
    Apar_flutter := F.Apar_flutter.map ((u.rho_s0 c * u.Bnorm)⁻¹ • ·)
    fastest_wave := F.fastest_wave.map ((u.Cs0 c)⁻¹ • ·) }

/-- A time derivative in SI units: that of a variable with conversion factor `k` is multiplied with `k Omega_ci`, the conversion factor of its source. -/
noncomputable def rateSI (c : Consts) (u : Normalisation) (source : Var) (r : Except Err (F3 nz)) : Except Err (F3 nz) := r.map (u.conversion c source • ·)

/-! ## From one set of units to another -/

section
variable {c : Consts} (hc : Physical c) {u u' : Normalisation} (hu : Good u) (hu' : Good u')
include hc hu hu'

omit hu hu' in
theorem Bnorm_eq (u : Normalisation) : u.Bnorm = u.Omega_ci c * (c.Mp / c.qe) := by
  have := hc.qe.ne'
  have := hc.Mp.ne'
  unfold Normalisation.Omega_ci
  field_simp

omit hu hu' in
theorem Tnorm_eq {u : Normalisation} (hu : Good u) : u.Tnorm = u.Cs0 c ^ 2 * (c.Mp / c.qe) := by
  have h := Cs0_sq hc hu
  have := hc.qe.ne'
  field_simp
  linarith

theorem Lb_eq : u.rho_s0 c / u'.rho_s0 c * (u.Omega_ci c / u'.Omega_ci c) = u.Cs0 c / u'.Cs0 c := by
  rw [div_mul_div_comm, rho_Omega hc hu, rho_Omega hc hu']

theorem gridIn_by (G : Grid) : gridIn c u' G = gridBy (u.rho_s0 c / u'.rho_s0 c) (u.Omega_ci c / u'.Omega_ci c) (gridIn c u G) := by
  have a := (rho_pos hc hu).ne'
  have b := (rho_pos hc hu').ne'
  have d := (Omega_pos hc hu).ne'
  have e := (Omega_pos hc hu').ne'
  have k := (div_pos hc.Mp hc.qe).ne'
  generalize hk : c.Mp / c.qe = x at k
  unfold gridIn gridBy
  simp only [normaliseMetric, metricAt]
  rw [Bnorm_eq hc u, Bnorm_eq hc u', hk]
  congr 1 <;> (funext i j; field_simp)

omit [NeZero nz] in
theorem opsIn_by (B : RhsOps nz) : opsIn c u' B = opsBy (u.rho_s0 c / u'.rho_s0 c) (u.Omega_ci c / u'.Omega_ci c) (opsIn c u B) := by
  have a := (rho_pos hc hu).ne'
  have b := (rho_pos hc hu').ne'
  have d := (Omega_pos hc hu).ne'
  have e := (Omega_pos hc hu').ne'
  have k := (div_pos hc.Mp hc.qe).ne'
  generalize hk : c.Mp / c.qe = x at k
  unfold opsIn opsBy
  simp only [Bnorm_eq hc u, Bnorm_eq hc u', hk, smul_smul]
  have e1 : ((u.rho_s0 c / u'.rho_s0 c) ^ 2 * (u.Omega_ci c / u'.Omega_ci c))⁻¹ * (u.rho_s0 c * u.rho_s0 c * (u.Omega_ci c * x))
    = u'.rho_s0 c * u'.rho_s0 c * (u'.Omega_ci c * x) := by field_simp
  have e2 : ((u.rho_s0 c / u'.rho_s0 c) ^ 2)⁻¹ * u.rho_s0 c ^ 2 = u'.rho_s0 c ^ 2 := by field_simp
  have e3 : (u.rho_s0 c / u'.rho_s0 c)⁻¹ * u.rho_s0 c = u'.rho_s0 c := by field_simp
  rw [e1, e2, e3]
  congr 1
  funext i j
  field_simp

omit [NeZero nz] in
theorem fieldIn_by (v : Var) {a : ℝ} (h : u'.conversion c v * a = u.conversion c v) : (fieldIn c u' v : F3 nz → F3 nz) = (a • ·) ∘ fieldIn c u v := by
  funext f
  show (u'.conversion c v)⁻¹ • f = a • ((u.conversion c v)⁻¹ • f)
  rw [smul_smul]
  congr 1
  rw [← h, mul_inv]
  have h1 := (conversion_pos hc hu' v).ne'
  have h2 := (conversion_pos hc hu v).ne'
  have h3 : a ≠ 0 := fun e => h2 (by rw [← h, e, mul_zero])
  field_simp

omit hc hu hu' in
theorem map_by {α : Type} (x : Option α) {h h' s : α → α} (e : h' = s ∘ h) : x.map h' = (x.map h).map s := by
  subst e
  cases x <;> rfl

/-- Factors of the variables of a species. -/
theorem conversion_by :
    u'.conversion c .density * (u.Nnorm / u'.Nnorm) = u.conversion c .density ∧
    u'.conversion c .velocity * (u.Cs0 c / u'.Cs0 c) = u.conversion c .velocity ∧
    u'.conversion c .momentum * (u.Nnorm / u'.Nnorm * (u.Cs0 c / u'.Cs0 c)) = u.conversion c .momentum ∧
    u'.conversion c .temperature * (u.Cs0 c / u'.Cs0 c) ^ 2 = u.conversion c .temperature ∧
    u'.conversion c .pressure * (u.Nnorm / u'.Nnorm * (u.Cs0 c / u'.Cs0 c) ^ 2) = u.conversion c .pressure ∧
    u'.conversion c .density_source * (u.Nnorm / u'.Nnorm * (u.Omega_ci c / u'.Omega_ci c)) = u.conversion c .density_source ∧
    u'.conversion c .energy_source * (u.Nnorm / u'.Nnorm * (u.Cs0 c / u'.Cs0 c) ^ 2 * (u.Omega_ci c / u'.Omega_ci c)) = u.conversion c .energy_source ∧
    u'.conversion c .momentum_source * (u.Nnorm / u'.Nnorm * (u.Cs0 c / u'.Cs0 c) * (u.Omega_ci c / u'.Omega_ci c)) = u.conversion c .momentum_source ∧
    u'.conversion c .collision_frequency * (u.Omega_ci c / u'.Omega_ci c) = u.conversion c .collision_frequency := by
  have a := (Cs0_pos hc hu').ne'
  have d := (Omega_pos hc hu').ne'
  have e := hu'.N.ne'
  have q := hc.qe.ne'
  refine ⟨?_, ?_, ?_, ?_, ?_, ?_, ?_, ?_, ?_⟩ <;> simp only [Normalisation.conversion]
  all_goals try rw [Tnorm_eq hc hu, Tnorm_eq hc hu']
  all_goals field_simp

omit [NeZero nz] in
theorem speciesIn_by (S : SpeciesIn nz) :
    speciesIn c u' S = speciesBy (u.Nnorm / u'.Nnorm) (u.rho_s0 c / u'.rho_s0 c) (u.Omega_ci c / u'.Omega_ci c) (speciesIn c u S) := by
  obtain ⟨h1, h2, h3, h4, h5, h6, h7, h8, h9⟩ := conversion_by hc hu hu'
  unfold speciesBy
  rw [Lb_eq hc hu hu']
  unfold speciesIn
  rw [map_by S.density (fieldIn_by hc hu hu' _ h1), map_by S.velocity (fieldIn_by hc hu hu' _ h2), map_by S.momentum (fieldIn_by hc hu hu' _ h3),
    map_by S.temperature (fieldIn_by hc hu hu' _ h4), map_by S.pressure (fieldIn_by hc hu hu' _ h5), map_by S.density_source (fieldIn_by hc hu hu' _ h6),
    map_by S.energy_source (fieldIn_by hc hu hu' _ h7), map_by S.momentum_source (fieldIn_by hc hu hu' _ h8),
    map_by S.collision_frequency (fieldIn_by hc hu hu' _ h9)]

omit [NeZero nz] in
theorem fieldsIn_by (F : FieldsIn nz) :
    fieldsIn c u' F = fieldsBy (u.rho_s0 c / u'.rho_s0 c) (u.Omega_ci c / u'.Omega_ci c) (fieldsIn c u F) := by
  have a := (rho_pos hc hu).ne'
  have b := (rho_pos hc hu').ne'
  have d := (Omega_pos hc hu).ne'
  have e := (Omega_pos hc hu').ne'
  have k := (div_pos hc.Mp hc.qe).ne'
  have q := (Cs0_pos hc hu).ne'
  have q' := (Cs0_pos hc hu').ne'
  generalize hk : c.Mp / c.qe = x at k
  unfold fieldsBy
  rw [Lb_eq hc hu hu']
  unfold fieldsIn
  have e1 : ((u'.Tnorm)⁻¹ • · : F3 nz → F3 nz) = ((u.Cs0 c / u'.Cs0 c) ^ 2 • ·) ∘ ((u.Tnorm)⁻¹ • ·) := by
    funext f
    show _ = _ • (_ • f)
    rw [smul_smul, Tnorm_eq hc hu, Tnorm_eq hc hu', hk]
    congr 1
    field_simp
  have e2 : ((u'.rho_s0 c * u'.Bnorm)⁻¹ • · : F3 nz → F3 nz) = ((u.Cs0 c / u'.Cs0 c) • ·) ∘ ((u.rho_s0 c * u.Bnorm)⁻¹ • ·) := by
    funext f
    show _ = _ • (_ • f)
    rw [smul_smul, Bnorm_eq hc u, Bnorm_eq hc u', hk, ← rho_Omega hc hu, ← rho_Omega hc hu']
    congr 1
    field_simp
  have e3 : ((u'.Cs0 c)⁻¹ • · : F3 nz → F3 nz) = ((u.Cs0 c / u'.Cs0 c) • ·) ∘ ((u.Cs0 c)⁻¹ • ·) := by
    funext f
    show _ = _ • (_ • f)
    rw [smul_smul]
    congr 1
    field_simp
  rw [map_by F.phi e1, map_by F.Apar e2, map_by F.Apar_flutter e2, map_by F.fastest_wave e3]

omit hc hu hu' [NeZero nz] in
theorem opsIn_homogeneous {B : RhsOps nz} (h : HomogeneousOps B) : HomogeneousOps (opsIn c u B) where
  ddx a ha f := by show _ • B.ddx _ = _; rw [h.ddx a ha, smul_comm]; rfl
  ddy := h.ddy
  toFA := h.toFA
  fromFA := h.fromFA
  communicate := h.communicate
  setBoundaryTo := h.setBoundaryTo
  gradPar a ha f := by show _ • B.gradPar _ = _; rw [h.gradPar a ha, smul_comm]; rfl
  divPar a ha f := by show _ • B.divPar _ = _; rw [h.divPar a ha, smul_comm]; rfl
  bracket a d ha hd f k := by show _ • B.bracket _ _ = _; rw [h.bracket a d ha hd, smul_comm]; rfl
  neumann := h.neumann

omit hu hc hu' [NeZero nz] in
theorem rateSI_by {v : Var} {a : ℝ} (h : u'.conversion c v * a = u.conversion c v) {x x' : Except Err (F3 nz)} (e : x' = x.map (a • ·)) :
    rateSI c u' v x' = rateSI c u v x := by
  subst e
  cases x with
  | error e => rfl
  | ok f =>
    show Except.ok _ = Except.ok _
    beta_reduce
    rw [smul_smul, h]

/-! ## The equations -/

section
variable {B : RhsOps nz} (hB : HomogeneousOps B) {lim : Limiter} (hl : Homogeneous lim) (G : Grid) (S : SpeciesIn nz) (F : FieldsIn nz)
include hB hl

/-- **C75.**  The time derivative of a density in particles per cubic metre and second does not depend on the reference values: ExB flow, flow along
the field, magnetic flutter and sources.  Left out: the numerical diffusion of the options `low_n_diffuse`, `low_n_diffuse_perp`,
`low_p_diffuse_perp` and `hyper_z`. -/
theorem density_equation_in_any_units_partial (o : DensityOpts) (h1 : o.low_n_diffuse = false) (h2 : o.low_n_diffuse_perp = false)
    (h3 : o.low_p_diffuse_perp = false) (h4 : o.hyper_z ≤ 0) (N₀ : F3 nz) :
    rateSI c u .density_source (densityRhs o (gridIn c u G) (opsIn c u B) lim (fieldIn c u .density N₀) (speciesIn c u S) (fieldsIn c u F))
      = rateSI c u' .density_source (densityRhs o (gridIn c u' G) (opsIn c u' B) lim (fieldIn c u' .density N₀) (speciesIn c u' S) (fieldsIn c u' F)) := by
  obtain ⟨k1, k2, k3, k4, k5, k6, k7, k8, k9⟩ := conversion_by hc hu hu'
  refine (rateSI_by k6 ?_).symm
  rw [gridIn_by hc hu hu', opsIn_by hc hu hu', speciesIn_by hc hu hu', fieldsIn_by hc hu hu', fieldIn_by hc hu hu' _ k1]
  exact densityRhs_by (div_pos hu.N hu'.N) (div_pos (rho_pos hc hu) (rho_pos hc hu')) (div_pos (Omega_pos hc hu) (Omega_pos hc hu'))
    (opsIn_homogeneous hB) _ hl o h1 h2 h3 h4 _ _ _

/-- The density is not below the floor of the options, which is in the units of the simulation. -/
def AboveFloor (u : Normalisation) (floor : ℝ) (S : SpeciesIn nz) : Prop := ∀ N, S.density = some N → ∀ i j k, floor * u.Nnorm ≤ N i j k

omit hB hl hc [NeZero nz] in
theorem aboveFloor_by {floor : ℝ} {S : SpeciesIn nz} (h : AboveFloor u floor S) (h' : AboveFloor u' floor S) (N : F3 nz) (hN : (speciesIn c u S).density = some N) (i j k) :
    floor ≤ N i j k ∧ floor ≤ u.Nnorm / u'.Nnorm * N i j k := by
  have e := hu.N
  have e' := hu'.N
  cases hD : S.density with
  | none => simp [speciesIn, hD] at hN
  | some D =>
    have hN' : N = fieldIn c u .density D := by
      have : (speciesIn c u S).density = some (fieldIn c u .density D) := by simp [speciesIn, hD]
      rw [this] at hN
      exact (Option.some.inj hN).symm
    have h1 := h D hD i j k
    have h2 := h' D hD i j k
    rw [hN']
    show floor ≤ u.Nnorm⁻¹ * D i j k ∧ floor ≤ u.Nnorm / u'.Nnorm * (u.Nnorm⁻¹ * D i j k)
    rw [show u.Nnorm / u'.Nnorm * (u.Nnorm⁻¹ * D i j k) = D i j k / u'.Nnorm by field_simp, ← div_eq_inv_mul, le_div_iff₀ e, le_div_iff₀ e']
    exact ⟨h1, h2⟩

/-- **C75.**  The same for the momentum, in kilograms per square metre and second squared: ExB flow, electric force, induction, pressure gradient,
flow along the field, magnetic flutter and sources.  Left out: numerical diffusion, densities below the floor and the relaxation of the momentum to the
one limited by the floor. -/
theorem momentum_equation_in_any_units_partial (o : MomentumOpts) (h2 : o.low_n_diffuse_perp = false) (h3 : o.low_p_diffuse_perp = false)
    (h4 : o.hyper_z ≤ 0) (h5 : S.low_n_coeff = none) (hN : AboveFloor u o.density_floor S) (hN' : AboveFloor u' o.density_floor S) :
    rateSI c u .momentum_source (momentumRhs o (gridIn c u G) (opsIn c u B) lim 0 (speciesIn c u S) (fieldsIn c u F))
      = rateSI c u' .momentum_source (momentumRhs o (gridIn c u' G) (opsIn c u' B) lim 0 (speciesIn c u' S) (fieldsIn c u' F)) := by
  obtain ⟨k1, k2, k3, k4, k5, k6, k7, k8, k9⟩ := conversion_by hc hu hu'
  rw [← Lb_eq hc hu hu'] at k8
  refine (rateSI_by k8 ?_).symm
  rw [gridIn_by hc hu hu', opsIn_by hc hu hu', speciesIn_by hc hu hu', fieldsIn_by hc hu hu']
  exact momentumRhs_by (div_pos hu.N hu'.N) (div_pos (rho_pos hc hu) (rho_pos hc hu')) (div_pos (Omega_pos hc hu) (Omega_pos hc hu'))
    (opsIn_homogeneous hB) _ hl o h2 h3 h4 (speciesIn c u S) h5 (aboveFloor_by hu hu' hN hN') _

/-- The collision frequency and the limit to the heat flux are not below the smallest value `1e-10` in the units of the simulation. -/
structure Collisional (c : Consts) (u : Normalisation) (alpha : ℝ) (S : SpeciesIn nz) : Prop where
  frequency : ∀ nu, S.collision_frequency = some nu → ∀ i j k, 1e-10 * u.Omega_ci c ≤ nu i j k
  flux : 0 < alpha → ∀ A N T, S.AA = some A → S.density = some N → S.temperature = some T → ∀ i j k,
    1e-10 * (u.Nnorm * u.Cs0 c ^ 3 * (c.Mp / c.qe)) ≤ alpha * N i j k * T i j k * Real.sqrt (c.qe * T i j k / (c.Mp * A))

omit hB hl [NeZero nz] in
theorem collisional_frequency {alpha : ℝ} {S : SpeciesIn nz} (h : Collisional c u alpha S) (h' : Collisional c u' alpha S) (nu : F3 nz)
    (hn : (speciesIn c u S).collision_frequency = some nu) (i j k) : 1e-10 ≤ nu i j k ∧ 1e-10 ≤ u.Omega_ci c / u'.Omega_ci c * nu i j k := by
  have e := Omega_pos hc hu
  have e' := Omega_pos hc hu'
  cases hD : S.collision_frequency with
  | none => simp [speciesIn, hD] at hn
  | some D =>
    have hn' : nu = fieldIn c u .collision_frequency D := by
      have : (speciesIn c u S).collision_frequency = some (fieldIn c u .collision_frequency D) := by simp [speciesIn, hD]
      rw [this] at hn
      exact (Option.some.inj hn).symm
    have h1 := h.frequency D hD i j k
    have h2 := h'.frequency D hD i j k
    rw [hn']
    show 1e-10 ≤ (u.Omega_ci c)⁻¹ * D i j k ∧ 1e-10 ≤ u.Omega_ci c / u'.Omega_ci c * ((u.Omega_ci c)⁻¹ * D i j k)
    rw [show u.Omega_ci c / u'.Omega_ci c * ((u.Omega_ci c)⁻¹ * D i j k) = D i j k / u'.Omega_ci c by field_simp, ← div_eq_inv_mul, le_div_iff₀ e, le_div_iff₀ e']
    exact ⟨h1, h2⟩

omit hB hl [NeZero nz] in
theorem collisional_flux {alpha : ℝ} {S : SpeciesIn nz} (h : Collisional c u alpha S) (h' : Collisional c u' alpha S) (ha : 0 < alpha) (A : ℝ) (N T : F3 nz)
    (hA : (speciesIn c u S).AA = some A) (hN : (speciesIn c u S).density = some N) (hT : (speciesIn c u S).temperature = some T) (i j k) :
    1e-10 ≤ alpha * N i j k * T i j k * Real.sqrt (T i j k / A)
      ∧ 1e-10 ≤ u.Nnorm / u'.Nnorm * (u.rho_s0 c / u'.rho_s0 c * (u.Omega_ci c / u'.Omega_ci c)) ^ 3 * (alpha * N i j k * T i j k * Real.sqrt (T i j k / A)) := by
  rw [Lb_eq hc hu hu']
  have e := hu.N
  have e' := hu'.N
  have p := Cs0_pos hc hu
  have p' := Cs0_pos hc hu'
  have x := div_pos hc.Mp hc.qe
  have q := hc.qe.ne'
  have m := hc.Mp.ne'
  cases hD : S.density with
  | none => simp [speciesIn, hD] at hN
  | some D =>
    cases hE : S.temperature with
    | none => simp [speciesIn, hE] at hT
    | some E =>
      have hN' : N = fieldIn c u .density D := by
        have : (speciesIn c u S).density = some (fieldIn c u .density D) := by simp [speciesIn, hD]
        rw [this] at hN
        exact (Option.some.inj hN).symm
      have hT' : T = fieldIn c u .temperature E := by
        have : (speciesIn c u S).temperature = some (fieldIn c u .temperature E) := by simp [speciesIn, hE]
        rw [this] at hT
        exact (Option.some.inj hT).symm
      have h1 := h.flux ha A D E hA hD hE i j k
      have h2 := h'.flux ha A D E hA hD hE i j k
      have key : alpha * N i j k * T i j k * Real.sqrt (T i j k / A)
          = alpha * D i j k * E i j k * Real.sqrt (c.qe * E i j k / (c.Mp * A)) / (u.Nnorm * u.Cs0 c ^ 3 * (c.Mp / c.qe)) := by
        rw [hN', hT']
        show alpha * (u.Nnorm⁻¹ * D i j k) * (u.Tnorm⁻¹ * E i j k) * Real.sqrt (u.Tnorm⁻¹ * E i j k / A) = _
        have es : Real.sqrt (u.Tnorm⁻¹ * E i j k / A) = (u.Cs0 c)⁻¹ * Real.sqrt (c.qe * E i j k / (c.Mp * A)) := by
          rw [Tnorm_eq hc hu, show (u.Cs0 c ^ 2 * (c.Mp / c.qe))⁻¹ * E i j k / A = ((u.Cs0 c)⁻¹) ^ 2 * (c.qe * E i j k / (c.Mp * A)) by
            rw [mul_inv, inv_div, inv_pow, mul_div_mul_comm]; ring,
            Real.sqrt_mul (sq_nonneg _), Real.sqrt_sq (inv_pos.2 p).le]
        rw [es, Tnorm_eq hc hu]
        field_simp
      rw [key]
      constructor
      · rw [le_div_iff₀ (by positivity)]
        exact h1
      · rw [show ∀ y, u.Nnorm / u'.Nnorm * (u.Cs0 c / u'.Cs0 c) ^ 3 * (y / (u.Nnorm * u.Cs0 c ^ 3 * (c.Mp / c.qe))) = y / (u'.Nnorm * u'.Cs0 c ^ 3 * (c.Mp / c.qe)) by
          intro y; field_simp, le_div_iff₀ (by positivity)]
        exact h2

/-- **C75.**  The same for the pressure, in pascal per second: ExB flow, flow along the field, work, viscous heating, magnetic flutter, heat conduction
with flux limit and sources.  Left out: numerical diffusion, densities below the floor, collision frequencies and heat fluxes below their smallest
values, and the relaxation of `P` to `N T`. -/
theorem pressure_equation_in_any_units_partial (o : PressureOpts) (h1 : o.low_n_diffuse_perp = false) (h2 : o.low_T_diffuse_perp = false)
    (h3 : o.low_p_diffuse_perp = false) (h4 : o.hyper_z ≤ 0) (h5 : o.hyper_z_T ≤ 0) (P₀ source : F3 nz) (h6 : S.low_n_coeff = none)
    (hN : AboveFloor u o.density_floor S) (hN' : AboveFloor u' o.density_floor S)
    (hk : Collisional c u o.kappa_limit_alpha S) (hk' : Collisional c u' o.kappa_limit_alpha S)
    (hP : ∀ P N T, S.pressure = some P → S.density = some N → S.temperature = some T → c.qe • (N * T) = B.setBoundaryTo P₀ P) :
    rateSI c u .energy_source (pressureRhs o (gridIn c u G) (opsIn c u B) lim (fieldIn c u .pressure P₀) (fieldIn c u .energy_source source)
        (speciesIn c u S) (fieldsIn c u F))
      = rateSI c u' .energy_source (pressureRhs o (gridIn c u' G) (opsIn c u' B) lim (fieldIn c u' .pressure P₀) (fieldIn c u' .energy_source source)
        (speciesIn c u' S) (fieldsIn c u' F)) := by
  obtain ⟨k1, k2, k3, k4, k5, k6, k7, k8, k9⟩ := conversion_by hc hu hu'
  rw [← Lb_eq hc hu hu'] at k7 k5
  refine (rateSI_by k7 ?_).symm
  rw [gridIn_by hc hu hu', opsIn_by hc hu hu', speciesIn_by hc hu hu', fieldsIn_by hc hu hu', fieldIn_by hc hu hu' _ k5, fieldIn_by hc hu hu' _ k7]
  refine pressureRhs_by (div_pos hu.N hu'.N) (div_pos (rho_pos hc hu) (rho_pos hc hu')) (div_pos (Omega_pos hc hu) (Omega_pos hc hu'))
    (opsIn_homogeneous hB) _ hl o h1 h2 h3 h4 h5 _ _ (speciesIn c u S) h6 (aboveFloor_by hu hu' hN hN') (collisional_frequency hc hu hu' hk hk')
    (fun ha => collisional_flux hc hu hu' hk hk' ha) ?_ _
  intro P N T eP eN eT
  cases hD : S.density with
  | none => simp [speciesIn, hD] at eN
  | some D =>
    cases hE : S.temperature with
    | none => simp [speciesIn, hE] at eT
    | some E =>
      cases hQ : S.pressure with
      | none => simp [speciesIn, hQ] at eP
      | some Q =>
        have a1 : fieldIn c u .density D = N := by simpa [speciesIn, hD] using eN
        have a2 : fieldIn c u .temperature E = T := by simpa [speciesIn, hE] using eT
        have a3 : fieldIn c u .pressure Q = P := by simpa [speciesIn, hQ] using eP
        rw [← a1, ← a2, ← a3]
        show (u.Nnorm⁻¹ • D) * (u.Tnorm⁻¹ • E) = B.setBoundaryTo ((c.qe * u.Tnorm * u.Nnorm)⁻¹ • P₀) ((c.qe * u.Tnorm * u.Nnorm)⁻¹ • Q)
        rw [hB.setBoundaryTo _ (inv_pos.2 (mul_pos (mul_pos hc.qe hu.T) hu.N)), ← hP Q D E hQ hD hE, mul_by, smul_smul]
        congr 1
        have := hc.qe.ne'
        have := hu.T.ne'
        have := hu.N.ne'
        field_simp

/-- **C75.**  The same for the energy of `evolve_energy`, in watts per cubic metre. -/
theorem energy_equation_in_any_units_partial (o : EnergyOpts) (h4 : o.hyper_z ≤ 0) (E₀ source : F3 nz) (h6 : S.low_n_coeff = none)
    (hk : Collisional c u o.kappa_limit_alpha S) (hk' : Collisional c u' o.kappa_limit_alpha S) :
    rateSI c u .energy_source (energyRhs o (gridIn c u G) (opsIn c u B) lim (fieldIn c u .pressure E₀) (fieldIn c u .energy_source source)
        (speciesIn c u S) (fieldsIn c u F))
      = rateSI c u' .energy_source (energyRhs o (gridIn c u' G) (opsIn c u' B) lim (fieldIn c u' .pressure E₀) (fieldIn c u' .energy_source source)
        (speciesIn c u' S) (fieldsIn c u' F)) := by
  obtain ⟨k1, k2, k3, k4, k5, k6, k7, k8, k9⟩ := conversion_by hc hu hu'
  rw [← Lb_eq hc hu hu'] at k7 k5
  refine (rateSI_by k7 ?_).symm
  rw [gridIn_by hc hu hu', opsIn_by hc hu hu', speciesIn_by hc hu hu', fieldsIn_by hc hu hu', fieldIn_by hc hu hu' _ k5, fieldIn_by hc hu hu' _ k7]
  exact energyRhs_by (div_pos hu.N hu'.N) (div_pos (rho_pos hc hu) (rho_pos hc hu')) (div_pos (Omega_pos hc hu) (Omega_pos hc hu'))
    (opsIn_homogeneous hB) _ hl o h4 _ _ (speciesIn c u S) h6 (collisional_frequency hc hu hu' hk hk')
    (fun ha => collisional_flux hc hu hu' hk hk' ha) _
end
end

/-! ## The conditions are met -/

open DensityEquation PerpOps

theorem plainRhs_homogeneous (nz : ℕ) [NeZero nz] : HomogeneousOps (plainRhs nz) where
  ddx a _ f := by funext i j k; simp only [plainRhs, ExB.plainOps, Pi.smul_apply, smul_eq_mul]; ring
  ddy a _ f := by funext i j k; simp only [plainRhs, ExB.plainOps, Pi.smul_apply, smul_eq_mul]; ring
  toFA _ _ _ := rfl
  fromFA _ _ _ := rfl
  communicate _ _ _ := rfl
  setBoundaryTo _ _ _ _ := rfl
  gradPar a _ f := by funext i j k; simp only [plainRhs, Pi.smul_apply, smul_eq_mul]; ring
  divPar a _ f := by funext i j k; simp only [plainRhs, Pi.smul_apply, smul_eq_mul]; ring
  bracket _ _ _ _ _ _ := (smul_zero _).symm
  neumann _ _ _ := rfl

noncomputable def unitConsts : Consts := ⟨1, 1, 1, 1⟩
theorem unitConsts_physical : Physical unitConsts := ⟨one_pos, one_pos, one_pos, one_pos⟩

noncomputable def units (B : ℝ) : Normalisation := ⟨1, 1, B⟩
theorem units_good {B : ℝ} (hB : 0 < B) : Good (units B) := ⟨one_pos, one_pos, hB⟩

theorem units_Cs0 (B : ℝ) : (units B).Cs0 unitConsts = 1 := by simp [Normalisation.Cs0, units, unitConsts]
theorem units_Omega (B : ℝ) : (units B).Omega_ci unitConsts = B := by simp [Normalisation.Omega_ci, units, unitConsts]

/-- A flowing plasma with density, temperature and collision frequency 1. -/
noncomputable def plainPlasma : SpeciesIn 3 :=
  { AA := some 1, charge := some 1, density := some 1, velocity := some outerFlow, momentum := some outerFlow, temperature := some 1, pressure := some 1,
    density_source := some 1, collision_frequency := some 1 }

theorem plainPlasma_collisional {B : ℝ} (hB : B ≤ 2) : Collisional unitConsts (units B) 0.2 plainPlasma where
  frequency nu h i j k := by
    cases h
    rw [units_Omega]
    show _ ≤ (1 : ℝ)
    norm_num
    linarith
  flux _ A N T hA hN hT i j k := by
    cases hA
    cases hN
    cases hT
    rw [units_Cs0]
    simp [units, unitConsts]
    norm_num

/-- All conditions hold for `plainPlasma`, and the equation of the density gives a value. -/
example : AboveFloor (units 1) 1e-5 plainPlasma ∧ AboveFloor (units 2) 1e-5 plainPlasma ∧ Collisional unitConsts (units 1) 0.2 plainPlasma ∧
    Collisional unitConsts (units 2) 0.2 plainPlasma ∧ HomogeneousOps (plainRhs 3) ∧ Homogeneous mc ∧
    (∀ P N T, plainPlasma.pressure = some P → plainPlasma.density = some N → plainPlasma.temperature = some T →
      unitConsts.qe • (N * T) = (plainRhs 3).setBoundaryTo 1 P) ∧
    ∃ r, densityRhs closedOpts (gridIn unitConsts (units 2) boxGrid) (opsIn unitConsts (units 2) (plainRhs 3)) mc (fieldIn unitConsts (units 2) .density 1)
      (speciesIn unitConsts (units 2) plainPlasma) (fieldsIn unitConsts (units 2) (boxFields none)) = .ok r := by
  have hf : ∀ B, AboveFloor (units B) 1e-5 plainPlasma := by
    intro B N h i j k
    cases h
    show (1e-5 : ℝ) * 1 ≤ 1
    norm_num
  refine ⟨hf _, hf _, plainPlasma_collisional (by norm_num), plainPlasma_collisional (by norm_num), plainRhs_homogeneous 3, mc_homogeneous, ?_, ⟨_, rfl⟩⟩
  intro P N T h1 h2 h3
  cases h1
  cases h2
  cases h3
  show (1 : ℝ) • ((1 : F3 3) * 1) = 1
  simp

/-! ## What depends on the units -/

/-- A density with a minimum in the radial direction, without any flow. -/
noncomputable def restingRamp : SpeciesIn 3 := { density := some fun i _ _ => 10 + (i : ℝ) ^ 2, density_source := some 0 }

noncomputable def lowDensityOpts : DensityOpts := { density_floor := 1, pressure_floor := 1, charge := 1, low_n_diffuse_perp := true }

/-- Full statement fails: the diffusion with option `low_n_diffuse_perp` has a coefficient per cell and gyration time, so that its rate in particles per
second is proportional to the reference field `Bnorm`. -/
theorem dissipation_in_units_of_field {b : ℝ} (hb : 0 < b) :
    ∃ r, rateSI unitConsts (units b) .density_source (densityRhs lowDensityOpts (gridIn unitConsts (units b) boxGrid)
        (opsIn unitConsts (units b) (plainRhs 3)) mc (fieldIn unitConsts (units b) .density 0) (speciesIn unitConsts (units b) restingRamp) {}) = .ok r ∧
      r 0 0 0 = b * (21 / 55) := by
  have hO : (units b).conversion unitConsts .density_source = b := by
    show (units b).Nnorm * (units b).Omega_ci unitConsts = b
    rw [units_Omega]
    exact one_mul b
  have hN : (units b).conversion unitConsts .density = 1 := rfl
  have hr : (units b).rho_s0 unitConsts = 1 / b := by
    unfold Normalisation.rho_s0
    rw [units_Cs0, units_Omega]
  have hJ : ∀ i j, (gridIn unitConsts (units b) boxGrid).J i j = b ^ 2 := by
    intro i j
    show 1 * (b / (units b).rho_s0 unitConsts) = _
    rw [hr]
    field_simp
  have hx : ∀ i j, (gridIn unitConsts (units b) boxGrid).dx i j = b := by
    intro i j
    show 1 / ((units b).rho_s0 unitConsts * (units b).rho_s0 unitConsts * b) = _
    rw [hr]
    field_simp
  have hlap : ∀ a N : F3 3, (gridIn unitConsts (units b) boxGrid).perpLapIndex a N 0 0 0
      = (N 1 0 0 - N 0 0 0) * (a 1 0 0 + a 0 0 0) - (N 0 0 0 - N (-1) 0 0) * (a (-1) 0 0 + a 0 0 0) + (N 0 0 1 - N 0 0 0) * 0.5 * (a 0 0 0 + a 0 0 1)
        - (N 0 0 0 - N 0 0 2) * 0.5 * (a 0 0 0 + a 0 0 2) := by
    intro a N
    unfold Grid.perpLapIndex
    simp only [hJ, hx, show (0 : ℤ) + 1 = 1 from rfl, show (0 : ℤ) - 1 = -1 from rfl, show (0 : Fin 3) + 1 = 1 from rfl, show (0 : Fin 3) - 1 = 2 from rfl]
    field_simp
    ring
  refine ⟨_, rfl, ?_⟩
  rw [if_neg (show ¬(0 : ℝ) < lowDensityOpts.hyper_z by norm_num [lowDensityOpts])]
  show (units b).conversion unitConsts .density_source * (-(0 : F3 3) 0 0 0 + (gridIn unitConsts (units b) boxGrid).perpLapIndex
    (fun i j k => 1 / floor3 (fieldIn unitConsts (units b) .density fun i _ (_ : Fin 3) => 10 + (i : ℝ) ^ 2) (1e-3 * 1) i j k)
    (fieldIn unitConsts (units b) .density fun i _ (_ : Fin 3) => 10 + (i : ℝ) ^ 2) 0 0 0 + (fieldIn unitConsts (units b) .density_source (0 : F3 3)) 0 0 0) = _
  rw [hO, hlap]
  simp only [fieldIn, hN, inv_one, one_smul, floor3, smul_zero, Pi.zero_apply]
  norm_num

/-- A density and temperature whose product is not the pressure. -/
noncomputable def offPressure : SpeciesIn 3 := { AA := some 1, density := some 1, temperature := some 1, pressure := some 0 }

/-- Full statement fails: the pressure relaxes to `N T` within a gyration time of the reference field. -/
theorem relaxation_in_units_of_field (b : ℝ) :
    rateSI unitConsts (units b) .energy_source (pressureRhs { density_floor := 0, temperature_floor := 0, pressure_floor := 0, thermal_conduction := false, kappa_coefficient := 1 } (gridIn unitConsts (units b) boxGrid)
        (opsIn unitConsts (units b) (plainRhs 3)) mc (fieldIn unitConsts (units b) .pressure 0) (fieldIn unitConsts (units b) .energy_source 0)
        (speciesIn unitConsts (units b) offPressure) {}) = .ok fun _ _ _ => b := by
  have hE : (units b).conversion unitConsts .energy_source = b := by
    show unitConsts.qe * (units b).Tnorm * (units b).Nnorm * (units b).Omega_ci unitConsts = b
    rw [units_Omega]
    show 1 * 1 * 1 * b = b
    ring
  have hP : (units b).conversion unitConsts .pressure = 1 := by
    show (1 : ℝ) * 1 * 1 = 1
    ring
  unfold rateSI
  rw [hE]
  show Except.ok _ = Except.ok _
  congr 1
  funext i j k
  simp [pressureLow, pressureHyper, pressureSources, speciesIn, fieldIn, offPressure, exbOf, opsIn, plainRhs, hP, show (units b).conversion unitConsts .temperature = 1 from rfl,
    show (units b).conversion unitConsts .density = 1 from rfl, show ¬(1 : ℝ) < 0 by norm_num]

end Hermes.Units
