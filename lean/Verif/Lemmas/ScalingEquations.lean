import Verif.Lemmas.ScalingRhs
import Verif.Model.RhsEnergy

/-!
# Change of units in the density, momentum and pressure equations
-/

namespace Hermes.Units
open Hermes

variable {nz : ℕ} [NeZero nz]

theorem need_map {α : Type} (x : Option α) (h : α → α) : need (x.map h) = (need x).map h := by cases x <;> rfl

theorem ok_map {α β : Type} (x : α) (h : α → β) : (Except.ok x : Except Err α).map h = .ok (h x) := rfl

omit [NeZero nz] in
/-- The last step of each equation. -/
theorem scaled_by {a : ℝ} (d d' : F3 nz) (h : d' = a • d) (sc : Option (F3 nz)) :
    (match sc with | none => .ok d' | some c => .ok (d' * c) : Except Err (F3 nz)) = (match sc with | none => .ok d | some c => .ok (d * c) : Except Err (F3 nz)).map (a • ·) := by
  subst h
  cases sc with
  | none => rfl
  | some c =>
    show Except.ok _ = Except.ok _
    rw [smul_mul_assoc]

section
variable {n L b : ℝ} (hn : 0 < n) (hL : 0 < L) (hb : 0 < b) {B : RhsOps nz} (hB : HomogeneousOps B) (g : Grid) {lim : Limiter} (hl : Homogeneous lim)
include hn hL hb hB hl

omit hn hl in
theorem flutter_by {a : ℝ} (ha : 0 < a) (N V A : F3 nz) (bf : Bool) :
    (gridBy L b g).divNG (opsBy L b B) (a • N) ((L * b) • V) (-((L * b) • A)) bf = (a * b) • g.divNG B N V (-A) bf := by
  have hv : 0 < L * b := mul_pos hL hb
  rw [← smul_neg, divNG_by hL hb hB g ha hv hv, show a * (L * b) * (L * b) * (L ^ 2 * b)⁻¹ = a * b by field_simp]

theorem densityRhs_by (o : DensityOpts) (h1 : o.low_n_diffuse = false) (h2 : o.low_n_diffuse_perp = false) (h3 : o.low_p_diffuse_perp = false)
    (h4 : o.hyper_z ≤ 0) (N₀ : F3 nz) (s : SpeciesIn nz) (f : FieldsIn nz) :
    densityRhs o (gridBy L b g) (opsBy L b B) lim (n • N₀) (speciesBy n L b s) (fieldsBy L b f) = (densityRhs o g B lim N₀ s f).map ((n * b) • ·) := by
  have hv : 0 < L * b := mul_pos hL hb
  unfold densityRhs
  rw [h1, h2, h3]
  simp only [Bool.false_eq_true, if_false, if_neg (not_lt.2 h4)]
  rw [show (speciesBy n L b s).density = s.density.map (n • ·) from rfl, show (speciesBy n L b s).density_source = s.density_source.map ((n * b) • ·) from rfl,
    show (speciesBy n L b s).velocity = s.velocity.map ((L * b) • ·) from rfl, show (fieldsBy L b f).scale_timederivs = f.scale_timederivs from rfl,
    show (fieldsBy L b f).Apar_flutter = f.Apar_flutter.map ((L * b) • ·) from rfl, waveSpeed_by hL hb]
  cases s.density with
  | none => rfl
  | some N =>
    cases s.density_source with
    | none =>
      cases s.velocity with
      | none => rfl
      | some V =>
        cases waveSpeed s f with
        | error e => rfl
        | ok w => cases f.Apar_flutter <;> rfl
    | some S =>
      have hset : (opsBy L b B).setBoundaryTo (n • N₀) (n • N) = n • B.setBoundaryTo N₀ N := hB.setBoundaryTo _ hn _ _
      cases s.velocity with
      | none =>
        refine scaled_by _ _ ?_ _
        rw [hset, exbOf_by hL hb hB g hn]
        simp only [smul_add, smul_neg]
      | some V =>
        cases waveSpeed s f with
        | error e => rfl
        | ok w =>
          cases f.Apar_flutter with
          | none =>
            refine scaled_by _ _ ?_ _
            rw [hset, exbOf_by hL hb hB g hn, divParMod3_by hL hb hB g hl hn]
            simp only [smul_add, smul_sub, smul_neg]
          | some A =>
            refine scaled_by _ _ ?_ _
            beta_reduce
            rw [hset, exbOf_by hL hb hB g hn, divParMod3_by hL hb hB g hl hn, flutter_by hL hb hB g hn]
            simp only [smul_add, smul_sub, smul_neg]

/-! ## Momentum -/

omit hn hL hb hB hl [NeZero nz] in
theorem mul_by (x y : ℝ) (f h : F3 nz) : (x • f) * (y • h) = (x * y) • (f * h) := by
  funext i j k
  simp only [Pi.mul_apply, Pi.smul_apply, smul_eq_mul]
  ring

omit hn hb hl [NeZero nz] in
theorem gradPar_by {a : ℝ} (ha : 0 < a) (f : F3 nz) : (opsBy L b B).gradPar (a • f) = (a * L⁻¹) • B.gradPar f := by
  show L⁻¹ • B.gradPar (a • f) = _
  rw [hB.gradPar _ ha, smul_smul, mul_comm]

omit hn hb hl [NeZero nz] in
theorem divPar_by {a : ℝ} (ha : 0 < a) (f : F3 nz) : (opsBy L b B).divPar (a • f) = (a * L⁻¹) • B.divPar f := by
  show L⁻¹ • B.divPar (a • f) = _
  rw [hB.divPar _ ha, smul_smul, mul_comm]

omit hn hl [NeZero nz] in
/-- Derivatives along the bent field have the units of derivatives along the field. -/
theorem bracket_by {a : ℝ} (ha : 0 < a) (f A : F3 nz) : (opsBy L b B).bracket (a • f) ((L * b) • A) = (a * L⁻¹) • B.bracket f A := by
  show (L ^ 2 * b)⁻¹ • B.bracket (a • f) ((L * b) • A) = _
  rw [hB.bracket _ _ ha (mul_pos hL hb), smul_smul]
  congr 1
  field_simp

theorem momentumElectric_by (o : MomentumOpts) (h2 : o.low_n_diffuse_perp = false) (s : SpeciesIn nz) (f : FieldsIn nz) (NV N V w : F3 nz) :
    momentumElectric o (gridBy L b g) (opsBy L b B) lim (speciesBy n L b s) (fieldsBy L b f) ((n * (L * b)) • NV) (n • N) ((L * b) • V) ((L * b) • w)
      = (n * (L * b) * b) • momentumElectric o g B lim s f NV N V w := by
  have hv : 0 < L * b := mul_pos hL hb
  have hv2 : 0 < (L * b) ^ 2 := by positivity
  have hp : 0 < n * (L * b) := mul_pos hn hv
  unfold momentumElectric
  rw [show (speciesBy n L b s).charge = s.charge from rfl, show (fieldsBy L b f).phi = f.phi.map ((L * b) ^ 2 • ·) from rfl]
  cases f.phi with
  | none => simp
  | some phi =>
    cases s.charge with
    | none => simp
    | some Z =>
      simp only [Option.map_some]
      by_cases hZ : Z = 0
      · rw [if_pos hZ, if_pos hZ, smul_zero]
      · rw [if_neg hZ, if_neg hZ]
        have e1 : momentumApar o (gridBy L b g) (opsBy L b B) lim (speciesBy n L b s) (fieldsBy L b f) Z ((L * b) ^ 2 • phi) (n • N) ((L * b) • V) ((L * b) • w)
            = (n * (L * b) * b) • momentumApar o g B lim s f Z phi N V w := by
          unfold momentumApar
          rw [show (fieldsBy L b f).Apar = f.Apar.map ((L * b) • ·) from rfl,
            show (speciesBy n L b s).density_source = s.density_source.map ((n * b) • ·) from rfl, h2]
          cases f.Apar with
          | none => simp
          | some A =>
            simp only [Option.map_some, Bool.false_eq_true, if_false, add_zero]
            have eS : (s.density_source.map ((n * b) • ·)).getD (0 : F3 nz) = (n * b) • s.density_source.getD 0 := by
              cases s.density_source <;> simp
            rw [eS, divParMod3_by hL hb hB g hl hn, exbXPPM_by hL hb hB g hn hv2, show n * (L * b) ^ 2 * (L ^ 2 * b)⁻¹ = n * b by field_simp,
              ← smul_sub, ← smul_sub, mul_by, smul_comm]
            congr 1
            ring
        have e2 : momentumPhiFlutter (opsBy L b B) (fieldsBy L b f) Z ((L * b) ^ 2 • phi) (n • N) = (n * (L * b) * b) • momentumPhiFlutter B f Z phi N := by
          unfold momentumPhiFlutter
          rw [show (fieldsBy L b f).Apar_flutter = f.Apar_flutter.map ((L * b) • ·) from rfl]
          cases f.Apar_flutter with
          | none => simp
          | some A =>
            simp only [Option.map_some]
            rw [bracket_by hL hb hB hv2, mul_by, smul_neg, smul_comm]
            congr 2
            field_simp
        rw [e1, e2, exbXPPM_by hL hb hB g hp hv2, gradPar_by hL hB hv2, mul_by, smul_comm Z,
          show n * (L * b) * (L * b) ^ 2 * (L ^ 2 * b)⁻¹ = n * (L * b) * b by field_simp, show n * ((L * b) ^ 2 * L⁻¹) = n * (L * b) * b by field_simp]
        simp only [smul_add, smul_sub, smul_neg]

theorem momentumRhs_by (o : MomentumOpts) (h2 : o.low_n_diffuse_perp = false) (h3 : o.low_p_diffuse_perp = false) (h4 : o.hyper_z ≤ 0)
    (s : SpeciesIn nz) (h5 : s.low_n_coeff = none) (hd : ∀ N, s.density = some N → ∀ i j k, o.density_floor ≤ N i j k ∧ o.density_floor ≤ n * N i j k)
    (f : FieldsIn nz) :
    momentumRhs o (gridBy L b g) (opsBy L b B) lim 0 (speciesBy n L b s) (fieldsBy L b f)
      = (momentumRhs o g B lim 0 s f).map ((n * (L * b) * b) • ·) := by
  have hv : 0 < L * b := mul_pos hL hb
  have hp : 0 < n * (L * b) := mul_pos hn hv
  have hlow : ∀ (g : Grid) (B : RhsOps nz) (s : SpeciesIn nz) (_ : s.low_n_coeff = none) (NV N V : F3 nz), momentumLow o g B s NV N V = .ok 0 := by
    intro g B s h5 NV N V
    unfold momentumLow
    rw [h5, h2, h3]
    simp [bind, Except.bind]
  unfold momentumRhs momentumHyper
  simp only [if_neg (not_lt.2 h4), hlow _ _ s h5, hlow _ _ (speciesBy n L b s) h5]
  rw [show (speciesBy n L b s).AA = s.AA from rfl, show (speciesBy n L b s).density = s.density.map (n • ·) from rfl,
    show (speciesBy n L b s).momentum = s.momentum.map ((n * (L * b)) • ·) from rfl,
    show (speciesBy n L b s).velocity = s.velocity.map ((L * b) • ·) from rfl, show (fieldsBy L b f).scale_timederivs = f.scale_timederivs from rfl,
    waveSpeed_by hL hb]
  cases s.AA with
  | none => rfl
  | some A =>
    cases s.momentum with
    | none => rfl
    | some NV =>
      cases hN : s.density with
      | none => rfl
      | some N =>
        cases waveSpeed s f with
        | error e => rfl
        | ok w =>
          cases s.velocity with
          | none => rfl
          | some V =>
            refine scaled_by _ _ ?_ _
            beta_reduce
            have hd' := hd N hN
            have eP : momentumPressure (opsBy L b B) (speciesBy n L b s) = (n * (L * b) * b) • momentumPressure B s := by
              unfold momentumPressure
              rw [show (speciesBy n L b s).pressure = s.pressure.map ((n * (L * b) ^ 2) • ·) from rfl]
              cases s.pressure with
              | none => simp
              | some P =>
                simp only [Option.map_some]
                rw [gradPar_by hL hB (by positivity), smul_neg]
                congr 2
                field_simp
            have eF : momentumFlutter (gridBy L b g) (opsBy L b B) (speciesBy n L b s) (fieldsBy L b f) ((n * (L * b)) • NV) ((L * b) • V)
                = (n * (L * b) * b) • momentumFlutter g B s f NV V := by
              unfold momentumFlutter
              rw [show (fieldsBy L b f).Apar_flutter = f.Apar_flutter.map ((L * b) • ·) from rfl,
                show (speciesBy n L b s).pressure = s.pressure.map ((n * (L * b) ^ 2) • ·) from rfl]
              cases f.Apar_flutter with
              | none => simp
              | some A =>
                simp only [Option.map_some]
                rw [flutter_by hL hb hB g hp]
                cases s.pressure with
                | none => simp
                | some P =>
                  simp only [Option.map_some]
                  rw [bracket_by hL hb hB (by positivity), show n * (L * b) ^ 2 * L⁻¹ = n * (L * b) * b by field_simp, smul_sub, smul_neg]
            have eS : (speciesBy n L b s).momentum_source.getD (0 : F3 nz) = (n * (L * b) * b) • s.momentum_source.getD 0 := by
              show (s.momentum_source.map ((n * (L * b) * b) • ·)).getD (0 : F3 nz) = _
              cases s.momentum_source <;> simp
            rw [momentumElectric_by hn hL hb hB g hl o h2, eP, eF, eS, floor3_of_le (fun i j k => (hd' i j k).1),
              floor3_of_le (f := n • N) (fun i j k => (hd' i j k).2), divParFvv3_by hL hb hB g hl hn, smul_comm A]
            simp only [add_zero, smul_add, smul_sub]

/-! ## Pressure -/

omit hL hb hB hl hn [NeZero nz] in
theorem okb {α β : Type} (a : α) (k : α → Except Err β) : ((Except.ok a : Except Err α) >>= k) = k a := rfl

omit hL hb hB hl hn [NeZero nz] in
theorem map_bind_ok {α β : Type} (x : Except Err α) (h : α → α) (k : α → Except Err β) : (x.map h >>= k) = x >>= fun a => k (h a) := by
  cases x <;> rfl

omit hn [NeZero nz] in
theorem pressureFlow_by (o : PressureOpts) {p : ℝ} (hp : 0 < p) (P V w : F3 nz) :
    pressureFlow o (gridBy L b g) (opsBy L b B) lim (p • P) ((L * b) • V) ((L * b) • w) = (p * b) • pressureFlow o g B lim P V w := by
  have hv : 0 < L * b := mul_pos hL hb
  unfold pressureFlow
  rw [divParMod3_by hL hb hB g hl hp, floor3_by hp, divPar_by hL hB hv, gradPar_by hL hB hp, mul_by, mul_by,
    show p * (L * b * L⁻¹) = p * b by field_simp, show L * b * (p * L⁻¹) = p * b by field_simp, smul_comm (2 / 3 : ℝ), smul_comm (2 / 3 : ℝ), smul_comm (5 / 3 : ℝ)]
  split_ifs <;> simp only [smul_add, smul_sub, smul_neg]

omit hn hl in
theorem pressureFlutter_by {p : ℝ} (hp : 0 < p) (f : FieldsIn nz) (P V : F3 nz) :
    pressureFlutter (gridBy L b g) (opsBy L b B) (fieldsBy L b f) (p • P) ((L * b) • V) = (p * b) • pressureFlutter g B f P V := by
  have hv : 0 < L * b := mul_pos hL hb
  unfold pressureFlutter
  rw [show (fieldsBy L b f).Apar_flutter = f.Apar_flutter.map ((L * b) • ·) from rfl]
  cases f.Apar_flutter with
  | none => simp
  | some A =>
    simp only [Option.map_some]
    rw [flutter_by hL hb hB g hp, bracket_by hL hb hB hp, mul_by, show L * b * (p * L⁻¹) = p * b by field_simp, smul_comm (2 / 3 : ℝ), smul_comm (5 / 3 : ℝ)]
    simp only [smul_add, smul_neg]

theorem pressureAdvection_by (o : PressureOpts) (s : SpeciesIn nz) (f : FieldsIn nz) (P N : F3 nz)
    (hd : ∀ i j k, o.density_floor ≤ N i j k ∧ o.density_floor ≤ n * N i j k) :
    pressureAdvection o (gridBy L b g) (opsBy L b B) lim (speciesBy n L b s) (fieldsBy L b f) ((n * (L * b) ^ 2) • P) (n • N)
      = (pressureAdvection o g B lim s f P N).map ((n * (L * b) ^ 2 * b) • ·) := by
  have hv : 0 < L * b := mul_pos hL hb
  have hp : 0 < n * (L * b) ^ 2 := by positivity
  unfold pressureAdvection
  rw [show (speciesBy n L b s).velocity = s.velocity.map ((L * b) • ·) from rfl, waveSpeed_by hL hb]
  cases s.velocity with
  | none => simp [Except.map]
  | some V =>
    cases waveSpeed s f with
    | error e => rfl
    | ok w =>
      have eH : pressureHeating o (gridBy L b g) (opsBy L b B) lim (speciesBy n L b s) (n • N) ((L * b) • V) ((L * b) • w)
          = (pressureHeating o g B lim s N V w).map ((n * (L * b) ^ 2 * b) • ·) := by
        unfold pressureHeating
        rw [show (speciesBy n L b s).AA = s.AA from rfl, floor3_of_le (fun i j k => (hd i j k).1),
          floor3_of_le (f := n • N) (fun i j k => (hd i j k).2), fvvHeating3_by hL hb hB g hl hn]
        by_cases h1 : (o.numerical_viscous_heating || o.diagnose) = true
        · rw [if_pos h1, if_pos h1]
          cases s.AA with
          | none => rfl
          | some A =>
            show Except.ok _ = Except.ok _
            by_cases h2 : o.numerical_viscous_heating = true
            · beta_reduce
              rw [if_pos h2, if_pos h2, smul_comm]
            · beta_reduce
              rw [if_neg h2, if_neg h2, smul_zero]
        · rw [if_neg h1, if_neg h1, ok_map, smul_zero]
      show (pressureHeating o (gridBy L b g) (opsBy L b B) lim (speciesBy n L b s) (n • N) ((L * b) • V) ((L * b) • w) >>= fun heating =>
        .ok (pressureFlow o (gridBy L b g) (opsBy L b B) lim ((n * (L * b) ^ 2) • P) ((L * b) • V) ((L * b) • w)
          + pressureFlutter (gridBy L b g) (opsBy L b B) (fieldsBy L b f) ((n * (L * b) ^ 2) • P) ((L * b) • V) + heating))
        = (pressureHeating o g B lim s N V w >>= fun heating => .ok (pressureFlow o g B lim P V w + pressureFlutter g B f P V + heating)).map _
      rw [eH, pressureFlow_by hL hb hB g hl o hp, pressureFlutter_by hL hb hB g hp]
      cases pressureHeating o g B lim s N V w with
      | error e => rfl
      | ok h =>
        show Except.ok _ = Except.ok _
        simp only [smul_add]

omit hn hL hb hB hl [NeZero nz] in
theorem kappaGuard_by (a : ℝ) (K : F3 nz) : kappaGuard (gridBy L b g) (opsBy L b B) (a • K) = a • kappaGuard g B K := by
  funext i j k
  unfold kappaGuard
  show (if j = g.ystart - 1 ∧ g.firstY i = true ∧ B.periodicY i = false then _ else if j = g.yend + 1 ∧ g.lastY i = true ∧ B.periodicY i = false then _ else _) = _
  simp only [Pi.smul_apply, smul_eq_mul]
  show (if j = g.ystart - 1 ∧ g.firstY i = true ∧ B.periodicY i = false then a * K i g.ystart k
    else if j = g.yend + 1 ∧ g.lastY i = true ∧ B.periodicY i = false then a * K i g.yend k else _) = _
  split_ifs <;> rfl

omit hl [NeZero nz] in
theorem kappaPar_by (o : PressureOpts) (P T N nu : F3 nz) (A : ℝ) (hnu : ∀ i j k, 1e-10 ≤ nu i j k ∧ 1e-10 ≤ b * nu i j k)
    (hq : 0 < o.kappa_limit_alpha → ∀ i j k, 1e-10 ≤ o.kappa_limit_alpha * N i j k * T i j k * Real.sqrt (T i j k / A)
      ∧ 1e-10 ≤ n * (L * b) ^ 3 * (o.kappa_limit_alpha * N i j k * T i j k * Real.sqrt (T i j k / A))) :
    kappaPar o (opsBy L b B) ((n * (L * b) ^ 2) • P) ((L * b) ^ 2 • T) (n • N) (b • nu) A
      = (kappaPar o B P T N nu A).map ((n * (L * b) ^ 2 * b⁻¹) • ·) := by
  have hv : 0 < L * b := mul_pos hL hb
  have hv2 : 0 < (L * b) ^ 2 := by positivity
  have hp : 0 < n * (L * b) ^ 2 := by positivity
  have eK : (fun i j k => o.kappa_coefficient * floor3 ((n * (L * b) ^ 2) • P) 0 i j k * (1 / floor3 (b • nu) 1e-10 i j k) / A : F3 nz)
      = (n * (L * b) ^ 2 * b⁻¹) • fun i j k => o.kappa_coefficient * floor3 P 0 i j k * (1 / floor3 nu 1e-10 i j k) / A := by
    rw [floor3_by hp, floor3_of_le (fun i j k => (hnu i j k).1), floor3_of_le (f := b • nu) (fun i j k => (hnu i j k).2)]
    funext i j k
    simp only [Pi.smul_apply, smul_eq_mul]
    rw [one_div, one_div, mul_inv]
    ring
  unfold kappaPar
  dsimp only
  rw [eK]
  by_cases ha : 0 < o.kappa_limit_alpha
  · rw [if_pos ha, if_pos ha]
    have e : ∀ x : ℝ, (L * b) ^ 2 * x / A < 0 ↔ x / A < 0 := by intro x; rw [mul_div_assoc, neg_by hv2]
    by_cases h : ∃ i j k, T i j k / A < 0
    · have h' : ∃ i j k, ((L * b) ^ 2 • T) i j k / A < 0 := by simpa only [Pi.smul_apply, smul_eq_mul, e] using h
      rw [if_pos h, if_pos h']
      rfl
    · have h' : ¬∃ i j k, ((L * b) ^ 2 • T) i j k / A < 0 := by simpa only [Pi.smul_apply, smul_eq_mul, e] using h
      rw [if_neg h, if_neg h', ok_map]
      congr 1
      have eq : (fun i j k => o.kappa_limit_alpha * (n • N) i j k * ((L * b) ^ 2 • T) i j k * Real.sqrt (((L * b) ^ 2 • T) i j k / A) : F3 nz)
          = (n * (L * b) ^ 3) • fun i j k => o.kappa_limit_alpha * N i j k * T i j k * Real.sqrt (T i j k / A) := by
        funext i j k
        simp only [Pi.smul_apply, smul_eq_mul]
        rw [mul_div_assoc, Real.sqrt_mul hv2.le, Real.sqrt_sq hv.le]
        ring
      rw [eq, floor3_of_le (fun i j k => (hq ha i j k).1), floor3_of_le (f := (n * (L * b) ^ 3) • _) (fun i j k => (hq ha i j k).2), gradPar_by hL hB hv2, mul_by]
      rw [← hB.communicate _ (by positivity)]
      show B.communicate _ = _
      congr 1
      funext i j k
      have eKp : o.kappa_coefficient * floor3 ((n * (L * b) ^ 2) • P) 0 i j k * (1 / floor3 (b • nu) 1e-10 i j k) / A
        = (n * (L * b) ^ 2 * b⁻¹) * (o.kappa_coefficient * floor3 P 0 i j k * (1 / floor3 nu 1e-10 i j k) / A) := congrFun (congrFun (congrFun eK i) j) k
      rw [eKp]
      simp only [Pi.smul_apply, smul_eq_mul, Pi.mul_apply]
      rw [mul_div_mul_comm, show n * (L * b) ^ 2 * b⁻¹ * ((L * b) ^ 2 * L⁻¹) / (n * (L * b) ^ 3) = 1 by field_simp, one_mul]
      ring
  · rw [if_neg ha, if_neg ha]
    rfl

theorem pressureConduction_by (o : PressureOpts) (s : SpeciesIn nz) (f : FieldsIn nz) (P T N : F3 nz)
    (hnu : ∀ nu, s.collision_frequency = some nu → ∀ i j k, 1e-10 ≤ nu i j k ∧ 1e-10 ≤ b * nu i j k)
    (hq : 0 < o.kappa_limit_alpha → ∀ A, s.AA = some A → ∀ i j k, 1e-10 ≤ o.kappa_limit_alpha * N i j k * T i j k * Real.sqrt (T i j k / A)
      ∧ 1e-10 ≤ n * (L * b) ^ 3 * (o.kappa_limit_alpha * N i j k * T i j k * Real.sqrt (T i j k / A))) :
    pressureConduction o (gridBy L b g) (opsBy L b B) (speciesBy n L b s) (fieldsBy L b f) ((n * (L * b) ^ 2) • P) ((L * b) ^ 2 • T) (n • N)
      = (pressureConduction o g B s f P T N).map ((n * (L * b) ^ 2 * b) • ·) := by
  have hv : 0 < L * b := mul_pos hL hb
  have hv2 : 0 < (L * b) ^ 2 := by positivity
  have hk : 0 < n * (L * b) ^ 2 * b⁻¹ := by positivity
  unfold pressureConduction
  by_cases ht : o.thermal_conduction = true
  · rw [if_pos ht, if_pos ht, show (speciesBy n L b s).AA = s.AA from rfl,
      show (speciesBy n L b s).collision_frequency = s.collision_frequency.map (b • ·) from rfl,
      show (fieldsBy L b f).Apar_flutter = f.Apar_flutter.map ((L * b) • ·) from rfl]
    cases hcf : s.collision_frequency with
    | none => rfl
    | some nu =>
      cases hA : s.AA with
      | none => rfl
      | some A =>
        simp only [Option.map_some, need, okb]
        rw [kappaPar_by hn hL hb hB o P T N nu A (hnu nu hcf) (fun h => hq h A hA), map_bind_ok]
        cases kappaPar o B P T N nu A with
        | error e => rfl
        | ok kappa =>
          simp only [okb, kappaGuard_by]
          rw [conduction3_by hL hb hB g hv2 hk]
          cases f.Apar_flutter with
          | none =>
            show Except.ok _ = Except.ok _
            rw [smul_comm]
            congr 2
            field_simp
          | some A =>
            simp only [Option.map_some]
            show Except.ok _ = Except.ok _
            congr 1
            rw [bracket_by hL hb hB hv2, gradPar_by hL hB hv2,
              show (opsBy L b B).neumann (((L * b) ^ 2 * L⁻¹) • B.bracket T A) = ((L * b) ^ 2 * L⁻¹) • B.neumann (B.bracket T A) from hB.neumann _ (by positivity) _,
              show (opsBy L b B).neumann (((L * b) ^ 2 * L⁻¹) • B.gradPar T) = ((L * b) ^ 2 * L⁻¹) • B.neumann (B.gradPar T) from hB.neumann _ (by positivity) _,
              mul_by, divPar_by hL hB (by positivity), ← smul_add ((L * b) ^ 2 * L⁻¹), divNG_by hL hb hB g hk (by positivity) hv,
              show n * (L * b) ^ 2 * b⁻¹ * ((L * b) ^ 2 * L⁻¹) * (L * b) * (L ^ 2 * b)⁻¹ = n * (L * b) ^ 2 * b by field_simp,
              show n * (L * b) ^ 2 * b⁻¹ * ((L * b) ^ 2 * L⁻¹) * L⁻¹ = n * (L * b) ^ 2 * b by field_simp,
              show n * (L * b) ^ 2 * b⁻¹ * (L * b) ^ 2 * (L ^ 2)⁻¹ = n * (L * b) ^ 2 * b by field_simp, ← smul_sub, smul_comm (2 / 3 : ℝ), smul_comm (2 / 3 : ℝ), ← smul_add]
  · rw [if_neg ht, if_neg ht, ok_map, smul_zero]

theorem pressureRhs_by (o : PressureOpts) (h1 : o.low_n_diffuse_perp = false) (h2 : o.low_T_diffuse_perp = false) (h3 : o.low_p_diffuse_perp = false)
    (h4 : o.hyper_z ≤ 0) (h5 : o.hyper_z_T ≤ 0) (P₀ source : F3 nz) (s : SpeciesIn nz) (h6 : s.low_n_coeff = none)
    (hd : ∀ N, s.density = some N → ∀ i j k, o.density_floor ≤ N i j k ∧ o.density_floor ≤ n * N i j k)
    (hnu : ∀ nu, s.collision_frequency = some nu → ∀ i j k, 1e-10 ≤ nu i j k ∧ 1e-10 ≤ b * nu i j k)
    (hq : 0 < o.kappa_limit_alpha → ∀ A N T, s.AA = some A → s.density = some N → s.temperature = some T → ∀ i j k,
      1e-10 ≤ o.kappa_limit_alpha * N i j k * T i j k * Real.sqrt (T i j k / A)
      ∧ 1e-10 ≤ n * (L * b) ^ 3 * (o.kappa_limit_alpha * N i j k * T i j k * Real.sqrt (T i j k / A)))
    (hPNT : ∀ P N T, s.pressure = some P → s.density = some N → s.temperature = some T → N * T = B.setBoundaryTo P₀ P)
    (f : FieldsIn nz) :
    pressureRhs o (gridBy L b g) (opsBy L b B) lim ((n * (L * b) ^ 2) • P₀) ((n * (L * b) ^ 2 * b) • source) (speciesBy n L b s) (fieldsBy L b f)
      = (pressureRhs o g B lim P₀ source s f).map ((n * (L * b) ^ 2 * b) • ·) := by
  have hv : 0 < L * b := mul_pos hL hb
  have hp : 0 < n * (L * b) ^ 2 := by positivity
  have hlow : ∀ (g : Grid) (B : RhsOps nz) (s : SpeciesIn nz) (_ : s.low_n_coeff = none) (P T N : F3 nz), pressureLow o g B s P T N = 0 := by
    intro g B s h P T N
    unfold pressureLow
    rw [h, h1, h2, h3]
    simp
  have hhyp : ∀ P T : F3 nz, pressureHyper o P T = 0 := by
    intro P T
    unfold pressureHyper
    rw [if_neg (not_lt.2 h4), if_neg (not_lt.2 h5), add_zero]
  unfold pressureRhs
  simp only [hlow _ _ s h6, hlow _ _ (speciesBy n L b s) h6, hhyp]
  rw [show (speciesBy n L b s).density = s.density.map (n • ·) from rfl,
    show (speciesBy n L b s).pressure = s.pressure.map ((n * (L * b) ^ 2) • ·) from rfl,
    show (speciesBy n L b s).temperature = s.temperature.map ((L * b) ^ 2 • ·) from rfl, show (fieldsBy L b f).scale_timederivs = f.scale_timederivs from rfl]
  cases hP : s.pressure with
  | none => rfl
  | some P =>
    cases hT : s.temperature with
    | none => rfl
    | some T =>
      cases hN : s.density with
      | none => rfl
      | some N =>
        have hset : (opsBy L b B).setBoundaryTo ((n * (L * b) ^ 2) • P₀) ((n * (L * b) ^ 2) • P) = (n * (L * b) ^ 2) • B.setBoundaryTo P₀ P :=
          hB.setBoundaryTo _ hp _ _
        have hz : N * T - B.setBoundaryTo P₀ P = 0 := sub_eq_zero.2 (hPNT P N T hP hN hT)
        have hz' : (n • N) * ((L * b) ^ 2 • T) - (n * (L * b) ^ 2) • B.setBoundaryTo P₀ P = 0 := by
          rw [mul_by, ← smul_sub, hz, smul_zero]
        simp only [Option.map_some, need, okb]
        rw [hset, hz, hz', pressureAdvection_by hn hL hb hB g hl o s f _ N (hd N hN),
          pressureConduction_by hn hL hb hB g hl o s f _ T N hnu (fun h A hA => hq h A N T hA hN hT), map_bind_ok]
        cases pressureAdvection o g B lim s f (B.setBoundaryTo P₀ P) N with
        | error e => rfl
        | ok adv =>
          simp only [okb]
          rw [map_bind_ok]
          cases pressureConduction o g B s f (B.setBoundaryTo P₀ P) T N with
          | error e => rfl
          | ok cond =>
            simp only [okb]
            refine scaled_by _ _ ?_ _
            have eS : pressureSources ((n * (L * b) ^ 2 * b) • source) (speciesBy n L b s) = (n * (L * b) ^ 2 * b) • pressureSources source s := by
              unfold pressureSources
              rw [show (speciesBy n L b s).energy_source = s.energy_source.map ((n * (L * b) ^ 2 * b) • ·) from rfl]
              cases s.energy_source with
              | none => rfl
              | some E =>
                simp only [Option.map_some]
                rw [smul_comm, smul_add]
            have eX : exbOf (gridBy L b g) (opsBy L b B) (speciesBy n L b s).isCharged (fieldsBy L b f) ((n * (L * b) ^ 2) • B.setBoundaryTo P₀ P) o.bndry_flux o.poloidal_flows
                = (n * (L * b) ^ 2 * b) • exbOf g B s.isCharged f (B.setBoundaryTo P₀ P) o.bndry_flux o.poloidal_flows := exbOf_by hL hb hB g hp _ f _ _ _
            rw [eS, eX]
            simp only [add_zero, smul_add, smul_neg]

/-! ## Energy -/

omit hl in
theorem energyBoundary_by (Cv A : ℝ) (P N V E : F3 nz) :
    energyBoundary (gridBy L b g) (opsBy L b B) Cv A ((n * (L * b) ^ 2) • P) (n • N) ((L * b) • V) ((n * (L * b) ^ 2) • E)
      = (n * (L * b) ^ 2) • energyBoundary g B Cv A P N V E := by
  have hv : 0 < L * b := mul_pos hL hb
  have hp : 0 < n * (L * b) ^ 2 := by positivity
  have hsh : ∀ i a c k, sheathEnergy Cv A ((n * (L * b) ^ 2) • P) (n • N) ((L * b) • V) i a c k = (n * (L * b) ^ 2) * sheathEnergy Cv A P N V i a c k := by
    intro i a c k
    simp only [sheathEnergy, Pi.smul_apply, smul_eq_mul]
    ring
  have hto : (opsBy L b B).toFA ((n * (L * b) ^ 2) • E) = (n * (L * b) ^ 2) • B.toFA E := hB.toFA _ hp _
  unfold energyBoundary
  rw [← hB.fromFA _ hp, hto]
  show B.fromFA _ = B.fromFA _
  congr 1
  funext i j k
  simp only [hsh, Pi.smul_apply, smul_eq_mul]
  show (if j = g.ystart - 1 ∧ g.firstY i = true ∧ B.periodicY i = false then _ else if j = g.yend + 1 ∧ g.lastY i = true ∧ B.periodicY i = false then _ else _)
    = _ * if j = g.ystart - 1 ∧ g.firstY i = true ∧ B.periodicY i = false then _ else if j = g.yend + 1 ∧ g.lastY i = true ∧ B.periodicY i = false then _ else _
  split_ifs
  · show 2 * ((n * (L * b) ^ 2) * sheathEnergy Cv A P N V i (g.ystart - 1) g.ystart k) - (n * (L * b) ^ 2) * B.toFA E i g.ystart k = _
    ring
  · show 2 * ((n * (L * b) ^ 2) * sheathEnergy Cv A P N V i (g.yend + 1) g.yend k) - (n * (L * b) ^ 2) * B.toFA E i g.yend k = _
    ring
  · rfl

omit hl [NeZero nz] in
theorem energyKappa_by (o : EnergyOpts) (P T N nu : F3 nz) (A : ℝ) (hnu : ∀ i j k, 1e-10 ≤ nu i j k ∧ 1e-10 ≤ b * nu i j k)
    (hq : 0 < o.kappa_limit_alpha → ∀ i j k, 1e-10 ≤ o.kappa_limit_alpha * N i j k * T i j k * Real.sqrt (T i j k / A)
      ∧ 1e-10 ≤ n * (L * b) ^ 3 * (o.kappa_limit_alpha * N i j k * T i j k * Real.sqrt (T i j k / A))) :
    energyKappa o (opsBy L b B) ((n * (L * b) ^ 2) • P) ((L * b) ^ 2 • T) (n • N) (b • nu) A
      = (energyKappa o B P T N nu A).map ((n * (L * b) ^ 2 * b⁻¹) • ·) := by
  have hv : 0 < L * b := mul_pos hL hb
  have hv2 : 0 < (L * b) ^ 2 := by positivity
  have hp : 0 < n * (L * b) ^ 2 := by positivity
  have eK : (fun i j k => o.kappa_coefficient * ((n * (L * b) ^ 2) • P) i j k * (1 / floor3 (b • nu) 1e-10 i j k) / A : F3 nz)
      = (n * (L * b) ^ 2 * b⁻¹) • fun i j k => o.kappa_coefficient * P i j k * (1 / floor3 nu 1e-10 i j k) / A := by
    rw [floor3_of_le (fun i j k => (hnu i j k).1), floor3_of_le (f := b • nu) (fun i j k => (hnu i j k).2)]
    funext i j k
    simp only [Pi.smul_apply, smul_eq_mul]
    rw [one_div, one_div, mul_inv]
    ring
  unfold energyKappa
  dsimp only
  rw [eK]
  by_cases ha : 0 < o.kappa_limit_alpha
  · rw [if_pos ha, if_pos ha]
    have e : ∀ x : ℝ, (L * b) ^ 2 * x / A < 0 ↔ x / A < 0 := by intro x; rw [mul_div_assoc, neg_by hv2]
    by_cases h : ∃ i j k, T i j k / A < 0
    · have h' : ∃ i j k, ((L * b) ^ 2 • T) i j k / A < 0 := by simpa only [Pi.smul_apply, smul_eq_mul, e] using h
      rw [if_pos h, if_pos h']
      rfl
    · have h' : ¬∃ i j k, ((L * b) ^ 2 • T) i j k / A < 0 := by simpa only [Pi.smul_apply, smul_eq_mul, e] using h
      rw [if_neg h, if_neg h', ok_map]
      congr 1
      have eq : (fun i j k => o.kappa_limit_alpha * (n • N) i j k * ((L * b) ^ 2 • T) i j k * Real.sqrt (((L * b) ^ 2 • T) i j k / A) : F3 nz)
          = (n * (L * b) ^ 3) • fun i j k => o.kappa_limit_alpha * N i j k * T i j k * Real.sqrt (T i j k / A) := by
        funext i j k
        simp only [Pi.smul_apply, smul_eq_mul]
        rw [mul_div_assoc, Real.sqrt_mul hv2.le, Real.sqrt_sq hv.le]
        ring
      rw [eq, floor3_of_le (fun i j k => (hq ha i j k).1), floor3_of_le (f := (n * (L * b) ^ 3) • _) (fun i j k => (hq ha i j k).2), gradPar_by hL hB hv2, mul_by]
      rw [← hB.communicate _ (by positivity)]
      show B.communicate _ = _
      congr 1
      funext i j k
      have eKp : o.kappa_coefficient * ((n * (L * b) ^ 2) • P) i j k * (1 / floor3 (b • nu) 1e-10 i j k) / A
        = (n * (L * b) ^ 2 * b⁻¹) * (o.kappa_coefficient * P i j k * (1 / floor3 nu 1e-10 i j k) / A) := congrFun (congrFun (congrFun eK i) j) k
      rw [eKp]
      simp only [Pi.smul_apply, smul_eq_mul, Pi.mul_apply]
      rw [mul_div_mul_comm, show n * (L * b) ^ 2 * b⁻¹ * ((L * b) ^ 2 * L⁻¹) / (n * (L * b) ^ 3) = 1 by field_simp, one_mul]
      ring
  · rw [if_neg ha, if_neg ha]
    rfl

theorem energyConduction_by (o : EnergyOpts) (s : SpeciesIn nz) (f : FieldsIn nz) (P T N : F3 nz) (A : ℝ)
    (hnu : ∀ nu, s.collision_frequency = some nu → ∀ i j k, 1e-10 ≤ nu i j k ∧ 1e-10 ≤ b * nu i j k)
    (hq : 0 < o.kappa_limit_alpha → ∀ i j k, 1e-10 ≤ o.kappa_limit_alpha * N i j k * T i j k * Real.sqrt (T i j k / A)
      ∧ 1e-10 ≤ n * (L * b) ^ 3 * (o.kappa_limit_alpha * N i j k * T i j k * Real.sqrt (T i j k / A))) :
    energyConduction o (gridBy L b g) (opsBy L b B) (speciesBy n L b s) (fieldsBy L b f) ((n * (L * b) ^ 2) • P) ((L * b) ^ 2 • T) (n • N) A
      = (energyConduction o g B s f P T N A).map ((n * (L * b) ^ 2 * b) • ·) := by
  have hv : 0 < L * b := mul_pos hL hb
  have hv2 : 0 < (L * b) ^ 2 := by positivity
  have hk : 0 < n * (L * b) ^ 2 * b⁻¹ := by positivity
  unfold energyConduction
  by_cases ht : o.thermal_conduction = true
  · rw [if_pos ht, if_pos ht,
      show (speciesBy n L b s).collision_frequency = s.collision_frequency.map (b • ·) from rfl,
      show (fieldsBy L b f).Apar_flutter = f.Apar_flutter.map ((L * b) • ·) from rfl]
    cases hcf : s.collision_frequency with
    | none => rfl
    | some nu =>
      simp only [Option.map_some, need, okb]
      rw [energyKappa_by hn hL hb hB o P T N nu A (hnu nu hcf) hq, map_bind_ok]
      cases energyKappa o B P T N nu A with
      | error e => rfl
      | ok kappa =>
        simp only [okb, kappaGuard_by]
        rw [conduction3_by hL hb hB g hv2 hk]
        cases f.Apar_flutter with
        | none =>
          show Except.ok _ = Except.ok _
          congr 2
          field_simp
        | some A =>
          simp only [Option.map_some]
          show Except.ok _ = Except.ok _
          congr 1
          rw [bracket_by hL hb hB hv2, gradPar_by hL hB hv2,
            show (opsBy L b B).communicate (((L * b) ^ 2 * L⁻¹) • B.bracket T A) = ((L * b) ^ 2 * L⁻¹) • B.communicate (B.bracket T A) from hB.communicate _ (by positivity) _,
            show (opsBy L b B).communicate (((L * b) ^ 2 * L⁻¹) • B.gradPar T) = ((L * b) ^ 2 * L⁻¹) • B.communicate (B.gradPar T) from hB.communicate _ (by positivity) _,
            mul_by, divPar_by hL hB (by positivity), ← smul_add ((L * b) ^ 2 * L⁻¹), divNG_by hL hb hB g hk (by positivity) hv,
            show n * (L * b) ^ 2 * b⁻¹ * ((L * b) ^ 2 * L⁻¹) * (L * b) * (L ^ 2 * b)⁻¹ = n * (L * b) ^ 2 * b by field_simp,
            show n * (L * b) ^ 2 * b⁻¹ * ((L * b) ^ 2 * L⁻¹) * L⁻¹ = n * (L * b) ^ 2 * b by field_simp,
            show n * (L * b) ^ 2 * b⁻¹ * (L * b) ^ 2 * (L ^ 2)⁻¹ = n * (L * b) ^ 2 * b by field_simp, ← smul_sub, ← smul_add]
  · rw [if_neg ht, if_neg ht, ok_map, smul_zero]

theorem energyRhs_by (o : EnergyOpts) (h4 : o.hyper_z ≤ 0) (E₀ source : F3 nz) (s : SpeciesIn nz) (h6 : s.low_n_coeff = none)
    (hnu : ∀ nu, s.collision_frequency = some nu → ∀ i j k, 1e-10 ≤ nu i j k ∧ 1e-10 ≤ b * nu i j k)
    (hq : 0 < o.kappa_limit_alpha → ∀ A N T, s.AA = some A → s.density = some N → s.temperature = some T → ∀ i j k,
      1e-10 ≤ o.kappa_limit_alpha * N i j k * T i j k * Real.sqrt (T i j k / A)
      ∧ 1e-10 ≤ n * (L * b) ^ 3 * (o.kappa_limit_alpha * N i j k * T i j k * Real.sqrt (T i j k / A)))
    (f : FieldsIn nz) :
    energyRhs o (gridBy L b g) (opsBy L b B) lim ((n * (L * b) ^ 2) • E₀) ((n * (L * b) ^ 2 * b) • source) (speciesBy n L b s) (fieldsBy L b f)
      = (energyRhs o g B lim E₀ source s f).map ((n * (L * b) ^ 2 * b) • ·) := by
  have hv : 0 < L * b := mul_pos hL hb
  have hp : 0 < n * (L * b) ^ 2 := by positivity
  unfold energyRhs
  rw [show (speciesBy n L b s).density = s.density.map (n • ·) from rfl,
    show (speciesBy n L b s).pressure = s.pressure.map ((n * (L * b) ^ 2) • ·) from rfl,
    show (speciesBy n L b s).velocity = s.velocity.map ((L * b) • ·) from rfl, show (speciesBy n L b s).AA = s.AA from rfl,
    show (speciesBy n L b s).temperature = s.temperature.map ((L * b) ^ 2 • ·) from rfl, show (fieldsBy L b f).scale_timederivs = f.scale_timederivs from rfl,
    waveSpeed_by hL hb]
  cases s.pressure with
  | none => rfl
  | some P =>
    cases hT : s.temperature with
    | none => rfl
    | some T =>
      cases hN : s.density with
      | none => rfl
      | some N =>
        cases s.velocity with
        | none => rfl
        | some V =>
          cases hA : s.AA with
          | none => rfl
          | some A =>
            simp only [Option.map_some, need, okb]
            rw [energyBoundary_by hn hL hb hB g, energyConduction_by hn hL hb hB g hl o s f P T N A hnu (fun h => hq h A N T hA hN hT), map_bind_ok]
            cases waveSpeed s f with
            | error e => rfl
            | ok w =>
              simp only [okb]
              rw [map_bind_ok]
              cases energyConduction o g B s f P T N A with
              | error e => rfl
              | ok cond =>
                simp only [okb]
                refine scaled_by _ _ ?_ _
                have eS : energyEqSources ((n * (L * b) ^ 2 * b) • source) ((L * b) • V) (speciesBy n L b s) = (n * (L * b) ^ 2 * b) • energyEqSources source V s := by
                  unfold energyEqSources
                  rw [show (speciesBy n L b s).energy_source = s.energy_source.map ((n * (L * b) ^ 2 * b) • ·) from rfl,
                    show (speciesBy n L b s).momentum_source = s.momentum_source.map ((n * (L * b) * b) • ·) from rfl]
                  have e1 : (s.energy_source.map ((n * (L * b) ^ 2 * b) • ·)).getD 0 = (n * (L * b) ^ 2 * b) • s.energy_source.getD 0 := by
                    cases s.energy_source <;> simp
                  have e2 : (s.momentum_source.map ((n * (L * b) * b) • ·)).getD 0 = (n * (L * b) * b) • s.momentum_source.getD 0 := by
                    cases s.momentum_source <;> simp
                  rw [e1, e2, mul_by, show L * b * (n * (L * b) * b) = n * (L * b) ^ 2 * b by ring]
                  simp only [smul_add]
                have eA : ∀ E, energyAdvection (gridBy L b g) (opsBy L b B) lim (fieldsBy L b f) ((n * (L * b) ^ 2) • E) ((n * (L * b) ^ 2) • P) ((L * b) • V) ((L * b) • w)
                    = (n * (L * b) ^ 2 * b) • energyAdvection g B lim f E P V w := by
                  intro E
                  unfold energyAdvection
                  rw [← smul_add, divParMod3_by hL hb hB g hl hp, show (fieldsBy L b f).Apar_flutter = f.Apar_flutter.map ((L * b) • ·) from rfl]
                  cases f.Apar_flutter with
                  | none => simp
                  | some A =>
                    simp only [Option.map_some]
                    rw [flutter_by hL hb hB g hp]
                    simp only [smul_add, smul_neg]
                unfold energyTerms
                have eL : ∀ (B : RhsOps nz) (s : SpeciesIn nz) (_ : s.low_n_coeff = none) (P T N : F3 nz), energyLow B s P T N = 0 := by
                  intro B s h P T N
                  unfold energyLow
                  rw [h]
                have eH : ∀ (g : Grid) (B : RhsOps nz) (E : F3 nz), energyHyper o g B E = 0 := fun g B E => if_neg (not_lt.2 h4)
                rw [eL _ s h6, eL _ (speciesBy n L b s) h6, eH, eH, eS, eA, show (speciesBy n L b s).isCharged = s.isCharged from rfl, exbOf_by hL hb hB g hp]
                simp only [add_zero, smul_add, smul_neg]

end

end Hermes.Units
