import Verif.Lemmas.Scaling

/-!
# Change of units in the right-hand sides
-/

namespace Hermes.Units
open Hermes

variable {nz : ℕ}

/-- Constant factors can be taken out of the operators of BOUT++. -/
structure HomogeneousOps (B : RhsOps nz) : Prop where
  ddx : ∀ a : ℝ, 0 < a → ∀ f, B.ddx (a • f) = a • B.ddx f
  ddy : ∀ a : ℝ, 0 < a → ∀ f, B.ddy (a • f) = a • B.ddy f
  toFA : ∀ a : ℝ, 0 < a → ∀ f, B.toFA (a • f) = a • B.toFA f
  fromFA : ∀ a : ℝ, 0 < a → ∀ f, B.fromFA (a • f) = a • B.fromFA f
  communicate : ∀ a : ℝ, 0 < a → ∀ f, B.communicate (a • f) = a • B.communicate f
  setBoundaryTo : ∀ a : ℝ, 0 < a → ∀ f h, B.setBoundaryTo (a • f) (a • h) = a • B.setBoundaryTo f h
  gradPar : ∀ a : ℝ, 0 < a → ∀ f, B.gradPar (a • f) = a • B.gradPar f
  divPar : ∀ a : ℝ, 0 < a → ∀ f, B.divPar (a • f) = a • B.divPar f
  bracket : ∀ a c : ℝ, 0 < a → 0 < c → ∀ f h, B.bracket (a • f) (c • h) = (a * c) • B.bracket f h
  neumann : ∀ a : ℝ, 0 < a → ∀ f, B.neumann (a • f) = a • B.neumann f

/-- The operators on the grid `gridBy L b g`. -/
noncomputable def opsBy (L b : ℝ) (B : RhsOps nz) : RhsOps nz :=
  { B with
    ddx := fun f => (L ^ 2 * b)⁻¹ • B.ddx f
    g_22 := fun i j => B.g_22 i j * L ^ 2
    divParK := fun K f => (L ^ 2)⁻¹ • B.divParK K f
    gradPar := fun f => L⁻¹ • B.gradPar f
    divPar := fun f => L⁻¹ • B.divPar f
    bracket := fun f h => (L ^ 2 * b)⁻¹ • B.bracket f h }

/-- A species in other units. -/
noncomputable def speciesBy (n L b : ℝ) (s : SpeciesIn nz) : SpeciesIn nz :=
  { s with
    density := s.density.map (n • ·)
    velocity := s.velocity.map ((L * b) • ·)
    momentum := s.momentum.map ((n * (L * b)) • ·)
    temperature := s.temperature.map ((L * b) ^ 2 • ·)
    pressure := s.pressure.map ((n * (L * b) ^ 2) • ·)
    density_source := s.density_source.map ((n * b) • ·)
    energy_source := s.energy_source.map ((n * (L * b) ^ 2 * b) • ·)
    momentum_source := s.momentum_source.map ((n * (L * b) * b) • ·)
    collision_frequency := s.collision_frequency.map (b • ·) }

noncomputable def fieldsBy (L b : ℝ) (f : FieldsIn nz) : FieldsIn nz :=
  { f with
    phi := f.phi.map ((L * b) ^ 2 • ·)
    Apar := f.Apar.map ((L * b) • ·)
    Apar_flutter := f.Apar_flutter.map ((L * b) • ·)
    fastest_wave := f.fastest_wave.map ((L * b) • ·) }

theorem alongY_by (a : ℝ) (f : F3 nz) (i : ℤ) (k : Fin nz) : alongY (a • f) i k = a • alongY f i k := rfl

theorem floor3_by {a : ℝ} (ha : 0 < a) (f : F3 nz) : floor3 (a • f) 0 = a • floor3 f 0 := by
  funext i j k
  simp only [floor3, Pi.smul_apply, smul_eq_mul, neg_by ha]
  split_ifs <;> simp

theorem floor3_of_le {f : F3 nz} {lo : ℝ} (h : ∀ i j k, lo ≤ f i j k) : floor3 f lo = f := by
  funext i j k
  exact if_neg (not_lt.2 (h i j k))

section
variable {L b : ℝ} (hL : 0 < L) (hb : 0 < b)
include hL hb

theorem waveSpeed_by (n : ℝ) (s : SpeciesIn nz) (f : FieldsIn nz) :
    waveSpeed (speciesBy n L b s) (fieldsBy L b f) = (waveSpeed s f).map ((L * b) • ·) := by
  have hv : 0 < L * b := mul_pos hL hb
  have hv2 : 0 < (L * b) ^ 2 := by positivity
  unfold waveSpeed speciesBy fieldsBy
  cases f.fastest_wave with
  | some w => rfl
  | none =>
    cases s.temperature with
    | none => rfl
    | some T =>
      cases s.AA with
      | none => rfl
      | some A =>
        have e : ∀ x : ℝ, (L * b) ^ 2 * x / A < 0 ↔ x / A < 0 := by intro x; rw [mul_div_assoc, neg_by hv2]
        simp only [Option.map_some, Option.map_none, Pi.smul_apply, smul_eq_mul]
        by_cases h : ∃ i j k, T i j k / A < 0
        · have h' : ∃ i j k, (L * b) ^ 2 * T i j k / A < 0 := by simpa only [e] using h
          rw [if_pos h, if_pos h']; rfl
        · have h' : ¬∃ i j k, (L * b) ^ 2 * T i j k / A < 0 := by simpa only [e] using h
          rw [if_neg h, if_neg h']
          show Except.ok _ = Except.ok _
          congr 1
          funext i j k
          rw [mul_div_assoc, Real.sqrt_mul hv2.le, Real.sqrt_sq hv.le]
          rfl

variable {B : RhsOps nz} (hB : HomogeneousOps B) (g : Grid)

section
variable {lim : Limiter} (hl : Homogeneous lim)
include hB hl

theorem divParMod3_by {a : ℝ} (ha : 0 < a) (f V w : F3 nz) (fix : Bool) :
    (gridBy L b g).divParMod3 (opsBy L b B) lim (a • f) ((L * b) • V) ((L * b) • w) fix = (a * b) • g.divParMod3 B lim f V w fix := by
  have hv : 0 < L * b := mul_pos hL hb
  unfold Grid.divParMod3
  rw [← hB.fromFA _ (mul_pos ha hb)]
  show B.fromFA _ = _
  congr 1
  funext i j k
  show (((lineBy L b (g.line B i)).divParMod lim (alongY (B.toFA (a • f)) i k) (alongY (B.toFA ((L * b) • V)) i k) (alongY (B.toFA ((L * b) • w)) i k) fix).result) j = _
  rw [hB.toFA _ ha, hB.toFA _ hv, hB.toFA _ hv, alongY_by, alongY_by, alongY_by, divParMod_by hL hb _ hl ha hv]
  simp only [Pi.smul_apply, smul_eq_mul]
  congr 1
  field_simp

theorem divParFvv3_by {a : ℝ} (ha : 0 < a) (f V w : F3 nz) (fix : Bool) :
    (gridBy L b g).divParFvv3 (opsBy L b B) lim (a • f) ((L * b) • V) ((L * b) • w) fix = (a * (L * b) * b) • g.divParFvv3 B lim f V w fix := by
  have hv : 0 < L * b := mul_pos hL hb
  unfold Grid.divParFvv3
  rw [← hB.fromFA _ (by positivity)]
  show B.fromFA _ = _
  congr 1
  funext i j k
  show ((lineBy L b (g.line B i)).divParFvv lim (alongY (B.toFA (a • f)) i k) (alongY (B.toFA ((L * b) • V)) i k) (alongY (B.toFA ((L * b) • w)) i k) fix) j = _
  rw [hB.toFA _ ha, hB.toFA _ hv, hB.toFA _ hv, alongY_by, alongY_by, alongY_by, divParFvv_by hL hb _ hl ha hv]
  simp only [Pi.smul_apply, smul_eq_mul]
  congr 1
  field_simp

theorem fvvHeating3_by {a : ℝ} (ha : 0 < a) (f V w : F3 nz) (fix : Bool) :
    (gridBy L b g).fvvHeating3 (opsBy L b B) lim (a • f) ((L * b) • V) ((L * b) • w) fix = (a * (L * b) ^ 2 * b) • g.fvvHeating3 B lim f V w fix := by
  have hv : 0 < L * b := mul_pos hL hb
  unfold Grid.fvvHeating3
  rw [← hB.fromFA _ (by positivity)]
  show B.fromFA _ = _
  congr 1
  funext i j k
  show (((lineBy L b (g.line B i)).fvvHeating lim (alongY (B.toFA (a • f)) i k) (alongY (B.toFA ((L * b) • V)) i k) (alongY (B.toFA ((L * b) • w)) i k) fix).result) j = _
  rw [hB.toFA _ ha, hB.toFA _ hv, hB.toFA _ hv, alongY_by, alongY_by, alongY_by, fvvHeating_by hL hb _ hl ha hv]
  simp only [Pi.smul_apply, smul_eq_mul]
  congr 1
  field_simp
end

include hB

theorem conduction3_by {a c : ℝ} (ha : 0 < a) (hc : 0 < c) (K f : F3 nz) (flux : Bool) :
    (gridBy L b g).conduction3 (opsBy L b B) (c • K) (a • f) flux = (c * a * (L ^ 2)⁻¹) • g.conduction3 B K f flux := by
  unfold Grid.conduction3
  rw [← hB.fromFA _ (by positivity)]
  show B.fromFA _ = _
  congr 1
  funext i j k
  show ((lineBy L b (g.line B i)).divParKGradPar (alongY (B.toFA (c • K)) i k) (alongY (B.toFA (a • f)) i k) flux) j = _
  rw [hB.toFA _ ha, hB.toFA _ hc, alongY_by, alongY_by, divParK_by hL hb _ ha]
  rfl

section
variable [NeZero nz]

theorem divNG_by {a c e : ℝ} (ha : 0 < a) (hc : 0 < c) (he : 0 < e) (n v f : F3 nz) (bf : Bool) :
    (gridBy L b g).divNG (opsBy L b B) (a • n) (c • v) (e • f) bf = (a * c * e * (L ^ 2 * b)⁻¹) • g.divNG B n v f bf := by
  unfold Grid.divNG
  rw [exbXZ_by hL hb g ha he]
  exact hB.communicate _ (by positivity) _

theorem exbXPPM_by {a e : ℝ} (ha : 0 < a) (he : 0 < e) (n f : F3 nz) (bf pol pos : Bool) :
    (gridBy L b g).exbXPPM (opsBy L b B).toBoutOps (a • n) (e • f) bf pol pos = (a * e * (L ^ 2 * b)⁻¹) • g.exbXPPM B.toBoutOps n f bf pol pos := by
  have hone : (fun _ _ _ => 1 : F3 nz) = (1 : ℝ) • fun _ _ _ => 1 := (one_smul ℝ _).symm
  have h0 : (opsBy L b B).communicate ((gridBy L b g).exbXZ (a • n) (fun _ _ _ => 1) (e • f) bf)
      = (a * e * (L ^ 2 * b)⁻¹) • B.communicate (g.exbXZ n (fun _ _ _ => 1) f bf) := by
    rw [hone, exbXZ_by hL hb g ha he, ← hone, mul_one]
    exact hB.communicate _ (by positivity) _
  unfold Grid.exbXPPM
  dsimp only
  rw [h0]
  cases pol with
  | false => rfl
  | true =>
    have h1 : (opsBy L b B).ddy (e • f) = e • B.ddy f := hB.ddy _ he f
    have h2 : (opsBy L b B).toFA ((opsBy L b B).ddx (e • f)) = (e * (L ^ 2 * b)⁻¹) • B.toFA (B.ddx f) := by
      show B.toFA ((L ^ 2 * b)⁻¹ • B.ddx (e • f)) = _
      rw [hB.ddx _ he, smul_smul, mul_comm, hB.toFA _ (by positivity)]
    have h3 : (opsBy L b B).toFA (a • n) = a • B.toFA n := hB.toFA _ ha n
    rw [if_pos rfl, if_pos rfl, h1, h2, h3, polXLoop_by hL hb g ha he n (B.ddy f) bf pos rfl,
      polYLoop_by hL hb g ha (show 0 < e * (L ^ 2 * b)⁻¹ by positivity)]
    have h4 : (opsBy L b B).fromFA ((a * (e * (L ^ 2 * b)⁻¹)) • g.polYLoop (opsBy L b B).periodicY (B.toFA n) (B.toFA (B.ddx f)) bf pos)
        = (a * (e * (L ^ 2 * b)⁻¹)) • B.fromFA (g.polYLoop B.periodicY (B.toFA n) (B.toFA (B.ddx f)) bf pos) := hB.fromFA _ (by positivity) _
    rw [h4]
    funext i j k
    simp only [Pi.smul_apply, smul_eq_mul]
    ring

theorem exbOf_by {a : ℝ} (ha : 0 < a) (charged : Prop) (f : FieldsIn nz) (n : F3 nz) (bf pol : Bool) :
    exbOf (gridBy L b g) (opsBy L b B) charged (fieldsBy L b f) (a • n) bf pol = (a * b) • exbOf g B charged f n bf pol := by
  have hv2 : 0 < (L * b) ^ 2 := by have := mul_pos hL hb; positivity
  unfold exbOf fieldsBy
  cases f.phi with
  | none => simp
  | some phi =>
    simp only [Option.map_some]
    by_cases h : charged
    · rw [if_pos h, if_pos h, exbXPPM_by hL hb hB g ha hv2]
      congr 1
      field_simp
    · rw [if_neg h, if_neg h, smul_zero]

end
end

end Hermes.Units
