import Verif.Props.ParallelTransport
import Verif.Props.PressureEquation
import Verif.Model.RhsEnergy

/-!
# C98: conduction along the field never decreases the entropy

`Div_par_K_Grad_par_mod` (also used by `evolve_pressure` and `evolve_energy`) and the component `simple_conduction`, on a line without flow of heat
through its ends.
-/

namespace Hermes.ConductionEntropy
open Finset Hermes Hermes.ParOps Hermes.Sheath Hermes.ParDiffusion Hermes.ParTransport
open Hermes.Closures hiding added fieldOf_congr realOf_congr

/-- Rate of change of the entropy in the line when the cells, at temperatures `T`, receive the heat `Q`. -/
noncomputable def entropyRate (g : Line) (Q T : Fld ℤ) : ℝ := content g fun i => Q i / T i

/-- What the code lets through the face above cell `i`, without the difference of the temperatures. -/
noncomputable def conductance (g : Line) (K : Fld ℤ) (i : ℤ) : ℝ :=
  (K i + K (i + 1)) * (g.J i + g.J (i + 1)) / ((g.dy i + g.dy (i + 1)) * (g.g22 i + g.g22 (i + 1)))

theorem condFluxUp_eq {g : Line} (hp : Positive g) (K f : Fld ℤ) (i : ℤ) : g.condFluxUp K f i = conductance g K i * (f (i + 1) - f i) := by
  unfold Line.condFluxUp conductance
  have gg := add_pos (hp.g22 i) (hp.g22 (i + 1))
  have d := add_pos (hp.dy i) (hp.dy (i + 1))
  field_simp
  ring

/-- **C98.**  The entropy made by conduction along a closed line: a sum over the faces between cells. -/
theorem entropy_made {g : Line} (hg : Regular g) (hp : Positive g) (hu : UniformPerp g) (hc : Closed g) (K T : Fld ℤ)
    (hT : ∀ i, g.ystart ≤ i → i ≤ g.yend → 0 < T i) :
    entropyRate g (g.divParKGradPar K T false) T =
      (∑ i ∈ Icc g.ystart (g.yend - 1), conductance g K i * (T (i + 1) - T i) ^ 2 / (T i * T (i + 1))) * (g.dx g.ystart * g.dz g.ystart) := by
  have e : entropyRate g (g.divParKGradPar K T false) T = content g fun i => (1 / T i) * g.divParKGradPar K T false i := by
    unfold entropyRate
    congr 1
    funext i
    ring
  rw [e, conduction_weighted hg hu K T (fun i => 1 / T i) false, (closed_ends hc K T).1, (closed_ends hc K T).2, mul_zero, mul_zero, sub_zero, zero_sub,
    ← Finset.sum_neg_distrib]
  congr 1
  refine Finset.sum_congr rfl fun i hi => ?_
  obtain ⟨h1, h2⟩ := mem_Icc.1 hi
  have a := hT i h1 (by omega)
  have b := hT (i + 1) (by omega) (by omega)
  rw [condFluxUp_eq hp]
  field_simp
  ring

theorem conductance_nonneg {g : Line} (hp : Positive g) {K : Fld ℤ} {i : ℤ} (h1 : 0 ≤ K i) (h2 : 0 ≤ K (i + 1)) : 0 ≤ conductance g K i := by
  unfold conductance
  have := hp.J i
  have := hp.J (i + 1)
  have := hp.g22 i
  have := hp.g22 (i + 1)
  have := hp.dy i
  have := hp.dy (i + 1)
  positivity

theorem conductance_pos {g : Line} (hp : Positive g) {K : Fld ℤ} {i : ℤ} (h1 : 0 < K i) (h2 : 0 < K (i + 1)) : 0 < conductance g K i := by
  unfold conductance
  have := hp.J i
  have := hp.J (i + 1)
  have := hp.g22 i
  have := hp.g22 (i + 1)
  have := hp.dy i
  have := hp.dy (i + 1)
  positivity

/-- **C98.**  It is not negative for conductivities that are not. -/
theorem conduction_second_law {g : Line} (hg : Regular g) (hp : Positive g) (hu : UniformPerp g) (hc : Closed g) {K T : Fld ℤ}
    (hK : ∀ i, g.ystart ≤ i → i ≤ g.yend → 0 ≤ K i) (hT : ∀ i, g.ystart ≤ i → i ≤ g.yend → 0 < T i) :
    0 ≤ entropyRate g (g.divParKGradPar K T false) T := by
  rw [entropy_made hg hp hu hc K T hT]
  have d := mul_pos (hp.dx g.ystart) (hp.dz g.ystart)
  refine mul_nonneg (Finset.sum_nonneg fun i hi => ?_) d.le
  obtain ⟨h1, h2⟩ := mem_Icc.1 hi
  have a := hT i h1 (by omega)
  have b := hT (i + 1) (by omega) (by omega)
  have c := conductance_nonneg hp (hK i h1 (by omega)) (hK (i + 1) (by omega) (by omega))
  positivity

/-- **C98.**  And it is zero only where the temperature is the same in all cells, for positive conductivities. -/
theorem constant_only_if_uniform {g : Line} (hg : Regular g) (hp : Positive g) (hu : UniformPerp g) (hc : Closed g) {K T : Fld ℤ}
    (hK : ∀ i, g.ystart ≤ i → i ≤ g.yend → 0 < K i) (hT : ∀ i, g.ystart ≤ i → i ≤ g.yend → 0 < T i)
    (h : entropyRate g (g.divParKGradPar K T false) T = 0) {i : ℤ} (h1 : g.ystart ≤ i) (h2 : i ≤ g.yend) : T i = T g.ystart := by
  rw [entropy_made hg hp hu hc K T hT] at h
  have d := mul_pos (hp.dx g.ystart) (hp.dz g.ystart)
  have s := (mul_eq_zero.1 h).resolve_right d.ne'
  have pos : ∀ i ∈ Icc g.ystart (g.yend - 1), 0 ≤ conductance g K i * (T (i + 1) - T i) ^ 2 / (T i * T (i + 1)) := fun i hi => by
    obtain ⟨h1, h2⟩ := mem_Icc.1 hi
    have a := hT i h1 (by omega)
    have b := hT (i + 1) (by omega) (by omega)
    have c := conductance_nonneg hp (hK i h1 (by omega)).le (hK (i + 1) (by omega) (by omega)).le
    positivity
  have z := (Finset.sum_eq_zero_iff_of_nonneg pos).1 s
  have step : ∀ j, g.ystart ≤ j → j + 1 ≤ g.yend → T (j + 1) = T j := fun j a b => by
    have q := z j (mem_Icc.2 ⟨a, by omega⟩)
    have ta := hT j a (by omega)
    have tb := hT (j + 1) (by omega) b
    have c := conductance_pos hp (hK j a (by omega)) (hK (j + 1) (by omega) b)
    rw [div_eq_zero_iff] at q
    have q' := (mul_eq_zero.1 (q.resolve_right (by positivity))).resolve_left c.ne'
    have := pow_eq_zero_iff (two_ne_zero) |>.1 q'
    linarith
  have : ∀ m : ℕ, g.ystart + m ≤ g.yend → T (g.ystart + m) = T g.ystart := fun m => by
    induction m with
    | zero => intro _; simp
    | succ m ih =>
      intro hm
      push_cast at hm ⊢
      rw [← add_assoc, step (g.ystart + m) (by omega) (by omega), ih (by omega)]
  obtain ⟨m, rfl⟩ : ∃ m : ℕ, i = g.ystart + m := ⟨(i - g.ystart).toNat, by omega⟩
  exact this m h2

variable {st st' : Store Key (Value ℤ)}

/-- **C98.**  The component `simple_conduction`, where the Coulomb logarithm is positive. -/
theorem simple_conduction_partial {g : Line} (hg : Regular g) (hp : Positive g) (hu : UniformPerp g) (hc : Closed g) {o : ConductionOpts}
    (hb : o.boundary_flux = false) {n : String} {u : Unit} (h : simpleConduction g o n st = (.ok u, st')) (hk : 0 ≤ o.kappa0)
    (hT : ∀ i, g.ystart ≤ i → i ≤ g.yend → 0 < fieldOf st n .temperature i)
    (hlog : ∀ i, g.ystart ≤ i → i ≤ g.yend → 0 < coulombLog o (conductionN o st n i) (conductionT o (fieldOf st n .temperature) i)) :
    0 ≤ entropyRate g (added st st' n .energy_source) (fieldOf st n .temperature) := by
  have hK : ∀ i, g.ystart ≤ i → i ≤ g.yend → 0 ≤ conductivity o st n i := by
    intro i a b
    unfold conductivity conductionKappa
    refine div_nonneg (mul_nonneg hk (Real.rpow_nonneg ?_ _)) (mul_nonneg (hlog i a b).le (Real.sqrt_nonneg _))
    unfold conductionT
    split_ifs with ht
    · exact le_of_lt ht
    · exact (hT i a b).le
  have e : added st st' n .energy_source = g.divParKGradPar (conductivity o st n) (fieldOf st n .temperature) false := by
    funext i
    rw [(simpleConduction_ok h).1 i, hb]
    rfl
  rw [e]
  exact conduction_second_law hg hp hu hc hK hT

/-- The hypotheses are met: a plasma with a cell at 5 eV between cells at 10 eV. -/
example : ∃ st', simpleConduction threeCells ⟨1, 1e20, 1, -1, -1, false⟩ "e" (matter (1 / 1836) (fun _ => 1) (dip 5 10) fun _ => 0) = (.ok (), st') ∧
    0 ≤ entropyRate threeCells (added (matter (1 / 1836) (fun _ => 1) (dip 5 10) fun _ => 0) st' "e" .energy_source) (dip 5 10) := by
  obtain ⟨st', h⟩ := matter_conducts threeCells ⟨1, 1e20, 1, -1, -1, false⟩ (1 / 1836) (fun _ => 1) (dip 5 10) (fun _ => 0)
  refine ⟨st', h, simple_conduction_partial threeCells_regular threeCells_positive threeCells_uniform threeCells_closed rfl h zero_le_one
    (fun i _ _ => ?_) fun i _ _ => ?_⟩
  · show 0 < dip 5 10 i
    unfold dip; split_ifs <;> norm_num
  · unfold conductionN conductionT
    rw [if_neg (show ¬((-1 : ℝ) > 0) by norm_num), if_neg (show ¬((-1 : ℝ) > 0) by norm_num)]
    show 0 < coulombLog ⟨1, 1e20, 1, -1, -1, false⟩ 1 (dip 5 10 i)
    refine coulombLog_pos (by norm_num) (by norm_num) ?_
    unfold dip; split_ifs <;> norm_num

/-- **C98 fails in cold plasma.**  Where the Coulomb logarithm is negative the conductivity is too, and conduction destroys entropy: a closed plasma
with a cell at 0.005 eV between cells at 0.01 eV. -/
theorem cold_plasma_loses_entropy :
    ∃ st', simpleConduction threeCells ⟨1, 1e20, 1, -1, -1, false⟩ "e" (matter 1 (fun _ => 1) (dip 0.005 0.01) fun _ => 0) = (.ok (), st') ∧
      entropyRate threeCells (added (matter 1 (fun _ => 1) (dip 0.005 0.01) fun _ => 0) st' "e" .energy_source) (dip 0.005 0.01) < 0 := by
  obtain ⟨st', h⟩ := matter_conducts threeCells ⟨1, 1e20, 1, -1, -1, false⟩ 1 (fun _ => 1) (dip 0.005 0.01) (fun _ => 0)
  refine ⟨st', h, ?_⟩
  set K := conductivity ⟨1, 1e20, 1, -1, -1, false⟩ (matter 1 (fun _ => 1) (dip 0.005 0.01) fun _ => 0) "e" with hK
  have hT : ∀ i, 0 < dip 0.005 0.01 i ∧ dip 0.005 0.01 i ≤ 1e-2 := fun i => by
    unfold dip
    split_ifs <;> norm_num
  have neg : ∀ i, K i < 0 := by
    intro i
    have e : K i = 1 * dip 0.005 0.01 i ^ (2.5 : ℝ) / (coulombLog ⟨1, 1e20, 1, -1, -1, false⟩ 1 (dip 0.005 0.01 i) * Real.sqrt 1) := by
      rw [hK]
      unfold conductivity conductionKappa conductionN conductionT
      rw [if_neg (show ¬((-1 : ℝ) > 0) by norm_num), if_neg (show ¬((-1 : ℝ) > 0) by norm_num)]
      rfl
    rw [e, Real.sqrt_one, mul_one, one_mul]
    exact div_neg_of_pos_of_neg (Real.rpow_pos_of_pos (hT i).1 _) (cold_log_neg (hT i).1 (hT i).2)
  have e : added (matter 1 (fun _ => 1) (dip 0.005 0.01) fun _ => 0) st' "e" .energy_source = threeCells.divParKGradPar K (dip 0.005 0.01) false := by
    funext i
    rw [(simpleConduction_ok h).1 i]
    rfl
  rw [e, entropy_made threeCells_regular threeCells_positive threeCells_uniform threeCells_closed K _ fun i _ _ => (hT i).1]
  have a := neg 0
  have b := neg 1
  have c := neg 2
  rw [show Icc threeCells.ystart (threeCells.yend - 1) = {0, 1} by decide, Finset.sum_pair (by norm_num)]
  norm_num [conductance, threeCells, dip]
  linarith

/-! ## Conduction in the equations for pressure and energy -/

section Equations
variable {nz : ℕ} [NeZero nz]

/-- **C98.**  Conduction in `evolve_pressure`, with any flux limiter: on each closed line of a grid whose coordinates are aligned with the field.
`3 / 2` times the rate of change of the pressure is the heat. -/
theorem evolve_pressure_second_law {o : PressureOpts} {g : Grid} {B : RhsOps nz} (hto : ∀ f, B.toFA f = f) (hfrom : ∀ f, B.fromFA f = f)
    (hcomm : ∀ f, B.communicate f = f) (hk : 0 ≤ o.kappa_coefficient) {s : SpeciesIn nz} {f : FieldsIn nz} (hA : f.Apar_flutter = none)
    (hAA : ∀ AA, s.AA = some AA → 0 < AA) {P T N c : F3 nz} (h : pressureConduction o g B s f P T N = .ok c) {i : ℤ} (k : Fin nz)
    (hg : Regular (g.line B i)) (hp : Positive (g.line B i)) (hu : UniformPerp (g.line B i)) (hc : Closed (g.line B i))
    (hT : ∀ j, g.ystart ≤ j → j ≤ g.yend → 0 < T i j k) :
    0 ≤ entropyRate (g.line B i) (fun j => 3 / 2 * c i j k) (fun j => T i j k) := by
  unfold pressureConduction at h
  cases ht : o.thermal_conduction with
  | false =>
    rw [ht] at h
    cases h
    unfold entropyRate
    simp [ParOps.content]
  | true =>
    rw [ht, if_pos rfl] at h
    obtain ⟨nu, hnu, h⟩ := DensityEquation.except_bind_ok h
    obtain ⟨AA, hA', h⟩ := DensityEquation.except_bind_ok h
    obtain ⟨kappa, hka, h⟩ := DensityEquation.except_bind_ok h
    rw [hA] at h
    cases h
    have e : (fun j => 3 / 2 * ((2 / 3 : ℝ) • g.conduction3 B (kappaGuard g B kappa) T false) i j k) =
        (g.line B i).divParKGradPar (alongY (kappaGuard g B kappa) i k) (alongY T i k) false := by
      funext j
      simp only [Pi.smul_apply, smul_eq_mul, Grid.conduction3, hfrom, hto]
      ring
    rw [e]
    exact conduction_second_law hg hp hu hc
      (fun _ _ _ => PressureEquation.kappaPar_nonneg (g := g) hcomm hk (hAA AA (DensityEquation.need_ok hA')) hka _ _ _) hT

theorem energyKappa_nonneg {o : EnergyOpts} {g : Grid} {B : RhsOps nz} (hcomm : ∀ f, B.communicate f = f) (hk : 0 ≤ o.kappa_coefficient)
    {P T N nu kappa : F3 nz} {AA : ℝ} (hA : 0 < AA) (hP : ∀ i j k, 0 ≤ P i j k) (h : energyKappa o B P T N nu AA = .ok kappa) (i j : ℤ) (k : Fin nz) :
    0 ≤ kappaGuard g B kappa i j k := by
  have h0 : ∀ i j k, 0 ≤ o.kappa_coefficient * P i j k * (1 / floor3 nu 1e-10 i j k) / AA := by
    intro i j k
    have a := hP i j k
    have b : (0 : ℝ) ≤ floor3 nu 1e-10 i j k := by
      unfold floor3
      split_ifs with h1
      · norm_num
      · exact le_trans (by norm_num) (not_lt.1 h1)
    positivity
  have hkappa : ∀ i j k, 0 ≤ kappa i j k := by
    intro i j k
    unfold energyKappa at h
    simp only at h
    split_ifs at h with h1 h2
    · cases h
      rw [hcomm]
      exact div_nonneg (h0 i j k) (by positivity)
    · cases h
      exact h0 i j k
  unfold kappaGuard
  split_ifs <;> exact hkappa _ _ _

/-- **C98.**  Conduction in `evolve_energy`, where no pressure is negative: there the conductivity has no floor. -/
theorem evolve_energy_second_law {o : EnergyOpts} {g : Grid} {B : RhsOps nz} (hto : ∀ f, B.toFA f = f) (hfrom : ∀ f, B.fromFA f = f)
    (hcomm : ∀ f, B.communicate f = f) (hk : 0 ≤ o.kappa_coefficient) {s : SpeciesIn nz} {f : FieldsIn nz} (hA : f.Apar_flutter = none)
    {AA : ℝ} (hAA : 0 < AA) {P T N c : F3 nz} (hP : ∀ i j k, 0 ≤ P i j k) (h : energyConduction o g B s f P T N AA = .ok c) {i : ℤ} (k : Fin nz)
    (hg : Regular (g.line B i)) (hp : Positive (g.line B i)) (hu : UniformPerp (g.line B i)) (hc : Closed (g.line B i))
    (hT : ∀ j, g.ystart ≤ j → j ≤ g.yend → 0 < T i j k) :
    0 ≤ entropyRate (g.line B i) (fun j => c i j k) (fun j => T i j k) := by
  unfold energyConduction at h
  cases ht : o.thermal_conduction with
  | false =>
    rw [ht] at h
    cases h
    unfold entropyRate
    simp [ParOps.content]
  | true =>
    rw [ht, if_pos rfl] at h
    obtain ⟨nu, hnu, h⟩ := DensityEquation.except_bind_ok h
    obtain ⟨kappa, hka, h⟩ := DensityEquation.except_bind_ok h
    rw [hA] at h
    cases h
    have e : (fun j => (g.conduction3 B (kappaGuard g B kappa) T false) i j k) =
        (g.line B i).divParKGradPar (alongY (kappaGuard g B kappa) i k) (alongY T i k) false := by
      funext j
      simp only [Grid.conduction3, hfrom, hto]
    rw [e]
    exact conduction_second_law hg hp hu hc (fun _ _ _ => energyKappa_nonneg (g := g) hcomm hk hAA hP hka _ _ _) hT

/-- Temperature and pressure that vary along the field. -/
noncomputable def slope : F3 3 := fun _ j _ => if j ≤ 2 then 1 else 2

/-- The conditions are met, with a flux limiter. -/
example : ∃ c, pressureConduction PressureEquation.heatOpts PerpOps.boxGrid (DensityEquation.plainRhs 3) PressureEquation.heatSpecies
      (DensityEquation.boxFields none) slope slope 1 = .ok c ∧
    0 ≤ entropyRate (PerpOps.boxGrid.line (DensityEquation.plainRhs 3) 2) (fun j => 3 / 2 * c 2 j 0) (fun j => slope 2 j 0) := by
  have pos : ∀ i j k, 0 < slope i j k := fun i j k => by unfold slope; split_ifs <;> norm_num
  have h : ∃ k, kappaPar PressureEquation.heatOpts (DensityEquation.plainRhs 3) slope slope 1 1 2 = .ok k := by
    unfold kappaPar
    simp only
    rw [if_pos (by norm_num [PressureEquation.heatOpts]), if_neg]
    · exact ⟨_, rfl⟩
    · rintro ⟨i, j, k, h⟩
      have := pos i j k
      linarith
  obtain ⟨kap, hk⟩ := h
  have hc : ∃ c, pressureConduction PressureEquation.heatOpts PerpOps.boxGrid (DensityEquation.plainRhs 3) PressureEquation.heatSpecies
      (DensityEquation.boxFields none) slope slope 1 = .ok c := by
    unfold pressureConduction
    rw [if_pos (show PressureEquation.heatOpts.thermal_conduction = true from rfl)]
    simp only [PressureEquation.heatSpecies, need, DensityEquation.boxFields]
    show ∃ c, (kappaPar PressureEquation.heatOpts (DensityEquation.plainRhs 3) slope slope 1 1 2 >>= _) = .ok c
    rw [hk]
    exact ⟨_, rfl⟩
  obtain ⟨c, hc⟩ := hc
  refine ⟨c, hc, evolve_pressure_second_law (fun _ => rfl) (fun _ => rfl) (fun _ => rfl) (by norm_num [PressureEquation.heatOpts]) rfl ?_ hc 0
    ⟨by decide, fun _ _ _ => one_ne_zero, fun _ _ _ => one_ne_zero⟩
    ⟨fun _ => one_pos, fun _ => one_pos, fun _ => one_pos, fun _ => one_pos, fun _ => one_pos⟩ (fun _ _ => ⟨rfl, rfl⟩) ⟨rfl, rfl, rfl⟩
    fun j _ _ => pos 2 j 0⟩
  rintro AA h
  cases h
  norm_num

end Equations

end Hermes.ConductionEntropy
