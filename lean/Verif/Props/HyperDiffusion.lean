import Verif.Props.EnergyEquation
import Verif.Props.MomentumEquation
import Verif.Props.PressureEquation

/-!
# C88: hyper-diffusion damps ripples in z

With `hyper_z > 0` the equations for density, momentum, pressure and energy have one more term.  It is the same in all of them: minus `hyper_z` times
the fourth difference in z of the evolving quantity, so that the coefficient is a rate per time step of the grid and does not depend on the spacing.
The term leaves the mean in z alone and takes from the squared amplitude `2 hyper_z` times the sum of the squared second differences.

Assumption: `D4DZ4` of BOUT++ is the fourth difference divided by the fourth power of the spacing (`D4`).
-/

namespace Hermes.HyperDiffusion
open Finset Hermes Hermes.Limiters Hermes.PerpOps Hermes.Rhs Hermes.DensityEquation

variable {nz : ℕ} [NeZero nz]

/-- Specification: fourth and second difference of a row that closes on itself. -/
def fourth (u : Fin nz → ℝ) (k : Fin nz) : ℝ := u (k + 1 + 1) - 4 * u (k + 1) + 6 * u k - 4 * u (k - 1) + u (k - 1 - 1)
def second (u : Fin nz → ℝ) (k : Fin nz) : ℝ := u (k + 1) - 2 * u k + u (k - 1)

/-- `D4DZ4` is the fourth derivative by differences, and the spacing is not zero. -/
structure D4 (g : Grid) (B : RhsOps nz) : Prop where
  dz : ∀ i j, g.dz i j ≠ 0
  d4dz4 : ∀ f i j k, B.d4dz4 f i j k = fourth (f i j) k / g.dz i j ^ 4

/-- What the scaling of the time derivatives multiplies by. -/
def scaling (f : FieldsIn nz) (i j : ℤ) (k : Fin nz) : ℝ :=
  match f.scale_timederivs with
  | none => 1
  | some sc => sc i j k

theorem index_fourth (f : F3 nz) (i j : ℤ) (k : Fin nz) : d4dz4Index f i j k = fourth (f i j) k := rfl

theorem D4.cancels {g : Grid} {B : RhsOps nz} (h : D4 g B) (a : ℝ) (f : F3 nz) (i j : ℤ) (k : Fin nz) :
    a * ((g.dz i j) ^ 2) ^ 2 * B.d4dz4 f i j k = a * fourth (f i j) k := by
  have := h.dz i j
  rw [h.d4dz4]
  field_simp

/-! ## The term in the four equations -/

/-- **C88.**  Density. -/
theorem density_damped {o : DensityOpts} {g : Grid} {B : RhsOps nz} (hD : D4 g B) {lim : Limiter} {N₀ density : F3 nz} {s : SpeciesIn nz} {f : FieldsIn nz}
    {h : ℝ} (hh : 0 < h) {r0 r1 : F3 nz} (h0 : densityRhs { o with hyper_z := 0 } g B lim N₀ s f = .ok r0)
    (h1 : densityRhs { o with hyper_z := h } g B lim N₀ s f = .ok r1) (hn : s.density = some density) (i j : ℤ) (k : Fin nz) :
    r1 i j k = r0 i j k - scaling f i j k * (h * fourth (B.setBoundaryTo N₀ density i j) k) := by
  obtain ⟨d, Sn, a1, a2, -, -, -, e0⟩ := densityRhs_ok h0
  obtain ⟨d', Sn', b1, b2, -, -, -, e1⟩ := densityRhs_ok h1
  obtain rfl := Option.some.inj (hn.symm.trans a1)
  obtain rfl := Option.some.inj (a1.symm.trans b1)
  obtain rfl := Option.some.inj (a2.symm.trans b2)
  have key : ∀ i j k, total { o with hyper_z := h } g B lim s f (B.setBoundaryTo N₀ density) Sn i j k
      = total { o with hyper_z := 0 } g B lim s f (B.setBoundaryTo N₀ density) Sn i j k - h * fourth (B.setBoundaryTo N₀ density i j) k := by
    intro i j k
    have p1 : hyperPart { o with hyper_z := h } g B (B.setBoundaryTo N₀ density) i j k = h * fourth (B.setBoundaryTo N₀ density i j) k := by
      unfold hyperPart
      rw [if_pos hh]
      exact hD.cancels _ _ _ _ _
    have p0 : hyperPart { o with hyper_z := 0 } g B (B.setBoundaryTo N₀ density) i j k = 0 := by
      unfold hyperPart
      rw [if_neg (lt_irrefl _)]
      rfl
    unfold total
    simp only [Pi.add_apply, Pi.sub_apply, p1, p0]
    unfold exbPart lowNPart perpNPart perpPPart
    ring
  rw [e0, e1]
  unfold scaling
  cases f.scale_timederivs with
  | none => rw [one_mul]; exact key i j k
  | some sc =>
    show total _ g B lim s f _ Sn i j k * sc i j k = total _ g B lim s f _ Sn i j k * sc i j k - _
    rw [key]
    ring

/-- **C88.**  Momentum. -/
theorem momentum_damped {o : MomentumOpts} {g : Grid} {B : RhsOps nz} (hD : D4 g B) {lim : Limiter} {NV_err NV : F3 nz} {s : SpeciesIn nz} {f : FieldsIn nz}
    {h : ℝ} (hh : 0 < h) {r0 r1 : F3 nz} (h0 : momentumRhs { o with hyper_z := 0 } g B lim NV_err s f = .ok r0)
    (h1 : momentumRhs { o with hyper_z := h } g B lim NV_err s f = .ok r1) (hn : s.momentum = some NV) (i j : ℤ) (k : Fin nz) :
    r1 i j k = r0 i j k - scaling f i j k * (h * fourth (NV i j) k) := by
  obtain ⟨AA, M, N, w, V, low, a1, a2, a3, a4, a5, a6, e0⟩ := MomentumEquation.momentumRhs_ok h0
  obtain ⟨AA', M', N', w', V', low', b1, b2, b3, b4, b5, b6, e1⟩ := MomentumEquation.momentumRhs_ok h1
  obtain rfl := Option.some.inj (hn.symm.trans a2)
  obtain rfl := Option.some.inj (a1.symm.trans b1)
  obtain rfl := Option.some.inj (a2.symm.trans b2)
  obtain rfl := Option.some.inj (a3.symm.trans b3)
  obtain rfl := Except.ok.inj (a4.symm.trans b4)
  obtain rfl := Option.some.inj (a5.symm.trans b5)
  obtain rfl : low = low' := Except.ok.inj (a6.symm.trans b6)
  have p1 : momentumHyper { o with hyper_z := h } g B NV = fun i j k => -(h * fourth (NV i j) k) := by
    unfold momentumHyper
    rw [if_pos hh]
    funext i j k
    exact congrArg Neg.neg (hD.cancels _ _ _ _ _)
  have p0 : momentumHyper { o with hyper_z := 0 } g B NV = 0 := by
    unfold momentumHyper
    rw [if_neg (lt_irrefl _)]
  have q : ∀ a, momentumElectric { o with hyper_z := a } g B lim s f NV N V w = momentumElectric o g B lim s f NV N V w := fun _ => rfl
  rw [e0, e1, p1, p0]
  simp only [q]
  unfold scaling
  cases f.scale_timederivs with
  | none =>
    dsimp only
    simp only [Pi.add_apply, Pi.sub_apply, Pi.zero_apply]
    ring
  | some sc =>
    dsimp only
    simp only [Pi.add_apply, Pi.sub_apply, Pi.zero_apply, Pi.mul_apply]
    ring

/-- **C88.**  Pressure; `hyper_z_T` damps the ripples of the temperature. -/
theorem pressure_damped {o : PressureOpts} {g : Grid} {B : RhsOps nz} {lim : Limiter} {P₀ source pressure T : F3 nz} {s : SpeciesIn nz} {f : FieldsIn nz}
    {h hT : ℝ} (hh : 0 < h) (hhT : 0 < hT) {r0 r1 r2 : F3 nz} (h0 : pressureRhs { o with hyper_z := 0, hyper_z_T := 0 } g B lim P₀ source s f = .ok r0)
    (h1 : pressureRhs { o with hyper_z := h, hyper_z_T := 0 } g B lim P₀ source s f = .ok r1)
    (h2 : pressureRhs { o with hyper_z := 0, hyper_z_T := hT } g B lim P₀ source s f = .ok r2)
    (hp : s.pressure = some pressure) (ht : s.temperature = some T) (i j : ℤ) (k : Fin nz) :
    r1 i j k = r0 i j k - scaling f i j k * (h * fourth (B.setBoundaryTo P₀ pressure i j) k) ∧
      r2 i j k = r0 i j k - scaling f i j k * (hT * fourth (T i j) k) := by
  obtain ⟨p, T', N, adv, cond, a1, a2, a3, a4, a5, e0⟩ := PressureEquation.pressureRhs_ok h0
  obtain ⟨p', T'', N', adv', cond', b1, b2, b3, b4, b5, e1⟩ := PressureEquation.pressureRhs_ok h1
  obtain ⟨q, U, M, adv'', cond'', c1, c2, c3, c4, c5, e2⟩ := PressureEquation.pressureRhs_ok h2
  obtain rfl := Option.some.inj (hp.symm.trans a1)
  obtain rfl := Option.some.inj (ht.symm.trans a2)
  obtain rfl := Option.some.inj (a1.symm.trans b1)
  obtain rfl := Option.some.inj (a2.symm.trans b2)
  obtain rfl := Option.some.inj (a3.symm.trans b3)
  obtain rfl := Option.some.inj (a1.symm.trans c1)
  obtain rfl := Option.some.inj (a2.symm.trans c2)
  obtain rfl := Option.some.inj (a3.symm.trans c3)
  obtain rfl : adv = adv' := Except.ok.inj (a4.symm.trans b4)
  obtain rfl : cond = cond' := Except.ok.inj (a5.symm.trans b5)
  obtain rfl : adv = adv'' := Except.ok.inj (a4.symm.trans c4)
  obtain rfl : cond = cond'' := Except.ok.inj (a5.symm.trans c5)
  have p0 : pressureHyper { o with hyper_z := 0, hyper_z_T := 0 } (B.setBoundaryTo P₀ pressure) T = 0 := by
    unfold pressureHyper
    rw [if_neg (lt_irrefl _), if_neg (lt_irrefl _), add_zero]
  have p1 : pressureHyper { o with hyper_z := h, hyper_z_T := 0 } (B.setBoundaryTo P₀ pressure) T
      = fun i j k => -(h * fourth (B.setBoundaryTo P₀ pressure i j) k) := by
    unfold pressureHyper
    rw [if_pos hh, if_neg (lt_irrefl _), add_zero]
    funext i j k
    show -(h * d4dz4Index _ i j k) = _
    rw [index_fourth]
  have p2 : pressureHyper { o with hyper_z := 0, hyper_z_T := hT } (B.setBoundaryTo P₀ pressure) T = fun i j k => -(hT * fourth (T i j) k) := by
    unfold pressureHyper
    rw [if_neg (lt_irrefl _), if_pos hhT, zero_add]
    funext i j k
    show -(hT * d4dz4Index _ i j k) = _
    rw [index_fourth]
  have q : ∀ a b, pressureLow { o with hyper_z := a, hyper_z_T := b } g B s (B.setBoundaryTo P₀ pressure) T N
      = pressureLow o g B s (B.setBoundaryTo P₀ pressure) T N := fun _ _ => rfl
  rw [e0, e1, e2, p1, p0, p2]
  simp only [q]
  unfold scaling
  cases f.scale_timederivs with
  | none =>
    dsimp only
    simp only [Pi.add_apply, Pi.zero_apply]
    constructor <;> ring
  | some sc =>
    dsimp only
    simp only [Pi.add_apply, Pi.zero_apply, Pi.mul_apply]
    constructor <;> ring

/-- **C88.**  Energy; `E` is the energy with the boundary values that the equation works with. -/
theorem energy_damped {o : EnergyOpts} {g : Grid} {B : RhsOps nz} (hD : D4 g B) {lim : Limiter} {E₀ source P N V : F3 nz} {AA : ℝ} {s : SpeciesIn nz}
    {f : FieldsIn nz} {h : ℝ} (hh : 0 < h) {r0 r1 : F3 nz} (h0 : energyRhs { o with hyper_z := 0 } g B lim E₀ source s f = .ok r0)
    (h1 : energyRhs { o with hyper_z := h } g B lim E₀ source s f = .ok r1) (hP : s.pressure = some P) (hN : s.density = some N)
    (hV : s.velocity = some V) (hA : s.AA = some AA) (i j : ℤ) (k : Fin nz) :
    r1 i j k = r0 i j k - scaling f i j k * (h * fourth (energyBoundary g B o.Cv AA P N V E₀ i j) k) := by
  obtain ⟨P', T, N', V', AA', w, cond, a1, a2, a3, a4, a5, a6, a7, e0⟩ := EnergyEquation.energyRhs_ok h0
  obtain ⟨P'', T'', N'', V'', AA'', w', cond', b1, b2, b3, b4, b5, b6, b7, e1⟩ := EnergyEquation.energyRhs_ok h1
  obtain rfl := Option.some.inj (hP.symm.trans a1)
  obtain rfl := Option.some.inj (hN.symm.trans a3)
  obtain rfl := Option.some.inj (hV.symm.trans a4)
  obtain rfl := Option.some.inj (hA.symm.trans a5)
  obtain rfl := Option.some.inj (a1.symm.trans b1)
  obtain rfl := Option.some.inj (a2.symm.trans b2)
  obtain rfl := Option.some.inj (a3.symm.trans b3)
  obtain rfl := Option.some.inj (a4.symm.trans b4)
  obtain rfl := Option.some.inj (a5.symm.trans b5)
  obtain rfl := Except.ok.inj (a6.symm.trans b6)
  obtain rfl : cond = cond' := Except.ok.inj (a7.symm.trans b7)
  set E := energyBoundary g B o.Cv AA P N V E₀ with hE
  have p1 : energyHyper { o with hyper_z := h } g B E = fun i j k => -(h * fourth (E i j) k) := by
    unfold energyHyper
    rw [if_pos hh]
    funext i j k
    exact congrArg Neg.neg (hD.cancels _ _ _ _ _)
  have p0 : energyHyper { o with hyper_z := 0 } g B E = 0 := by
    unfold energyHyper
    rw [if_neg (lt_irrefl _)]
  rw [e0, e1]
  unfold energyTerms scaling
  rw [p1, p0]
  cases f.scale_timederivs with
  | none =>
    dsimp only
    simp only [Pi.add_apply, Pi.zero_apply]
    ring
  | some sc =>
    dsimp only
    simp only [Pi.add_apply, Pi.zero_apply, Pi.mul_apply]
    ring

/-! ## What the term does -/

/-- **C88.**  The mean in z stays, and the squared amplitude decreases by the squared second differences. -/
theorem fourth_damps (u : Fin nz → ℝ) (h : ℝ) (hh : 0 < h) :
    ∑ k, -(h * fourth u k) = 0 ∧ ∑ k, u k * -(h * fourth u k) = -h * ∑ k, second u k ^ 2 ∧ ∑ k, u k * -(h * fourth u k) ≤ 0 ∧
      (∑ k, u k * -(h * fourth u k) = 0 ↔ ∀ k, second u k = 0) := by
  have c := d4dz4Index_conserves (fun _ _ => u : F3 nz) 0 0
  have d := d4dz4Index_dissipates (fun _ _ => u : F3 nz) 0 0
  simp only [index_fourth] at c d
  have e : ∑ k, u k * -(h * fourth u k) = -h * ∑ k, second u k ^ 2 := by
    unfold second
    rw [← d, Finset.mul_sum]
    exact Finset.sum_congr rfl fun k _ => by ring
  have pos : 0 ≤ ∑ k, second u k ^ 2 := Finset.sum_nonneg fun k _ => sq_nonneg _
  refine ⟨by rw [Finset.sum_neg_distrib, ← Finset.mul_sum, c]; simp, e, ?_, ?_⟩
  · rw [e]; nlinarith
  · rw [e]
    constructor
    · intro z k
      have : ∑ k, second u k ^ 2 = 0 := by
        rcases mul_eq_zero.1 z with z | z
        · linarith
        · exact z
      exact pow_eq_zero_iff (two_ne_zero) |>.1 ((Finset.sum_eq_zero_iff_of_nonneg fun k _ => sq_nonneg _).1 this k (Finset.mem_univ k))
    · intro z
      simp [z]

/-- A row whose second differences vanish is constant: only what does not vary in z is left alone. -/
theorem second_zero {u : Fin nz → ℝ} (h : ∀ k, second u k = 0) (k : Fin nz) : u k = u 0 := by
  -- the first differences are all equal and their sum is zero
  have step : ∀ k, u (k + 1) - u k = u k - u (k - 1) := fun k => by have := h k; unfold second at this; linarith
  have sh : ∑ k, u (k + 1) = ∑ k, u k := Equiv.sum_comp (Equiv.addRight (1 : Fin nz)) u
  have sq : ∑ k, (u (k + 1) - u k) ^ 2 = 0 := by
    have A : ∑ k, u k * second u k = -∑ k, (u (k + 1) - u k) ^ 2 := by
      have s1 : ∑ k, u (k + 1) * u (k + 1) = ∑ k, u k * u k := Equiv.sum_comp (Equiv.addRight (1 : Fin nz)) fun k => u k * u k
      have s2 : ∑ k, u (k + 1) * u k = ∑ k, u k * u (k - 1) := by
        rw [← Equiv.sum_comp (Equiv.addRight (1 : Fin nz)) fun k => u k * u (k - 1)]
        exact Finset.sum_congr rfl fun k _ => by simp
      have e1 : ∑ k, u k * second u k = ∑ k, u (k + 1) * u k - 2 * ∑ k, u k * u k + ∑ k, u k * u (k - 1) := by
        rw [Finset.mul_sum, ← Finset.sum_sub_distrib, ← Finset.sum_add_distrib]
        exact Finset.sum_congr rfl fun k _ => by unfold second; ring
      have e2 : ∑ k, (u (k + 1) - u k) ^ 2 = ∑ k, u (k + 1) * u (k + 1) - 2 * ∑ k, u (k + 1) * u k + ∑ k, u k * u k := by
        rw [Finset.mul_sum, ← Finset.sum_sub_distrib, ← Finset.sum_add_distrib]
        exact Finset.sum_congr rfl fun k _ => by ring
      rw [e1, e2, s1, ← s2]
      ring
    simp only [h, mul_zero, Finset.sum_const_zero] at A
    linarith
  have eq : ∀ k, u (k + 1) = u k := fun k => by
    have := (Finset.sum_eq_zero_iff_of_nonneg fun k _ => sq_nonneg _).1 sq k (Finset.mem_univ k)
    have := pow_eq_zero_iff (two_ne_zero) |>.1 this
    linarith
  have all : ∀ n : ℕ, u (Fin.ofNat nz n) = u 0 := by
    intro n
    induction n with
    | zero => rfl
    | succ n ih =>
      rw [← ih, ← eq (Fin.ofNat nz n)]
      congr 1
      ext
      simp [Fin.val_add]
  have := all k.val
  simpa using this

/-! ## Hypotheses that are met -/

/-- Spacing `1/2` in z. -/
noncomputable def fineGrid : Grid := { boxGrid with dz := fun _ _ => 1 / 2 }
noncomputable def fineOps : RhsOps 4 := { plainRhs 4 with d4dz4 := fun f i j k => fourth (f i j) k / (1 / 2) ^ 4 }

theorem fine_d4 : D4 fineGrid fineOps := ⟨fun _ _ => by norm_num [fineGrid], fun _ _ _ _ => rfl⟩

/-- A ripple in z. -/
def ripple : F3 4 := fun _ _ k => if k.val % 2 = 0 then 3 else 1
noncomputable def rippled : SpeciesIn 4 :=
  { AA := some 2, density := some ripple, velocity := some 0, momentum := some ripple, temperature := some ripple, pressure := some ripple,
    density_source := some 0 }

/-- The density ripple is damped at a rate of `16 hyper_z` times its amplitude, whatever the spacing. -/
example : ∃ r0 r1, densityRhs { MomentumEquation.oN with hyper_z := 0 } fineGrid fineOps mc ripple rippled { fastest_wave := some 1 } = .ok r0 ∧
    densityRhs { MomentumEquation.oN with hyper_z := 1 / 8 } fineGrid fineOps mc ripple rippled { fastest_wave := some 1 } = .ok r1 ∧
    r1 2 2 0 = r0 2 2 0 - 2 ∧ r1 2 2 1 = r0 2 2 1 + 2 := by
  obtain ⟨r0, h0⟩ : ∃ r, densityRhs { MomentumEquation.oN with hyper_z := 0 } fineGrid fineOps mc ripple rippled { fastest_wave := some 1 } = .ok r := ⟨_, rfl⟩
  obtain ⟨r1, h1⟩ : ∃ r, densityRhs { MomentumEquation.oN with hyper_z := 1 / 8 } fineGrid fineOps mc ripple rippled { fastest_wave := some 1 } = .ok r := ⟨_, rfl⟩
  have d := density_damped fine_d4 (by norm_num) h0 h1 rfl 2 2
  have z : fineOps.setBoundaryTo ripple ripple = ripple := rfl
  refine ⟨r0, r1, h0, h1, ?_, ?_⟩
  · rw [d, z, show fourth (ripple 2 2) 0 = ripple 2 2 2 - 4 * ripple 2 2 1 + 6 * ripple 2 2 0 - 4 * ripple 2 2 3 + ripple 2 2 2 from rfl]
    norm_num [scaling, ripple]
  · rw [d, z, show fourth (ripple 2 2) 1 = ripple 2 2 3 - 4 * ripple 2 2 2 + 6 * ripple 2 2 1 - 4 * ripple 2 2 0 + ripple 2 2 3 from rfl]
    norm_num [scaling, ripple]

/-- The equations of momentum, pressure and energy end normally with and without the term. -/
example : (∀ h, ∃ r, momentumRhs { MomentumEquation.oM with hyper_z := h } fineGrid fineOps mc 0 rippled { fastest_wave := some 1 } = .ok r) ∧
    (∀ h h', ∃ r, pressureRhs { PressureEquation.heatOpts with hyper_z := h, hyper_z_T := h', thermal_conduction := false } fineGrid fineOps mc ripple 0
      rippled { fastest_wave := some 1 } = .ok r) ∧
    ∀ h, ∃ r, energyRhs { EnergyEquation.eOpts with hyper_z := h, thermal_conduction := false } fineGrid fineOps mc ripple 0 rippled
      { fastest_wave := some 1 } = .ok r :=
  ⟨fun _ => ⟨_, rfl⟩, fun _ _ => ⟨_, rfl⟩, fun _ => ⟨_, rfl⟩⟩

end Hermes.HyperDiffusion
