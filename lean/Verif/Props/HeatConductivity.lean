import Verif.Props.CollisionFrequencies
import Verif.Props.ParallelTransport
import Verif.Props.PressureEquation

/-!
# C92: the parallel heat conductivity is Braginskii's, and `simple_conduction` agrees with `evolve_pressure`
-/

namespace Hermes.HeatConductivity
open Hermes Hermes.Collisions Hermes.ParDiffusion

/-! ## Specification -/

/-- Collision time of the electrons in Braginskii (1965), in units of `1/Ω`: `n` in `m⁻³`, `T` in eV. -/
noncomputable def tauE (k : CollNorms) (n m T Λ : ℝ) : ℝ := k.Omega_ci / spitzer k n 1 m T Λ

/-- Collision time of singly charged ions: longer by `√2`. -/
noncomputable def tauI (k : CollNorms) (n m T Λ : ℝ) : ℝ := Real.sqrt 2 * tauE k n m T Λ

/-- Constants of nature and units. -/
structure Physical (k : CollNorms) : Prop where
  qe : 0 < k.qe
  e0 : 0 < k.e0
  Me : 0 < k.Me
  Mp : 0 < k.Mp
  heavy : 1800 * k.Me ≤ k.Mp
  Tnorm : 0 < k.Tnorm
  Nnorm : 0 < k.Nnorm
  Omega_ci : 0 < k.Omega_ci

/-- The settings of `simple_conduction` for a species, with nothing but the name given. -/
noncomputable def plain (k : CollNorms) (name : String) : ConductionOpts :=
  conductionSettings k.Mp k.qe k.e0 k.Tnorm k.Nnorm k.Omega_ci name none none none none

/-! ## `simple_conduction` -/

theorem p52 {x : ℝ} (h : 0 < x) : x ^ (2.5 : ℝ) = x * p32 x := by
  rw [← p32_rpow h.le, show (2.5 : ℝ) = 1 + 3 / 2 by norm_num, Real.rpow_add h, Real.rpow_one]

theorem p32_two_pi : p32 (2 * Real.pi) = 2 * Real.sqrt 2 * p32 Real.pi := by
  rw [p32_mul (by norm_num)]
  rfl

/-- **C92.**  `simple_conduction` of the electrons: `κ = c n T τ / m`, with `c = 3.16` by default, whether or not the density and the temperature of
the coefficient are fixed. -/
theorem simple_electrons {k : CollNorms} (hk : Physical k) (coefficient temperature density : Option ℝ) (flux : Option Bool) {AA : ℝ} (hA : 0 < AA)
    (N T : Fld ℤ) (i : ℤ) :
    let o := conductionSettings k.Mp k.qe k.e0 k.Tnorm k.Nnorm k.Omega_ci "e" coefficient temperature density flux
    let Tc := conductionT o T i
    0 < N i → 0 < Tc → conductionKappa o AA N T i =
      coefficient.getD 3.16 * (N i * Tc) * tauE k (N i * k.Nnorm) (AA * k.Mp) (Tc * k.Tnorm) (coulombLog o (N i) Tc) / AA := by
  intro o Tc hN hT
  have hp := Real.pi_pos
  obtain ⟨hq, he, _, hM, _, hTn, hNn, hO⟩ := hk
  unfold conductionKappa
  show _ * Tc ^ (2.5 : ℝ) / (coulombLog o (N i) Tc * _) = _
  generalize coulombLog o (N i) Tc = Λ
  have hk0 : o.kappa0 = coefficient.getD 3.16 * 6 * Real.sqrt (2 * k.Mp) * (Real.pi * k.qe * k.Tnorm) ^ (1.5 : ℝ) * k.e0 ^ 2 / ((k.qe ^ 2) ^ 2 * k.Nnorm) *
      k.Omega_ci := by
    simp [o, conductionSettings]
  rw [hk0]
  generalize coefficient.getD 3.16 = c
  rw [p52 hT, show (1.5 : ℝ) = 3 / 2 by norm_num, p32_rpow (by positivity)]
  unfold tauE spitzer
  rw [show Real.pi * k.qe * k.Tnorm = Real.pi * (k.qe * k.Tnorm) by ring, p32_mul hp.le, show Tc * k.Tnorm * k.qe = Tc * (k.qe * k.Tnorm) by ring,
    p32_mul hT.le, p32_two_pi, Real.sqrt_mul (by norm_num), Real.sqrt_mul hA.le]
  have e : AA = Real.sqrt AA * Real.sqrt AA := (Real.mul_self_sqrt hA.le).symm
  have sA : 0 < Real.sqrt AA := Real.sqrt_pos.2 hA
  have sM : 0 < Real.sqrt k.Mp := Real.sqrt_pos.2 hM
  have s2 : 0 < Real.sqrt 2 := by positivity
  have a := p32_pos hp
  have b := p32_pos (mul_pos hq hTn)
  have d := p32_pos hT
  generalize p32 Real.pi = x1 at *
  generalize p32 (k.qe * k.Tnorm) = x2 at *
  generalize p32 Tc = x3 at *
  generalize hs : Real.sqrt AA = s at *
  rw [e]
  by_cases hΛ : Λ = 0
  · simp [hΛ]
  field_simp
  ring

/-- **C92.**  `simple_conduction` of singly charged ions: `κ = c n T τ_i / m`, with `c = 3.9` by default. -/
theorem simple_ions {k : CollNorms} (hk : Physical k) {name : String} (hn : name ≠ "e") (coefficient temperature density : Option ℝ) (flux : Option Bool)
    {AA : ℝ} (hA : 0 < AA) (N T : Fld ℤ) (i : ℤ) :
    let o := conductionSettings k.Mp k.qe k.e0 k.Tnorm k.Nnorm k.Omega_ci name coefficient temperature density flux
    let Tc := conductionT o T i
    0 < N i → 0 < Tc → conductionKappa o AA N T i =
      coefficient.getD 3.9 * (N i * Tc) * tauI k (N i * k.Nnorm) (AA * k.Mp) (Tc * k.Tnorm) (coulombLog o (N i) Tc) / AA := by
  intro o Tc hN hT
  have hp := Real.pi_pos
  obtain ⟨hq, he, _, hM, _, hTn, hNn, hO⟩ := hk
  unfold conductionKappa
  show _ * Tc ^ (2.5 : ℝ) / (coulombLog o (N i) Tc * _) = _
  generalize coulombLog o (N i) Tc = Λ
  have hk0 : o.kappa0 = coefficient.getD 3.9 * 12 * Real.sqrt k.Mp * (Real.pi * k.qe * k.Tnorm) ^ (1.5 : ℝ) * k.e0 ^ 2 / ((k.qe ^ 2) ^ 2 * k.Nnorm) *
      k.Omega_ci := by
    simp [o, conductionSettings, hn]
  rw [hk0]
  generalize coefficient.getD 3.9 = c
  rw [p52 hT, show (1.5 : ℝ) = 3 / 2 by norm_num, p32_rpow (by positivity)]
  unfold tauI tauE spitzer
  rw [show Real.pi * k.qe * k.Tnorm = Real.pi * (k.qe * k.Tnorm) by ring, p32_mul hp.le, show Tc * k.Tnorm * k.qe = Tc * (k.qe * k.Tnorm) by ring,
    p32_mul hT.le, p32_two_pi, Real.sqrt_mul hA.le]
  have e : AA = Real.sqrt AA * Real.sqrt AA := (Real.mul_self_sqrt hA.le).symm
  have e2 : Real.sqrt 2 * Real.sqrt 2 = 2 := Real.mul_self_sqrt (by norm_num)
  have sA : 0 < Real.sqrt AA := Real.sqrt_pos.2 hA
  have sM : 0 < Real.sqrt k.Mp := Real.sqrt_pos.2 hM
  have s2 : 0 < Real.sqrt 2 := by positivity
  have a := p32_pos hp
  have b := p32_pos (mul_pos hq hTn)
  have d := p32_pos hT
  generalize p32 Real.pi = x1 at *
  generalize p32 (k.qe * k.Tnorm) = x2 at *
  generalize p32 Tc = x3 at *
  generalize hs : Real.sqrt AA = s at *
  generalize Real.sqrt 2 = r at *
  rw [e]
  by_cases hΛ : Λ = 0
  · simp [hΛ]
  field_simp
  linear_combination (-6 * c) * e2

/-- The Coulomb logarithm of `simple_conduction`, in SI units. -/
theorem plain_log {k : CollNorms} (hk : Physical k) (name : String) {N T : ℝ} (hN : 0 < N) :
    coulombLog (plain k name) N T = 6.6 + 10 * Real.log 10 - 0.5 * Real.log (N * k.Nnorm) + 1.5 * Real.log (T * k.Tnorm) := by
  unfold coulombLog
  show 6.6 - 0.5 * Real.log (N * k.Nnorm / 1e20) + 1.5 * Real.log (T * k.Tnorm) = _
  have := hk.Nnorm
  rw [Real.log_div (by positivity) (by norm_num), show (1e20 : ℝ) = 10 ^ 20 by norm_num, Real.log_pow]
  push_cast
  ring

theorem plain_T {k : CollNorms} (hk : Physical k) (name : String) (T : Fld ℤ) : conductionT (plain k name) T = T := by
  unfold conductionT
  have : ¬ (plain k name).temperature > 0 := by
    show ¬ (-1 : ℝ) / k.Tnorm > 0
    rw [gt_iff_lt, not_lt]
    exact div_nonpos_of_nonpos_of_nonneg (by norm_num) hk.Tnorm.le
  rw [if_neg this]

/-! ## `evolve_pressure` -/

variable {nz : ℕ} [NeZero nz]

/-- **C92.**  `evolve_pressure`: the conductivity is `c P / (ν m)`; with a limit the heat flux it gives is at most the free-streaming flux
`α n T √(T/m)`. -/
theorem pressure_conductivity {o : PressureOpts} {B : RhsOps nz} (hcomm : ∀ f, B.communicate f = f) {P T N nu kappa : F3 nz} {AA : ℝ}
    (h : kappaPar o B P T N nu AA = .ok kappa) (i j : ℤ) (k : Fin nz) (hP : 0 ≤ P i j k) (hnu : 1e-10 ≤ nu i j k) :
    let braginskii := o.kappa_coefficient * P i j k * (1 / nu i j k) / AA
    let free := o.kappa_limit_alpha * N i j k * T i j k * Real.sqrt (T i j k / AA)
    (o.kappa_limit_alpha ≤ 0 → kappa i j k = braginskii) ∧
    (0 < o.kappa_limit_alpha → |kappa i j k * B.gradPar T i j k| ≤ max free 1e-10 ∧
      |kappa i j k * B.gradPar T i j k| ≤ |braginskii * B.gradPar T i j k| ∧
      kappa i j k * (1 + |braginskii * B.gradPar T i j k| / max free 1e-10) = braginskii) := by
  intro braginskii free
  have hf : floor3 nu 1e-10 i j k = nu i j k := by unfold floor3; rw [if_neg (not_lt.2 hnu)]
  have hfP : floor3 P 0 i j k = P i j k := by unfold floor3; rw [if_neg (not_lt.2 hP)]
  unfold kappaPar at h
  simp only at h
  constructor
  · intro h0
    rw [if_neg (not_lt.2 h0)] at h
    obtain rfl := Except.ok.inj h
    beta_reduce
    rw [hf, hfP]
  · intro h0
    rw [if_pos h0] at h
    split_ifs at h with h1
    obtain rfl := Except.ok.inj h
    have hb : o.kappa_coefficient * P i j k * (1 / nu i j k) / AA = braginskii := rfl
    simp only [hcomm, hf, hfP, Pi.mul_apply, hb]
    have hm : floor3 (fun i j k => o.kappa_limit_alpha * N i j k * T i j k * Real.sqrt (T i j k / AA)) 1e-10 i j k = max free 1e-10 := by
      unfold floor3
      split_ifs with h2
      · exact (max_eq_right h2.le).symm
      · exact (max_eq_left (not_lt.1 h2)).symm
    rw [hm]
    have hp : 0 < max free 1e-10 := lt_max_of_lt_right (by norm_num)
    clear_value braginskii
    generalize max free 1e-10 = M at *
    have hd : 0 < 1 + |braginskii * B.gradPar T i j k / M| := by positivity
    have hd1 : 1 ≤ 1 + |braginskii * B.gradPar T i j k / M| := by linarith [abs_nonneg (braginskii * B.gradPar T i j k / M)]
    refine ⟨?_, ?_, ?_⟩
    · rw [div_mul_eq_mul_div, abs_div, abs_of_pos hd, div_le_iff₀ hd, abs_div, abs_of_pos hp]
      have := abs_nonneg (braginskii * B.gradPar T i j k)
      field_simp
      linarith
    · rw [div_mul_eq_mul_div, abs_div, abs_of_pos hd]
      exact div_le_self (abs_nonneg _) hd1
    · rw [show |braginskii * B.gradPar T i j k| / M = |braginskii * B.gradPar T i j k / M| by rw [abs_div, abs_of_pos hp]]
      exact div_mul_cancel₀ _ hd.ne'

/-- Without collisions among electrons, only those with the ions remain. -/
theorem without_electron_electron {ι : Type} {k : CollNorms} {co : CollOpts} (hee : co.electron_electron = false) (hei : co.electron_ion = true)
    (hm : co.ei_multiplier = 1) {w : World ι} {s : String} (hs : s ≠ "e") (hc : charge w s = 1) (c : ι) :
    (["e", s].map fun n => electronPart k co w n c).sum = nuEI k 1 1 (mass w s) (temperature w "e" c * k.Tnorm) (density w "e" c * k.Nnorm)
      (temperature w s c * k.Tnorm) (density w s c * k.Nnorm) / k.Omega_ci := by
  simp [electronPart, hee, hei, hm, hs, hc]

theorem with_electron_electron {ι : Type} {k : CollNorms} {co : CollOpts} (hee : co.electron_electron = true) (hei : co.electron_ion = true)
    (hm : co.ei_multiplier = 1) {w : World ι} {s : String} (hs : s ≠ "e") (hc : charge w s = 1) (c : ι) :
    (["e", s].map fun n => electronPart k co w n c).sum = nuEE k (temperature w "e" c * k.Tnorm) (density w "e" c * k.Nnorm) / k.Omega_ci +
      nuEI k 1 1 (mass w s) (temperature w "e" c * k.Tnorm) (density w "e" c * k.Nnorm)
      (temperature w s c * k.Tnorm) (density w s c * k.Nnorm) / k.Omega_ci := by
  simp [electronPart, hee, hei, hm, hs, hc]

/-! ## Numbers -/

theorem log_range {x : ℝ} (h1 : 1 ≤ x) (h2 : x ≤ 1000) : 0 ≤ Real.log x ∧ Real.log x ≤ 3 * Real.log 10 := by
  refine ⟨Real.log_nonneg h1, ?_⟩
  have := Real.log_le_log (by linarith) h2
  rwa [show (1000 : ℝ) = 10 ^ 3 by norm_num, Real.log_pow] at this

theorem log_density {n : ℝ} (h0 : 0 < n) (h : n ≤ 1e21) : Real.log n ≤ 21 * Real.log 10 := by
  have := Real.log_le_log h0 h
  rwa [show (1e21 : ℝ) = 10 ^ 21 by norm_num, Real.log_pow] at this

/-- Light particles that hit heavy ones. -/
theorem moving_near_one {m1 m2 T1 T2 : ℝ} (h1 : 0 < m1) (h : 1800 * m1 ≤ m2) (t1 : 0 < T1) (t2 : 0 < T2) (t : T2 ≤ 10 * T1) :
    0.99 ≤ moving m1 m2 T1 T2 ∧ moving m1 m2 T1 T2 ≤ 1.0006 := by
  have h2 : 0 < m2 := by linarith
  unfold moving
  have a : m1 / m2 ≤ 1 / 1800 := by rw [div_le_div_iff₀ h2 (by norm_num)]; linarith
  have a0 : 0 < m1 / m2 := by positivity
  have b : m1 * T2 / (m2 * T1) ≤ 1 / 180 := by
    rw [div_le_div_iff₀ (by positivity) (by norm_num)]
    nlinarith
  have b0 : 0 < m1 * T2 / (m2 * T1) := by positivity
  generalize m1 * T2 / (m2 * T1) = y at *
  generalize m1 / m2 = x at *
  have s1 : 1 ≤ Real.sqrt (1 + y) := Real.one_le_sqrt.2 (by linarith)
  have s2 : Real.sqrt (1 + y) ≤ 1 + y / 2 := by
    rw [Real.sqrt_le_left (by linarith)]
    nlinarith
  have p1 : 1 ≤ p32 (1 + y) := by unfold p32; nlinarith
  have p2 : p32 (1 + y) ≤ 1.0085 := by unfold p32; nlinarith
  constructor
  · rw [le_div_iff₀ (by linarith)]; linarith
  · rw [div_le_iff₀ (by linarith)]; linarith

/-- The Coulomb logarithm of electrons with ions of charge one, in the range of temperatures and densities of the theorems below. -/
theorem nuEI_range {k : CollNorms} (hk : Physical k) {A Te n Ti : ℝ} (hA : 1 ≤ A) (h1 : 1 ≤ Te) (h2 : Te ≤ 1000) (hTi : 0.1 ≤ Ti) (ht : Ti ≤ 10 * Te)
    (n1 : 1e10 ≤ n) (n2 : n ≤ 1e21) :
    ∃ Λ, nuEI k 1 1 A Te n Ti n = spitzer k n 1 k.Me Te Λ * moving k.Me (k.Mp * A) Te Ti ∧
      Λ = (if Real.log Te < 2 then 30 - 0.5 * Real.log n + 1.5 * Real.log Te else 31 - 0.5 * Real.log n + Real.log Te) ∧ 5.8 ≤ Λ := by
  obtain ⟨hq, he, hM, hP, hh, _, _, _⟩ := hk
  have hT := log_range h1 h2
  have hn := log_density (by linarith) n2
  have fl : ∀ {x m : ℝ}, m ≤ x → floorTo x m = x := fun h => by unfold floorTo; rw [if_neg (not_lt.2 h)]
  have c1 : ¬ (Te < 0.1 ∨ n < 1e10 ∨ n < 1e10) := by
    rintro (h | h | h) <;> linarith
  have c2 : ¬ Te < Ti * (k.Me / (k.Mp * A)) := by
    rw [not_lt]
    have : k.Me / (k.Mp * A) ≤ 1 / 1800 := by
      rw [div_le_div_iff₀ (by positivity) (by norm_num)]
      nlinarith
    have p : 0 < k.Me / (k.Mp * A) := by positivity
    nlinarith
  have c3 : (Te < Real.exp 2 * 1 ^ 2) ↔ Real.log Te < 2 := by
    rw [one_pow, mul_one, Real.log_lt_iff_lt_exp (by linarith)]
  set Λ := (if Real.log Te < 2 then 30 - 0.5 * Real.log n + 1.5 * Real.log Te else 31 - 0.5 * Real.log n + Real.log Te) with hΛ
  have h58 : 5.8 ≤ Λ := by
    have := log10_lt
    rw [hΛ]
    split_ifs <;> linarith
  refine ⟨Λ, ?_, rfl, h58⟩
  have hl : (if Te < 0.1 ∨ n < 1e10 ∨ n < 1e10 then (10 : ℝ)
      else if Te < Ti * (k.Me / (k.Mp * A)) then 23 - 0.5 * Real.log n + 1.5 * Real.log Ti - Real.log (1 ^ 2 * A)
      else if Te < Real.exp 2 * 1 ^ 2 then 30 - 0.5 * Real.log n - Real.log 1 + 1.5 * Real.log Te
      else 31 - 0.5 * Real.log n + Real.log Te) = Λ := by
    rw [if_neg c1, if_neg c2, hΛ, Real.log_one, sub_zero]
    by_cases h : Real.log Te < 2
    · rw [if_pos h, if_pos (c3.2 h)]
    · rw [if_neg h, if_neg (fun g => h (c3.1 g))]
  unfold nuEI
  dsimp only
  rw [hl, fl (by linarith : (1 : ℝ) ≤ Λ), fl (by linarith : (0 : ℝ) ≤ n), fl (by linarith : (0.1 : ℝ) ≤ Te), fl hTi, mul_one (_ / _)]
  exact coulomb_form hq he hM (by positivity) (by linarith) (by linarith) 1 n Λ

/-- … and of electrons with electrons. -/
theorem nuEE_range {k : CollNorms} (hk : Physical k) {Te n : ℝ} (h1 : 1 ≤ Te) (h2 : Te ≤ 1000) (n1 : 1e10 ≤ n) (n2 : n ≤ 1e21) :
    ∃ Λ, nuEE k Te n = spitzer k n 1 k.Me Te Λ / Real.sqrt 2 ∧
      (if Real.log Te < 2 then 30 - 0.5 * Real.log n + 1.5 * Real.log Te else 31 - 0.5 * Real.log n + Real.log Te) - 0.12 ≤ Λ := by
  obtain ⟨Λ, hΛ, h⟩ := electron_electron hk.qe hk.e0 hk.Me (show 0.1 ≤ Te by linarith) n1
  refine ⟨max Λ 1, h, le_trans ?_ (le_max_left _ _)⟩
  have a := (abs_le.1 hΛ).1
  unfold nrlEE at a
  rw [log_sqrt_density (by linarith)] at a
  have l := log10_gt
  generalize Real.log Te = x at *
  have s : Real.sqrt (1e-5 + (x - 2) ^ 2 / 16) ≤ |x - 2| / 4 + 0.0032 := by
    rw [Real.sqrt_le_left (by positivity)]
    nlinarith [abs_nonneg (x - 2), sq_abs (x - 2)]
  split_ifs with hx
  · rw [abs_of_neg (by linarith)] at s
    linarith
  · rw [abs_of_nonneg (by linarith)] at s
    linarith

theorem spitzer_scale (k : CollNorms) (n Z m T Λ : ℝ) : spitzer k n Z m T Λ = Λ * spitzer k n Z m T 1 := by
  unfold spitzer
  ring

theorem spitzer_pos {k : CollNorms} (hk : Physical k) {n m T Λ : ℝ} (hn : 0 < n) (hm : 0 < m) (hT : 0 < T) (hΛ : 0 < Λ) : 0 < spitzer k n 1 m T Λ := by
  have := hk.qe
  have := hk.e0
  have a := p32_pos (mul_pos hT hk.qe)
  have b := p32_pos (mul_pos two_pos Real.pi_pos)
  have c := Real.sqrt_pos.2 hm
  unfold spitzer
  positivity

/-- Two masses that differ by one in a thousand. -/
theorem spitzer_mass {k : CollNorms} (hk : Physical k) {n m m' T : ℝ} (hn : 0 < n) (hm : 0 < m) (hT : 0 < T) (h1 : 0.999 * m ≤ m') (h2 : m' ≤ 1.001 * m) :
    0.999 * spitzer k n 1 m' T 1 ≤ spitzer k n 1 m T 1 ∧ spitzer k n 1 m T 1 ≤ 1.001 * spitzer k n 1 m' T 1 := by
  have hm' : 0 < m' := by linarith
  have e : spitzer k n 1 m T 1 * Real.sqrt m = spitzer k n 1 m' T 1 * Real.sqrt m' := by
    have a := Real.sqrt_pos.2 hm
    have b := Real.sqrt_pos.2 hm'
    have := hk.e0
    have c := p32_pos (mul_pos hT hk.qe)
    have d := p32_pos (mul_pos two_pos Real.pi_pos)
    unfold spitzer
    field_simp
  have p := spitzer_pos hk hn hm hT one_pos
  have p' := spitzer_pos hk hn hm' hT one_pos
  have sm := Real.sqrt_pos.2 hm
  have a : 0.999 * Real.sqrt m ≤ Real.sqrt m' := by
    apply Real.le_sqrt_of_sq_le
    rw [mul_pow, Real.sq_sqrt hm.le]
    nlinarith
  have b : Real.sqrt m' ≤ 1.001 * Real.sqrt m := by
    rw [Real.sqrt_le_left (by positivity), mul_pow, Real.sq_sqrt hm.le]
    nlinarith
  generalize spitzer k n 1 m T 1 = x at *
  generalize spitzer k n 1 m' T 1 = y at *
  constructor <;> by_contra h <;> rw [not_le] at h <;> nlinarith

/-- Two quotients whose denominators are near to each other. -/
theorem near_ratio {G L Λ S S' V : ℝ} (hG : 0 < G) (hL : 0 < L) (hΛ : 0 < Λ) (p : 0 < S) (p' : 0 < S') (v1 : 0.99 ≤ V) (v2 : V ≤ 1.0006)
    (q1 : Λ ≤ 1.07 * L) (q2 : 0.86 * L ≤ Λ) (z1 : 0.999 * S' ≤ S) (z2 : S ≤ 1.001 * S') :
    0 < G / (Λ * S * V) ∧ 0.85 * (G / (Λ * S * V)) ≤ G / (L * S') ∧ G / (L * S') ≤ 1.08 * (G / (Λ * S * V)) := by
  have hV : 0 < V := by linarith
  have hLS : 0 < L * S' := by positivity
  have hnup : 0 < Λ * S * V := by positivity
  have low : 0.85 * (L * S') ≤ Λ * S * V := by
    calc 0.85 * (L * S') ≤ (0.86 * L) * (0.999 * S') * 0.99 := by linarith
      _ ≤ Λ * S * V := by gcongr
  have high : Λ * S * V ≤ 1.08 * (L * S') := by
    calc Λ * S * V ≤ (1.07 * L) * (1.001 * S') * 1.0006 := by gcongr
      _ ≤ 1.08 * (L * S') := by linarith
  generalize Λ * S * V = X at *
  generalize L * S' = Y at *
  refine ⟨by positivity, ?_, ?_⟩
  · rw [← mul_div_assoc, div_le_div_iff₀ hnup hLS]
    nlinarith
  · rw [← mul_div_assoc, div_le_div_iff₀ hLS hnup]
    nlinarith

/-! ## The two components compared -/

/-- **C92.**  Electrons: between 1 and 1000 eV, below `10²¹ m⁻³`, with one species of singly charged ions no more than ten times hotter and of the
same density, `simple_conduction` and `evolve_pressure` with `electron_electron = false` differ by less than 15 %.  `nu` is the frequency that `collisions`
leaves in the state, `kP` and `kS` the conductivities of the two components. -/
theorem electrons_agree {ι : Type} {k : CollNorms} (hk : Physical k) {co : CollOpts} (hee : co.electron_electron = false) (hei : co.electron_ion = true)
    (hm : co.ei_multiplier = 1) {w : World ι} {s : String} (hs : s ≠ "e") (hc : charge w s = 1) (hA : 1 ≤ mass w s) (c : ι)
    (hAA : |mass w "e" * k.Mp - k.Me| ≤ 0.001 * k.Me)
    (t1 : 1 ≤ temperature w "e" c * k.Tnorm) (t2 : temperature w "e" c * k.Tnorm ≤ 1000) (hTi : 0.1 ≤ temperature w s c * k.Tnorm)
    (ht : temperature w s c ≤ 10 * temperature w "e" c) (hq : density w s c = density w "e" c) (n1 : 1e10 ≤ density w "e" c * k.Nnorm)
    (n2 : density w "e" c * k.Nnorm ≤ 1e21) {N T : Fld ℤ} {i : ℤ} (hN : N i = density w "e" c) (hT : T i = temperature w "e" c) :
    let nu := (["e", s].map fun n => electronPart k co w n c).sum
    let kP := 3.16 * (density w "e" c * temperature w "e" c) * (1 / nu) / mass w "e"
    let kS := conductionKappa (plain k "e") (mass w "e") N T i
    0 < kP ∧ 0.85 * kP ≤ kS ∧ kS ≤ 1.08 * kP := by
  intro nu kP kS
  have hTn := hk.Tnorm
  have hNn := hk.Nnorm
  have hO := hk.Omega_ci
  have hMp := hk.Mp
  have hMe := hk.Me
  have hTe : 0 < temperature w "e" c := by by_contra h; nlinarith
  have hNe : 0 < density w "e" c := by by_contra h; nlinarith
  have ht' : temperature w s c * k.Tnorm ≤ 10 * (temperature w "e" c * k.Tnorm) := by nlinarith
  obtain ⟨m1, m2⟩ := abs_le.1 hAA
  have hMA : 0 < mass w "e" := by by_contra h; nlinarith
  have hkS : kS = 3.16 * (N i * conductionT (plain k "e") T i) * tauE k (N i * k.Nnorm) (mass w "e" * k.Mp) (conductionT (plain k "e") T i * k.Tnorm)
      (coulombLog (plain k "e") (N i) (conductionT (plain k "e") T i)) / mass w "e" :=
    simple_electrons hk none none none none hMA N T i (by rw [hN]; exact hNe) (by
      show 0 < conductionT (plain k "e") T i
      rw [plain_T hk, hT]; exact hTe)
  rw [plain_T hk, hT, hN, plain_log hk "e" hNe] at hkS
  have hnu : nu = _ := without_electron_electron hee hei hm hs hc c
  rw [hq] at hnu
  obtain ⟨Λ, e1, e2, e3⟩ := nuEI_range hk (A := mass w s) hA t1 t2 hTi ht' n1 n2
  rw [e1, spitzer_scale] at hnu
  obtain ⟨v1, v2⟩ := moving_near_one (m1 := k.Me) (m2 := k.Mp * mass w s) (T1 := temperature w "e" c * k.Tnorm) (T2 := temperature w s c * k.Tnorm) hMe
    (by nlinarith [hk.heavy]) (by positivity) (by linarith) ht'
  obtain ⟨z1, z2⟩ := spitzer_mass hk (n := density w "e" c * k.Nnorm) (T := temperature w "e" c * k.Tnorm) (m := k.Me) (m' := mass w "e" * k.Mp)
    (by positivity) hMe (by positivity) (by linarith) (by linarith)
  have p := spitzer_pos hk (n := density w "e" c * k.Nnorm) (T := temperature w "e" c * k.Tnorm) (by positivity) hMe (by positivity) one_pos
  unfold tauE at hkS
  rw [spitzer_scale] at hkS
  obtain ⟨lT1, lT2⟩ := log_range t1 t2
  have ln := log_density (by positivity) n2
  have l1 := log10_lt
  have l2 := log10_gt
  have q : 0.999 * Λ ≤ 1.07 * (0.999 * (6.6 + 10 * Real.log 10 - 0.5 * Real.log (density w "e" c * k.Nnorm) + 1.5 * Real.log (temperature w "e" c * k.Tnorm))) ∧
      0.86 * (6.6 + 10 * Real.log 10 - 0.5 * Real.log (density w "e" c * k.Nnorm) + 1.5 * Real.log (temperature w "e" c * k.Tnorm)) ≤ Λ ∧
      5 ≤ 6.6 + 10 * Real.log 10 - 0.5 * Real.log (density w "e" c * k.Nnorm) + 1.5 * Real.log (temperature w "e" c * k.Tnorm) := by
    rw [e2]
    split_ifs <;> refine ⟨?_, ?_, ?_⟩ <;> linarith
  have hMe' : 0 < mass w "e" * k.Mp := by positivity
  have p' := spitzer_pos hk (n := density w "e" c * k.Nnorm) (T := temperature w "e" c * k.Tnorm) (by positivity) hMe' (by positivity) one_pos
  generalize 6.6 + 10 * Real.log 10 - 0.5 * Real.log (density w "e" c * k.Nnorm) + 1.5 * Real.log (temperature w "e" c * k.Tnorm) = L at *
  generalize spitzer k (density w "e" c * k.Nnorm) 1 k.Me (temperature w "e" c * k.Tnorm) 1 = S at *
  generalize spitzer k (density w "e" c * k.Nnorm) 1 (mass w "e" * k.Mp) (temperature w "e" c * k.Tnorm) 1 = S' at *
  generalize moving k.Me (k.Mp * mass w s) (temperature w "e" c * k.Tnorm) (temperature w s c * k.Tnorm) = V at *
  obtain ⟨q1, q2, q3⟩ := q
  have hnup : 0 < Λ * S * V := by positivity
  have hG : 0 < 3.16 * (density w "e" c * temperature w "e" c) * k.Omega_ci / mass w "e" := by positivity
  have hkP : kP = 3.16 * (density w "e" c * temperature w "e" c) * k.Omega_ci / mass w "e" / (Λ * S * V) := by
    simp only [kP]
    rw [hnu]
    field_simp
  have hkS' : kS = 3.16 * (density w "e" c * temperature w "e" c) * k.Omega_ci / mass w "e" / (L * S') := by
    rw [hkS]
    field_simp
  rw [hkP, hkS']
  generalize 3.16 * (density w "e" c * temperature w "e" c) * k.Omega_ci / mass w "e" = G at *
  exact near_ratio hG (by linarith) (by linarith) p p' v1 v2 (by linarith) q2 z1 z2

/-- **C92.**  With the collisions among electrons, as by default, the electrons of such a plasma conduct less than six tenths of what they conduct
without: the collision time of Braginskii's formula does not contain them, the one of `evolve_pressure` does. -/
theorem default_conducts_less {ι : Type} {k : CollNorms} (hk : Physical k) {co : CollOpts} (hei : co.electron_ion = true)
    (hm : co.ei_multiplier = 1) {w : World ι} {s : String} (hs : s ≠ "e") (hc : charge w s = 1) (hA : 1 ≤ mass w s) (c : ι) (hMA : 0 < mass w "e")
    (t1 : 1 ≤ temperature w "e" c * k.Tnorm) (t2 : temperature w "e" c * k.Tnorm ≤ 1000) (hTi : 0.1 ≤ temperature w s c * k.Tnorm)
    (ht : temperature w s c ≤ 10 * temperature w "e" c) (hq : density w s c = density w "e" c) (n1 : 1e10 ≤ density w "e" c * k.Nnorm)
    (n2 : density w "e" c * k.Nnorm ≤ 1e21) :
    let nu := fun b => (["e", s].map fun n => electronPart k { co with electron_electron := b } w n c).sum
    let kP := fun b => 3.16 * (density w "e" c * temperature w "e" c) * (1 / nu b) / mass w "e"
    0 < kP true ∧ kP true ≤ 0.6 * kP false := by
  intro nu kP
  have hTn := hk.Tnorm
  have hNn := hk.Nnorm
  have hO := hk.Omega_ci
  have hMe := hk.Me
  have hTe : 0 < temperature w "e" c := by by_contra h; nlinarith
  have hNe : 0 < density w "e" c := by by_contra h; nlinarith
  have ht' : temperature w s c * k.Tnorm ≤ 10 * (temperature w "e" c * k.Tnorm) := by nlinarith
  have f : nu false = _ := without_electron_electron (co := { co with electron_electron := false }) rfl hei hm hs hc c
  have t : nu true = _ := with_electron_electron (co := { co with electron_electron := true }) rfl hei hm hs hc c
  rw [hq] at f t
  obtain ⟨Λ, e1, e2, e3⟩ := nuEI_range hk (A := mass w s) hA t1 t2 hTi ht' n1 n2
  obtain ⟨Λ', f1, f2⟩ := nuEE_range hk t1 t2 n1 n2
  rw [e1, spitzer_scale] at f
  rw [e1, f1, spitzer_scale _ _ _ _ _ Λ, spitzer_scale _ _ _ _ _ Λ'] at t
  rw [← e2] at f2
  obtain ⟨v1, v2⟩ := moving_near_one (m1 := k.Me) (m2 := k.Mp * mass w s) (T1 := temperature w "e" c * k.Tnorm) (T2 := temperature w s c * k.Tnorm) hMe
    (by nlinarith [hk.heavy, hk.Mp]) (by positivity) (by linarith) ht'
  have p := spitzer_pos hk (n := density w "e" c * k.Nnorm) (T := temperature w "e" c * k.Tnorm) (by positivity) hMe (by positivity) one_pos
  generalize spitzer k (density w "e" c * k.Nnorm) 1 k.Me (temperature w "e" c * k.Tnorm) 1 = S at *
  generalize moving k.Me (k.Mp * mass w s) (temperature w "e" c * k.Tnorm) (temperature w s c * k.Tnorm) = V at *
  have s2 : Real.sqrt 2 ≤ 1.4143 := by
    rw [Real.sqrt_le_left (by norm_num)]
    norm_num
  have s0 : 0 < Real.sqrt 2 := by positivity
  have r : 0.67 * (Λ * S * V) ≤ Λ' * S / Real.sqrt 2 := by
    rw [le_div_iff₀ s0]
    have a : 0.67 * (Λ * V) * Real.sqrt 2 ≤ Λ' := by
      calc 0.67 * (Λ * V) * Real.sqrt 2 ≤ 0.67 * (Λ * 1.0006) * 1.4143 := by gcongr
        _ ≤ Λ' := by linarith
    nlinarith
  have pos : 0 < Λ * S * V := by positivity
  have kf : kP false = 3.16 * (density w "e" c * temperature w "e" c) * k.Omega_ci / mass w "e" / (Λ * S * V) := by
    simp only [kP]
    rw [f]
    field_simp
  have kt : kP true = 3.16 * (density w "e" c * temperature w "e" c) * k.Omega_ci / mass w "e" / (Λ' * S / Real.sqrt 2 + Λ * S * V) := by
    simp only [kP]
    rw [t, ← add_div]
    generalize Λ' * S / Real.sqrt 2 + Λ * S * V = X
    field_simp
  rw [kf, kt]
  have hG : 0 < 3.16 * (density w "e" c * temperature w "e" c) * k.Omega_ci / mass w "e" := by positivity
  generalize 3.16 * (density w "e" c * temperature w "e" c) * k.Omega_ci / mass w "e" = G at *
  have pos' : 0 < Λ' * S / Real.sqrt 2 + Λ * S * V := by linarith
  refine ⟨by positivity, ?_⟩
  rw [← mul_div_assoc, div_le_div_iff₀ pos' pos]
  nlinarith

/-- **C92.**  Singly charged ions that collide with each other: the two components differ by less than 2 %. -/
theorem ions_agree {k : CollNorms} (hk : Physical k) {name : String} (hn : name ≠ "e") {A n T : ℝ} (hA : 0 < A) (t1 : 1 ≤ T * k.Tnorm)
    (n1 : 1e10 ≤ n * k.Nnorm) (n2 : n * k.Nnorm ≤ 1e21) {N Tf : Fld ℤ} {i : ℤ} (hN : N i = n) (hT : Tf i = T) :
    let nu := nuII k 1 1 A A (T * k.Tnorm) (T * k.Tnorm) (n * k.Nnorm) (n * k.Nnorm) / k.Omega_ci
    let kP := 3.9 * (n * T) * (1 / nu) / A
    let kS := conductionKappa (plain k name) A N Tf i
    0 < kP ∧ 0.98 * kP ≤ kS ∧ kS ≤ kP := by
  intro nu kP kS
  have hTn := hk.Tnorm
  have hNn := hk.Nnorm
  have hO := hk.Omega_ci
  have hMp := hk.Mp
  have hT0 : 0 < T := by by_contra h; nlinarith
  have hN0 : 0 < n := by by_contra h; nlinarith
  have hkS : kS = 3.9 * (N i * conductionT (plain k name) Tf i) * tauI k (N i * k.Nnorm) (A * k.Mp) (conductionT (plain k name) Tf i * k.Tnorm)
      (coulombLog (plain k name) (N i) (conductionT (plain k name) Tf i)) / A :=
    simple_ions hk hn none none none none hA N Tf i (by rw [hN]; exact hN0) (by
      show 0 < conductionT (plain k name) Tf i
      rw [plain_T hk, hT]; exact hT0)
  rw [plain_T hk, hT, hN, plain_log hk name hN0] at hkS
  have tp : 0 < T * k.Tnorm := by positivity
  have np : 0 < n * k.Nnorm := by positivity
  obtain ⟨Λ, hΛ, e⟩ := ion_ion hk.qe hk.e0 hMp (Z1 := 1) (Z2 := 1) hA hA (show 0.1 ≤ T * k.Tnorm by linarith) (show 0.1 ≤ T * k.Tnorm by linarith) n1 n1
    (by norm_num)
  have hl : Real.log (1 * 1 * (A + A) / (A * (T * k.Tnorm) + A * (T * k.Tnorm)) * Real.sqrt (n * k.Nnorm / 1e6 * 1 ^ 2 / (T * k.Tnorm) +
      n * k.Nnorm / 1e6 * 1 ^ 2 / (T * k.Tnorm))) = 0.5 * Real.log 2 + 0.5 * Real.log (n * k.Nnorm) - 3 * Real.log 10 - 1.5 * Real.log (T * k.Tnorm) := by
    generalize T * k.Tnorm = t at *
    generalize n * k.Nnorm = m at *
    have a : 1 * 1 * (A + A) / (A * t + A * t) = t⁻¹ := by field_simp
    have b : m / 1e6 * 1 ^ 2 / t + m / 1e6 * 1 ^ 2 / t = 2 * m / 10 ^ 6 / t := by ring
    rw [a, b, Real.log_mul (by positivity) (by positivity), Real.log_inv, Real.log_sqrt (by positivity), Real.log_div (by positivity) (by positivity),
      Real.log_div (by positivity) (by positivity), Real.log_mul (by positivity) (by positivity), Real.log_pow]
    push_cast
    ring
  rw [hl] at hΛ
  obtain ⟨b1, b2⟩ := abs_le.1 hΛ
  have lT := Real.log_nonneg t1
  have ln := log_density np n2
  have l1 := log10_lt
  have l2 := log10_gt
  have l3 := Real.log_two_gt_d9
  have l4 := Real.log_two_lt_d9
  rw [mul_one (1 : ℝ), moving_same (by positivity) tp, spitzer_scale, max_eq_left (by linarith)] at e
  have hnu : nu = Λ * spitzer k (n * k.Nnorm) 1 (A * k.Mp) (T * k.Tnorm) 1 * (1 / Real.sqrt 2) / k.Omega_ci := by
    simp only [nu]
    rw [e]
  have hL : 5 ≤ 6.6 + 10 * Real.log 10 - 0.5 * Real.log (n * k.Nnorm) + 1.5 * Real.log (T * k.Tnorm) ∧
      Λ ≤ 6.6 + 10 * Real.log 10 - 0.5 * Real.log (n * k.Nnorm) + 1.5 * Real.log (T * k.Tnorm) ∧
      0.98 * (6.6 + 10 * Real.log 10 - 0.5 * Real.log (n * k.Nnorm) + 1.5 * Real.log (T * k.Tnorm)) ≤ Λ := by
    refine ⟨?_, ?_, ?_⟩ <;> linarith
  unfold tauI tauE at hkS
  rw [spitzer_scale] at hkS
  have p := spitzer_pos hk np (show 0 < A * k.Mp by positivity) tp one_pos
  generalize 6.6 + 10 * Real.log 10 - 0.5 * Real.log (n * k.Nnorm) + 1.5 * Real.log (T * k.Tnorm) = L at *
  generalize spitzer k (n * k.Nnorm) 1 (A * k.Mp) (T * k.Tnorm) 1 = S at *
  have s0 : 0 < Real.sqrt 2 := by positivity
  obtain ⟨q1, q2, q3⟩ := hL
  have hΛ0 : 0 < Λ := by linarith
  have hL0 : 0 < L := by linarith
  have kp : kP = 3.9 * (n * T) * k.Omega_ci * Real.sqrt 2 / A / S / Λ := by
    simp only [kP]
    rw [hnu]
    field_simp
  have ks : kS = 3.9 * (n * T) * k.Omega_ci * Real.sqrt 2 / A / S / L := by
    rw [hkS]
    field_simp
  have hG : 0 < 3.9 * (n * T) * k.Omega_ci * Real.sqrt 2 / A / S := by positivity
  rw [kp, ks]
  generalize 3.9 * (n * T) * k.Omega_ci * Real.sqrt 2 / A / S = G at *
  refine ⟨by positivity, ?_, ?_⟩
  · rw [← mul_div_assoc, div_le_div_iff₀ hΛ0 hL0]
    nlinarith
  · exact div_le_div_of_nonneg_left hG.le hΛ0 q2

/-! ## A plasma that meets the hypotheses -/

/-- 100 eV, `10¹⁹ m⁻³`; the constants of nature. -/
noncomputable def si : CollNorms := ⟨100, 1e19, 1e-3, 1e8, 1.602e-19, 9.109e-31, 1.6726e-27, 8.854e-12⟩

theorem si_physical : Physical si := by
  constructor <;> norm_num [si]

/-- Electrons of 300 eV and deuterons of 200 eV. -/
example (co : CollOpts) (hee : co.electron_electron = false) (hei : co.electron_ion = true) (hm : co.ei_multiplier = 1) :
    let nu := (["e", "d+"].map fun n => electronPart si co plasma n ()).sum
    let kP := 3.16 * (1 * 3) * (1 / nu) / (1 / 1836)
    let kS := conductionKappa (plain si "e") (1 / 1836) (fun _ => 1) (fun _ => 3) 0
    0 < kP ∧ 0.85 * kP ≤ kS ∧ kS ≤ 1.08 * kP := by
  have T1 : temperature plasma "e" () = 3 := by simp [temperature, plasma, Collisions.gas]
  have T2 : temperature plasma "d+" () = 2 := by simp [temperature, plasma, Collisions.gas]
  have N : ∀ s, density plasma s () = 1 := fun s => by simp [density, plasma, Collisions.gas]
  have A1 : mass plasma "e" = 1 / 1836 := by simp [mass, plasma, Collisions.gas]
  have A2 : mass plasma "d+" = 2 := by simp [mass, plasma, Collisions.gas]
  have Z : charge plasma "d+" = 1 := by simp [charge, plasma, Collisions.gas]
  have := electrons_agree si_physical hee hei hm (w := plasma) (s := "d+") (by decide) Z (by rw [A2]; norm_num) ()
    (by rw [A1]; norm_num [si, abs_le]) (by rw [T1]; norm_num [si]) (by rw [T1]; norm_num [si]) (by rw [T2]; norm_num [si])
    (by rw [T1, T2]; norm_num) (by rw [N, N]) (by rw [N]; norm_num [si]) (by rw [N]; norm_num [si]) (N := fun _ => 1) (T := fun _ => 3) (i := 0)
    (N _).symm T1.symm
  rwa [T1, N, A1] at this

end Hermes.HeatConductivity
