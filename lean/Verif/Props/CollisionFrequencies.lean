import Verif.Props.CollisionExamples
import Mathlib.Analysis.SpecialFunctions.Pow.Real
import Mathlib.Analysis.Complex.ExponentialBounds

/-!
# C91: collision frequencies are those of the textbook
-/

namespace Hermes.Collisions

variable {ι : Type}

/-! ## Specification -/

/-- `x^(3/2)`. -/
noncomputable def p32 (x : ℝ) : ℝ := x * Real.sqrt x

/-- The inverse of the electron collision time of Braginskii (1965), in SI units, for particles of mass `m` and temperature `T` (in eV) that collide with
particles at rest of density `n`; `Z` is the product of the charge numbers and `Λ` the Coulomb logarithm. -/
noncomputable def spitzer (k : CollNorms) (n Z m T Λ : ℝ) : ℝ :=
  n * Z ^ 2 * k.qe ^ 4 * Λ / (3 * p32 (2 * Real.pi) * k.e0 ^ 2 * Real.sqrt m * p32 (T * k.qe))

/-- The particles that are hit move, and are not infinitely heavy. -/
noncomputable def moving (m1 m2 T1 T2 : ℝ) : ℝ := (1 + m1 / m2) / p32 (1 + m1 * T2 / (m2 * T1))

/-- Coulomb logarithms of the NRL formulary (2019), page 34; densities in `m⁻³`, temperatures in eV. -/
noncomputable def nrlEE (T n : ℝ) : ℝ :=
  23.5 - Real.log (Real.sqrt (n / 1e6)) + 5 / 4 * Real.log T - Real.sqrt (1e-5 + (Real.log T - 2) ^ 2 / 16)

noncomputable def nrlCold (Z T n : ℝ) : ℝ := 23 - Real.log (Real.sqrt (n / 1e6)) - Real.log Z + 3 / 2 * Real.log T
noncomputable def nrlHot (T n : ℝ) : ℝ := 24 - Real.log (Real.sqrt (n / 1e6)) + Real.log T
noncomputable def nrlFastIons (Z A T n : ℝ) : ℝ := 16 - Real.log (Real.sqrt (n / 1e6)) + 3 / 2 * Real.log T - Real.log (Z ^ 2 * A)

/-! ## Powers -/

theorem p32_rpow {x : ℝ} (h : 0 ≤ x) : x ^ (3 / 2 : ℝ) = p32 x := by
  unfold p32
  rw [show (3 / 2 : ℝ) = 1 + 1 / 2 by norm_num, Real.rpow_add' h (by norm_num), Real.rpow_one, Real.sqrt_eq_rpow]

theorem p32_mul {x : ℝ} (h : 0 ≤ x) (y : ℝ) : p32 (x * y) = p32 x * p32 y := by
  unfold p32
  rw [Real.sqrt_mul h]
  ring

theorem p32_pos {x : ℝ} (h : 0 < x) : 0 < p32 x := mul_pos h (Real.sqrt_pos.2 h)

/-- The form in which the code has the frequency. -/
theorem coulomb_form {k : CollNorms} (hq : 0 < k.qe) (he : 0 < k.e0) {m1 m2 T1 T2 : ℝ} (h1 : 0 < m1) (h2 : 0 < m2) (t1 : 0 < T1) (t2 : 0 < T2)
    (Z n Λ : ℝ) : (k.qe ^ 2 * Z) ^ 2 * n * Λ * (1 + m1 / m2) /
        (3 * (Real.pi * (2 * T1 * k.qe / m1 + 2 * T2 * k.qe / m2)) ^ (3 / 2 : ℝ) * (k.e0 * m1) ^ 2) =
      spitzer k n Z m1 T1 Λ * moving m1 m2 T1 T2 := by
  have hp := Real.pi_pos
  rw [p32_rpow (by positivity)]
  have e : Real.pi * (2 * T1 * k.qe / m1 + 2 * T2 * k.qe / m2) * m1 = 2 * Real.pi * (T1 * k.qe * (1 + m1 * T2 / (m2 * T1))) := by
    field_simp
  have e' : p32 (Real.pi * (2 * T1 * k.qe / m1 + 2 * T2 * k.qe / m2)) * p32 m1 =
      p32 (2 * Real.pi) * (p32 (T1 * k.qe) * p32 (1 + m1 * T2 / (m2 * T1))) := by
    rw [← p32_mul (by positivity), e, p32_mul (show 0 ≤ 2 * Real.pi by positivity), p32_mul (show 0 ≤ T1 * k.qe by positivity)]
  have s : Real.sqrt m1 ^ 2 = m1 := Real.sq_sqrt h1.le
  have q1 := p32_pos (show 0 < 2 * Real.pi by positivity)
  have q2 := p32_pos (show 0 < T1 * k.qe by positivity)
  have q3 := p32_pos (show 0 < 1 + m1 * T2 / (m2 * T1) by positivity)
  have q4 := p32_pos (show 0 < Real.pi * (2 * T1 * k.qe / m1 + 2 * T2 * k.qe / m2) by positivity)
  have q5 := Real.sqrt_pos.2 h1
  unfold spitzer moving
  have e'' : p32 m1 = m1 * Real.sqrt m1 := rfl
  generalize p32 (Real.pi * (2 * T1 * k.qe / m1 + 2 * T2 * k.qe / m2)) = P at *
  generalize p32 (2 * Real.pi) = Q at *
  generalize p32 (T1 * k.qe) = R at *
  generalize p32 (1 + m1 * T2 / (m2 * T1)) = S at *
  rw [e''] at e'
  generalize Real.sqrt m1 = r at *
  rw [div_mul_div_comm, div_eq_div_iff (by positivity) (by positivity)]
  have g : Q * (R * S) = P * (m1 * r) := e'.symm
  calc _ = (k.qe ^ 2 * Z) ^ 2 * n * Λ * (1 + m1 / m2) * (3 * k.e0 ^ 2 * r * (Q * (R * S))) := by ring
    _ = (k.qe ^ 2 * Z) ^ 2 * n * Λ * (1 + m1 / m2) * (3 * k.e0 ^ 2 * P * m1 * r ^ 2) := by rw [g]; ring
    _ = _ := by rw [s]; ring

/-! ## Logarithms -/

theorem log_sqrt_density {n : ℝ} (hn : 0 < n) : Real.log (Real.sqrt (n / 1e6)) = Real.log n / 2 - 3 * Real.log 10 := by
  rw [Real.log_sqrt (by positivity), Real.log_div hn.ne' (by norm_num), show (1e6 : ℝ) = 10 ^ 6 by norm_num, Real.log_pow]
  push_cast
  ring

theorem log10_lt : Real.log 10 < 2.3025850934 := by rw [Real.log_ten_eq]; linarith [Real.log_two_lt_d9, Real.log_five_lt_d9]
theorem log10_gt : 2.3025850926 < Real.log 10 := by rw [Real.log_ten_eq]; linarith [Real.log_two_gt_d9, Real.log_five_gt_d9]

/-! ## Electrons -/

/-- **C91.**  Electrons with electrons: the frequency of the textbook, with the Coulomb logarithm of the formulary up to one in a hundred. -/
theorem electron_electron {k : CollNorms} (hq : 0 < k.qe) (he : 0 < k.e0) (hM : 0 < k.Me) {Te Ne : ℝ} (hT : 0.1 ≤ Te) (hN : 1e10 ≤ Ne) :
    ∃ Λ, |Λ - nrlEE Te Ne| ≤ 0.01 ∧ nuEE k Te Ne = spitzer k Ne 1 k.Me Te (max Λ 1) / Real.sqrt 2 := by
  refine ⟨30.4 - 0.5 * Real.log Ne + (5 / 4) * Real.log Te - Real.sqrt (1e-5 + (Real.log Te - 2) ^ 2 / 16), ?_, ?_⟩
  · unfold nrlEE
    rw [log_sqrt_density (by linarith), abs_le]
    constructor <;> linarith [log10_lt, log10_gt]
  · have fl : ∀ x : ℝ, floorTo x 1 = max x 1 := fun x => by
      unfold floorTo
      split
      · rw [max_eq_right (by linarith)]
      · rw [max_eq_left (by linarith)]
    unfold nuEE
    dsimp only
    rw [floorTo_eq hT, floorTo_eq hN, floorTo_eq (show (0 : ℝ) ≤ Ne by linarith), fl]
    have c := coulomb_form hq he hM hM (show 0 < Te by linarith) (show 0 < Te by linarith) 1 Ne
      (max (30.4 - 0.5 * Real.log Ne + (5 / 4) * Real.log Te - Real.sqrt (1e-5 + (Real.log Te - 2) ^ 2 / 16)) 1)
    have m : moving k.Me k.Me Te Te = 1 / Real.sqrt 2 := by
      unfold moving p32
      have t : Te ≠ 0 := by linarith
      have s2 : (0 : ℝ) < Real.sqrt 2 := by positivity
      rw [div_self hM.ne', div_self (by positivity), one_add_one_eq_two]
      field_simp
    rw [m] at c
    rw [div_self hM.ne', one_add_one_eq_two] at c
    rw [div_eq_mul_one_div _ (Real.sqrt 2), ← c]
    congr 1
    · ring
    · congr 3
      ring

/-- **C91.**  Electrons with ions: the frequency of the textbook times `ei_multiplier`, with the Coulomb logarithm of the formulary in its three ranges,
up to one in ten. -/
theorem electron_ion {k : CollNorms} (hq : 0 < k.qe) (he : 0 < k.e0) (hM : 0 < k.Me) (hP : 0 < k.Mp) {Z A Te Ne Ti Ni : ℝ} (c : ℝ) (hZ : 0 < Z)
    (hA : 0 < A) (hT : 0.1 ≤ Te) (hTi : 0.1 ≤ Ti) (hN : 1e10 ≤ Ne) (hNi : 1e10 ≤ Ni) :
    ∃ Λ, nuEI k c Z A Te Ne Ti Ni = c * (spitzer k Ni Z k.Me Te (max Λ 1) * moving k.Me (k.Mp * A) Te Ti) ∧
      |Λ - (if Te * (k.Mp * A) < Ti * k.Me then nrlFastIons Z A Ti Ni
        else if Te < Real.exp 2 * Z ^ 2 then nrlCold Z Te Ne else nrlHot Te Ne)| ≤ 0.1 := by
  have fl : ∀ x : ℝ, floorTo x 1 = max x 1 := fun x => by
    unfold floorTo
    split
    · rw [max_eq_right (by linarith)]
    · rw [max_eq_left (by linarith)]
  have hm : 0 < k.Mp * A := by positivity
  have iff1 : Te < Ti * (k.Me / (k.Mp * A)) ↔ Te * (k.Mp * A) < Ti * k.Me := by
    rw [mul_div_assoc', lt_div_iff₀ hm]
  unfold nuEI
  dsimp only
  rw [if_neg (show ¬(Te < 0.1 ∨ Ni < 1e10 ∨ Ne < 1e10) by rintro (h | h | h) <;> linarith), floorTo_eq hT, floorTo_eq hTi,
    floorTo_eq (show (0 : ℝ) ≤ Ni by linarith), fl]
  refine ⟨_, by rw [coulomb_form hq he hM hm (by linarith) (by linarith), mul_comm], ?_⟩
  simp only [iff1]
  split_ifs
  · unfold nrlFastIons
    rw [log_sqrt_density (by linarith), abs_le]
    constructor <;> linarith [log10_lt, log10_gt]
  · unfold nrlCold
    rw [log_sqrt_density (by linarith), abs_le]
    constructor <;> linarith [log10_lt, log10_gt]
  · unfold nrlHot
    rw [log_sqrt_density (by linarith), abs_le]
    constructor <;> linarith [log10_lt, log10_gt]

/-- **C91.**  The two formulas for electrons faster than ions agree where they meet, for every charge and density. -/
theorem ranges_meet {Z : ℝ} (hZ : 0 < Z) (n : ℝ) : nrlCold Z (Real.exp 2 * Z ^ 2) n = nrlHot (Real.exp 2 * Z ^ 2) n := by
  unfold nrlCold nrlHot
  rw [Real.log_mul (Real.exp_pos _).ne' (by positivity), Real.log_exp, Real.log_pow]
  push_cast
  ring

/-- **C91.**  Heat passes between electrons and ions as in Braginskii: `3 n (m_e/m_i)` times the frequency, if the electron mass of the species is that
of the constants. -/
theorem heat_exchange_rate {k : CollNorms} (hM : 0 < k.Me) (hP : 0 < k.Mp) {A : ℝ} (hA : 0 < A) (Te Ti : ℝ) :
    moving k.Me (k.Mp * A) Te Ti * ((k.Me / k.Mp) / (k.Me / k.Mp + A)) = k.Me / (k.Mp * A) / p32 (1 + k.Me * Ti / (k.Mp * A * Te)) := by
  unfold moving
  generalize p32 (1 + k.Me * Ti / (k.Mp * A * Te)) = S
  have : (1 + k.Me / (k.Mp * A)) * (k.Me / k.Mp / (k.Me / k.Mp + A)) = k.Me / (k.Mp * A) := by
    field_simp
    ring
  rw [div_mul_eq_mul_div, this]

/-- Full statement fails: below 0.1 eV the Coulomb logarithm is 10, just above it follows the formula: at `10¹⁹ m⁻³` the collision frequency of
electrons with hydrogen ions jumps by more than a factor of two. -/
theorem frequency_jumps {k : CollNorms} (hq : 0 < k.qe) (he : 0 < k.e0) (hM : 0 < k.Me) (hP : 0 < k.Mp) (hmp : k.Me < k.Mp) {T : ℝ} (hT : T < 0.1) :
    2 * nuEI k 1 1 1 0.1 1e19 0.1 1e19 < nuEI k 1 1 1 T 1e19 0.1 1e19 := by
  have l19 : Real.log 1e19 = 19 * Real.log 10 := by rw [show (1e19 : ℝ) = 10 ^ 19 by norm_num, Real.log_pow]; norm_num
  have lt1 : Real.log 0.1 = -Real.log 10 := by rw [← Real.log_inv]; norm_num
  unfold nuEI
  dsimp only
  rw [if_pos (Or.inl hT : T < 0.1 ∨ (1e19 : ℝ) < 1e10 ∨ (1e19 : ℝ) < 1e10), if_neg (by norm_num),
    if_neg (show ¬(0.1 : ℝ) < 0.1 * (k.Me / (k.Mp * 1)) by
      rw [mul_one, not_lt]
      have : k.Me / k.Mp < 1 := (div_lt_one hP).2 hmp
      linarith),
    if_pos (show (0.1 : ℝ) < Real.exp 2 * 1 ^ 2 by
      have := Real.add_one_le_exp (2 : ℝ)
      linarith), l19, lt1, Real.log_one]
  have f1 : floorTo T 0.1 = 0.1 := by unfold floorTo; rw [if_pos hT]
  have f2 : floorTo (0.1 : ℝ) 0.1 = 0.1 := floorTo_eq le_rfl
  have f3 : floorTo (10 : ℝ) 1 = 10 := floorTo_eq (by norm_num)
  have f4 : floorTo (30 - 0.5 * (19 * Real.log 10) - 0 + 1.5 * -Real.log 10) 1 < 5 := by
    unfold floorTo
    split
    · norm_num
    · linarith [log10_gt]
  have f5 : floorTo (1e19 : ℝ) 0 = 1e19 := floorTo_eq (by norm_num)
  rw [f1, f2, f3, f5]
  generalize floorTo (30 - 0.5 * (19 * Real.log 10) - 0 + 1.5 * -Real.log 10) 1 = L at f4
  have hp := Real.pi_pos
  have X : 0 < (k.qe ^ 2 * 1) ^ 2 * 1e19 * (1 + k.Me / (k.Mp * 1)) /
      (3 * (Real.pi * (2 * 0.1 * k.qe / k.Me + 2 * 0.1 * k.qe / (k.Mp * 1))) ^ (3 / 2 : ℝ) * (k.e0 * k.Me) ^ 2) := by positivity
  have a : ∀ y : ℝ, (k.qe ^ 2 * 1) ^ 2 * 1e19 * y * (1 + k.Me / (k.Mp * 1)) /
      (3 * (Real.pi * (2 * 0.1 * k.qe / k.Me + 2 * 0.1 * k.qe / (k.Mp * 1))) ^ (3 / 2 : ℝ) * (k.e0 * k.Me) ^ 2) * 1 =
      (k.qe ^ 2 * 1) ^ 2 * 1e19 * (1 + k.Me / (k.Mp * 1)) /
      (3 * (Real.pi * (2 * 0.1 * k.qe / k.Me + 2 * 0.1 * k.qe / (k.Mp * 1))) ^ (3 / 2 : ℝ) * (k.e0 * k.Me) ^ 2) * y := fun y => by ring
  rw [a, a]
  nlinarith

/-! ## Ions -/

/-- **C91.**  Ions with ions: the frequency of the textbook; for ions of one kind Braginskii's ion collision time. -/
theorem ion_ion {k : CollNorms} (hq : 0 < k.qe) (he : 0 < k.e0) (hP : 0 < k.Mp) {Z1 Z2 A1 A2 T1 T2 N1 N2 : ℝ} (h1 : 0 < A1) (h2 : 0 < A2)
    (t1 : 0.1 ≤ T1) (t2 : 0.1 ≤ T2) (n1 : 1e10 ≤ N1) (n2 : 1e10 ≤ N2) (hZ : 0 < Z1 * Z2) :
    ∃ Λ, |Λ - (23 - Real.log (Z1 * Z2 * (A1 + A2) / (A1 * T2 + A2 * T1) * Real.sqrt (N1 / 1e6 * Z1 ^ 2 / T1 + N2 / 1e6 * Z2 ^ 2 / T2)))| ≤ 0.01 ∧
      nuII k Z1 Z2 A1 A2 T1 T2 N1 N2 = spitzer k N2 (Z1 * Z2) (A1 * k.Mp) T1 (max Λ 1) * moving (A1 * k.Mp) (A2 * k.Mp) T1 T2 := by
  have fl : ∀ x : ℝ, floorTo x 1 = max x 1 := fun x => by
    unfold floorTo
    split
    · rw [max_eq_right (by linarith)]
    · rw [max_eq_left (by linarith)]
  refine ⟨29.91 - Real.log (Z1 * Z2 * (A1 + A2) / (A1 * T2 + A2 * T1) * Real.sqrt (N1 * Z1 ^ 2 / T1 + N2 * Z2 ^ 2 / T2)), ?_, ?_⟩
  · have z1 : Z1 ≠ 0 := left_ne_zero_of_mul hZ.ne'
    have p1 : 0 < N1 * Z1 ^ 2 / T1 + N2 * Z2 ^ 2 / T2 := by
      have a : 0 < N1 * Z1 ^ 2 / T1 := div_pos (mul_pos (by linarith) (by positivity)) (by linarith)
      have b : 0 ≤ N2 * Z2 ^ 2 / T2 := div_nonneg (mul_nonneg (by linarith) (by positivity)) (by linarith)
      linarith
    have e : N1 / 1e6 * Z1 ^ 2 / T1 + N2 / 1e6 * Z2 ^ 2 / T2 = (N1 * Z1 ^ 2 / T1 + N2 * Z2 ^ 2 / T2) / 1e6 := by ring
    have p2 : Z1 * Z2 * (A1 + A2) / (A1 * T2 + A2 * T1) ≠ 0 := by
      have : 0 < A1 * T2 + A2 * T1 := by nlinarith
      positivity
    rw [e, Real.log_mul p2 (by positivity), Real.log_mul p2 (by positivity), log_sqrt_density p1, Real.log_sqrt p1.le, abs_le]
    constructor <;> linarith [log10_lt, log10_gt]
  · unfold nuII
    dsimp only
    rw [floorTo_eq t1, floorTo_eq t2, floorTo_eq n1, floorTo_eq n2, fl, ← coulomb_form hq he (by positivity) (by positivity) (by linarith) (by linarith)]
    congr 1
    ring

theorem moving_same {m T : ℝ} (hm : 0 < m) (hT : 0 < T) : moving m m T T = 1 / Real.sqrt 2 := by
  unfold moving p32
  have s2 : (0 : ℝ) < Real.sqrt 2 := by positivity
  rw [div_self hm.ne', div_self (by positivity), one_add_one_eq_two]
  field_simp

/-! ## Neutrals -/

/-- **C91.**  Ions or neutrals with neutrals: density times cross-section times relative thermal speed, over the cyclotron frequency. -/
theorem with_neutrals {k : CollNorms} (hT : 0 < k.Tnorm) (hP : 0 < k.Mp) (hO : 0 < k.Omega_ci)
    (hr : k.rho_s0 * k.Omega_ci = Real.sqrt (k.qe * k.Tnorm / k.Mp)) (hq : 0 < k.qe) (a0 : ℝ) {A1 A2 T1 T2 : ℝ} (h1 : 0 < A1) (h2 : 0 < A2)
    (t1 : 0 ≤ T1) (t2 : 0 ≤ T2) (N : ℝ) :
    nuHard k a0 A1 A2 T1 T2 N = N * a0 * Real.sqrt (T1 * k.qe / (A1 * k.Mp) + T2 * k.qe / (A2 * k.Mp)) / k.Omega_ci := by
  unfold nuHard
  have e : T1 * k.qe / (A1 * k.Mp) + T2 * k.qe / (A2 * k.Mp) = (T1 / (k.Tnorm * A1) + T2 / (k.Tnorm * A2)) * (k.qe * k.Tnorm / k.Mp) := by field_simp
  rw [e, Real.sqrt_mul (by positivity), ← hr]
  field_simp

/-- **C91.**  Electrons with neutrals: the same, with the speed of the electrons. -/
theorem electron_neutral {k : CollNorms} (hT : 0 < k.Tnorm) (hP : 0 < k.Mp) (hM : 0 < k.Me) (hO : 0 < k.Omega_ci)
    (hr : k.rho_s0 * k.Omega_ci = Real.sqrt (k.qe * k.Tnorm / k.Mp)) (hq : 0 < k.qe) {Te : ℝ} (t : 0 ≤ Te) (Nn : ℝ) :
    nuEN k Te Nn = Nn * k.Nnorm * 5e-19 * Real.sqrt (Te * k.qe / k.Me) / k.Omega_ci := by
  unfold nuEN
  have e : Te * k.qe / k.Me = k.Mp / k.Me * Te / k.Tnorm * (k.qe * k.Tnorm / k.Mp) := by field_simp
  rw [e, Real.sqrt_mul (by positivity), ← hr]
  field_simp

/-! ## All collisions of the electrons -/

open Classical in
/-- Frequency of the collisions of electrons with species `n`. -/
noncomputable def electronPart (k : CollNorms) (o : CollOpts) (w : World ι) (n : String) (i : ι) : ℝ :=
  let Te := temperature w "e" i * k.Tnorm
  let Ne := density w "e" i * k.Nnorm
  if n = "e" then (if o.electron_electron then nuEE k Te Ne / k.Omega_ci else 0)
  else if 0 < charge w n then
    (if o.electron_ion then
      nuEI k o.ei_multiplier (charge w n) (mass w n) Te Ne (temperature w n i * k.Tnorm) (density w n i * k.Nnorm) / k.Omega_ci else 0)
  else if charge w n < 0 then 0
  else if o.electron_neutral then Real.sqrt (k.Mp / k.Me * (temperature w "e" i)) * (density w n i * k.Nnorm) * 5e-19 * k.rho_s0 else 0

theorem collide_e_frequency {fh : Bool} {n : String} {nu : Fld ι} {coef : ℝ} {w : World ι} {cs : List (Contrib Key ι)}
    (h : collide fh "e" n nu coef w = .ok cs) (i : ι) : signedSum (.sp "e" Var.collision_frequency) i cs = nu i := by
  rw [collide_ok_eq h]
  unfold collideOf
  split
  · simp
  · rename_i hne
    have hne : n ≠ "e" := fun h => hne h.symm
    simp only [signedSum_append]
    have a : ∀ b : Bool, signedSum (.sp "e" Var.collision_frequency) i (if b then
        heatExchangeOf "e" n nu (mass w "e") (mass w n) (w.fieldOr0 "e" Var.density) (w.fieldOr0 "e" Var.temperature) (w.fieldOr0 n Var.temperature)
        else []) = 0 := fun b => by cases b <;> simp [heatExchangeOf]
    have c : ∀ b : Bool, signedSum (.sp "e" Var.collision_frequency) i (if b then
        frictionOf fh "e" n nu coef (mass w "e") (mass w n) (w.fieldOr0 "e" Var.density) (w.fieldOr0 "e" Var.velocity) (w.fieldOr0 n Var.velocity)
        else []) = 0 := fun b => by cases b <;> cases fh <;> simp [frictionOf]
    rw [a, c]
    simp [hne]

theorem collide_other_frequency {fh : Bool} {s n : String} (hs : s ≠ "e") (hn : n ≠ "e") {nu : Fld ι} {coef : ℝ} {w : World ι} {cs : List (Contrib Key ι)}
    (h : collide fh s n nu coef w = .ok cs) (i : ι) : signedSum (.sp "e" Var.collision_frequency) i cs = 0 := by
  rw [collide_ok_eq h]
  unfold collideOf
  split
  · simp [hs]
  · simp only [signedSum_append]
    have a : ∀ b : Bool, signedSum (.sp "e" Var.collision_frequency) i (if b then
        heatExchangeOf s n nu (mass w s) (mass w n) (w.fieldOr0 s Var.density) (w.fieldOr0 s Var.temperature) (w.fieldOr0 n Var.temperature)
        else []) = 0 := fun b => by cases b <;> simp [heatExchangeOf]
    have c : ∀ b : Bool, signedSum (.sp "e" Var.collision_frequency) i (if b then
        frictionOf fh s n nu coef (mass w s) (mass w n) (w.fieldOr0 s Var.density) (w.fieldOr0 s Var.velocity) (w.fieldOr0 n Var.velocity)
        else []) = 0 := fun b => by cases b <;> cases fh <;> simp [frictionOf]
    rw [a, c]
    simp [hn, hs]

theorem electronWith_frequency {k : CollNorms} (hT0 : k.Tnorm ≠ 0) {o : CollOpts} {w : World ι} {Te Ne : Fld ι} (hT : w.field "e" Var.temperature = .ok Te)
    (hN : w.field "e" Var.density = .ok Ne) {n : String} {cs : List (Contrib Key ι)}
    (h : electronWith k o w (fun i => Te i * k.Tnorm) (fun i => Ne i * k.Nnorm) n = .ok cs) (i : ι) :
    signedSum (.sp "e" Var.collision_frequency) i cs = electronPart k o w n i := by
  have eT : temperature w "e" i = Te i := by unfold temperature; rw [field_ok hT]; rfl
  have eN : density w "e" i = Ne i := by unfold density; rw [field_ok hN]; rfl
  unfold electronWith at h
  unfold electronPart
  dsimp only at h ⊢
  rw [eT, eN]
  split at h
  · rename_i hn
    rw [if_pos hn]
    split at h
    · rename_i ho
      cases h
      rw [if_neg (by simp [ho])]
      rfl
    · rename_i ho
      rw [if_pos (by simpa using ho), collide_e_frequency h]
  rename_i hn
  rw [if_neg hn]
  split at h
  · rename_i hpos
    obtain ⟨z, hz, z0⟩ := hpos
    have hc : charge w n = z := by unfold charge; rw [hz]; rfl
    rw [hc, if_pos z0]
    split at h
    · rename_i ho
      cases h
      rw [if_neg (by simp [ho])]
      rfl
    · rename_i ho
      obtain ⟨Ti, hTi, h⟩ := bind_ok h
      obtain ⟨Ni, hNi, h⟩ := bind_ok h
      obtain ⟨Z, hZ, h⟩ := bind_ok h
      obtain ⟨A, hA, h⟩ := bind_ok h
      have e1 : temperature w n i = Ti i := by unfold temperature; rw [field_ok hTi]; rfl
      have e2 : density w n i = Ni i := by unfold density; rw [field_ok hNi]; rfl
      have e3 : z = Z := by have := real_ok hZ; rw [hz] at this; exact Option.some.inj this
      rw [if_pos (by simpa using ho), collide_e_frequency h, e1, e2, real_mass hA, e3]
  rename_i hpos
  have np : ¬0 < charge w n := fun h0 => hpos (by
    unfold charge at h0
    cases hq : w.num n Var.charge with
    | none => rw [hq] at h0; exact absurd h0 (lt_irrefl _)
    | some z => rw [hq] at h0; exact ⟨z, hq, h0⟩)
  rw [if_neg np]
  split at h
  · rename_i hneg
    obtain ⟨z, hz, z0⟩ := hneg
    have hc : charge w n = z := by unfold charge; rw [hz]; rfl
    rw [hc, if_pos z0]
    cases h
    rfl
  rename_i hneg
  have nn : ¬charge w n < 0 := fun h0 => hneg (by
    unfold charge at h0
    cases hq : w.num n Var.charge with
    | none => rw [hq] at h0; exact absurd h0 (lt_irrefl _)
    | some z => rw [hq] at h0; exact ⟨z, hq, h0⟩)
  rw [if_neg nn]
  split at h
  · rename_i ho
    cases h
    rw [if_neg (by simp [ho])]
    rfl
  · rename_i ho
    obtain ⟨Nn, hNn, h⟩ := bind_ok h
    obtain ⟨_, _, h⟩ := bind_ok h
    have e2 : density w n i = Nn i := by unfold density; rw [field_ok hNn]; rfl
    rw [if_pos (by simpa using ho), collide_e_frequency h, e2]
    unfold nuEN
    have : k.Mp / k.Me * (Te i * k.Tnorm) / k.Tnorm = k.Mp / k.Me * Te i := by field_simp
    rw [this]
    ring

theorem heavyWith_frequency {k : CollNorms} {o : CollOpts} {w : World ι} {n : String} {rest : List String} {cs : List (Contrib Key ι)}
    (h : heavyWith k o w n rest = .ok cs) (i : ι) : signedSum (.sp "e" Var.collision_frequency) i cs = 0 := by
  have app : ∀ a b : List (Contrib Key ι), signedSum (.sp "e" Var.collision_frequency) i a = 0 → signedSum (.sp "e" Var.collision_frequency) i b = 0 →
      signedSum (.sp "e" Var.collision_frequency) i (a ++ b) = 0 := fun a b ha hb => by rw [signedSum_append, ha, hb, add_zero]
  have hs : ∀ a0 m x1 x2 cs, n ≠ "e" → m ≠ "e" → hardSphere k o w a0 n m x1 x2 = .ok cs → signedSum (.sp "e" Var.collision_frequency) i cs = 0 :=
    fun a0 m x1 x2 cs hn hm h => by
      unfold hardSphere at h
      obtain ⟨_, _, h⟩ := bind_ok h
      exact collide_other_frequency hn hm h i
  unfold heavyWith at h
  split at h
  · cases h; rfl
  rename_i hn
  push Not at hn
  obtain ⟨x1, _, h⟩ := bind_ok h
  split at h
  · refine collectM_closed (P := fun cs => signedSum (.sp "e" Var.collision_frequency) i cs = 0) rfl app (fun m _ cs h => ?_) h
    unfold chargedWith at h
    split at h
    · cases h; rfl
    rename_i hm
    push Not at hm
    obtain ⟨x2, _, h⟩ := bind_ok h
    split at h
    · split at h
      · cases h; rfl
      unfold ionIon at h
      obtain ⟨_, _, h⟩ := bind_ok h
      obtain ⟨_, _, h⟩ := bind_ok h
      obtain ⟨_, _, h⟩ := bind_ok h
      exact collide_other_frequency hn.1 hm.1 h i
    · exact hs _ _ _ _ _ hn.1 hm.1 h
  · refine collectM_closed (P := fun cs => signedSum (.sp "e" Var.collision_frequency) i cs = 0) rfl app (fun m _ cs h => ?_) h
    unfold neutralWith at h
    split at h
    · cases h; rfl
    rename_i hm
    obtain ⟨x2, _, h⟩ := bind_ok h
    split at h
    · split at h
      · cases h; rfl
      · exact hs _ _ _ _ _ hn.1 hm h
    · split at h
      · cases h; rfl
      · exact hs _ _ _ _ _ hn.1 hm h

theorem heavyLoop_frequency {k : CollNorms} {o : CollOpts} {w : World ι} (i : ι) : ∀ (ns : List String) {cs : List (Contrib Key ι)},
    heavyLoop k o w ns = .ok cs → signedSum (.sp "e" Var.collision_frequency) i cs = 0
  | [], cs, h => by cases h; rfl
  | n :: ns, cs, h => by
    unfold heavyLoop at h
    obtain ⟨a, ha, h⟩ := bind_ok h
    obtain ⟨b, hb, h⟩ := bind_ok h
    cases h
    rw [signedSum_append, heavyWith_frequency ha, heavyLoop_frequency i ns hb, add_zero]

/-- **C91.**  The collision frequency of the electrons, which heat conduction, viscosity and resistivity use, is the sum over the other species of the
frequencies that are switched on; collisions among heavy particles do not enter. -/
theorem electron_collision_frequency (k : CollNorms) (hT0 : k.Tnorm ≠ 0) (o : CollOpts) (names : List String) (he : "e" ∈ names) (w : World ι)
    (hu : SourcesUnread w.st) (after : Store Key (Fld ι)) (h : SourceComponent.transform (collisions k o names) w = (.ok (), after)) (i : ι) :
    gain w.st after "e" Var.collision_frequency i = (names.map fun n => electronPart k o w n i).sum := by
  obtain ⟨cs, hcs, hrun⟩ := transform_ok h
  obtain ⟨l, hl, hF⟩ := collisions_events (k := k) (o := o) (names := names) (w := w) o.frictional_heating cs hcs
  have hk : KeysIn names [Var.momentum_source, Var.energy_source, Var.collision_frequency] cs := by
    have e : cs = l.flatMap (collideOf o.frictional_heating w) := by
      have := hcs.symm.trans (hF o.frictional_heating)
      exact Except.ok.inj this
    rw [e]
    exact keysIn_flatMap _ _ _ _ fun e he => collideOf_keys _ w e names (hl e he).1 (hl e he).2.1
  obtain ⟨after', e1, -, e3⟩ := contributeAll_gain cs w.st names _ hk (by simp) hu
  have : after' = after := by have := hrun.symm.trans e1; cases this; rfl
  subst this
  rw [e3]
  unfold collisions at hcs
  obtain ⟨a, ha, hcs⟩ := bind_ok hcs
  obtain ⟨b, hb, hcs⟩ := bind_ok hcs
  cases hcs
  rw [signedSum_append, heavyLoop_frequency i names hb, add_zero]
  unfold electronLoop at ha
  rw [if_pos he] at ha
  obtain ⟨Te, hTe, ha⟩ := bind_ok ha
  obtain ⟨Ne, hNe, ha⟩ := bind_ok ha
  rw [collectM_map _ (signedSum (.sp "e" Var.collision_frequency) i) (· + ·) 0 rfl (fun a b => signedSum_append _ _ a b)
    (fun n => electronPart k o w n i) (fun n x hx => electronWith_frequency hT0 hTe hNe hx i) names _ ha]
  have fold : ∀ (f : String → ℝ) (l : List String), l.foldr (fun a r => f a + r) 0 = (l.map f).sum := fun f l => by
    induction l with
    | nil => rfl
    | cons a l ih => rw [List.foldr_cons, ih, List.map_cons, List.sum_cons]
  exact fold _ names

/-! ## All collisions of atoms and ions -/

/-- What a collision with frequency `nu` of `a` with `b` adds to the collision frequency of species `s`: `nu` for `a`, and for `b` the
frequency with the same exchange of momentum. -/
noncomputable def share (w : World ι) (s a b : String) (nu : ℝ) (i : ι) : ℝ :=
  (if a = s then nu else 0) + (if a ≠ b ∧ b = s then nu * (mass w a / mass w b) * density w a i / max (density w b i) 1e-5 else 0)

/-- Particles `a` hit particles `b` with cross-section `σ` (in m²); normalised. -/
noncomputable def hardRate (k : CollNorms) (σ : ℝ) (w : World ι) (a b : String) (i : ι) : ℝ :=
  Real.sqrt (temperature w a i / mass w a + temperature w b i / mass w b) * (density w b i * k.Nnorm) * σ * k.rho_s0

open Classical in
/-- Frequency of the collisions of the heavy species `a` with `b`, where `a` does not come after `b`: Coulomb collisions of ions, `5e-19 m²` for ions and
neutrals, a kinetic diameter of `2.8 Å` for neutrals. -/
noncomputable def heavyPart (k : CollNorms) (o : CollOpts) (w : World ι) (a b : String) (i : ι) : ℝ :=
  if a = "e" ∨ a = "ebeam" ∨ b = "e" then 0
  else if charge w a ≠ 0 then
    if b = "ebeam" then 0
    else if charge w b ≠ 0 then
      (if o.ion_ion then nuII k (charge w a) (charge w b) (mass w a) (mass w b) (temperature w a i * k.Tnorm) (temperature w b i * k.Tnorm)
        (density w a i * k.Nnorm) (density w b i * k.Nnorm) / k.Omega_ci else 0)
    else hardRate k 5e-19 w a b i
  else if (w.num b Var.charge).isSome then (if o.ion_neutral then hardRate k 5e-19 w a b i else 0)
  else if o.neutral_neutral then hardRate k (Real.pi * (2.8e-10) ^ 2) w a b i else 0

theorem floorTo_max (x lo : ℝ) : floorTo x lo = max x lo := by
  unfold floorTo
  split
  · rename_i h; exact (max_eq_right h.le).symm
  · rename_i h; exact (max_eq_left (not_lt.1 h)).symm

theorem collide_frequency {fh : Bool} {a b : String} {nu : Fld ι} {coef : ℝ} {w : World ι} {cs : List (Contrib Key ι)}
    (h : collide fh a b nu coef w = .ok cs) (s : String) (i : ι) :
    signedSum (.sp s Var.collision_frequency) i cs = share w s a b (nu i) i := by
  rw [collide_ok_eq h]
  unfold collideOf share
  split
  · rename_i hab
    have hab : a = b := hab
    simp [hab]
  · rename_i hab
    have hab : a ≠ b := hab
    simp only [signedSum_append]
    have x : ∀ c : Bool, signedSum (.sp s Var.collision_frequency) i (if c then
        heatExchangeOf a b nu (mass w a) (mass w b) (w.fieldOr0 a Var.density) (w.fieldOr0 a Var.temperature) (w.fieldOr0 b Var.temperature)
        else []) = 0 := fun c => by cases c <;> simp [heatExchangeOf]
    have y : ∀ c : Bool, signedSum (.sp s Var.collision_frequency) i (if c then
        frictionOf fh a b nu coef (mass w a) (mass w b) (w.fieldOr0 a Var.density) (w.fieldOr0 a Var.velocity) (w.fieldOr0 b Var.velocity)
        else []) = 0 := fun c => by cases c <;> cases fh <;> simp [frictionOf]
    rw [x, y]
    simp [hab, floorTo_max, fieldOr0_density]

theorem share_zero (w : World ι) (s a b : String) (i : ι) : share w s a b 0 i = 0 := by simp [share]

theorem hardSphere_frequency {k : CollNorms} (hT0 : k.Tnorm ≠ 0) {o : CollOpts} {w : World ι} {a0 : ℝ} {a b : String} {x y : HeavyInput ι}
    (hx : readHeavy k w a = .ok x) (hy : readHeavy k w b = .ok y) {cs : List (Contrib Key ι)} (h : hardSphere k o w a0 a b x y = .ok cs) (s : String) (i : ι) :
    signedSum (.sp s Var.collision_frequency) i cs = share w s a b (hardRate k a0 w a b i) i := by
  unfold hardSphere at h
  obtain ⟨_, _, h⟩ := bind_ok h
  rw [collide_frequency h]
  obtain ⟨Na, hNa, hx⟩ := bind_ok hx
  obtain ⟨A, hA, hx⟩ := bind_ok hx
  obtain ⟨Nb, hNb, hy⟩ := bind_ok hy
  obtain ⟨B, hB, hy⟩ := bind_ok hy
  cases hx
  cases hy
  have e2 : density w b i = Nb i := by unfold density; rw [field_ok hNb]; rfl
  congr 1
  unfold nuHard hardRate
  simp only [fieldOr0_temperature, real_mass hA, real_mass hB, e2]
  have e : ∀ T A : ℝ, T * k.Tnorm / (k.Tnorm * A) = T / A := fun T A => by rw [mul_comm T, mul_div_mul_left _ _ hT0]
  rw [e, e]

open Classical in
theorem heavyWith_share {k : CollNorms} (hT0 : k.Tnorm ≠ 0) {o : CollOpts} {w : World ι} {a : String} {rest : List String} {cs : List (Contrib Key ι)}
    (h : heavyWith k o w a rest = .ok cs) (s : String) (i : ι) :
    signedSum (.sp s Var.collision_frequency) i cs = (rest.map fun b => share w s a b (heavyPart k o w a b i) i).sum := by
  have fold : ∀ (f : String → ℝ) (l : List String), l.foldr (fun a r => f a + r) 0 = (l.map f).sum := fun f l => by
    induction l with
    | nil => rfl
    | cons a l ih => rw [List.foldr_cons, ih, List.map_cons, List.sum_cons]
  have chg : ∀ n, w.charged n ↔ charge w n ≠ 0 := fun n => by
    unfold World.charged charge
    cases w.num n Var.charge <;> simp
  unfold heavyWith at h
  split at h
  · rename_i ha
    cases h
    have : ∀ b, share w s a b (heavyPart k o w a b i) i = 0 := fun b => by
      have : heavyPart k o w a b i = 0 := by unfold heavyPart; rw [if_pos (by tauto)]
      rw [this, share_zero]
    simp [this]
  rename_i ha
  push Not at ha
  obtain ⟨x, hx, h⟩ := bind_ok h
  split at h
  · rename_i hc
    have hc := (chg a).1 hc
    rw [collectM_map _ (signedSum (.sp s Var.collision_frequency) i) (· + ·) 0 rfl (fun a b => signedSum_append _ _ a b)
      (fun b => share w s a b (heavyPart k o w a b i) i) ?_ _ _ h]
    · exact fold _ _
    intro b cs h
    unfold chargedWith at h
    split at h
    · rename_i hb
      cases h
      have : heavyPart k o w a b i = 0 := by
        unfold heavyPart
        split_ifs with h1 h2 <;> first | rfl | (exfalso; tauto)
      rw [this, share_zero]
      rfl
    rename_i hb
    push Not at hb
    have h0 : ¬(a = "e" ∨ a = "ebeam" ∨ b = "e") := by tauto
    obtain ⟨y, hy, h⟩ := bind_ok h
    unfold heavyPart
    rw [if_neg h0, if_pos hc, if_neg hb.2]
    split at h
    · rename_i hcb
      rw [if_pos ((chg b).1 hcb)]
      split at h
      · rename_i ho
        cases h
        rw [if_neg (by simp [ho]), share_zero]
        rfl
      · rename_i ho
        rw [if_pos (by simpa using ho)]
        unfold ionIon at h
        obtain ⟨Z1, hZ1, h⟩ := bind_ok h
        obtain ⟨Z2, hZ2, h⟩ := bind_ok h
        obtain ⟨_, _, h⟩ := bind_ok h
        rw [collide_frequency h]
        obtain ⟨Na, hNa, hx⟩ := bind_ok hx
        obtain ⟨A, hA, hx⟩ := bind_ok hx
        obtain ⟨Nb, hNb, hy⟩ := bind_ok hy
        obtain ⟨B, hB, hy⟩ := bind_ok hy
        cases hx
        cases hy
        have e1 : density w a i = Na i := by unfold density; rw [field_ok hNa]; rfl
        have e2 : density w b i = Nb i := by unfold density; rw [field_ok hNb]; rfl
        have z1 : charge w a = Z1 := by unfold charge; rw [real_ok hZ1]; rfl
        have z2 : charge w b = Z2 := by unfold charge; rw [real_ok hZ2]; rfl
        simp only [fieldOr0_temperature, real_mass hA, real_mass hB, e1, e2, z1, z2]
    · rename_i hcb
      rw [if_neg fun e => hcb ((chg b).2 e), hardSphere_frequency hT0 hx hy h]
      unfold a0Ion
      rfl
  · rename_i hc
    have hc : ¬charge w a ≠ 0 := fun e => hc ((chg a).2 e)
    rw [collectM_map _ (signedSum (.sp s Var.collision_frequency) i) (· + ·) 0 rfl (fun a b => signedSum_append _ _ a b)
      (fun b => share w s a b (heavyPart k o w a b i) i) ?_ _ _ h]
    · exact fold _ _
    intro b cs h
    unfold neutralWith at h
    split at h
    · rename_i hb
      cases h
      have : heavyPart k o w a b i = 0 := by unfold heavyPart; rw [if_pos (by tauto)]
      rw [this, share_zero]
      rfl
    rename_i hb
    have h0 : ¬(a = "e" ∨ a = "ebeam" ∨ b = "e") := by tauto
    obtain ⟨y, hy, h⟩ := bind_ok h
    unfold heavyPart
    rw [if_neg h0, if_neg hc]
    split at h
    · rename_i hq
      rw [if_pos hq]
      split at h
      · rename_i ho
        cases h
        rw [if_neg (by simp [ho]), share_zero]
        rfl
      · rename_i ho
        rw [if_pos (by simpa using ho), hardSphere_frequency hT0 hx hy h]
        unfold a0Ion
        rfl
    · rename_i hq
      rw [if_neg hq]
      split at h
      · rename_i ho
        cases h
        rw [if_neg (by simp [ho]), share_zero]
        rfl
      · rename_i ho
        rw [if_pos (by simpa using ho), hardSphere_frequency hT0 hx hy h]
        unfold a0Neutral
        rfl

theorem heavyLoop_share {k : CollNorms} (hT0 : k.Tnorm ≠ 0) {o : CollOpts} {w : World ι} (s : String) (i : ι) : ∀ (ns : List String)
    {cs : List (Contrib Key ι)}, heavyLoop k o w ns = .ok cs →
    signedSum (.sp s Var.collision_frequency) i cs = pairSum (fun a b => share w s a b (heavyPart k o w a b i) i) ns
  | [], cs, h => by cases h; rfl
  | n :: ns, cs, h => by
    unfold heavyLoop at h
    obtain ⟨a, ha, h⟩ := bind_ok h
    obtain ⟨b, hb, h⟩ := bind_ok h
    cases h
    rw [signedSum_append, heavyWith_share hT0 ha, heavyLoop_share hT0 s i ns hb]
    rfl

theorem electronWith_share {k : CollNorms} (hT0 : k.Tnorm ≠ 0) {o : CollOpts} {w : World ι} {Te Ne : Fld ι} (hT : w.field "e" Var.temperature = .ok Te)
    (hN : w.field "e" Var.density = .ok Ne) {n : String} {cs : List (Contrib Key ι)}
    (h : electronWith k o w (fun i => Te i * k.Tnorm) (fun i => Ne i * k.Nnorm) n = .ok cs) (s : String) (i : ι) :
    signedSum (.sp s Var.collision_frequency) i cs = share w s "e" n (electronPart k o w n i) i := by
  have eT : temperature w "e" i = Te i := by unfold temperature; rw [field_ok hT]; rfl
  have eN : density w "e" i = Ne i := by unfold density; rw [field_ok hN]; rfl
  unfold electronWith at h
  unfold electronPart
  dsimp only at h ⊢
  rw [eT, eN]
  split at h
  · rename_i hn
    rw [if_pos hn]
    split at h
    · rename_i ho
      cases h
      rw [if_neg (by simp [ho]), share_zero]
      rfl
    · rename_i ho
      rw [if_pos (by simpa using ho), collide_frequency h, hn]
  rename_i hn
  rw [if_neg hn]
  split at h
  · rename_i hpos
    obtain ⟨z, hz, z0⟩ := hpos
    have hc : charge w n = z := by unfold charge; rw [hz]; rfl
    rw [hc, if_pos z0]
    split at h
    · rename_i ho
      cases h
      rw [if_neg (by simp [ho]), share_zero]
      rfl
    · rename_i ho
      obtain ⟨Ti, hTi, h⟩ := bind_ok h
      obtain ⟨Ni, hNi, h⟩ := bind_ok h
      obtain ⟨Z, hZ, h⟩ := bind_ok h
      obtain ⟨A, hA, h⟩ := bind_ok h
      have e1 : temperature w n i = Ti i := by unfold temperature; rw [field_ok hTi]; rfl
      have e2 : density w n i = Ni i := by unfold density; rw [field_ok hNi]; rfl
      have e3 : z = Z := by have := real_ok hZ; rw [hz] at this; exact Option.some.inj this
      rw [if_pos (by simpa using ho), collide_frequency h, e1, e2, real_mass hA, e3]
  rename_i hpos
  have np : ¬0 < charge w n := fun h0 => hpos (by
    unfold charge at h0
    cases hq : w.num n Var.charge with
    | none => rw [hq] at h0; exact absurd h0 (lt_irrefl _)
    | some z => rw [hq] at h0; exact ⟨z, hq, h0⟩)
  rw [if_neg np]
  split at h
  · rename_i hneg
    obtain ⟨z, hz, z0⟩ := hneg
    have hc : charge w n = z := by unfold charge; rw [hz]; rfl
    rw [hc, if_pos z0, share_zero]
    cases h
    rfl
  rename_i hneg
  have nn : ¬charge w n < 0 := fun h0 => hneg (by
    unfold charge at h0
    cases hq : w.num n Var.charge with
    | none => rw [hq] at h0; exact absurd h0 (lt_irrefl _)
    | some z => rw [hq] at h0; exact ⟨z, hq, h0⟩)
  rw [if_neg nn]
  split at h
  · rename_i ho
    cases h
    rw [if_neg (by simp [ho]), share_zero]
    rfl
  · rename_i ho
    obtain ⟨Nn, hNn, h⟩ := bind_ok h
    obtain ⟨_, _, h⟩ := bind_ok h
    have e2 : density w n i = Nn i := by unfold density; rw [field_ok hNn]; rfl
    rw [if_pos (by simpa using ho), collide_frequency h, e2]
    unfold nuEN
    have : k.Mp / k.Me * (Te i * k.Tnorm) / k.Tnorm = k.Mp / k.Me * Te i := by field_simp
    rw [this]
    ring

/-- **C91.**  The collision frequency of every species is the sum over its collisions: with electrons, and with heavy species, each pair met once.  The
second species of a pair gets the frequency that conserves momentum, with its density floored at `1e-5`. -/
theorem collision_frequency (k : CollNorms) (hT0 : k.Tnorm ≠ 0) (o : CollOpts) (names : List String) (w : World ι)
    (hu : SourcesUnread w.st) (after : Store Key (Fld ι)) (h : SourceComponent.transform (collisions k o names) w = (.ok (), after)) (s : String) (i : ι) :
    gain w.st after s Var.collision_frequency i =
      (if "e" ∈ names then (names.map fun n => share w s "e" n (electronPart k o w n i) i).sum else 0)
      + pairSum (fun a b => share w s a b (heavyPart k o w a b i) i) names := by
  obtain ⟨cs, hcs, g⟩ := run_gain hu h
  rw [g]
  unfold collisions at hcs
  obtain ⟨a, ha, hcs⟩ := bind_ok hcs
  obtain ⟨b, hb, hcs⟩ := bind_ok hcs
  cases hcs
  rw [signedSum_append, heavyLoop_share hT0 s i names hb]
  congr 1
  unfold electronLoop at ha
  split at ha
  · rename_i he
    rw [if_pos he]
    obtain ⟨Te, hTe, ha⟩ := bind_ok ha
    obtain ⟨Ne, hNe, ha⟩ := bind_ok ha
    rw [collectM_map _ (signedSum (.sp s Var.collision_frequency) i) (· + ·) 0 rfl (fun a b => signedSum_append _ _ a b)
      (fun n => share w s "e" n (electronPart k o w n i) i) (fun n x hx => electronWith_share hT0 hTe hNe hx s i) names _ ha]
    have fold : ∀ (f : String → ℝ) (l : List String), l.foldr (fun a r => f a + r) 0 = (l.map f).sum := fun f l => by
      induction l with
      | nil => rfl
      | cons a l ih => rw [List.foldr_cons, ih, List.map_cons, List.sum_cons]
    exact fold _ names
  · rename_i he
    rw [if_neg he]
    cases ha
    rfl

/-- Two neutral gases: each collides with itself and with the other, with the cross-section `π (2.8 Å)²`. -/
theorem neutral_gases (k : CollNorms) (hT0 : k.Tnorm ≠ 0) (o : CollOpts) (ho : o.neutral_neutral = true) (a b : String) (hab : a ≠ b)
    (ha : a ≠ "e" ∧ a ≠ "ebeam") (hb : b ≠ "e" ∧ b ≠ "ebeam") (w : World ι) (qa : w.num a Var.charge = none) (qb : w.num b Var.charge = none)
    (hu : SourcesUnread w.st) (after : Store Key (Fld ι)) (h : SourceComponent.transform (collisions k o [a, b]) w = (.ok (), after)) (i : ι) :
    let σ := Real.pi * (2.8e-10) ^ 2
    gain w.st after a Var.collision_frequency i = hardRate k σ w a a i + hardRate k σ w a b i ∧
    gain w.st after b Var.collision_frequency i =
      hardRate k σ w b b i + hardRate k σ w a b i * (mass w a / mass w b) * density w a i / max (density w b i) 1e-5 := by
  intro σ
  have hp : ∀ c ∈ [a, b], ∀ d ∈ [a, b], heavyPart k o w c d i = hardRate k σ w c d i := by
    intro c hc d hd
    have n1 : w.num c Var.charge = none ∧ c ≠ "e" ∧ c ≠ "ebeam" := by
      simp only [List.mem_cons, List.not_mem_nil, or_false] at hc
      rcases hc with rfl | rfl
      · exact ⟨qa, ha⟩
      · exact ⟨qb, hb⟩
    have n2 : w.num d Var.charge = none ∧ d ≠ "e" ∧ d ≠ "ebeam" := by
      simp only [List.mem_cons, List.not_mem_nil, or_false] at hd
      rcases hd with rfl | rfl
      · exact ⟨qa, ha⟩
      · exact ⟨qb, hb⟩
    unfold heavyPart
    rw [if_neg (by tauto), if_neg (by simp [charge, n1.1]), if_neg (by simp [n2.1]), if_pos ho]
  have he : ¬"e" ∈ [a, b] := by
    simp only [List.mem_cons, List.not_mem_nil, or_false, not_or]
    exact ⟨ha.1.symm, hb.1.symm⟩
  have g := fun s => collision_frequency k hT0 o [a, b] w hu after h s i
  have p1 := hp a (by simp) a (by simp)
  have p2 := hp a (by simp) b (by simp)
  have p3 := hp b (by simp) b (by simp)
  rw [g a, g b, if_neg he, if_neg he]
  simp only [pairSum, List.map_cons, List.map_nil, List.sum_cons, List.sum_nil, p1, p2, p3]
  unfold share
  constructor
  · simp [hab, hab.symm]
  · simp [hab, hab.symm]
    ring

/-- The constants and the state of the examples are covered. -/
example : 0 < unit1.qe ∧ 0 < unit1.e0 ∧ 0 < unit1.Me ∧ 0 < unit1.Mp ∧ unit1.Tnorm ≠ 0 ∧ SourcesUnread plasma.st ∧
    ∀ o, ∃ after, SourceComponent.transform (collisions unit1 o ["d", "d+", "e"]) plasma = (.ok (), after) :=
  ⟨one_pos, one_pos, one_pos, one_pos, one_ne_zero, gas_unread, fun o => collisions_succeed unit1 o _ _ plasma_ready gas_unread⟩

end Hermes.Collisions
