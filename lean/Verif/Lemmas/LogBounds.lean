import Mathlib.Analysis.SpecialFunctions.Log.Deriv

/-!
# Rational bounds for logarithms and for polynomials of them
-/

namespace Hermes.LogBounds

/-- `log T` is between two rational numbers. -/
def LogIn (T : ℝ) (a b : ℚ) : Prop := 0 < T ∧ (a : ℝ) ≤ Real.log T ∧ Real.log T ≤ b

theorem LogIn.mono {T : ℝ} {a b a' b' : ℚ} (h : LogIn T a b) (h1 : a' ≤ a) (h2 : b ≤ b') : LogIn T a' b' :=
  ⟨h.1, (Rat.cast_le.2 h1).trans h.2.1, h.2.2.trans (Rat.cast_le.2 h2)⟩

theorem LogIn.mul {T U : ℝ} {a b c d : ℚ} (h : LogIn T a b) (h' : LogIn U c d) : LogIn (T * U) (a + c) (b + d) := by
  refine ⟨mul_pos h.1 h'.1, ?_, ?_⟩
  · rw [Real.log_mul h.1.ne' h'.1.ne', Rat.cast_add]; exact add_le_add h.2.1 h'.2.1
  · rw [Real.log_mul h.1.ne' h'.1.ne', Rat.cast_add]; exact add_le_add h.2.2 h'.2.2

theorem LogIn.inv {T : ℝ} {a b : ℚ} (h : LogIn T a b) : LogIn T⁻¹ (-b) (-a) := by
  refine ⟨inv_pos.2 h.1, ?_, ?_⟩
  · rw [Real.log_inv, Rat.cast_neg]; exact neg_le_neg h.2.2
  · rw [Real.log_inv, Rat.cast_neg]; exact neg_le_neg h.2.1

theorem LogIn.pow {T : ℝ} {a b : ℚ} (h : LogIn T a b) (n : ℕ) : LogIn (T ^ n) (n * a) (n * b) := by
  refine ⟨pow_pos h.1 n, ?_, ?_⟩
  · rw [Real.log_pow, Rat.cast_mul, Rat.cast_natCast]; exact mul_le_mul_of_nonneg_left h.2.1 n.cast_nonneg
  · rw [Real.log_pow, Rat.cast_mul, Rat.cast_natCast]; exact mul_le_mul_of_nonneg_left h.2.2 n.cast_nonneg

/-- `n` terms of the series of `-log (1 - x)`; `p` is the power, `i` the number of the term before. -/
def series (x : ℚ) : ℕ → ℚ → ℕ → ℚ
  | 0, _, _ => 0
  | n + 1, p, i => p * x / (i + 1) + series x n (p * x) (i + 1)

theorem series_eq (x : ℚ) (n : ℕ) (p : ℚ) (i : ℕ) :
    ((series x n p i : ℚ) : ℝ) = ∑ k ∈ Finset.range n, (p : ℝ) * (x : ℝ) ^ (k + 1) / ((i + k : ℕ) + 1) := by
  induction n generalizing p i with
  | zero => simp [series]
  | succ n ih =>
    rw [series, Rat.cast_add, ih, Finset.sum_range_succ']
    push_cast
    rw [add_comm]
    congr 1
    · refine Finset.sum_congr rfl fun k _ => ?_
      congr 1
      · ring
      · ring
    · simp

/-- `x` is 0 or positive: bounds by `n` terms of the series. -/
theorem logIn_series {x : ℚ} (h0 : 0 ≤ x) (h1 : x < 1) (n : ℕ) :
    LogIn (1 - (x : ℝ)) (-series x n 1 0 - x ^ (n + 1) / (1 - x)) (-series x n 1 0 + x ^ (n + 1) / (1 - x)) := by
  have h0' : (0 : ℝ) ≤ x := by exact_mod_cast h0
  have h1' : (x : ℝ) < 1 := by exact_mod_cast h1
  have h := Real.abs_log_sub_add_sum_range_le (x := (x : ℝ)) (by rwa [abs_of_nonneg h0']) n
  rw [abs_of_nonneg h0'] at h
  have e : ((series x n 1 0 : ℚ) : ℝ) = ∑ i ∈ Finset.range n, (x : ℝ) ^ (i + 1) / (i + 1) := by
    rw [series_eq]
    refine Finset.sum_congr rfl fun k _ => ?_
    simp
  rw [← e] at h
  obtain ⟨h2, h3⟩ := abs_le.1 h
  refine ⟨by linarith, ?_, ?_⟩
  · push_cast; linarith
  · push_cast; linarith

/-- The number `c` as a power of 2 times a number between 1/2 and 1. -/
theorem logIn_const {two_lo two_hi : ℚ} (h2 : LogIn 2 two_lo two_hi) (c : ℚ) (k : ℕ) (n : ℕ) {lo hi : ℚ} (hc : 0 ≤ 1 - c * 2 ^ k ∧ 1 - c * 2 ^ k < 1)
    (hlo : lo ≤ -series (1 - c * 2 ^ k) n 1 0 - (1 - c * 2 ^ k) ^ (n + 1) / (1 - (1 - c * 2 ^ k)) + -(k * two_hi))
    (hhi : -series (1 - c * 2 ^ k) n 1 0 + (1 - c * 2 ^ k) ^ (n + 1) / (1 - (1 - c * 2 ^ k)) + -(k * two_lo) ≤ hi) : LogIn (c : ℝ) lo hi := by
  have h := ((logIn_series hc.1 hc.2 n).mul (h2.pow k).inv).mono hlo hhi
  have e : (1 - ((1 - c * 2 ^ k : ℚ) : ℝ)) * (2 ^ k)⁻¹ = c := by
    push_cast
    have : (2 : ℝ) ^ k ≠ 0 := by positivity
    field_simp
    ring
  rwa [e] at h

/-! ## Polynomials -/

/-- `p * (c₀ + c₁ L + c₂ L² + …)`. -/
noncomputable def poly (L : ℝ) : List ℚ → ℝ → ℝ
  | [], _ => 0
  | c :: cs, p => c * p + poly L cs (p * L)

/-- Largest value with `L` between `a` and `b`, `p` between `pa` and `pb`. -/
def polyHi (a b : ℚ) : List ℚ → ℚ → ℚ → ℚ
  | [], _, _ => 0
  | c :: cs, pa, pb => (if 0 ≤ c then c * pb else c * pa) + polyHi a b cs (pa * a) (pb * b)

/-- Smallest value. -/
def polyLo (a b : ℚ) : List ℚ → ℚ → ℚ → ℚ
  | [], _, _ => 0
  | c :: cs, pa, pb => (if 0 ≤ c then c * pa else c * pb) + polyLo a b cs (pa * a) (pb * b)

theorem poly_le {L : ℝ} {a b : ℚ} (ha : 0 ≤ a) (hL : (a : ℝ) ≤ L ∧ L ≤ b) (cs : List ℚ) {pa pb : ℚ} {p : ℝ} (hpa : 0 ≤ pa)
    (hp : (pa : ℝ) ≤ p ∧ p ≤ pb) : (polyLo a b cs pa pb : ℝ) ≤ poly L cs p ∧ poly L cs p ≤ polyHi a b cs pa pb := by
  induction cs generalizing pa pb p with
  | nil => simp [poly, polyHi, polyLo]
  | cons c cs ih =>
    have ha' : (0 : ℝ) ≤ a := by exact_mod_cast ha
    have hpa' : (0 : ℝ) ≤ pa := by exact_mod_cast hpa
    obtain ⟨i1, i2⟩ := ih (pa := pa * a) (pb := pb * b) (p := p * L) (mul_nonneg hpa ha)
      ⟨by push_cast; exact mul_le_mul hp.1 hL.1 ha' (hpa'.trans hp.1),
       by push_cast; exact mul_le_mul hp.2 hL.2 (ha'.trans hL.1) ((hpa'.trans hp.1).trans hp.2)⟩
    rw [poly, polyHi, polyLo]
    by_cases hc : 0 ≤ c
    · have hc' : (0 : ℝ) ≤ c := by exact_mod_cast hc
      rw [if_pos hc, if_pos hc]
      push_cast
      exact ⟨add_le_add (mul_le_mul_of_nonneg_left hp.1 hc') i1, add_le_add (mul_le_mul_of_nonneg_left hp.2 hc') i2⟩
    · have hc' : (c : ℝ) ≤ 0 := by exact_mod_cast (not_le.1 hc).le
      rw [if_neg hc, if_neg hc]
      push_cast
      exact ⟨add_le_add (mul_le_mul_of_nonpos_left hp.2 hc') i1, add_le_add (mul_le_mul_of_nonpos_left hp.1 hc') i2⟩

/-- Bounds for a polynomial of `log T`. -/
theorem poly_bounds {T : ℝ} {a b : ℚ} (h : LogIn T a b) (ha : 0 ≤ a) (cs : List ℚ) {lo hi : ℚ} (hlo : lo ≤ polyLo a b cs 1 1) (hhi : polyHi a b cs 1 1 ≤ hi) :
    (lo : ℝ) ≤ poly (Real.log T) cs 1 ∧ poly (Real.log T) cs 1 ≤ hi := by
  obtain ⟨h1, h2⟩ := poly_le ha h.2 cs (pa := 1) (pb := 1) (p := 1) zero_le_one (by norm_num)
  exact ⟨(Rat.cast_le.2 hlo).trans h1, h2.trans (Rat.cast_le.2 hhi)⟩

/-! ## Logarithms of 2, 3 and 5 -/

theorem logs : LogIn 2 (693147180559945309417232 / 10 ^ 24) (693147180559945309417233 / 10 ^ 24) ∧
    LogIn 3 (1098612288668109691395245 / 10 ^ 24) (1098612288668109691395246 / 10 ^ 24) ∧
    LogIn 5 (1609437912434100374600759 / 10 ^ 24) (1609437912434100374600760 / 10 ^ 24) := by
  have h1 := (logIn_series (x := 1 / 16) (by norm_num) (by norm_num) 24).inv
  have h2 := (logIn_series (x := 1 / 25) (by norm_num) (by norm_num) 22).inv
  have h3 := (logIn_series (x := 1 / 81) (by norm_num) (by norm_num) 20).inv
  have e2 : ((1 - ((1 / 16 : ℚ) : ℝ))⁻¹) ^ 7 * ((1 - ((1 / 25 : ℚ) : ℝ))⁻¹) ^ 5 * ((1 - ((1 / 81 : ℚ) : ℝ))⁻¹) ^ 3 = 2 := by norm_num
  have e3 : ((1 - ((1 / 16 : ℚ) : ℝ))⁻¹) ^ 11 * ((1 - ((1 / 25 : ℚ) : ℝ))⁻¹) ^ 8 * ((1 - ((1 / 81 : ℚ) : ℝ))⁻¹) ^ 5 = 3 := by norm_num
  have e5 : ((1 - ((1 / 16 : ℚ) : ℝ))⁻¹) ^ 16 * ((1 - ((1 / 25 : ℚ) : ℝ))⁻¹) ^ 12 * ((1 - ((1 / 81 : ℚ) : ℝ))⁻¹) ^ 7 = 5 := by norm_num
  refine ⟨?_, ?_, ?_⟩
  · have := ((h1.pow 7).mul (h2.pow 5)).mul (h3.pow 3)
    rw [e2] at this
    exact this.mono (by decide +kernel) (by decide +kernel)
  · have := ((h1.pow 11).mul (h2.pow 8)).mul (h3.pow 5)
    rw [e3] at this
    exact this.mono (by decide +kernel) (by decide +kernel)
  · have := ((h1.pow 16).mul (h2.pow 12)).mul (h3.pow 7)
    rw [e5] at this
    exact this.mono (by decide +kernel) (by decide +kernel)

end Hermes.LogBounds
