import Verif.Props.Radiation
import Verif.Lemmas.LogBounds
import Mathlib.Analysis.SpecialFunctions.Pow.Continuity
import Mathlib.Analysis.Complex.ExponentialBounds

/-!
# C85: cooling curves and rate coefficients without jumps
-/

set_option linter.unusedTactic false

namespace Hermes.Curves
open Hermes.LogBounds

/-! ## Specification -/

/-- Temperatures near `T` give the same up to the factor `1 + r`. -/
def NoJumpAt (f : ℝ → ℝ) (r T : ℝ) : Prop := ∃ δ > 0, ∀ T', |T' - T| < δ → f T' ≤ (1 + r) * f T ∧ f T ≤ (1 + r) * f T'

/-! ## Fits -/

/-- `f` is the exponential of a polynomial of `log T` between `lo` and `hi`, and constant on both sides. -/
structure IsFit (f : ℝ → ℝ) (lo hi below above : ℝ) (cs : List ℚ) : Prop where
  pos : 0 < lo ∧ lo < hi ∧ 0 < below ∧ 0 < above
  inside : ∀ T, lo ≤ T → T ≤ hi → f T = Real.exp (poly (Real.log T) cs 1)
  left : ∀ T, T < lo → f T = below
  right : ∀ T, hi < T → f T = above

/-- Coefficients of the fit. -/
def argonCoefs : List ℚ := [-(845410692 / 10 ^ 7), 157727040 / 10 ^ 7, -(154264860 / 10 ^ 7), 149409902 / 10 ^ 7, -(104815113 / 10 ^ 7), 500924595 / 10 ^ 8, -(160029106 / 10 ^ 8), 329455609 / 10 ^ 9, -(414036827 / 10 ^ 10), 287063206 / 10 ^ 11, -(838888002 / 10 ^ 13)]

theorem argon_fit : IsFit Cooling.argon_adas (3/2) 1500 (1.95353412e-35) 1.22649600e-32 argonCoefs := by
  refine ⟨by norm_num, fun T h1 h2 => ?_, fun T h => ?_, fun T h => ?_⟩
  · unfold Cooling.argon_adas
    rw [if_pos ⟨by norm_num; linarith, by norm_num; linarith⟩]
    refine congrArg Real.exp ?_
    norm_num [argonCoefs, poly]
    ring
  · unfold Cooling.argon_adas
    rw [if_neg (by intro hc; have := hc.1; norm_num at this; linarith), if_pos (by norm_num; linarith)]
  · unfold Cooling.argon_adas
    rw [if_neg (by intro hc; have := hc.2; linarith), if_neg (by norm_num; linarith)]

/-- Coefficients of the fit. -/
def neonCoefs : List ℚ := [-(821475117 / 10 ^ 7), 128929854 / 10 ^ 7, -(474266289 / 10 ^ 7), 745222324 / 10 ^ 7, -(575710722 / 10 ^ 7), 257375965 / 10 ^ 7, -(712758563 / 10 ^ 8), 124287546 / 10 ^ 8, -(132943407 / 10 ^ 9), 797368445 / 10 ^ 11, -(205487897 / 10 ^ 12)]

theorem neon_fit : IsFit Cooling.neon_adas (2) 1000 (6.35304113e-36) 1.17894628e-32 neonCoefs := by
  refine ⟨by norm_num, fun T h1 h2 => ?_, fun T h => ?_, fun T h => ?_⟩
  · unfold Cooling.neon_adas
    rw [if_pos ⟨by norm_num; linarith, by norm_num; linarith⟩]
    refine congrArg Real.exp ?_
    norm_num [neonCoefs, poly]
    ring
  · unfold Cooling.neon_adas
    rw [if_neg (by intro hc; have := hc.1; norm_num at this; linarith), if_pos (by norm_num; linarith)]
  · unfold Cooling.neon_adas
    rw [if_neg (by intro hc; have := hc.2; linarith), if_neg (by norm_num; linarith)]

/-- Coefficients of the fit. -/
def nitrogenCoefs : List ℚ := [-(501649969 / 10 ^ 7), -(135749724 / 10 ^ 6), 273509608 / 10 ^ 6, -(292109992 / 10 ^ 6), 190120639 / 10 ^ 6, -(795164871 / 10 ^ 7), 217762218 / 10 ^ 7, -(388334992 / 10 ^ 8), 434730098 / 10 ^ 9, -(277683605 / 10 ^ 10), 772720422 / 10 ^ 12]

theorem nitrogen_fit : IsFit Cooling.nitrogen_adas (2) 500 (4.34835380e-34) 8.11096182e-33 nitrogenCoefs := by
  refine ⟨by norm_num, fun T h1 h2 => ?_, fun T h => ?_, fun T h => ?_⟩
  · unfold Cooling.nitrogen_adas
    rw [if_pos ⟨by norm_num; linarith, by norm_num; linarith⟩]
    refine congrArg Real.exp ?_
    norm_num [nitrogenCoefs, poly]
    ring
  · unfold Cooling.nitrogen_adas
    rw [if_neg (by intro hc; have := hc.1; norm_num at this; linarith), if_pos (by norm_num; linarith)]
  · unfold Cooling.nitrogen_adas
    rw [if_neg (by intro hc; have := hc.2; linarith), if_neg (by norm_num; linarith)]

/-- Coefficients of the fit. -/
def carbonCoefs : List ℚ := [-(787837896 / 10 ^ 7), 155326376 / 10 ^ 8, 165898194 / 10 ^ 7, -(323804546 / 10 ^ 7), 312784663 / 10 ^ 7, -(174826039 / 10 ^ 7), 591393245 / 10 ^ 8, -(122974105 / 10 ^ 8), 154004499 / 10 ^ 9, -(106797106 / 10 ^ 10), 315657594 / 10 ^ 12]

theorem carbon_fit : IsFit Cooling.carbon_adas (1) 500 (6.00623928e-35) 4.53057707e-33 carbonCoefs := by
  refine ⟨by norm_num, fun T h1 h2 => ?_, fun T h => ?_, fun T h => ?_⟩
  · unfold Cooling.carbon_adas
    rw [if_pos ⟨by norm_num; linarith, by norm_num; linarith⟩]
    refine congrArg Real.exp ?_
    norm_num [carbonCoefs, poly]
    ring
  · unfold Cooling.carbon_adas
    rw [if_neg (by intro hc; have := hc.1; norm_num at this; linarith), if_pos (by norm_num; linarith)]
  · unfold Cooling.carbon_adas
    rw [if_neg (by intro hc; have := hc.2; linarith), if_neg (by norm_num; linarith)]

/-- Coefficients of the fit. -/
def kryptonCoefs : List ℚ := [-(297405917 / 10 ^ 7), -(225443986 / 10 ^ 6), 408713640 / 10 ^ 6, -(386540549 / 10 ^ 6), 219566710 / 10 ^ 6, -(793264990 / 10 ^ 7), 186185949 / 10 ^ 7, -(282487288 / 10 ^ 8), 267070863 / 10 ^ 9, -(143001273 / 10 ^ 10), 331179737 / 10 ^ 12]

theorem krypton_fit : IsFit Cooling.krypton_adas (2) 1500 (8.01651285e-35) 6.17035971e-32 kryptonCoefs := by
  refine ⟨by norm_num, fun T h1 h2 => ?_, fun T h => ?_, fun T h => ?_⟩
  · unfold Cooling.krypton_adas
    rw [if_pos ⟨by norm_num; linarith, by norm_num; linarith⟩]
    refine congrArg Real.exp ?_
    norm_num [kryptonCoefs, poly]
    ring
  · unfold Cooling.krypton_adas
    rw [if_neg (by intro hc; have := hc.1; norm_num at this; linarith), if_pos (by norm_num; linarith)]
  · unfold Cooling.krypton_adas
    rw [if_neg (by intro hc; have := hc.2; linarith), if_neg (by norm_num; linarith)]

/-- Coefficients of the fit. -/
def xenonCoefs : List ℚ := [380572137 / 10 ^ 6, -(305839745 / 10 ^ 5), 901104594 / 10 ^ 5, -(155327244 / 10 ^ 4), 175819719 / 10 ^ 4, -(138754866 / 10 ^ 4), 790608220 / 10 ^ 5, -(332041900 / 10 ^ 5), 103912363 / 10 ^ 5, -(242980719 / 10 ^ 6), 422211209 / 10 ^ 7, -(536813849 / 10 ^ 8), 484652106 / 10 ^ 9, -(294023979 / 10 ^ 10), 107416308 / 10 ^ 11, -(178510623 / 10 ^ 13)]

theorem xenon_fit : IsFit Cooling.xenon_adas (2) 1300 (1.87187135e-33) 1.29785519e-31 xenonCoefs := by
  refine ⟨by norm_num, fun T h1 h2 => ?_, fun T h => ?_, fun T h => ?_⟩
  · unfold Cooling.xenon_adas
    rw [if_pos ⟨by norm_num; linarith, by norm_num; linarith⟩]
    refine congrArg Real.exp ?_
    norm_num [xenonCoefs, poly]
    ring
  · unfold Cooling.xenon_adas
    rw [if_neg (by intro hc; have := hc.1; norm_num at this; linarith), if_pos (by norm_num; linarith)]
  · unfold Cooling.xenon_adas
    rw [if_neg (by intro hc; have := hc.2; linarith), if_neg (by norm_num; linarith)]

/-- Coefficients of the fit. -/
def tungstenCoefs : List ℚ := [-(724602210 / 10 ^ 7), -(217524363 / 10 ^ 7), 190745408 / 10 ^ 6, -(757571067 / 10 ^ 6), 184119395 / 10 ^ 5, -(299842204 / 10 ^ 5), 340395125 / 10 ^ 5, -(276328977 / 10 ^ 5), 163368844 / 10 ^ 5, -(711076320 / 10 ^ 6), 228027010 / 10 ^ 6, -(530145974 / 10 ^ 7), 846066686 / 10 ^ 8, -(754960450 / 10 ^ 9), -(161054010 / 10 ^ 10), 165520152 / 10 ^ 10, -(270054697 / 10 ^ 11), 250286873 / 10 ^ 12, -(143319310 / 10 ^ 13), 475258630 / 10 ^ 15, -(703012454 / 10 ^ 17)]

theorem tungsten_fit : IsFit Cooling.tungsten_adas (5/4) 1500 (2.09814651e-32) 1.85078767e-31 tungstenCoefs := by
  refine ⟨by norm_num, fun T h1 h2 => ?_, fun T h => ?_, fun T h => ?_⟩
  · unfold Cooling.tungsten_adas
    rw [if_pos ⟨by norm_num; linarith, by norm_num; linarith⟩]
    refine congrArg Real.exp ?_
    norm_num [tungstenCoefs, poly]
    ring
  · unfold Cooling.tungsten_adas
    rw [if_neg (by intro hc; have := hc.1; norm_num at this; linarith), if_pos (by norm_num; linarith)]
  · unfold Cooling.tungsten_adas
    rw [if_neg (by intro hc; have := hc.2; linarith), if_neg (by norm_num; linarith)]

/-! ## At the ends of the fits -/

theorem two : LogIn 2 (693147180559945309417232 / 10 ^ 24) (693147180559945309417233 / 10 ^ 24) := logs.1
theorem one : LogIn 1 0 0 := ⟨one_pos, by simp, by simp⟩

theorem three_halves : LogIn (3 / 2) (405465108108164381978012 / 10 ^ 24) (405465108108164381978014 / 10 ^ 24) := by
  have h := (logs.2.1.mul logs.1.inv).mono (a' := 405465108108164381978012 / 10 ^ 24) (b' := 405465108108164381978014 / 10 ^ 24) (by norm_num) (by norm_num)
  rwa [← div_eq_mul_inv] at h

theorem five_quarters : LogIn (5 / 4) (223143551314209755766293 / 10 ^ 24) (223143551314209755766296 / 10 ^ 24) := by
  have h := (logs.2.2.mul (logs.1.pow 2).inv).mono (a' := 223143551314209755766293 / 10 ^ 24) (b' := 223143551314209755766296 / 10 ^ 24) (by norm_num) (by norm_num)
  rw [← div_eq_mul_inv] at h
  norm_num at h ⊢
  exact h

theorem t500 : LogIn 500 (2 * (693147180559945309417232 / 10 ^ 24) + 3 * (1609437912434100374600759 / 10 ^ 24))
    (2 * (693147180559945309417233 / 10 ^ 24) + 3 * (1609437912434100374600760 / 10 ^ 24)) := by
  have h := (logs.1.pow 2).mul (logs.2.2.pow 3)
  norm_num at h ⊢
  exact h

theorem t1000 : LogIn 1000 (3 * (693147180559945309417232 / 10 ^ 24) + 3 * (1609437912434100374600759 / 10 ^ 24))
    (3 * (693147180559945309417233 / 10 ^ 24) + 3 * (1609437912434100374600760 / 10 ^ 24)) := by
  have h := (logs.1.pow 3).mul (logs.2.2.pow 3)
  norm_num at h ⊢
  exact h

theorem t1500 : LogIn 1500 (2 * (693147180559945309417232 / 10 ^ 24) + 3 * (1609437912434100374600759 / 10 ^ 24) + 1098612288668109691395245 / 10 ^ 24)
    (2 * (693147180559945309417233 / 10 ^ 24) + 3 * (1609437912434100374600760 / 10 ^ 24) + 1098612288668109691395246 / 10 ^ 24) := by
  have h := ((logs.1.pow 2).mul (logs.2.2.pow 3)).mul logs.2.1
  norm_num at h ⊢
  exact h

theorem t1300 : LogIn 1300 (7170119543449628104089 / 10 ^ 21) (7170119543449628104090 / 10 ^ 21) := by
  have h := ((logs.1.pow 4).mul (logs.2.1.pow 4)).mul (logIn_series (x := 1 / 325) (by norm_num) (by norm_num) 10).inv
  have e : (2 : ℝ) ^ 4 * 3 ^ 4 * (1 - ((1 / 325 : ℚ) : ℝ))⁻¹ = 1300 := by norm_num
  rw [e] at h
  exact h.mono (by decide +kernel) (by decide +kernel)

/-- Polynomial and logarithm of a constant close to each other. -/
theorem close {T : ℝ} {a b : ℚ} (h : LogIn T a b) (ha : 0 ≤ a) (cs : List ℚ) (c : ℚ) {x : ℝ} (hx : (c : ℝ) = x) (k n : ℕ)
    (hc : 0 ≤ 1 - c * 2 ^ k ∧ 1 - c * 2 ^ k < 1)
    (h1 : polyHi a b cs 1 1 ≤ 4 / 100 + (-series (1 - c * 2 ^ k) n 1 0 - (1 - c * 2 ^ k) ^ (n + 1) / (1 - (1 - c * 2 ^ k)) + -(k * (693147180559945309417233 / 10 ^ 24))))
    (h2 : -series (1 - c * 2 ^ k) n 1 0 + (1 - c * 2 ^ k) ^ (n + 1) / (1 - (1 - c * 2 ^ k)) + -(k * (693147180559945309417232 / 10 ^ 24)) ≤ polyLo a b cs 1 1 + 4 / 100) :
    |poly (Real.log T) cs 1 - Real.log x| ≤ 4 / 100 := by
  obtain ⟨p1, p2⟩ := poly_bounds h ha cs le_rfl le_rfl
  obtain ⟨-, l1, l2⟩ := logIn_const two c k n hc le_rfl le_rfl
  have h1' : ((polyHi a b cs 1 1 : ℚ) : ℝ) ≤ _ := Rat.cast_le.2 h1
  have h2' := (Rat.cast_le (K := ℝ)).2 h2
  rw [hx] at l1 l2
  rw [Rat.cast_add] at h1'
  rw [Rat.cast_add _ (4 / 100 : ℚ)] at h2'
  have e : ((4 / 100 : ℚ) : ℝ) = 4 / 100 := by norm_num
  rw [e] at h1' h2'
  rw [abs_le]
  constructor <;> linarith

theorem argon_below : |poly (Real.log (3/2)) argonCoefs 1 - Real.log 1.95353412e-35| ≤ 4 / 100 := by
  refine close three_halves (by decide +kernel) argonCoefs 1.95353412e-35 (by norm_num) 115 20 (by decide +kernel) (by decide +kernel) (by decide +kernel)

theorem argon_above : |poly (Real.log (1500)) argonCoefs 1 - Real.log 1.22649600e-32| ≤ 4 / 100 := by
  refine close t1500 (by decide +kernel) argonCoefs 1.22649600e-32 (by norm_num) 106 20 (by decide +kernel) (by decide +kernel) (by decide +kernel)

theorem neon_below : |poly (Real.log (2)) neonCoefs 1 - Real.log 6.35304113e-36| ≤ 4 / 100 := by
  refine close two (by decide +kernel) neonCoefs 6.35304113e-36 (by norm_num) 116 20 (by decide +kernel) (by decide +kernel) (by decide +kernel)

theorem neon_above : |poly (Real.log (1000)) neonCoefs 1 - Real.log 1.17894628e-32| ≤ 4 / 100 := by
  refine close t1000 (by decide +kernel) neonCoefs 1.17894628e-32 (by norm_num) 106 20 (by decide +kernel) (by decide +kernel) (by decide +kernel)

theorem nitrogen_below : |poly (Real.log (2)) nitrogenCoefs 1 - Real.log 4.34835380e-34| ≤ 4 / 100 := by
  refine close two (by decide +kernel) nitrogenCoefs 4.34835380e-34 (by norm_num) 110 20 (by decide +kernel) (by decide +kernel) (by decide +kernel)

theorem nitrogen_above : |poly (Real.log (500)) nitrogenCoefs 1 - Real.log 8.11096182e-33| ≤ 4 / 100 := by
  refine close t500 (by decide +kernel) nitrogenCoefs 8.11096182e-33 (by norm_num) 106 20 (by decide +kernel) (by decide +kernel) (by decide +kernel)

theorem carbon_below : |poly (Real.log (1)) carbonCoefs 1 - Real.log 6.00623928e-35| ≤ 4 / 100 := by
  refine close one (by decide +kernel) carbonCoefs 6.00623928e-35 (by norm_num) 113 20 (by decide +kernel) (by decide +kernel) (by decide +kernel)

theorem carbon_above : |poly (Real.log (500)) carbonCoefs 1 - Real.log 4.53057707e-33| ≤ 4 / 100 := by
  refine close t500 (by decide +kernel) carbonCoefs 4.53057707e-33 (by norm_num) 107 20 (by decide +kernel) (by decide +kernel) (by decide +kernel)

theorem krypton_below : |poly (Real.log (2)) kryptonCoefs 1 - Real.log 8.01651285e-35| ≤ 4 / 100 := by
  refine close two (by decide +kernel) kryptonCoefs 8.01651285e-35 (by norm_num) 113 20 (by decide +kernel) (by decide +kernel) (by decide +kernel)

theorem krypton_above : |poly (Real.log (1500)) kryptonCoefs 1 - Real.log 6.17035971e-32| ≤ 4 / 100 := by
  refine close t1500 (by decide +kernel) kryptonCoefs 6.17035971e-32 (by norm_num) 103 20 (by decide +kernel) (by decide +kernel) (by decide +kernel)

theorem xenon_below : |poly (Real.log (2)) xenonCoefs 1 - Real.log 1.87187135e-33| ≤ 4 / 100 := by
  refine close two (by decide +kernel) xenonCoefs 1.87187135e-33 (by norm_num) 108 20 (by decide +kernel) (by decide +kernel) (by decide +kernel)

theorem tungsten_below : |poly (Real.log (5/4)) tungstenCoefs 1 - Real.log 2.09814651e-32| ≤ 4 / 100 := by
  refine close five_quarters (by decide +kernel) tungstenCoefs 2.09814651e-32 (by norm_num) 105 20 (by decide +kernel) (by decide +kernel) (by decide +kernel)


/-! ## No jumps -/

theorem poly_continuous (cs : List ℚ) (p : ℝ → ℝ) (hp : Continuous p) : Continuous fun L => poly L cs (p L) := by
  induction cs generalizing p with
  | nil => exact continuous_const
  | cons c cs ih => exact (continuous_const.mul hp).add (ih _ (hp.mul continuous_id))

theorem ratio {a b d : ℝ} (ha : 0 < a) (hb : 0 < b) (hd : d ≤ 45 / 1000) (h : |Real.log a - Real.log b| ≤ d) :
    a ≤ (1 + 5 / 100) * b ∧ b ≤ (1 + 5 / 100) * a := by
  have e : Real.exp (45 / 1000) ≤ 1 + 5 / 100 := by
    have h1 := Real.add_one_le_exp (-(45 / 1000))
    rw [Real.exp_neg] at h1
    have h2 := Real.exp_pos (45 / 1000)
    have h3 : (-(45 / 1000) + 1 : ℝ) * Real.exp (45 / 1000) ≤ 1 := by
      have := mul_le_mul_of_nonneg_right h1 h2.le
      rwa [inv_mul_cancel₀ h2.ne'] at this
    linarith
  obtain ⟨h1, h2⟩ := abs_le.1 (h.trans hd)
  have key : ∀ {x y : ℝ}, 0 < x → 0 < y → Real.log x ≤ Real.log y + 45 / 1000 → x ≤ (1 + 5 / 100) * y := by
    intro x y hx hy hxy
    have : x ≤ y * Real.exp (45 / 1000) := by
      rw [← Real.log_le_log_iff hx (mul_pos hy (Real.exp_pos _)), Real.log_mul hy.ne' (Real.exp_pos _).ne', Real.log_exp]
      exact hxy
    exact this.trans (by rw [mul_comm]; exact mul_le_mul_of_nonneg_right e hy.le)
  exact ⟨key ha hb (by linarith), key hb ha (by linarith)⟩

variable {f : ℝ → ℝ} {lo hi below above : ℝ} {cs : List ℚ}

theorem IsFit.posAt (h : IsFit f lo hi below above cs) (T : ℝ) : 0 < f T := by
  by_cases h1 : T < lo
  · rw [h.left T h1]; exact h.pos.2.2.1
  · by_cases h2 : hi < T
    · rw [h.right T h2]; exact h.pos.2.2.2
    · rw [h.inside T (not_lt.1 h1) (not_lt.1 h2)]; exact Real.exp_pos _

/-- Where the constant beside the fit is close to it, the curve has no jump. -/
theorem IsFit.noJump (h : IsFit f lo hi below above cs) (hb : |poly (Real.log lo) cs 1 - Real.log below| ≤ 4 / 100) {T : ℝ}
    (ha : T = hi → |poly (Real.log hi) cs 1 - Real.log above| ≤ 4 / 100) : NoJumpAt f (5 / 100) T := by
  obtain ⟨p1, p2, p3, p4⟩ := h.pos
  suffices ∃ δ > 0, ∀ T', |T' - T| < δ → |Real.log (f T') - Real.log (f T)| ≤ 45 / 1000 by
    obtain ⟨δ, hδ, hT⟩ := this
    exact ⟨δ, hδ, fun T' h' => ratio (h.posAt T') (h.posAt T) le_rfl (hT T' h')⟩
  have F : ∀ T', lo ≤ T' → T' ≤ hi → Real.log (f T') = poly (Real.log T') cs 1 := fun T' h1 h2 => by rw [h.inside T' h1 h2, Real.log_exp]
  rcases lt_or_ge T lo with h1 | h1
  · refine ⟨lo - T, sub_pos.2 h1, fun T' h' => ?_⟩
    rw [h.left T h1, h.left T' (by have := (abs_lt.1 h').2; linarith), sub_self, abs_zero]
    norm_num
  rcases lt_or_ge hi T with h2 | h2
  · refine ⟨T - hi, sub_pos.2 h2, fun T' h' => ?_⟩
    rw [h.right T h2, h.right T' (by have := (abs_lt.1 h').1; linarith), sub_self, abs_zero]
    norm_num
  have hT : 0 < T := p1.trans_le h1
  have hc : ContinuousAt (fun T => poly (Real.log T) cs 1) T :=
    (poly_continuous cs (fun _ => 1) continuous_const).continuousAt.comp (Real.continuousAt_log hT.ne')
  obtain ⟨δ, hδ, hd⟩ := Metric.continuousAt_iff.1 hc (5 / 1000) (by norm_num)
  have hd' : ∀ T', |T' - T| < δ → |poly (Real.log T') cs 1 - poly (Real.log T) cs 1| < 5 / 1000 := fun T' h' => by
    have := hd (x := T') (by rwa [Real.dist_eq])
    rwa [Real.dist_eq] at this
  refine ⟨min δ (min (if T = lo then 1 else T - lo) (if T = hi then 1 else hi - T)), ?_, fun T' h' => ?_⟩
  · refine lt_min hδ (lt_min ?_ ?_)
    · split
      · exact one_pos
      · rename_i hne; exact sub_pos.2 (lt_of_le_of_ne h1 (Ne.symm hne))
    · split
      · exact one_pos
      · rename_i hne; exact sub_pos.2 (lt_of_le_of_ne h2 hne)
  · obtain ⟨h3, h4⟩ := lt_min_iff.1 h'
    obtain ⟨h4, h5⟩ := lt_min_iff.1 h4
    rw [F T h1 h2]
    rcases lt_or_ge T' lo with h6 | h6
    · have e : T = lo := by
        by_contra hne
        rw [if_neg hne] at h4
        have := (abs_lt.1 h4).1
        linarith
      rw [h.left T' h6, e, abs_sub_comm]
      linarith
    rcases lt_or_ge hi T' with h7 | h7
    · have e : T = hi := by
        by_contra hne
        rw [if_neg hne] at h5
        have := (abs_lt.1 h5).2
        linarith
      rw [h.right T' h7, e, abs_sub_comm]
      have := ha e
      linarith
    rw [F T' h6 h7]
    have := hd' T' h3
    linarith

/-- **C85.**  The fits for carbon, nitrogen, neon, argon and krypton have no jumps of more than 5 %, at any temperature. -/
theorem light_impurities (T : ℝ) : NoJumpAt Cooling.carbon_adas (5 / 100) T ∧ NoJumpAt Cooling.nitrogen_adas (5 / 100) T ∧
    NoJumpAt Cooling.neon_adas (5 / 100) T ∧ NoJumpAt Cooling.argon_adas (5 / 100) T ∧ NoJumpAt Cooling.krypton_adas (5 / 100) T :=
  ⟨carbon_fit.noJump carbon_below fun _ => carbon_above, nitrogen_fit.noJump nitrogen_below fun _ => nitrogen_above,
    neon_fit.noJump neon_below fun _ => neon_above, argon_fit.noJump argon_below fun _ => argon_above, krypton_fit.noJump krypton_below fun _ => krypton_above⟩

/-- **C85.**  Those for xenon and tungsten have none except at the upper end of the fit. -/
theorem heavy_impurities_partial (T : ℝ) : (T ≠ 1300 → NoJumpAt Cooling.xenon_adas (5 / 100) T) ∧ (T ≠ 1500 → NoJumpAt Cooling.tungsten_adas (5 / 100) T) :=
  ⟨fun h => xenon_fit.noJump xenon_below fun e => absurd e h, fun h => tungsten_fit.noJump tungsten_below fun e => absurd e h⟩

/-- A power of ten above an exponential. -/
theorem exp_small {x : ℝ} (n k : ℕ) (hx : x ≤ -n) (h : (10 : ℝ) ^ k ≤ 2.7182818283 ^ n) : Real.exp x ≤ (10 ^ k)⁻¹ := by
  have h1 : Real.exp x ≤ Real.exp (-n) := Real.exp_le_exp.2 hx
  have h2 : Real.exp (-(n : ℝ)) = (Real.exp 1 ^ n)⁻¹ := by rw [Real.exp_neg, ← Real.exp_nat_mul, mul_one]
  rw [h2] at h1
  refine h1.trans (inv_anti₀ (by positivity) (h.trans ?_))
  exact pow_le_pow_left₀ (by norm_num) Real.exp_one_gt_d9.le n

/-- **C85 fails for xenon.**  At 1300 eV, the end of the fit, the curve is less than `10⁻⁴³ W m³`; above it is `1.3·10⁻³¹ W m³`. -/
theorem xenon_jump : Cooling.xenon_adas 1300 ≤ (10 ^ 42)⁻¹ ∧ (∀ T, 1300 < T → Cooling.xenon_adas T = 1.29785519e-31) ∧
    ¬NoJumpAt Cooling.xenon_adas (10 ^ 10) 1300 := by
  have h1 : Cooling.xenon_adas 1300 ≤ (10 ^ 42)⁻¹ := by
    rw [xenon_fit.inside 1300 (by norm_num) le_rfl]
    have := (poly_bounds t1300 (by norm_num) xenonCoefs (lo := -100) (hi := -99) (by decide +kernel) (by decide +kernel)).2
    exact exp_small 99 42 (by push_cast at this ⊢; exact this) (by norm_num)
  refine ⟨h1, xenon_fit.right, ?_⟩
  rintro ⟨δ, hδ, h⟩
  have h2 := (h (1300 + δ / 2) (by rw [add_sub_cancel_left, abs_of_pos (half_pos hδ)]; linarith)).1
  rw [xenon_fit.right _ (by linarith)] at h2
  have : (1 + 10 ^ 10 : ℝ) * Cooling.xenon_adas 1300 ≤ (1 + 10 ^ 10) * (10 ^ 42)⁻¹ := mul_le_mul_of_nonneg_left h1 (by norm_num)
  have := h2.trans this
  norm_num at this

/-- **C85 fails for tungsten.**  At 1000 eV the fit gives less than `10⁻⁹⁶ W m³`, at 1500 eV, its end, less than `10⁻¹⁹⁷`; above it is `1.9·10⁻³¹ W m³`. -/
theorem tungsten_jump : Cooling.tungsten_adas 1000 ≤ (10 ^ 96)⁻¹ ∧ Cooling.tungsten_adas 1500 ≤ (10 ^ 197)⁻¹ ∧
    (∀ T, 1500 < T → Cooling.tungsten_adas T = 1.85078767e-31) ∧ ¬NoJumpAt Cooling.tungsten_adas (10 ^ 160) 1500 := by
  have h1 : Cooling.tungsten_adas 1500 ≤ (10 ^ 197)⁻¹ := by
    rw [tungsten_fit.inside 1500 (by norm_num) le_rfl]
    have := (poly_bounds t1500 (by norm_num) tungstenCoefs (lo := -458) (hi := -457) (by decide +kernel) (by decide +kernel)).2
    refine exp_small 457 197 (by push_cast at this ⊢; exact this) ?_
    have e1 : (10 : ℝ) ^ 99 ≤ 2.7182818283 ^ 230 := by norm_num
    have e2 : (10 : ℝ) ^ 98 ≤ 2.7182818283 ^ 227 := by norm_num
    have := mul_le_mul e1 e2 (by positivity) (by positivity)
    rwa [← pow_add, ← pow_add] at this
  have h0 : Cooling.tungsten_adas 1000 ≤ (10 ^ 96)⁻¹ := by
    rw [tungsten_fit.inside 1000 (by norm_num) (by norm_num)]
    have := (poly_bounds t1000 (by norm_num) tungstenCoefs (lo := -224) (hi := -223) (by decide +kernel) (by decide +kernel)).2
    exact exp_small 223 96 (by push_cast at this ⊢; exact this) (by norm_num)
  refine ⟨h0, h1, tungsten_fit.right, ?_⟩
  rintro ⟨δ, hδ, h⟩
  have h2 := (h (1500 + δ / 2) (by rw [add_sub_cancel_left, abs_of_pos (half_pos hδ)]; linarith)).1
  rw [tungsten_fit.right _ (by linarith)] at h2
  have : (1 + 10 ^ 160 : ℝ) * Cooling.tungsten_adas 1500 ≤ (1 + 10 ^ 160) * (10 ^ 197)⁻¹ := mul_le_mul_of_nonneg_left h1 (by norm_num)
  have := h2.trans this
  norm_num at this

/-! ## The other curves -/

/-- **C85.**  The curve of Hutchinson is continuous. -/
theorem hutchinson_continuous : Continuous Cooling.hutchinsonCarbon := by
  have e : Cooling.hutchinsonCarbon = fun Te => 2e-31 * (max Te 0 / 10) ^ (3 : ℝ) / (1 + (max Te 0 / 10) ^ (4.5 : ℝ)) := by
    funext T
    unfold Cooling.hutchinsonCarbon
    split
    · rename_i h
      rw [max_eq_right h.le, zero_div, Real.zero_rpow (by norm_num), mul_zero, zero_div]
    · rename_i h
      rw [max_eq_left (not_lt.1 h)]
  rw [e]
  have c : Continuous fun T : ℝ => max T 0 / 10 := (continuous_id.max continuous_const).div_const _
  refine ((continuous_const.mul (c.rpow_const fun T => Or.inr (by norm_num))).div
    (continuous_const.add (c.rpow_const fun T => Or.inr (by norm_num))) fun T => ?_)
  have : 0 ≤ (max T 0 / 10) ^ (4.5 : ℝ) := Real.rpow_nonneg (div_nonneg (le_max_right _ _) (by norm_num)) _
  positivity

/-- Straight line through two points. -/
noncomputable def line (a b x y T : ℝ) : ℝ := (a * (y - T) + b * (T - x)) / (y - x)

theorem line_continuous (a b x y : ℝ) : Continuous (line a b x y) := by
  unfold line
  fun_prop

theorem line_left {a b x y : ℝ} (h : x < y) : line a b x y x = a := by
  unfold line
  have : y - x ≠ 0 := (sub_pos.2 h).ne'
  field_simp
  ring

theorem line_right {a b x y : ℝ} (h : x < y) : line a b x y y = b := by
  unfold line
  have : y - x ≠ 0 := (sub_pos.2 h).ne'
  field_simp
  ring

theorem glue {g h : ℝ → ℝ} {x : ℝ} (hg : Continuous g) (hh : Continuous h) (e : g x = h x) : Continuous fun T => if T < x then g T else h T := by
  have : (fun T => if T < x then g T else h T) = fun T => if x ≤ T then h T else g T := by
    funext T
    by_cases hT : T < x
    · rw [if_pos hT, if_neg (not_le.2 hT)]
    · rw [if_neg hT, if_pos (not_lt.1 hT)]
  rw [this]
  exact Continuous.if_le hh hg continuous_const continuous_id fun T hT => by
    have : x = T := hT
    rw [← this, e]

theorem pieces {g h k x y T : ℝ} (hT : x ≤ T) (hk : y ≤ T → k = h) : (if T ≥ x ∧ T < y then g else k) = if T < y then g else h := by
  by_cases h' : T < y
  · rw [if_pos ⟨hT, h'⟩, if_pos h']
  · rw [if_neg fun hc => h' hc.2, if_neg h', hk (not_lt.1 h')]

/-- **C85.**  The simplified curves for argon are continuous from 0.52 eV on. -/
theorem argon_simplified_continuous : ContinuousOn Cooling.argon_simplified1 (Set.Ici 0.52) ∧ ContinuousOn Cooling.argon_simplified2 (Set.Ici 0.52) ∧
    ContinuousOn Cooling.argon_simplified3 (Set.Ici 0.52) := by
  have c : ∀ v : ℝ, Continuous fun _ : ℝ => v := fun v => continuous_const
  have z : (0.000000e+00 : ℝ) = 0 := by norm_num
  have l1 := line_continuous 1.953534e-35 6.053680e-34 0.52 2.50
  have l2 := line_continuous 6.053680e-34 2.175237e-31 2.50 19.72
  refine ⟨?_, ?_, ?_⟩
  · have l3 := line_continuous 2.175237e-31 4.190918e-32 19.72 59.98
    have l4 := line_continuous 4.190918e-32 1.226496e-32 59.98 3000.00
    have g4 := glue (x := 3000.00) l4 (c 1.226496e-32) (line_right (by norm_num))
    have g3 := glue (x := 59.98) l3 g4 (by rw [if_pos (by norm_num), line_right (by norm_num), line_left (by norm_num)])
    have g2 := glue (x := 19.72) l2 g3 (by rw [if_pos (by norm_num), line_right (by norm_num), line_left (by norm_num)])
    have g1 := glue (x := 2.50) l1 g2 (by rw [if_pos (by norm_num), line_right (by norm_num), line_left (by norm_num)])
    refine g1.continuousOn.congr fun T hT => ?_
    have hT' : (0.52 : ℝ) ≤ T := hT
    unfold Cooling.argon_simplified1
    rw [if_neg (not_lt.2 hT')]
    exact pieces hT' fun h1 => pieces h1 fun h2 => pieces h2 fun h3 => pieces h3 fun _ => rfl
  · have l3 := line_continuous 2.175237e-31 0 19.72 59.98
    have g3 := glue (x := 59.98) l3 (c 0) (line_right (by norm_num))
    have g2 := glue (x := 19.72) l2 g3 (by rw [if_pos (by norm_num), line_right (by norm_num), line_left (by norm_num)])
    have g1 := glue (x := 2.50) l1 g2 (by rw [if_pos (by norm_num), line_right (by norm_num), line_left (by norm_num)])
    refine g1.continuousOn.congr fun T hT => ?_
    have hT' : (0.52 : ℝ) ≤ T := hT
    unfold Cooling.argon_simplified2
    rw [if_neg (not_lt.2 hT'), z]
    exact pieces hT' fun h1 => pieces h1 fun h2 => pieces h2 fun h3 => rfl
  · have l3 := line_continuous 2.175237e-31 0 19.72 38.02
    have g3 := glue (x := 38.02) l3 (c 0) (line_right (by norm_num))
    have g2 := glue (x := 19.72) l2 g3 (by rw [if_pos (by norm_num), line_right (by norm_num), line_left (by norm_num)])
    have g1 := glue (x := 2.50) l1 g2 (by rw [if_pos (by norm_num), line_right (by norm_num), line_left (by norm_num)])
    refine g1.continuousOn.congr fun T hT => ?_
    have hT' : (0.52 : ℝ) ≤ T := hT
    unfold Cooling.argon_simplified3
    rw [if_neg (not_lt.2 hT'), z]
    exact pieces hT' fun h1 => pieces h1 fun h2 => pieces h2 fun h3 => rfl

/-- At 0.52 eV they begin: nothing below, `2·10⁻³⁵ W m³` there. -/
theorem argon_simplified_starts : (∀ T < 0.52, Cooling.argon_simplified1 T = 0 ∧ Cooling.argon_simplified2 T = 0 ∧ Cooling.argon_simplified3 T = 0) ∧
    Cooling.argon_simplified1 0.52 = 1.953534e-35 ∧ Cooling.argon_simplified2 0.52 = 1.953534e-35 ∧ Cooling.argon_simplified3 0.52 = 1.953534e-35 := by
  refine ⟨fun T hT => ⟨if_pos hT, if_pos hT, if_pos hT⟩, ?_, ?_, ?_⟩
  · norm_num [Cooling.argon_simplified1]
  · norm_num [Cooling.argon_simplified2]
  · norm_num [Cooling.argon_simplified3]

end Hermes.Curves
