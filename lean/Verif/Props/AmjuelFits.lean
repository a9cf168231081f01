import Verif.Props.Reactions
import Verif.Lemmas.AmjuelTrees
import Mathlib.Analysis.Complex.ExponentialBounds
import Mathlib.Analysis.Calculus.Deriv.MeanValue

/-!
# C89: the fits for hydrogen and helium

The tables of `src/amjuel_*.cxx` with their numbers.
-/

namespace Hermes.AmjuelFits
open Hermes Hermes.BoxPoly Hermes.AmjuelData Hermes.AmjuelCerts

/-- The table as it is passed to `evaluate`. -/
noncomputable def coefs (p : List (List ℤ)) : Fin 9 → Fin 9 → ℝ := fun a b => ((p.getD a []).getD b 0 : ℤ) / 10 ^ 30

/-! ## The fit is a polynomial -/

theorem ev_sum {n : ℕ} {l : List ℤ} (h : l.length = n) (t : ℝ) : ev l t = ∑ b : Fin n, ((l.getD b 0 : ℤ) : ℝ) * t ^ (b : ℕ) := by
  induction l generalizing n with
  | nil => subst h; simp [ev]
  | cons c l ih =>
    subst h
    rw [List.length_cons, Fin.sum_univ_succ, ev, ih rfl, Finset.mul_sum]
    simp only [List.getD_cons_zero, Fin.val_zero, pow_zero, mul_one, Fin.val_succ, List.getD_cons_succ, pow_succ]
    congr 1
    exact Finset.sum_congr rfl fun b _ => by ring

theorem ev2_sum {n m : ℕ} {p : List (List ℤ)} (hp : p.length = m) (hl : ∀ l ∈ p, l.length = n) (s t : ℝ) :
    ev2 p s t = ∑ a : Fin m, ∑ b : Fin n, (((p.getD a []).getD b 0 : ℤ) : ℝ) * t ^ (b : ℕ) * s ^ (a : ℕ) := by
  induction p generalizing m with
  | nil => subst hp; simp [ev2]
  | cons l p ih =>
    subst hp
    rw [List.length_cons, Fin.sum_univ_succ, ev2, ih rfl fun l hl' => hl l (by simp [hl']), ev_sum (hl l (by simp)), Finset.mul_sum]
    simp only [List.getD_cons_zero, Fin.val_zero, pow_zero, mul_one, Fin.val_succ, List.getD_cons_succ, pow_succ]
    congr 1
    refine Finset.sum_congr rfl fun a _ => ?_
    rw [Finset.mul_sum]
    exact Finset.sum_congr rfl fun b _ => by ring

/-- Logarithms of the clipped arguments. -/
noncomputable def lx (T : ℝ) : ℝ := Real.log (max 0.1 (min T 1e4))
noncomputable def ly (n : ℝ) : ℝ := Real.log (max 1e14 (min n 1e22) / 1e14)

/-- Nine rows of nine numbers. -/
def Square (p : List (List ℤ)) : Prop := p.length = 9 ∧ rowsOf 9 p = true

theorem evaluate_eq {p : List (List ℤ)} (h : Square p) (T n : ℝ) :
    amjuelEvaluate (coefs p) T n = some (Real.exp (ev2 p (lx T) (ly n) / 10 ^ 30) * 1e-6) := by
  rw [Reactions.amjuel_fit, ev2_sum h.1 (rowsOf_iff.1 h.2), Finset.sum_div]
  congr 4
  funext a
  rw [Finset.sum_div]
  refine Finset.sum_congr rfl fun b _ => ?_
  unfold coefs lx ly
  ring

theorem sq1 : Square hydIonisationRate := ⟨rfl, rfl⟩
theorem sq2 : Square hydIonisationLoss := ⟨rfl, rfl⟩
theorem sq3 : Square hydRecombinationRate := ⟨rfl, rfl⟩
theorem sq4 : Square hydRecombinationLoss := ⟨rfl, rfl⟩
theorem sq5 : Square heIonisationRate := ⟨rfl, rfl⟩
theorem sq6 : Square heIonisationLoss := ⟨rfl, rfl⟩
theorem sq7 : Square heRecombinationRate := ⟨rfl, rfl⟩
theorem sq8 : Square heRecombinationLoss := ⟨rfl, rfl⟩

/-! ## Logarithms -/

theorem ten_lt : Real.log 10 < 2.3025850934 := by rw [Real.log_ten_eq]; linarith [Real.log_two_lt_d9, Real.log_five_lt_d9]
theorem ten_gt : 2.3025850926 < Real.log 10 := by rw [Real.log_ten_eq]; linarith [Real.log_two_gt_d9, Real.log_five_gt_d9]

theorem log_tenth : Real.log 0.1 = -Real.log 10 := by rw [← Real.log_inv]; norm_num
theorem log_1e4 : Real.log 1e4 = 4 * Real.log 10 := by
  rw [show (1e4 : ℝ) = 10 ^ 4 by norm_num, Real.log_pow]; norm_num

theorem lx_range (T : ℝ) : -2.303 ≤ lx T ∧ lx T ≤ 9.211 := by
  have h1 : (0.1 : ℝ) ≤ max 0.1 (min T 1e4) := le_max_left _ _
  have h2 : max 0.1 (min T 1e4) ≤ (1e4 : ℝ) := max_le (by norm_num) (min_le_right _ _)
  have a := Real.log_le_log (by norm_num) h1
  have b := Real.log_le_log (by linarith) h2
  rw [log_tenth] at a
  rw [log_1e4] at b
  unfold lx
  constructor <;> linarith [ten_lt]

theorem ly_range (n : ℝ) : 0 ≤ ly n ∧ ly n ≤ 18.422 := by
  have h1 : (1 : ℝ) ≤ max 1e14 (min n 1e22) / 1e14 := by rw [le_div_iff₀ (by norm_num), one_mul]; exact le_max_left _ _
  have h2 : max 1e14 (min n 1e22) / 1e14 ≤ (10 : ℝ) ^ 8 := by
    rw [div_le_iff₀ (by norm_num)]
    exact max_le (by norm_num) ((min_le_right _ _).trans (by norm_num))
  have b := Real.log_le_log (by linarith) h2
  rw [Real.log_pow] at b
  unfold ly
  refine ⟨Real.log_nonneg h1, ?_⟩
  push_cast at b
  linarith [ten_lt]

theorem lx_mono {T T' : ℝ} (h : T ≤ T') : lx T ≤ lx T' :=
  Real.log_le_log (by have := le_max_left (0.1 : ℝ) (min T 1e4); linarith) (max_le_max le_rfl (min_le_min h le_rfl))

theorem ly_mono {n n' : ℝ} (h : n ≤ n') : ly n ≤ ly n' :=
  Real.log_le_log (by have := le_max_left (1e14 : ℝ) (min n 1e22); positivity)
    (div_le_div_of_nonneg_right (max_le_max le_rfl (min_le_min h le_rfl)) (by norm_num))

theorem lx_in {T : ℝ} (h0 : 0.1 ≤ T) (h1 : T ≤ 1e4) : lx T = Real.log T := by
  unfold lx
  rw [min_eq_left h1, max_eq_right h0]

theorem lx_one : lx 1 = 0 := by rw [lx_in (by norm_num) (by norm_num), Real.log_one]

/-- A fit whose derivative is positive on `[A, A + H]` rises there with temperature. -/
theorem rises {p : List (List ℤ)} {c : Cert} {A H : ℤ} (h : checkOn 9 c A H 0 18422 (dX p) = true) {x x' y : ℝ} (hxx : x ≤ x')
    (hx : (A : ℝ) / 1000 ≤ x) (hx' : x' ≤ (A + H) / 1000) (hy : 0 ≤ y ∧ y ≤ 18.422) : ev2 p x y ≤ ev2 p x' y := by
  have m : MonotoneOn (fun s => ev2 p s y) (Set.Icc x x') := by
    refine monotoneOn_of_deriv_nonneg (convex_Icc _ _) (fun s _ => (hasDeriv_ev2 p s y).continuousAt.continuousWithinAt)
      (fun s _ => (hasDeriv_ev2 p s y).differentiableAt.differentiableWithinAt) fun s hs => ?_
    rw [interior_Icc] at hs
    rw [(hasDeriv_ev2 p s y).deriv]
    exact (checkOn_sound h ⟨hx.trans hs.1.le, hs.2.le.trans hx'⟩ ⟨by push_cast; linarith [hy.1], by push_cast; linarith [hy.2]⟩).le
  exact m ⟨le_rfl, hxx⟩ ⟨hxx, le_rfl⟩ hxx

theorem whole {p : List (List ℤ)} {c : Cert} (h : checkOn 9 c (-2303) 11514 0 18422 p = true) (T n : ℝ) : 0 < ev2 p (lx T) (ly n) :=
  checkOn_sound h ⟨by push_cast; linarith [(lx_range T).1], by push_cast; linarith [(lx_range T).2]⟩
    ⟨by push_cast; linarith [(ly_range n).1], by push_cast; linarith [(ly_range n).2]⟩

theorem part {p : List (List ℤ)} {c : Cert} {A H : ℤ} (h : checkOn 9 c A H 0 18422 p = true) {T : ℝ} (h0 : (A : ℝ) / 1000 ≤ lx T)
    (h1 : lx T ≤ (A + H) / 1000) (n : ℝ) : 0 < ev2 p (lx T) (ly n) :=
  checkOn_sound h ⟨h0, h1⟩ ⟨by push_cast; linarith [(ly_range n).1], by push_cast; linarith [(ly_range n).2]⟩

/-! ## Hydrogen -/

theorem rate_lt {a b : ℝ} (h : a < b) : Real.exp (a / 10 ^ 30) * 1e-6 < Real.exp (b / 10 ^ 30) * 1e-6 := by
  have := Real.exp_lt_exp.2 (div_lt_div_of_pos_right h (show (0 : ℝ) < 10 ^ 30 by positivity))
  linarith

theorem rate_le {a b : ℝ} (h : a ≤ b) : Real.exp (a / 10 ^ 30) * 1e-6 ≤ Real.exp (b / 10 ^ 30) * 1e-6 := by
  have := Real.exp_le_exp.2 (div_le_div_of_nonneg_right h (show (0 : ℝ) ≤ 10 ^ 30 by positivity))
  linarith

theorem bounded {p : List (List ℤ)} (hs : Square p) {c : Cert} (h : checkOn 9 c (-2303) 11514 0 18422 (plus (-1381600) (mul2 (-1) p)) = true)
    (T n : ℝ) : ∃ r, amjuelEvaluate (coefs p) T n = some r ∧ 0 < r ∧ r < 1e-12 := by
  refine ⟨_, evaluate_eq hs T n, by positivity, ?_⟩
  have a := whole h T n
  rw [ev2_plus, ev2_mul] at a
  have b : ev2 p (lx T) (ly n) / 10 ^ 30 < -13.816 := by
    rw [div_lt_iff₀ (by positivity)]
    push_cast at a
    linarith
  have c : Real.exp (ev2 p (lx T) (ly n) / 10 ^ 30) < 1e-6 := by
    rw [← Real.lt_log_iff_exp_lt (by norm_num), show (1e-6 : ℝ) = (10 ^ 6)⁻¹ by norm_num, Real.log_inv, Real.log_pow]
    push_cast
    linarith [ten_lt]
  linarith

/-- **C89.**  At every temperature and density, zero, negative and outside the range of validity included, the fits for the ionisation and the
recombination of hydrogen give a rate coefficient below `10⁻¹² m³/s`. -/
theorem hydrogen_bounded (T n : ℝ) : (∃ r, amjuelEvaluate (coefs hydIonisationRate) T n = some r ∧ 0 < r ∧ r < 1e-12) ∧
    ∃ r, amjuelEvaluate (coefs hydRecombinationRate) T n = some r ∧ 0 < r ∧ r < 1e-12 :=
  ⟨bounded sq1 hIon_ok T n, bounded sq3 hRec_ok T n⟩

/-- **C89.**  Up to 1 eV hydrogen recombines faster than it is ionised, from 2 eV on it is ionised faster than it recombines, at every density. -/
theorem hydrogen_balance (T n : ℝ) : ∃ i r, amjuelEvaluate (coefs hydIonisationRate) T n = some i ∧
    amjuelEvaluate (coefs hydRecombinationRate) T n = some r ∧ (T ≤ 1 → i < r) ∧ (2 ≤ T → r < i) := by
  refine ⟨_, _, evaluate_eq sq1 T n, evaluate_eq sq3 T n, fun h => rate_lt ?_, fun h => rate_lt ?_⟩
  · have a := lx_mono h
    rw [lx_one] at a
    have := part hCold_ok (T := T) (by push_cast; linarith [(lx_range T).1]) (by push_cast; linarith) n
    rw [ev2_sub] at this
    linarith
  · have a := lx_mono h
    rw [lx_in (by norm_num) (by norm_num)] at a
    have := part hHot_ok (T := T) (by push_cast; linarith [Real.log_two_gt_d9]) (by push_cast; linarith [(lx_range T).2]) n
    rw [ev2_sub] at this
    linarith

/-- **C89.**  The hotter the electrons, the slower the recombination of hydrogen, at every density. -/
theorem hydrogen_recombination_falls {T T' : ℝ} (h : T ≤ T') (n : ℝ) : ∃ r r', amjuelEvaluate (coefs hydRecombinationRate) T n = some r ∧
    amjuelEvaluate (coefs hydRecombinationRate) T' n = some r' ∧ r' ≤ r := by
  refine ⟨_, _, evaluate_eq sq3 T n, evaluate_eq sq3 T' n, rate_le ?_⟩
  have := rises hRecFalls_ok (lx_mono h) (by push_cast; linarith [(lx_range T).1]) (by push_cast; linarith [(lx_range T').2])
    (ly_range n)
  rw [ev2_mul, ev2_mul] at this
  push_cast at this
  linarith

/-- 49 is below `e^3.9`. -/
theorem lx_49 {T : ℝ} (h : T ≤ 49) : lx T ≤ 3.9 := by
  have a := lx_mono h
  rw [lx_in (T := 49) (by norm_num) (by norm_num)] at a
  have b : Real.log 49 ≤ 3.9 := by
    have : (49 : ℝ) ^ 8 ≤ 2 ^ 45 := by norm_num
    have := Real.log_le_log (by positivity) this
    rw [Real.log_pow, Real.log_pow] at this
    push_cast at this
    linarith [Real.log_two_lt_d9]
  linarith

/-- **C89.**  Up to 49 eV the ionisation of hydrogen and helium is the faster, the hotter the electrons, at every density. -/
theorem ionisation_rises {T T' : ℝ} (h : T ≤ T') (h' : T' ≤ 49) (n : ℝ) :
    (∃ r r', amjuelEvaluate (coefs hydIonisationRate) T n = some r ∧ amjuelEvaluate (coefs hydIonisationRate) T' n = some r' ∧ r ≤ r') ∧
      ∃ r r', amjuelEvaluate (coefs heIonisationRate) T n = some r ∧ amjuelEvaluate (coefs heIonisationRate) T' n = some r' ∧ r ≤ r' := by
  refine ⟨⟨_, _, evaluate_eq sq1 T n, evaluate_eq sq1 T' n, rate_le ?_⟩, _, _, evaluate_eq sq5 T n, evaluate_eq sq5 T' n, rate_le ?_⟩
  · exact rises hIonRises_ok (lx_mono h) (by push_cast; linarith [(lx_range T).1]) (by push_cast; linarith [lx_49 h']) (ly_range n)
  · exact rises heIonRises_ok (lx_mono h) (by push_cast; linarith [(lx_range T).1]) (by push_cast; linarith [lx_49 h']) (ly_range n)

/-- A difference of fits bounds a quotient of rates. -/
theorem cost {a b c E : ℝ} (hE : 0 < E) (hc : Real.log E ≤ c) (h : 0 < a - b - c * 10 ^ 30) :
    E * (Real.exp (b / 10 ^ 30) * 1e-6) < Real.exp (a / 10 ^ 30) * 1e-6 := by
  have k : Real.log E + b / 10 ^ 30 < a / 10 ^ 30 := by
    have : (b + c * 10 ^ 30) / 10 ^ 30 < a / 10 ^ 30 := div_lt_div_of_pos_right (by linarith) (by positivity)
    have e : (b + c * 10 ^ 30) / 10 ^ 30 = b / 10 ^ 30 + c := by field_simp
    rw [e] at this
    linarith
  have := Real.exp_lt_exp.2 k
  rw [Real.exp_add, Real.exp_log hE] at this
  linarith

theorem log_136 : Real.log 13.6 ≤ 2.61014 := by
  have : (13.6 : ℝ) ^ 64 ≤ 2 ^ 241 := by norm_num
  have := Real.log_le_log (by positivity) this
  rw [Real.log_pow, Real.log_pow] at this
  push_cast at this
  linarith [Real.log_two_lt_d9]

theorem log_24586 : Real.log 24.586 ≤ 3.20235 := by
  have : (24.586 : ℝ) ^ 50 ≤ 2 ^ 231 := by norm_num
  have := Real.log_le_log (by positivity) this
  rw [Real.log_pow, Real.log_pow] at this
  push_cast at this
  linarith [Real.log_two_lt_d9]

/-- **C89.**  The ionisation of a hydrogen atom takes more than 13.6 eV from the electrons, at every temperature and density. -/
theorem hydrogen_cost (T n : ℝ) : ∃ r q, amjuelEvaluate (coefs hydIonisationRate) T n = some r ∧ amjuelEvaluate (coefs hydIonisationLoss) T n = some q ∧
    13.6 * r < q := by
  refine ⟨_, _, evaluate_eq sq1 T n, evaluate_eq sq2 T n, cost (by norm_num) log_136 ?_⟩
  have := whole hCost_ok T n
  rw [ev2_plus, ev2_sub] at this
  push_cast at this
  linarith

/-- **C89.**  From 10 eV on it takes less than 40 eV, at every density: radiation of the atoms before they are ionised included. -/
theorem hydrogen_cost_hot {T : ℝ} (h : 10 ≤ T) (n : ℝ) : ∃ r q, amjuelEvaluate (coefs hydIonisationRate) T n = some r ∧
    amjuelEvaluate (coefs hydIonisationLoss) T n = some q ∧ q < 40 * r := by
  refine ⟨_, _, evaluate_eq sq1 T n, evaluate_eq sq2 T n, ?_⟩
  have a := lx_mono h
  rw [lx_in (T := 10) (by norm_num) (by norm_num)] at a
  have b := part hCostTop_ok (T := T) (by push_cast; linarith [ten_gt]) (by push_cast; linarith [(lx_range T).2]) n
  rw [ev2_plus, ev2_sub] at b
  push_cast at b
  have c : Real.log (1 / 40) ≤ -3.688 := by
    rw [one_div, Real.log_inv, show (40 : ℝ) = 2 ^ 3 * 5 by norm_num, Real.log_mul (by norm_num) (by norm_num), Real.log_pow]
    push_cast
    linarith [Real.log_two_gt_d9, Real.log_five_gt_d9]
  have := cost (a := ev2 hydIonisationRate (lx T) (ly n)) (b := ev2 hydIonisationLoss (lx T) (ly n)) (by norm_num) c (by linarith)
  linarith

/-- **C89.**  The recombination of a hydrogen ion radiates more than 6 eV, and up to 10 eV less than 24 eV, at every density: of the 13.6 eV that become free
the electrons keep less than 7.6 eV. -/
theorem hydrogen_recombination_radiates (T n : ℝ) : ∃ r q, amjuelEvaluate (coefs hydRecombinationRate) T n = some r ∧
    amjuelEvaluate (coefs hydRecombinationLoss) T n = some q ∧ 6 * r < q ∧ (T ≤ 10 → q < 24 * r) := by
  refine ⟨_, _, evaluate_eq sq3 T n, evaluate_eq sq4 T n, cost (by norm_num) (c := 1.792) ?_ ?_, fun h => ?_⟩
  · rw [show (6 : ℝ) = 2 * 3 by norm_num, Real.log_mul (by norm_num) (by norm_num)]
    linarith [Real.log_two_lt_d9, Real.log_three_lt_d9]
  · have := whole hRadiates_ok T n
    rw [ev2_plus, ev2_sub] at this
    push_cast at this
    linarith
  · have a := lx_mono h
    rw [lx_in (T := 10) (by norm_num) (by norm_num)] at a
    have b := part hRadiatesTop_ok (T := T) (by push_cast; linarith [(lx_range T).1]) (by push_cast; linarith [ten_lt]) n
    rw [ev2_plus, ev2_sub] at b
    push_cast at b
    have c : Real.log (1 / 24) ≤ -3.178 := by
      rw [one_div, Real.log_inv, show (24 : ℝ) = 2 ^ 3 * 3 by norm_num, Real.log_mul (by norm_num) (by norm_num), Real.log_pow]
      push_cast
      linarith [Real.log_two_gt_d9, Real.log_three_gt_d9]
    have := cost (a := ev2 hydRecombinationRate (lx T) (ly n)) (b := ev2 hydRecombinationLoss (lx T) (ly n)) (by norm_num) c (by linarith)
    linarith

/-! ## Helium -/

/-- **C89.**  From 10 eV on the ionisation of a helium atom takes less than 45 eV, at every density. -/
theorem helium_cost_hot {T : ℝ} (h : 10 ≤ T) (n : ℝ) : ∃ r q, amjuelEvaluate (coefs heIonisationRate) T n = some r ∧
    amjuelEvaluate (coefs heIonisationLoss) T n = some q ∧ q < 45 * r := by
  refine ⟨_, _, evaluate_eq sq5 T n, evaluate_eq sq6 T n, ?_⟩
  have a := lx_mono h
  rw [lx_in (T := 10) (by norm_num) (by norm_num)] at a
  have b := part heCostTop_ok (T := T) (by push_cast; linarith [ten_gt]) (by push_cast; linarith [(lx_range T).2]) n
  rw [ev2_plus, ev2_sub] at b
  push_cast at b
  have c : Real.log (1 / 45) ≤ -3.806 := by
    rw [one_div, Real.log_inv, show (45 : ℝ) = 3 ^ 2 * 5 by norm_num, Real.log_mul (by norm_num) (by norm_num), Real.log_pow]
    push_cast
    linarith [Real.log_three_gt_d9, Real.log_five_gt_d9]
  have := cost (a := ev2 heIonisationRate (lx T) (ly n)) (b := ev2 heIonisationLoss (lx T) (ly n)) (by norm_num) c (by linarith)
  linarith

/-- **C89.**  Helium: bounded ionisation; recombination is faster up to 1 eV and ionisation from 3 eV on, at every density. -/
theorem helium_balance (T n : ℝ) : ∃ i r, amjuelEvaluate (coefs heIonisationRate) T n = some i ∧
    amjuelEvaluate (coefs heRecombinationRate) T n = some r ∧ 0 < i ∧ i < 1e-12 ∧ 0 < r ∧ (T ≤ 1 → i < r) ∧ (3 ≤ T → r < i) := by
  obtain ⟨i, hi, h0, h1⟩ := bounded sq5 heIon_ok T n
  rw [evaluate_eq sq5 T n] at hi
  obtain rfl := Option.some.inj hi
  refine ⟨_, _, evaluate_eq sq5 T n, evaluate_eq sq7 T n, h0, h1, by positivity, fun h => rate_lt ?_, fun h => rate_lt ?_⟩
  · have a := lx_mono h
    rw [lx_one] at a
    have := part heCold_ok (T := T) (by push_cast; linarith [(lx_range T).1]) (by push_cast; linarith) n
    rw [ev2_sub] at this
    linarith
  · have a := lx_mono h
    rw [lx_in (by norm_num) (by norm_num)] at a
    have := part heHot_ok (T := T) (by push_cast; linarith [Real.log_three_gt_d9]) (by push_cast; linarith [(lx_range T).2]) n
    rw [ev2_sub] at this
    linarith

/-- **C89**, partial: from 0.3 eV on.  The ionisation of a helium atom takes more than its ionisation potential from the electrons. -/
theorem helium_cost_partial {T : ℝ} (h : 0.3 ≤ T) (n : ℝ) : ∃ r q, amjuelEvaluate (coefs heIonisationRate) T n = some r ∧
    amjuelEvaluate (coefs heIonisationLoss) T n = some q ∧ 24.586 * r < q := by
  refine ⟨_, _, evaluate_eq sq5 T n, evaluate_eq sq6 T n, cost (by norm_num) log_24586 ?_⟩
  have a := lx_mono h
  rw [lx_in (by norm_num) (by norm_num), show (0.3 : ℝ) = 3 / 10 by norm_num, Real.log_div (by norm_num) (by norm_num)] at a
  have := part heCost_ok (T := T) (by push_cast; linarith [Real.log_three_gt_d9, ten_lt]) (by push_cast; linarith [(lx_range T).2]) n
  rw [ev2_plus, ev2_sub] at this
  push_cast at this
  linarith

theorem lx_cold {T : ℝ} (h : T ≤ 0.1) : -2.303 ≤ lx T ∧ lx T ≤ -2.302 := by
  have a := lx_mono h
  rw [lx_in (T := 0.1) (by norm_num) (by norm_num), log_tenth] at a
  exact ⟨(lx_range T).1, by linarith [ten_gt]⟩

theorem ly_dense {n : ℝ} (h : 1e22 ≤ n) : 18.42 ≤ ly n ∧ ly n ≤ 18.422 := by
  refine ⟨?_, (ly_range n).2⟩
  unfold ly
  rw [min_eq_right h, max_eq_right (by norm_num), show (1e22 : ℝ) / 1e14 = 10 ^ 8 by norm_num, Real.log_pow]
  push_cast
  linarith [ten_gt]

/-- Full statement fails: in cold and dense plasma the ionisation of a helium atom takes less than 3 eV from the electrons, although its potential is
24.586 eV.  This much is given back when the ion recombines, so ionisation followed by recombination heats the electrons. -/
theorem helium_cheap {T n : ℝ} (hT : T ≤ 0.1) (hn : 1e22 ≤ n) : ∃ r q, amjuelEvaluate (coefs heIonisationRate) T n = some r ∧
    amjuelEvaluate (coefs heIonisationLoss) T n = some q ∧ 0 < q ∧ q < 3 * r := by
  refine ⟨_, _, evaluate_eq sq5 T n, evaluate_eq sq6 T n, by positivity, ?_⟩
  have := checkOn_sound heCheap_ok (x := lx T) (y := ly n) ⟨by push_cast; linarith [(lx_cold hT).1], by push_cast; linarith [(lx_cold hT).2]⟩
    ⟨by push_cast; linarith [(ly_dense hn).1], by push_cast; linarith [(ly_dense hn).2]⟩
  rw [ev2_plus, ev2_sub] at this
  push_cast at this
  have k := cost (a := ev2 heIonisationRate (lx T) (ly n)) (b := ev2 heIonisationLoss (lx T) (ly n)) (c := -1.0986) (E := 1 / 3) (by norm_num)
    (by rw [one_div, Real.log_inv]; linarith [Real.log_three_gt_d9]) (by linarith)
  linarith

/-- Full statement fails: recombination of helium should be the faster, the colder the electrons.  At every density up to `10¹⁹ m⁻³` the fit gives at
0.2 eV and below less than a millionth of the rate at 1 eV. -/
theorem cold_helium_does_not_recombine {T n : ℝ} (hT : T ≤ 0.2) (hn : n ≤ 1e19) : ∃ r r', amjuelEvaluate (coefs heRecombinationRate) T n = some r ∧
    amjuelEvaluate (coefs heRecombinationRate) 1 n = some r' ∧ 1e6 * r < r' := by
  refine ⟨_, _, evaluate_eq sq7 T n, evaluate_eq sq7 1 n, cost (c := 13.816) (by norm_num) ?_ ?_⟩
  · rw [show (1e6 : ℝ) = 10 ^ 6 by norm_num, Real.log_pow]
    push_cast
    linarith [ten_lt]
  · have a := lx_mono hT
    rw [lx_in (T := 0.2) (by norm_num) (by norm_num), show (0.2 : ℝ) = 5⁻¹ by norm_num, Real.log_inv] at a
    have b := ly_mono hn
    have b' : ly 1e19 = 5 * Real.log 10 := by
      unfold ly
      rw [min_eq_left (by norm_num), max_eq_right (by norm_num), show (1e19 : ℝ) / 1e14 = 10 ^ 5 by norm_num, Real.log_pow]
      norm_num
    have := checkOn_sound heStops_ok (x := lx T) (y := ly n) ⟨by push_cast; linarith [(lx_range T).1], by push_cast; linarith [Real.log_five_gt_d9]⟩
      ⟨by push_cast; linarith [(ly_range n).1], by push_cast; linarith [ten_lt]⟩
    rw [ev2_plus, ev2_sub] at this
    rw [lx_one]
    have z : ev2 heRecombinationRate 0 (ly n) = ev2 [heRecombinationRate.getD 0 []] (lx T) (ly n) := by
      show ev _ (ly n) + 0 * _ = ev _ (ly n) + lx T * ev2 [] _ _
      rw [zero_mul, show ev2 [] (lx T) (ly n) = 0 from rfl, mul_zero]
      rfl
    rw [z]
    push_cast at this
    linarith

/-- Full statement fails: in cold and dense plasma the rate coefficient for the recombination of helium is not below `10⁻¹² m³/s`: it is more than
fifty times this. -/
theorem helium_huge {T n : ℝ} (hT : T ≤ 0.1) (hn : 1e22 ≤ n) : ∃ r, amjuelEvaluate (coefs heRecombinationRate) T n = some r ∧ 5e-11 < r := by
  refine ⟨_, evaluate_eq sq7 T n, ?_⟩
  have := checkOn_sound heHuge_ok (x := lx T) (y := ly n) ⟨by push_cast; linarith [(lx_cold hT).1], by push_cast; linarith [(lx_cold hT).2]⟩
    ⟨by push_cast; linarith [(ly_dense hn).1], by push_cast; linarith [(ly_dense hn).2]⟩
  rw [ev2_plus] at this
  push_cast at this
  have k := cost (a := ev2 heRecombinationRate (lx T) (ly n)) (b := 0) (c := -9.3) (E := 1 / 2 ^ 14) (by norm_num)
    (by rw [one_div, Real.log_inv, Real.log_pow]; push_cast; linarith [Real.log_two_gt_d9]) (by linarith)
  rw [zero_div, Real.exp_zero] at k
  linarith

/-! ## What the reactions take from the electrons -/

/-- The fit as a function. -/
noncomputable def fit (p : List (List ℤ)) (T n : ℝ) : ℝ := (amjuelEvaluate (coefs p) T n).getD 0

theorem fit_pos {p : List (List ℤ)} (h : Square p) (T n : ℝ) : 0 < fit p T n := by
  unfold fit
  rw [evaluate_eq h]
  show 0 < Real.exp _ * 1e-6
  positivity

open Hermes.Limiters in
/-- If every event costs at least `E`, so does the reaction in every cell: whatever the state, the average over the cell keeps this, if
`radiation_multiplier` is at least `rate_multiplier`. -/
theorem loss_ge {ι : Type} (nm : Norms) (hT : 0 < nm.T) (hN : 0 < nm.N) (hF : 0 < nm.Freq) {rate rad : ℝ → ℝ → ℝ} {E : ℝ} (hE : 0 ≤ E)
    (h0 : ∀ T n, 0 ≤ rate T n) (h1 : ∀ T n, E * rate T n ≤ rad T n) (heat kr kR : ℝ) (hk : 0 ≤ kr) (hkR : kr ≤ kR) (e fr dst : String)
    (w : World ι) (hl : MonotoneLim w.lim) (hJ : ∀ i, 0 < w.J i) {r : ElectronReaction ι} (hr : electronReaction nm rate rad heat kr kR e fr dst w = .ok r)
    (hpos : ∀ s f i, (w.st.ent (.sp s Var.density)).val = some f → 0 ≤ f i) (i : ι) :
    (E - heat * kR) / nm.T * r.reaction_rate i ≤ r.energy_loss i := by
  obtain ⟨Ne, Te, N1, T1, V1, V2, A, a1, a2, a3, -, -, -, -, -, ev, -, rfl⟩ := Reactions.electronReaction_ok hr
  have p1 : ∀ i, 0 ≤ Ne i := fun i => hpos _ _ i a1
  have p2 : ∀ i, 0 ≤ N1 i := fun i => hpos _ _ i a3
  unfold electronReactionOf World.avg3 cellAverage
  dsimp only
  simp only [Matrix.cons_val_zero, Matrix.cons_val_one, Matrix.cons_val]
  have e1 := edges_nonneg hl (p1 (w.ym i)) (p1 i) (p1 (w.yp i))
  have e2 := edges_nonneg hl (p2 (w.ym i)) (p2 i) (p2 (w.yp i))
  have key : ∀ ne n1 te c : ℝ, 0 ≤ ne → 0 ≤ n1 → 0 ≤ c → E / nm.T * (c * (ne * n1 * rate (te * nm.T) (ne * nm.N) * nm.N / nm.Freq * kr))
      ≤ c * (ne * n1 * rad (te * nm.T) (ne * nm.N) * nm.N / (nm.T * nm.Freq) * kR) := by
    intro ne n1 te c q1 q2 q3
    have := h1 (te * nm.T) (ne * nm.N)
    have z := h0 (te * nm.T) (ne * nm.N)
    have l : E * rate (te * nm.T) (ne * nm.N) * kr ≤ rad (te * nm.T) (ne * nm.N) * kR :=
      mul_le_mul this hkR hk ((mul_nonneg hE z).trans this)
    have m := mul_le_mul_of_nonneg_left l (show 0 ≤ c * ne * n1 * nm.N / (nm.T * nm.Freq) by positivity)
    calc _ = c * ne * n1 * nm.N / (nm.T * nm.Freq) * (E * rate (te * nm.T) (ne * nm.N) * kr) := by field_simp
      _ ≤ _ := m
      _ = _ := by ring
  have j1 := hJ i
  have j2 := hJ (w.ym i)
  have j3 := hJ (w.yp i)
  have b1 := key (Ne i) (N1 i) (Te i) (4 / 6) (p1 i) (p2 i) (by norm_num)
  have b2 := key _ _ (w.lim (Te (w.ym i)) (Te i) (Te (w.yp i))).1 ((w.J i + w.J (w.ym i)) / (12 * w.J i)) e1.1 e2.1 (by positivity)
  have b3 := key _ _ (w.lim (Te (w.ym i)) (Te i) (Te (w.yp i))).2 ((w.J i + w.J (w.yp i)) / (12 * w.J i)) e1.2.2.1 e2.2.2.1 (by positivity)
  rw [sub_div, sub_mul]
  have c : ∀ R : ℝ, heat * kR / nm.T * R = heat / nm.T * R * kR := fun R => by ring
  rw [c, mul_add, mul_add]
  linarith

open Hermes.Limiters in
/-- **C89.**  The component: in every cell of every state with densities that are not negative, the ionisation of hydrogen takes at least 13.6 eV per
event from the electrons. -/
theorem hydrogen_ionisation_cools {ι : Type} (nm : Norms) (hT : 0 < nm.T) (hN : 0 < nm.N) (hF : 0 < nm.Freq) (kr kR : ℝ) (hk : 0 ≤ kr) (hkR : kr ≤ kR)
    (e fr dst : String) (w : World ι) (hl : MonotoneLim w.lim) (hJ : ∀ i, 0 < w.J i) {r : ElectronReaction ι}
    (hr : electronReaction nm (fit hydIonisationRate) (fit hydIonisationLoss) 0 kr kR e fr dst w = .ok r)
    (hpos : ∀ s f i, (w.st.ent (.sp s Var.density)).val = some f → 0 ≤ f i) (i : ι) : 13.6 / nm.T * r.reaction_rate i ≤ r.energy_loss i := by
  have h0 : ∀ T n, 0 ≤ fit hydIonisationRate T n := fun T n => (fit_pos sq1 T n).le
  have h1 : ∀ T n, 13.6 * fit hydIonisationRate T n ≤ fit hydIonisationLoss T n := fun T n => by
    obtain ⟨r, q, a, b, c⟩ := hydrogen_cost T n
    unfold fit
    rw [a, b]
    exact c.le
  simpa using loss_ge nm hT hN hF (by norm_num) h0 h1 0 kr kR hk hkR e fr dst w hl hJ hr hpos i

open Hermes.Limiters in
/-- **C89.**  Where as many hydrogen atoms are ionised as ions recombine, the electrons do not gain energy. -/
theorem hydrogen_cycle_cools {ι : Type} (nm : Norms) (hT : 0 < nm.T) (hN : 0 < nm.N) (hF : 0 < nm.Freq) (e atom ion : String) (w : World ι)
    (hl : MonotoneLim w.lim) (hJ : ∀ i, 0 < w.J i) {r r' : ElectronReaction ι}
    (hr : electronReaction nm (fit hydIonisationRate) (fit hydIonisationLoss) 0 1 1 e atom ion w = .ok r)
    (hr' : electronReaction nm (fit hydRecombinationRate) (fit hydRecombinationLoss) 13.6 1 1 e ion atom w = .ok r')
    (hpos : ∀ s f i, (w.st.ent (.sp s Var.density)).val = some f → 0 ≤ f i) (i : ι) (h : r.reaction_rate i = r'.reaction_rate i) :
    0 ≤ r.energy_loss i + r'.energy_loss i := by
  have a := hydrogen_ionisation_cools nm hT hN hF 1 1 zero_le_one le_rfl e atom ion w hl hJ hr hpos i
  have b := loss_ge nm hT hN hF (rate := fit hydRecombinationRate) (rad := fit hydRecombinationLoss) (E := 0) le_rfl
    (fun T n => (fit_pos sq3 T n).le)
    (fun T n => by rw [zero_mul]; exact (fit_pos sq4 T n).le) 13.6 1 1 zero_le_one le_rfl e ion atom w hl hJ hr' hpos i
  rw [← h] at b
  have c : (0 - 13.6 * 1) / nm.T * r.reaction_rate i = -(13.6 / nm.T * r.reaction_rate i) := by ring
  rw [c] at b
  linarith

/-- The hypotheses can be met: both reactions run, in a state with positive densities. -/
example : ∃ w : World (Fin 1), (∃ r, electronReaction ⟨100, 1e19, 1e6⟩ (fit hydIonisationRate) (fit hydIonisationLoss) 0 1 1 "e" "d" "d+" w = .ok r) ∧
    Limiters.MonotoneLim w.lim ∧ (∀ i, 0 < w.J i) ∧ ∀ s f i, (w.st.ent (.sp s Var.density)).val = some f → 0 ≤ f i :=
  ⟨Reactions.demo (fun _ => 1) (fun _ => 2) (fun _ => 1), Reactions.demo_electron _ _ _ _ _ _ _ _ _, Limiters.upwind_monotone, fun _ => by simp [Reactions.demo],
    fun s f i h => by
      simp [Reactions.demo] at h
      subst h
      simp⟩

end Hermes.AmjuelFits
