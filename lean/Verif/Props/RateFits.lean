import Verif.Model.AtomicFits
import Verif.Props.AdasTable
import Verif.Props.Reactions
import Verif.Lemmas.LogBounds
import Mathlib.Analysis.SpecialFunctions.Log.Base
import Mathlib.Topology.LocallyFinite
import Mathlib.Analysis.SpecialFunctions.Pow.Continuity
import Mathlib.Topology.Order.Compact

/-!
# C85 — rate coefficients at every temperature and density

The time integrator takes differences of the right-hand side, so a rate coefficient with a jump, a zero or an infinite value somewhere
stops it.  Here: the tables and fits behind the atomic rates are continuous functions of the temperature and the density, positive, and
bounded, at every real argument (zero, negative and huge ones included).
-/

namespace Hermes.RateFits

open Hermes.AdasTable

/-- A rate coefficient that is defined everywhere: positive, between two positive bounds, and without jumps. -/
structure Usable (rate : ℝ → ℝ → Option ℝ) : Prop where
  smooth : ∃ f : ℝ × ℝ → ℝ, Continuous f ∧ (∀ T n, rate T n = some (f (T, n))) ∧ ∃ lo hi : ℝ, 0 < lo ∧ ∀ p, lo ≤ f p ∧ f p ≤ hi

/-- A continuous function of two numbers, each of them first moved into an interval, is bounded; if it is positive it stays away from
zero. -/
theorem bounds_of_clip {f : ℝ × ℝ → ℝ} {a b c d : ℝ} {X Y : ℝ → ℝ} (hf : Continuous f) (pos : ∀ p, 0 < f p) (hX : ∀ x, a ≤ X x ∧ X x ≤ b)
    (hY : ∀ y, c ≤ Y y ∧ Y y ≤ d) : ∃ lo hi : ℝ, 0 < lo ∧ ∀ x y, lo ≤ f (X x, Y y) ∧ f (X x, Y y) ≤ hi := by
  have comp : IsCompact (Set.Icc a b ×ˢ Set.Icc c d) := isCompact_Icc.prod isCompact_Icc
  have ne : (Set.Icc a b ×ˢ Set.Icc c d).Nonempty := ⟨(X 0, Y 0), hX 0, hY 0⟩
  obtain ⟨p, _, hp⟩ := comp.exists_isMinOn ne hf.continuousOn
  obtain ⟨q, _, hq⟩ := comp.exists_isMaxOn ne hf.continuousOn
  exact ⟨f p, f q, pos p, fun x y => ⟨hp (show (X x, Y y) ∈ _ from ⟨hX x, hY y⟩), hq (show (X x, Y y) ∈ _ from ⟨hX x, hY y⟩)⟩⟩

/-! ## AMJUEL -/

/-- **C85.**  Every fit of the AMJUEL kind is usable at every temperature and density. -/
theorem amjuel_usable {d : ℕ} (coefs : Fin d → Fin d → ℝ) : Usable (amjuelEvaluate coefs) := by
  let f : ℝ × ℝ → ℝ := fun p => Real.exp (∑ a : Fin d, ∑ b : Fin d, coefs a b * p.2 ^ (b : ℕ) * p.1 ^ (a : ℕ)) * 1e-6
  have cf : Continuous f := by
    refine (Real.continuous_exp.comp (continuous_finsetSum _ fun a _ => continuous_finsetSum _ fun b _ => ?_)).mul continuous_const
    fun_prop
  let X : ℝ → ℝ := fun T => Real.log (max 0.1 (min T 1e4))
  let Y : ℝ → ℝ := fun n => Real.log (max 1e14 (min n 1e22) / 1e14)
  have pX : ∀ T : ℝ, (0.1 : ℝ) ≤ max 0.1 (min T 1e4) ∧ max 0.1 (min T 1e4) ≤ 1e4 := fun T =>
    ⟨le_max_left _ _, max_le (by norm_num) (min_le_right _ _)⟩
  have pY : ∀ n : ℝ, (1 : ℝ) ≤ max 1e14 (min n 1e22) / 1e14 ∧ max 1e14 (min n 1e22) / 1e14 ≤ 1e8 := fun n =>
    ⟨(one_le_div (by norm_num)).2 (le_max_left _ _), (div_le_iff₀ (by norm_num)).2 ((max_le (by norm_num) (min_le_right _ _)).trans (by norm_num))⟩
  have cX : Continuous X := Continuous.log (by fun_prop) fun T => (lt_of_lt_of_le (by norm_num) (pX T).1).ne'
  have cY : Continuous Y := Continuous.log (by fun_prop) fun n => (lt_of_lt_of_le one_pos (pY n).1).ne'
  refine ⟨fun p => f (X p.1, Y p.2), cf.comp ((cX.comp continuous_fst).prodMk (cY.comp continuous_snd)), fun T n => Reactions.amjuel_fit coefs T n, ?_⟩
  obtain ⟨lo, hi, h0, h⟩ := bounds_of_clip (X := X) (Y := Y) (a := Real.log 0.1) (b := Real.log 1e4) (c := Real.log 1) (d := Real.log 1e8) cf
    (fun p => mul_pos (Real.exp_pos _) (by norm_num))
    (fun T => ⟨Real.log_le_log (by norm_num) (pX T).1, Real.log_le_log (lt_of_lt_of_le (by norm_num) (pX T).1) (pX T).2⟩)
    (fun n => ⟨Real.log_le_log (by norm_num) (pY n).1, Real.log_le_log (lt_of_lt_of_le (by norm_num) (pY n).1) (pY n).2⟩)
  exact ⟨lo, hi, h0, fun p => h p.1 p.2⟩

/-! ## OpenADAS -/

/-- Straight line between two neighbouring points of a table with axis `v` and values `c`. -/
noncomputable def lin (v c : ℕ → ℝ) (i : ℕ) (x : ℝ) : ℝ :=
  c i * (1 - (x - v i) / (v (i + 1) - v i)) + c (i + 1) * ((x - v i) / (v (i + 1) - v i))

/-- At a point of the axis it does not matter which of the two intervals is used. -/
theorem lin_agree {v c : ℕ → ℝ} {N i k : ℕ} {x : ℝ} (inc : ∀ a b, a < b → b < N → v a < v b) (hi : i + 1 < N) (hk : k + 1 < N)
    (h1 : v i ≤ x) (h2 : x ≤ v (i + 1)) (h3 : v k ≤ x) (h4 : x ≤ v (k + 1)) : lin v c i x = lin v c k x := by
  have key : ∀ i k, i < k → k + 1 < N → v i ≤ x → x ≤ v (i + 1) → v k ≤ x → x ≤ v (k + 1) → lin v c i x = lin v c k x := by
    intro i k hik hk h1 h2 h3 h4
    have e : k = i + 1 := by
      by_contra hne
      have := inc (i + 1) k (by omega) (by omega)
      linarith
    subst e
    have ex : x = v (i + 1) := le_antisymm h2 h3
    have n : v (i + 1) - v i ≠ 0 := (sub_pos.2 (inc i (i + 1) (by omega) (by omega))).ne'
    unfold lin
    rw [ex, div_self n, sub_self (v (i + 1)), zero_div]
    ring
  rcases Nat.lt_trichotomy i k with h | h | h
  · exact key i k h hk h1 h2 h3 h4
  · rw [h]
  · exact (key k i h hi h3 h4 h1 h2).symm

theorem lin_continuous (v c : ℕ → ℝ) (i : ℕ) : Continuous (lin v c i) := by
  unfold lin
  fun_prop

/-- The moved logarithm is a continuous function of its argument. -/
theorem clampedLog_continuous {a b : ℝ} (hab : a ≤ b) : Continuous (clampedLog a b) := by
  have pa : (0 : ℝ) < (10 : ℝ) ^ a := by positivity
  have e : clampedLog a b = fun x => Real.log (max ((10 : ℝ) ^ a) (min x ((10 : ℝ) ^ b))) / Real.log 10 := by
    funext x
    rw [← logb_clip a b x hab]
    have hle : (10 : ℝ) ^ a ≤ (10 : ℝ) ^ b := Real.rpow_le_rpow_of_exponent_le (by norm_num) hab
    have : clip x ((10 : ℝ) ^ a) ((10 : ℝ) ^ b) = max ((10 : ℝ) ^ a) (min x ((10 : ℝ) ^ b)) := by
      unfold clip
      split
      · rename_i h1; rw [min_eq_left (by linarith), max_eq_left h1.le]
      · split
        · rename_i h1 h2; rw [min_eq_right h2.le, max_eq_right hle]
        · rename_i h1 h2; rw [min_eq_left (not_lt.mp h2), max_eq_right (not_lt.mp h1)]
    rw [this]
    rfl
  rw [e]
  exact (Continuous.log (by fun_prop) fun x => (lt_of_lt_of_le pa (le_max_left _ _)).ne').div_const _

/-- Axis and values of a table as functions of the index. -/
noncomputable def axisT (t : AdasTable) (i : ℕ) : ℝ := t.log_temperature[i]?.getD 0
noncomputable def axisN (t : AdasTable) (j : ℕ) : ℝ := t.log_density[j]?.getD 0
noncomputable def value (t : AdasTable) (i j : ℕ) : ℝ := (entry t i j).getD 0

theorem axisT_eq {t : AdasTable} {i : ℕ} (h : i < t.log_temperature.length) : t.log_temperature[i] = axisT t i := by
  unfold axisT
  rw [List.getElem?_eq_getElem h]
  rfl

theorem axisN_eq {t : AdasTable} {i : ℕ} (h : i < t.log_density.length) : t.log_density[i] = axisN t i := by
  unfold axisN
  rw [List.getElem?_eq_getElem h]
  rfl

/-- The exponent of the interpolated value in the cell `(i, j)` of the table. -/
noncomputable def cell (t : AdasTable) (i j : ℕ) (X Y : ℝ) : ℝ := lin (axisT t) (fun a => lin (axisN t) (value t a) j Y) i X

/-- The two clamped logarithms. -/
noncomputable def logT (t : AdasTable) : ℝ → ℝ := clampedLog (axisT t 0) (axisT t (t.log_temperature.length - 1))
noncomputable def logN (t : AdasTable) : ℝ → ℝ := clampedLog (axisN t 0) (axisN t (t.log_density.length - 1))

theorem incT {t : AdasTable} (ht : WellFormed t) : ∀ a b, a < b → b < t.log_temperature.length → axisT t a < axisT t b := by
  intro a b hab hb
  rw [← axisT_eq (t := t) (i := a) (by omega), ← axisT_eq hb]
  exact List.pairwise_iff_getElem.mp ht.Tinc a b (by omega) hb hab

theorem incN {t : AdasTable} (ht : WellFormed t) : ∀ a b, a < b → b < t.log_density.length → axisN t a < axisN t b := by
  intro a b hab hb
  rw [← axisN_eq (t := t) (i := a) (by omega), ← axisN_eq hb]
  exact List.pairwise_iff_getElem.mp ht.ninc a b (by omega) hb hab

/-- Whichever cell the code looks in, the result is that of every cell that contains the point. -/
theorem lookup_cell (t : AdasTable) (ht : WellFormed t) (T n : ℝ) :
    ∃ i j, i + 1 < t.log_temperature.length ∧ j + 1 < t.log_density.length ∧
      (axisT t i ≤ logT t T ∧ logT t T ≤ axisT t (i + 1) ∧ axisN t j ≤ logN t n ∧ logN t n ≤ axisN t (j + 1)) ∧
      adasEvaluate t T n = some ((10 : ℝ) ^ cell t i j (logT t T) (logN t n)) := by
  obtain ⟨i, j, hi, hj, c00, c01, c10, c11, h⟩ := lookup_formula t ht T n
  have a1 := ht.T2
  have a2 := ht.n2
  rw [axisT_eq (by omega), axisT_eq (t := t) (i := t.log_temperature.length - 1) (by omega), axisN_eq (by omega),
    axisN_eq (t := t) (i := t.log_density.length - 1) (by omega), axisT_eq (t := t) (i := i) (by omega), axisT_eq hi,
    axisN_eq (t := t) (i := j) (by omega), axisN_eq hj] at h
  obtain ⟨q1, q2, q3, q4, h00, h01, h10, h11, he⟩ := h
  refine ⟨i, j, hi, hj, ⟨q1, q2, q3, q4⟩, he.trans ?_⟩
  unfold cell lin value
  dsimp only
  rw [h00, h01, h10, h11]
  rfl

/-- **C85.**  Every well-formed OpenADAS table is usable at every temperature and density: the piecewise interpolation has no jumps
between the cells of the table nor at its edges. -/
theorem adas_usable (t : AdasTable) (ht : WellFormed t) : Usable (adasEvaluate t) := by
  have T2 := ht.T2
  have n2 := ht.n2
  have hT : axisT t 0 ≤ axisT t (t.log_temperature.length - 1) := (incT ht 0 _ (by omega) (by omega)).le
  have hN : axisN t 0 ≤ axisN t (t.log_density.length - 1) := (incN ht 0 _ (by omega) (by omega)).le
  have cT : Continuous (logT t) := clampedLog_continuous hT
  have cN : Continuous (logN t) := clampedLog_continuous hN
  choose I J hI hJ hin hval using lookup_cell t ht
  let e : ℝ × ℝ → ℝ := fun p => cell t (I p.1 p.2) (J p.1 p.2) (logT t p.1) (logN t p.2)
  let S : Fin t.log_temperature.length × Fin t.log_density.length → Set (ℝ × ℝ) := fun k =>
    {p | (k.1 : ℕ) + 1 < t.log_temperature.length ∧ (k.2 : ℕ) + 1 < t.log_density.length ∧
      (axisT t k.1 ≤ logT t p.1 ∧ logT t p.1 ≤ axisT t (k.1 + 1) ∧ axisN t k.2 ≤ logN t p.2 ∧ logN t p.2 ≤ axisN t (k.2 + 1))}
  have same : ∀ k, ∀ p ∈ S k, e p = cell t k.1 k.2 (logT t p.1) (logN t p.2) := by
    rintro k p ⟨k1, k2, q1, q2, q3, q4⟩
    obtain ⟨r1, r2, r3, r4⟩ := hin p.1 p.2
    have inner : ∀ a, lin (axisN t) (value t a) (J p.1 p.2) (logN t p.2) = lin (axisN t) (value t a) k.2 (logN t p.2) := fun a =>
      lin_agree (incN ht) (hJ _ _) k2 r3 r4 q3 q4
    show lin _ _ _ _ = lin _ _ _ _
    rw [lin_agree (incT ht) (hI _ _) k1 r1 r2 q1 q2]
    simp only [inner]
  have cont : Continuous e := by
    refine LocallyFinite.continuous (f := S) (locallyFinite_of_finite S) ?_ ?_ ?_
    · refine Set.eq_univ_of_forall fun p => Set.mem_iUnion.2 ?_
      have a := hI p.1 p.2
      have b := hJ p.1 p.2
      exact ⟨(⟨I p.1 p.2, by omega⟩, ⟨J p.1 p.2, by omega⟩), a, b, hin p.1 p.2⟩
    · intro k
      by_cases h1 : (k.1 : ℕ) + 1 < t.log_temperature.length
      · by_cases h2 : (k.2 : ℕ) + 1 < t.log_density.length
        · have : S k = {p | axisT t k.1 ≤ logT t p.1} ∩ {p | logT t p.1 ≤ axisT t (k.1 + 1)} ∩
              ({p | axisN t k.2 ≤ logN t p.2} ∩ {p | logN t p.2 ≤ axisN t (k.2 + 1)}) := by
            ext p
            exact ⟨fun ⟨_, _, q1, q2, q3, q4⟩ => ⟨⟨q1, q2⟩, q3, q4⟩, fun ⟨⟨q1, q2⟩, q3, q4⟩ => ⟨h1, h2, q1, q2, q3, q4⟩⟩
          rw [this]
          have fT := cT.comp (continuous_fst (X := ℝ) (Y := ℝ))
          have fN := cN.comp (continuous_snd (X := ℝ) (Y := ℝ))
          exact ((isClosed_le continuous_const fT).inter (isClosed_le fT continuous_const)).inter
            ((isClosed_le continuous_const fN).inter (isClosed_le fN continuous_const))
        · have : S k = ∅ := Set.eq_empty_of_forall_notMem fun p hp => h2 hp.2.1
          rw [this]
          exact isClosed_empty
      · have : S k = ∅ := Set.eq_empty_of_forall_notMem fun p hp => h1 hp.1
        rw [this]
        exact isClosed_empty
    · intro k
      refine ContinuousOn.congr (Continuous.continuousOn ?_) (same k)
      have fT := cT.comp (continuous_fst (X := ℝ) (Y := ℝ))
      have fN := cN.comp (continuous_snd (X := ℝ) (Y := ℝ))
      have r : ∀ a, Continuous fun p : ℝ × ℝ => lin (axisN t) (value t a) k.2 (logN t p.2) := fun a => (lin_continuous _ _ _).comp fN
      unfold cell
      unfold lin at r ⊢
      have x : Continuous fun p : ℝ × ℝ => (logT t p.1 - axisT t k.1) / (axisT t (k.1 + 1) - axisT t k.1) :=
        (fT.sub continuous_const).div_const _
      exact ((r k.1).mul (continuous_const.sub x)).add ((r (k.1 + 1)).mul x)
  refine ⟨fun p => (10 : ℝ) ^ e p, ?_, fun T n => hval T n, ?_⟩
  · exact Continuous.rpow continuous_const cont fun _ => Or.inl (by norm_num)
  · -- the result lies between the smallest and the largest entry
    obtain ⟨M, hM⟩ : ∃ M : ℝ, ∀ i j, |value t i j| ≤ M := by
      refine ⟨∑ i ∈ Finset.range t.log_temperature.length, ∑ j ∈ Finset.range t.log_density.length, |value t i j|, fun i j => ?_⟩
      by_cases h1 : i < t.log_temperature.length
      · by_cases h2 : j < t.log_density.length
        · refine le_trans ?_ (Finset.single_le_sum (f := fun i => ∑ j ∈ Finset.range t.log_density.length, |value t i j|)
            (fun i _ => Finset.sum_nonneg fun j _ => abs_nonneg _) (Finset.mem_range.2 h1))
          exact Finset.single_le_sum (f := fun j => |value t i j|) (fun j _ => abs_nonneg _) (Finset.mem_range.2 h2)
        · have : value t i j = 0 := by
            unfold value entry
            rw [List.getElem?_eq_getElem (by rw [ht.rows]; exact h1)]
            have : (t.log_coeff[i]'(by rw [ht.rows]; exact h1)).length = t.log_density.length := ht.cols _ (List.getElem_mem _)
            show ((t.log_coeff[i]'_)[j]?).getD 0 = 0
            rw [List.getElem?_eq_none (by omega)]
            rfl
          rw [this, abs_zero]
          exact Finset.sum_nonneg fun i _ => Finset.sum_nonneg fun j _ => abs_nonneg _
      · have : value t i j = 0 := by
          unfold value entry
          rw [List.getElem?_eq_none (by rw [ht.rows]; omega)]
          rfl
        rw [this, abs_zero]
        exact Finset.sum_nonneg fun i _ => Finset.sum_nonneg fun j _ => abs_nonneg _
    have mix : ∀ a b z : ℝ, 0 ≤ z → z ≤ 1 → |a| ≤ M → |b| ≤ M → |a * (1 - z) + b * z| ≤ M := by
      intro a b z z0 z1 ha hb
      rw [abs_le] at ha hb ⊢
      constructor <;> nlinarith
    have bound : ∀ (v : ℕ → ℝ) (c : ℕ → ℝ) (i : ℕ) (x : ℝ), v i < v (i + 1) → v i ≤ x → x ≤ v (i + 1) → |c i| ≤ M → |c (i + 1)| ≤ M →
        |lin v c i x| ≤ M := by
      intro v c i x h0 h1 h2 h3 h4
      exact mix _ _ _ (div_nonneg (by linarith) (by linarith)) ((div_le_one (by linarith)).2 (by linarith)) h3 h4
    have be : ∀ p, |e p| ≤ M := by
      intro p
      obtain ⟨r1, r2, r3, r4⟩ := hin p.1 p.2
      have b : ∀ a, |lin (axisN t) (value t a) (J p.1 p.2) (logN t p.2)| ≤ M := fun a =>
        bound _ _ _ _ (incN ht _ _ (by omega) (hJ _ _)) r3 r4 (hM _ _) (hM _ _)
      exact bound _ _ _ _ (incT ht _ _ (by omega) (hI _ _)) r1 r2 (b _) (b _)
    exact ⟨(10 : ℝ) ^ (-M), (10 : ℝ) ^ M, by positivity, fun p =>
      ⟨Real.rpow_le_rpow_of_exponent_le (by norm_num) (abs_le.1 (be p)).1, Real.rpow_le_rpow_of_exponent_le (by norm_num) (abs_le.1 (be p)).2⟩⟩

/-! ## The component `ionisation` -/

/-- The published fit, in the logarithm of the temperature. -/
noncomputable def fit (L : ℝ) : ℝ :=
  -32.71397 + 13.53656 * L - 5.739329 * L ^ 2 + 1.563155 * L ^ 3 - 0.2877056 * L ^ 4 + 0.0348256 * L ^ 5 - 0.002631976 * L ^ 6 +
    0.0001119544 * L ^ 7 - 0.00000203915 * L ^ 8

theorem hydrogenIonisation_pos {T : ℝ} (h : 0 < T) : hydrogenIonisation T =
    some (Real.exp (fit (Real.log T)) * 1.0E-6) := by
  unfold hydrogenIonisation
  rw [if_neg h.not_gt, if_neg h.ne']
  congr 3
  simp only [ionisationLoop, ionisationCoefs, fit]
  ring

/-- Below 1 eV the rate falls at least like the thirteenth power of the temperature. -/
theorem hydrogenIonisation_cold {T : ℝ} (h : 0 < T) (h1 : T ≤ 1) : ∃ r, hydrogenIonisation T = some r ∧ 0 < r ∧ r ≤ 1e-20 * T ^ 13 := by
  refine ⟨_, hydrogenIonisation_pos h, by positivity, ?_⟩
  have L : Real.log T ≤ 0 := Real.log_nonpos h.le h1
  obtain ⟨x, hx⟩ : ∃ x, x = -Real.log T := ⟨_, rfl⟩
  have x0 : 0 ≤ x := by linarith
  have e : fit (Real.log T) ≤ (-3.271397E1 : ℝ) + 13 * Real.log T := by
    have : Real.log T = -x := by linarith
    rw [this]
    unfold fit
    have p2 : 0 ≤ x ^ 2 := by positivity
    have p3 : 0 ≤ x ^ 3 := by positivity
    have p4 : 0 ≤ x ^ 4 := by positivity
    have p5 : 0 ≤ x ^ 5 := by positivity
    have p6 : 0 ≤ x ^ 6 := by positivity
    have p7 : 0 ≤ x ^ 7 := by positivity
    have p8 : 0 ≤ x ^ 8 := by positivity
    ring_nf
    nlinarith
  have f : Real.exp (fit (Real.log T)) ≤ Real.exp (-3.271397E1) * T ^ 13 := by
    calc Real.exp (fit (Real.log T)) ≤ Real.exp (-3.271397E1 + 13 * Real.log T) := Real.exp_le_exp.2 e
      _ = Real.exp (-3.271397E1) * T ^ 13 := by
        rw [Real.exp_add, mul_comm (13 : ℝ), ← Real.rpow_def_of_pos h]
        norm_cast
  have g : Real.exp (-3.271397E1) ≤ 1e-14 := by
    have : (-3.271397E1 : ℝ) ≤ Real.log 1e-14 := by
      have l10 : Real.log 10 ≤ 2.3026 := by
        have := LogBounds.logs
        rw [show (10 : ℝ) = 2 * 5 by norm_num, Real.log_mul (by norm_num) (by norm_num)]
        obtain ⟨l2, _, l5⟩ := this
        have a := l2.2
        have b := l5.2
        norm_num at a b ⊢
        linarith
      rw [show (1e-14 : ℝ) = 10 ^ (-14 : ℤ) by norm_num, Real.log_zpow]
      push_cast
      norm_num
      linarith
    calc Real.exp (-3.271397E1) ≤ Real.exp (Real.log 1e-14) := Real.exp_le_exp.2 this
      _ = 1e-14 := Real.exp_log (by norm_num)
  have t : 0 ≤ T ^ 13 := by positivity
  calc Real.exp (fit (Real.log T)) * 1.0E-6 ≤ (1e-14 * T ^ 13) * 1.0E-6 :=
        mul_le_mul_of_nonneg_right (f.trans (mul_le_mul_of_nonneg_right g t)) (by norm_num)
    _ = 1e-20 * T ^ 13 := by ring

/-- **C85.**  The rate of the component `ionisation`: a number at every temperature that is not negative, positive at every positive one,
without jumps, zero included; at a negative temperature it is not a number. -/
theorem hydrogenIonisation_usable_partial : (∃ f : ℝ → ℝ, ContinuousOn f (Set.Ici 0) ∧ (∀ T, 0 ≤ T → hydrogenIonisation T = some (f T)) ∧
      f 0 = 0 ∧ ∀ T, 0 < T → 0 < f T) ∧
    ∀ T, hydrogenIonisation T = none ↔ T < 0 := by
  have none_iff : ∀ T, hydrogenIonisation T = none ↔ T < 0 := by
    intro T
    unfold hydrogenIonisation
    split
    · simp [*]
    · split <;> simp [*]
  refine ⟨⟨fun T => (hydrogenIonisation T).getD 0, ?_, ?_, ?_, ?_⟩, none_iff⟩
  · intro T hT
    have hT' : 0 ≤ T := hT
    rcases hT'.eq_or_lt with h | h
    · subst h
      have z : (fun T => (hydrogenIonisation T).getD 0) 0 = 0 := by simp [hydrogenIonisation]
      unfold ContinuousWithinAt
      rw [z]
      have up : Filter.Tendsto (fun T : ℝ => (1e-20 : ℝ) * T ^ 13) (nhdsWithin 0 (Set.Ici 0)) (nhds 0) := by
        have : Continuous fun T : ℝ => (1e-20 : ℝ) * T ^ 13 := by fun_prop
        have h := this.tendsto (0 : ℝ)
        simp only [ne_eq, OfNat.ofNat_ne_zero, not_false_eq_true, zero_pow, mul_zero] at h
        exact h.mono_left nhdsWithin_le_nhds
      have near : ∀ᶠ T : ℝ in nhdsWithin 0 (Set.Ici 0), 0 ≤ T ∧ T ≤ 1 := by
        have : ∀ᶠ T : ℝ in nhds 0, T < 1 := gt_mem_nhds one_pos
        filter_upwards [self_mem_nhdsWithin, this.filter_mono nhdsWithin_le_nhds] with T h1 h2
        exact ⟨h1, h2.le⟩
      have mid : ∀ T : ℝ, 0 ≤ T ∧ T ≤ 1 → 0 ≤ (hydrogenIonisation T).getD 0 ∧ (hydrogenIonisation T).getD 0 ≤ 1e-20 * T ^ 13 := by
        rintro T ⟨h1, h2⟩
        rcases h1.eq_or_lt with h | h
        · subst h
          simp [hydrogenIonisation]
        · obtain ⟨r, e, p, q⟩ := hydrogenIonisation_cold h h2
          rw [e]
          exact ⟨p.le, q⟩
      exact tendsto_of_tendsto_of_tendsto_of_le_of_le' tendsto_const_nhds up (near.mono fun T h => (mid T h).1) (near.mono fun T h => (mid T h).2)
    · have c : ContinuousAt (fun T => Real.exp (fit (Real.log T)) * 1.0E-6) T := by
        have : Continuous fit := by
          unfold fit
          fun_prop
        exact (Real.continuous_exp.continuousAt.comp (this.continuousAt.comp (Real.continuousAt_log h.ne'))).mul continuousAt_const
      refine (c.congr ?_).continuousWithinAt
      filter_upwards [lt_mem_nhds h] with S hS
      rw [hydrogenIonisation_pos hS]
      rfl
  · intro T hT
    cases e : hydrogenIonisation T with
    | none => exact absurd ((none_iff T).1 e) (not_lt.2 hT)
    | some r => simp [e]
  · simp [hydrogenIonisation]
  · intro T hT
    dsimp only
    rw [hydrogenIonisation_pos hT]
    exact mul_pos (Real.exp_pos _) (by norm_num)

/-! ## Non-vacuity -/

/-- A table of two temperatures and two densities. -/
example : Usable (adasEvaluate ⟨[[-14, -13], [-12, -11]], [0, 1], [18, 20]⟩) := by
  refine adas_usable _ ⟨by simp, by simp, by simp, ?_, by simp, ?_⟩
  · simp; norm_num
  · intro r hr
    simp at hr
    rcases hr with rfl | rfl <;> rfl

end Hermes.RateFits
