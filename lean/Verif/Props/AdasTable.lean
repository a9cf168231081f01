import Verif.Model.Reactions
import Mathlib.Tactic.Linarith
import Mathlib.Tactic.FieldSimp
import Mathlib.Analysis.SpecialFunctions.Pow.Real

/-!
# C29 — the OpenADAS table lookup
-/

namespace Hermes.AdasTable

/-- A table as produced by the converter: at least two points on each increasing axis, one row of coefficients
per temperature and one coefficient per density. -/
structure WellFormed (t : AdasTable) : Prop where
  T2 : 2 ≤ t.log_temperature.length
  n2 : 2 ≤ t.log_density.length
  Tinc : t.log_temperature.Pairwise (· < ·)
  ninc : t.log_density.Pairwise (· < ·)
  rows : t.log_coeff.length = t.log_temperature.length
  cols : ∀ r ∈ t.log_coeff, r.length = t.log_density.length

/-- The tabulated coefficient at temperature number `i`, density number `j`. -/
def entry (t : AdasTable) (i j : ℕ) : Option ℝ := t.log_coeff[i]? >>= fun r => r[j]?

/-- The decimal logarithm of a value, moved to the nearest end of the range `[first, last]`; zero and negative
values count as below the range. -/
noncomputable def clampedLog (first last x : ℝ) : ℝ :=
  if x ≤ 0 then first else max first (min (Real.logb 10 x) last)

theorem logb_clip (a b x : ℝ) (hab : a ≤ b) :
    Real.logb 10 (clip x ((10 : ℝ) ^ a) ((10 : ℝ) ^ b)) = clampedLog a b x := by
  have h10 : (1 : ℝ) < 10 := by norm_num
  have ea : Real.logb 10 ((10 : ℝ) ^ a) = a := Real.logb_rpow (by norm_num) (by norm_num)
  have eb : Real.logb 10 ((10 : ℝ) ^ b) = b := Real.logb_rpow (by norm_num) (by norm_num)
  have pa : (0 : ℝ) < (10 : ℝ) ^ a := by positivity
  have pb : (0 : ℝ) < (10 : ℝ) ^ b := by positivity
  unfold clip clampedLog
  by_cases hx : x ≤ 0
  · rw [if_pos hx, if_pos (by linarith), ea]
  · rw [if_neg hx]
    have hx' : 0 < x := not_le.mp hx
    split
    · rename_i h
      have : Real.logb 10 x ≤ a := by
        rw [← ea]; exact Real.logb_le_logb_of_le h10 hx' h.le
      rw [ea, min_eq_left (by linarith), max_eq_left this]
    · rename_i h
      have h1 : a ≤ Real.logb 10 x := by
        rw [← ea]; exact Real.logb_le_logb_of_le h10 pa (not_lt.mp h)
      split
      · rename_i h2
        have : b ≤ Real.logb 10 x := by
          rw [← eb]; exact Real.logb_le_logb_of_le h10 pb h2.le
        rw [eb, min_eq_right this, max_eq_right hab]
      · rename_i h2
        have : Real.logb 10 x ≤ b := by
          rw [← eb]; exact Real.logb_le_logb_of_le h10 hx' (not_lt.mp h2)
        rw [min_eq_left this, max_eq_right h1]

/-- The upper index: between `1` and `size - 1`, and the two values around it enclose the argument. -/
theorem getHighIndex_spec (vec : List ℝ) (x : ℝ) (h2 : 2 ≤ vec.length) (hinc : vec.Pairwise (· < ·))
    (hlo : vec[0] ≤ x) (hhi : x ≤ vec[vec.length - 1]) :
    ∃ l, ∃ h : l + 1 < vec.length, getHighIndex vec x = some (l + 1) ∧ vec[l] ≤ x ∧ x ≤ vec[l + 1] := by
  unfold getHighIndex
  have hlt : vec.findIdx (fun y => decide (¬ y < x)) < vec.length := by
    rw [List.findIdx_lt_length]
    exact ⟨vec[vec.length - 1], List.getElem_mem _, by simpa using hhi⟩
  have hge := List.findIdx_getElem (w := hlt)
  have hbelow : ∀ k (hk : k < vec.findIdx (fun y => decide (¬ y < x))), vec[k] < x := by
    intro k hk
    have := List.not_of_lt_findIdx hk
    simpa using this
  have hge' : x ≤ vec[vec.findIdx (fun y => decide (¬ y < x))] := by simpa using hge
  have main : ∀ f (hlt : f < vec.length), x ≤ vec[f] → (∀ k (hk : k < f), vec[k] < x) →
      ∃ l, ∃ h : l + 1 < vec.length,
        (if f = vec.length then (if 1 < vec.length then some (f - 1) else none)
          else if f = 0 then (if 1 < vec.length then some 1 else none) else some f) = some (l + 1) ∧
        vec[l] ≤ x ∧ x ≤ vec[l + 1] := by
    intro f hlt hge hbelow
    rw [if_neg (by omega)]
    by_cases h0 : f = 0
    · rw [if_pos h0, if_pos (by omega)]
      refine ⟨0, by omega, rfl, hlo, ?_⟩
      subst h0
      have := List.pairwise_iff_getElem.mp hinc 0 1 (by omega) (by omega) (by omega)
      linarith
    · rw [if_neg h0]
      obtain ⟨l, rfl⟩ : ∃ l, f = l + 1 := ⟨f - 1, by omega⟩
      exact ⟨l, hlt, rfl, (hbelow l (by omega)).le, hge⟩
  exact main _ hlt hge' hbelow

theorem head_some (v : List ℝ) (h : 2 ≤ v.length) : v.head? = some v[0] := by
  cases v with
  | nil => simp at h
  | cons a l => rfl

theorem last_some (v : List ℝ) (h : 2 ≤ v.length) : v.getLast? = some v[v.length - 1] := by
  rw [List.getLast?_eq_getElem?, List.getElem?_eq_getElem (by omega)]

theorem entry_some {t : AdasTable} (ht : WellFormed t) {i j : ℕ} (hi : i < t.log_temperature.length)
    (hj : j < t.log_density.length) : ∃ c, entry t i j = some c := by
  have h1 : i < t.log_coeff.length := by rw [ht.rows]; exact hi
  have h2 : j < t.log_coeff[i].length := by rw [ht.cols _ (List.getElem_mem _)]; exact hj
  exact ⟨t.log_coeff[i][j], by simp [entry, List.getElem?_eq_getElem h1, List.getElem?_eq_getElem h2]⟩

theorem mono_first_last (v : List ℝ) (h2 : 2 ≤ v.length) (hinc : v.Pairwise (· < ·)) :
    v[0] ≤ v[v.length - 1] :=
  (List.pairwise_iff_getElem.mp hinc 0 (v.length - 1) (by omega) (by omega) (by omega)).le

theorem clampedLog_mem (a b x : ℝ) (hab : a ≤ b) : a ≤ clampedLog a b x ∧ clampedLog a b x ≤ b := by
  unfold clampedLog
  split
  · exact ⟨le_rfl, hab⟩
  · exact ⟨le_max_left _ _, max_le hab (min_le_right _ _)⟩

/-- What the lookup computes, with the two intervals it uses. -/
theorem lookup_formula (t : AdasTable) (ht : WellFormed t) (T n : ℝ) :
    ∃ (i j : ℕ) (hi : i + 1 < t.log_temperature.length) (hj : j + 1 < t.log_density.length)
      (c00 c01 c10 c11 : ℝ),
      let X := clampedLog (t.log_temperature[0]'(by omega)) (t.log_temperature[t.log_temperature.length - 1]'(by omega)) T
      let Y := clampedLog (t.log_density[0]'(by omega)) (t.log_density[t.log_density.length - 1]'(by omega)) n
      t.log_temperature[i] ≤ X ∧ X ≤ t.log_temperature[i + 1] ∧ t.log_density[j] ≤ Y ∧ Y ≤ t.log_density[j + 1] ∧
      entry t i j = some c00 ∧ entry t i (j + 1) = some c01 ∧ entry t (i + 1) j = some c10 ∧
      entry t (i + 1) (j + 1) = some c11 ∧
      let x := (X - t.log_temperature[i]) / (t.log_temperature[i + 1] - t.log_temperature[i])
      let y := (Y - t.log_density[j]) / (t.log_density[j + 1] - t.log_density[j])
      adasEvaluate t T n =
        some ((10 : ℝ) ^ ((c00 * (1 - y) + c01 * y) * (1 - x) + (c10 * (1 - y) + c11 * y) * x)) := by
  have hT := clampedLog_mem _ _ T (mono_first_last _ ht.T2 ht.Tinc)
  have hn := clampedLog_mem _ _ n (mono_first_last _ ht.n2 ht.ninc)
  obtain ⟨i, hi, e1, a1, a2⟩ := getHighIndex_spec _ _ ht.T2 ht.Tinc hT.1 hT.2
  obtain ⟨j, hj, e2, b1, b2⟩ := getHighIndex_spec _ _ ht.n2 ht.ninc hn.1 hn.2
  obtain ⟨c00, h00⟩ := entry_some ht (i := i) (j := j) (by omega) (by omega)
  obtain ⟨c01, h01⟩ := entry_some ht (i := i) (j := j + 1) (by omega) (by omega)
  obtain ⟨c10, h10⟩ := entry_some ht (i := i + 1) (j := j) (by omega) (by omega)
  obtain ⟨c11, h11⟩ := entry_some ht (i := i + 1) (j := j + 1) (by omega) (by omega)
  refine ⟨i, j, hi, hj, c00, c01, c10, c11, a1, a2, b1, b2, h00, h01, h10, h11, ?_⟩
  have r1 : i < t.log_coeff.length := by rw [ht.rows]; omega
  have r2 : i + 1 < t.log_coeff.length := by rw [ht.rows]; omega
  simp only [entry, List.getElem?_eq_getElem r1, List.getElem?_eq_getElem r2, Option.bind_eq_bind,
    Option.bind_some] at h00 h01 h10 h11
  have t1 : t.log_temperature[i]? = some t.log_temperature[i] := List.getElem?_eq_getElem (by omega)
  have t2 : t.log_temperature[i + 1]? = some t.log_temperature[i + 1] := List.getElem?_eq_getElem (by omega)
  have t3 : t.log_density[j]? = some t.log_density[j] := List.getElem?_eq_getElem (by omega)
  have t4 : t.log_density[j + 1]? = some t.log_density[j + 1] := List.getElem?_eq_getElem (by omega)
  unfold adasEvaluate
  have bs : ∀ {α β : Type} {x : Option α} {f : α → Option β} {a : α} {b : β}, x = some a → f a = some b →
      (x >>= f) = some b := by
    intro α β x f a b h1 h2
    rw [h1]; exact h2
  refine bs (head_some _ ht.T2) (bs (last_some _ ht.T2) (bs (head_some _ ht.n2) (bs (last_some _ ht.n2) ?_)))
  rw [logb_clip _ _ _ (mono_first_last _ ht.T2 ht.Tinc), logb_clip _ _ _ (mono_first_last _ ht.n2 ht.ninc)]
  exact bs e1 (bs e2 (bs t1 (bs t2 (bs t3 (bs t4 (bs (List.getElem?_eq_getElem r1)
    (bs (List.getElem?_eq_getElem r2) (bs h00 (bs h01 (bs h10 (bs h11 rfl)))))))))))

/-- C29.  For every temperature and density, zero, negative and huge ones included, the lookup never leaves the
table, it uses the interval of each axis that contains the (clamped) argument, and the result lies between the
smallest and the largest of the four tabulated values around it. -/
theorem lookup_between (t : AdasTable) (ht : WellFormed t) (T n : ℝ) :
    ∃ (i j : ℕ) (hi : i + 1 < t.log_temperature.length) (hj : j + 1 < t.log_density.length) (v : ℝ),
      adasEvaluate t T n = some v ∧
      (let X := clampedLog (t.log_temperature[0]'(by omega))
          (t.log_temperature[t.log_temperature.length - 1]'(by omega)) T
       t.log_temperature[i] ≤ X ∧ X ≤ t.log_temperature[i + 1]) ∧
      (let Y := clampedLog (t.log_density[0]'(by omega)) (t.log_density[t.log_density.length - 1]'(by omega)) n
       t.log_density[j] ≤ Y ∧ Y ≤ t.log_density[j + 1]) ∧
      ∀ lo hi : ℝ, (∀ a ∈ [i, i + 1], ∀ b ∈ [j, j + 1], ∃ c, entry t a b = some c ∧ lo ≤ c ∧ c ≤ hi) →
        (10 : ℝ) ^ lo ≤ v ∧ v ≤ (10 : ℝ) ^ hi := by
  obtain ⟨i, j, hi, hj, c00, c01, c10, c11, h⟩ := lookup_formula t ht T n
  obtain ⟨a1, a2, b1, b2, h00, h01, h10, h11, he⟩ := h
  refine ⟨i, j, hi, hj, _, he, ⟨a1, a2⟩, ⟨b1, b2⟩, fun lo up hc => ?_⟩
  have hTi := List.pairwise_iff_getElem.mp ht.Tinc i (i + 1) (by omega) (by omega) (by omega)
  have hni := List.pairwise_iff_getElem.mp ht.ninc j (j + 1) (by omega) (by omega) (by omega)
  simp only [List.mem_cons, List.not_mem_nil, or_false, forall_eq_or_imp, forall_eq, h00, h01, h10, h11,
    Option.some.injEq, exists_eq_left'] at hc
  obtain ⟨⟨⟨p1, p2⟩, p3, p4⟩, ⟨p5, p6⟩, p7, p8⟩ := hc
  set x := (clampedLog (t.log_temperature[0]'(by omega))
    (t.log_temperature[t.log_temperature.length - 1]'(by omega)) T - t.log_temperature[i])
      / (t.log_temperature[i + 1] - t.log_temperature[i]) with hx
  set y := (clampedLog (t.log_density[0]'(by omega)) (t.log_density[t.log_density.length - 1]'(by omega)) n
    - t.log_density[j]) / (t.log_density[j + 1] - t.log_density[j]) with hy
  have x0 : 0 ≤ x := div_nonneg (by linarith) (by linarith)
  have x1 : x ≤ 1 := (div_le_one (by linarith)).mpr (by linarith)
  have y0 : 0 ≤ y := div_nonneg (by linarith) (by linarith)
  have y1 : y ≤ 1 := (div_le_one (by linarith)).mpr (by linarith)
  have mix : ∀ a b z : ℝ, 0 ≤ z → z ≤ 1 → lo ≤ a → a ≤ up → lo ≤ b → b ≤ up →
      lo ≤ a * (1 - z) + b * z ∧ a * (1 - z) + b * z ≤ up := by
    intro a b z z0 z1 ha ha' hb hb'
    constructor <;> nlinarith
  obtain ⟨q1, q2⟩ := mix c00 c01 y y0 y1 p1 p2 p3 p4
  obtain ⟨q3, q4⟩ := mix c10 c11 y y0 y1 p5 p6 p7 p8
  obtain ⟨q5, q6⟩ := mix _ _ x x0 x1 q1 q2 q3 q4
  exact ⟨Real.rpow_le_rpow_of_exponent_le (by norm_num) q5, Real.rpow_le_rpow_of_exponent_le (by norm_num) q6⟩

/-- Along one increasing axis, an interval `[v l, v (l+1)]` that contains the tabulated value `v k` has `k` as
one of its ends. -/
theorem end_of_interval (v : List ℝ) (hinc : v.Pairwise (· < ·)) {l k : ℕ} (hl : l + 1 < v.length)
    (hk : k < v.length) (h1 : v[l] ≤ v[k]) (h2 : v[k] ≤ v[l + 1]) : k = l ∨ k = l + 1 := by
  have hp := List.pairwise_iff_getElem.mp hinc
  by_contra hcon
  rw [not_or] at hcon
  rcases Nat.lt_or_ge k l with h | h
  · have := hp k l hk (by omega) h; linarith
  · have := hp (l + 1) k (by omega) hk (by omega); linarith

/-- C29.  At a point of the table the lookup returns the tabulated value. -/
theorem lookup_exact (t : AdasTable) (ht : WellFormed t) (a b : ℕ) (ha : a < t.log_temperature.length)
    (hb : b < t.log_density.length) (c : ℝ) (hc : entry t a b = some c) :
    adasEvaluate t ((10 : ℝ) ^ t.log_temperature[a]) ((10 : ℝ) ^ t.log_density[b]) = some ((10 : ℝ) ^ c) := by
  have hp := List.pairwise_iff_getElem.mp ht.Tinc
  have hp' := List.pairwise_iff_getElem.mp ht.ninc
  have cl : ∀ (v : List ℝ) (h2 : 2 ≤ v.length) (hinc : v.Pairwise (· < ·)) (k : ℕ) (hk : k < v.length),
      clampedLog (v[0]'(by omega)) (v[v.length - 1]'(by omega)) ((10 : ℝ) ^ v[k]) = v[k] := by
    intro v h2 hinc k hk
    have hq := List.pairwise_iff_getElem.mp hinc
    have e : Real.logb 10 ((10 : ℝ) ^ v[k]) = v[k] := Real.logb_rpow (by norm_num) (by norm_num)
    have pos : ¬ ((10 : ℝ) ^ v[k] ≤ 0) := not_le.mpr (by positivity)
    unfold clampedLog
    rw [if_neg pos, e]
    have l1 : v[k] ≤ v[v.length - 1] := by
      rcases Nat.lt_or_ge k (v.length - 1) with h | h
      · exact (hq k (v.length - 1) hk (by omega) h).le
      · have : k = v.length - 1 := by omega
        subst this; rfl
    have l2 : v[0] ≤ v[k] := by
      rcases Nat.eq_zero_or_pos k with h | h
      · subst h; rfl
      · exact (hq 0 k (by omega) hk h).le
    rw [min_eq_left l1, max_eq_right l2]
  obtain ⟨i, j, hi, hj, c00, c01, c10, c11, h⟩ :=
    lookup_formula t ht ((10 : ℝ) ^ t.log_temperature[a]) ((10 : ℝ) ^ t.log_density[b])
  rw [cl _ ht.T2 ht.Tinc a ha, cl _ ht.n2 ht.ninc b hb] at h
  obtain ⟨a1, a2, b1, b2, h00, h01, h10, h11, he⟩ := h
  rw [he]
  have hTi := hp i (i + 1) (by omega) (by omega) (by omega)
  have hni := hp' j (j + 1) (by omega) (by omega) (by omega)
  have one : ∀ u v : ℝ, u < v → (v - u) / (v - u) = 1 := fun u v h => div_self (by linarith)
  have o1 := one _ _ hTi
  have o2 := one _ _ hni
  clear one
  rcases end_of_interval _ ht.Tinc hi ha a1 a2 with rfl | rfl <;>
    rcases end_of_interval _ ht.ninc hj hb b1 b2 with rfl | rfl <;>
    simp_all

/-- Non-vacuity: a 2 × 3 table. -/
example : WellFormed ⟨[[1, 2, 3], [4, 5, 6]], [0, 1], [10, 12, 15]⟩ := by
  refine ⟨by simp, by simp, ?_, ?_, by simp, by simp⟩ <;> norm_num

/-- The size requirement is needed: with a single temperature the index is outside the vector. -/
example (x : ℝ) : getHighIndex [0] x = none := by
  unfold getHighIndex
  by_cases h : x ≤ 0
  · simp [List.findIdx_cons, h]
  · simp [List.findIdx_cons, h]

end Hermes.AdasTable
