import Verif.Model.Limiters
import Mathlib.Tactic.Ring
import Mathlib.Tactic.Linarith
import Mathlib.Tactic.FieldSimp
import Mathlib.Tactic.NormNum
import Mathlib.Tactic.Positivity

/-!
# C08, C07 — slope limiters and cell averages
-/

namespace Hermes.Limiters

/-! ## Specification -/

/-- `x` lies between `a` and `b` (in either order). -/
def Between (x a b : ℝ) : Prop := min a b ≤ x ∧ x ≤ max a b

/-- What is expected of a limiter that creates no new extrema. -/
structure MonotoneLim (lim : Limiter) : Prop where
  /-- edge values lie between the cell value and the neighbour on that side -/
  left_between : ∀ m c p, Between (lim m c p).1 m c
  right_between : ∀ m c p, Between (lim m c p).2 c p
  /-- at a local extremum the reconstruction is flat -/
  extremum : ∀ m c p, (m ≤ c ∧ p ≤ c) ∨ (c ≤ m ∧ c ≤ p) → (lim m c p).1 = c ∧ (lim m c p).2 = c
  /-- the average of the edge values is the cell value -/
  mean : ∀ m c p, (lim m c p).1 + (lim m c p).2 = 2 * c
  /-- mirror symmetry -/
  mirror : ∀ m c p, (lim p c m).1 = (lim m c p).2 ∧ (lim p c m).2 = (lim m c p).1

/-- Exactness on linear data. -/
def LinearExact (lim : Limiter) : Prop :=
  ∀ c h, lim (c - h) c (c + h) = (c - h / 2, c + h / 2)

/-! ## Helpers -/

theorem minmod2_cases (a b : ℝ) : (minmod2 a b = 0 ∧ a * b ≤ 0) ∨
    (0 < a ∧ 0 < b ∧ 0 < minmod2 a b ∧ minmod2 a b ≤ a ∧ minmod2 a b ≤ b) ∨
    (a < 0 ∧ b < 0 ∧ minmod2 a b < 0 ∧ a ≤ minmod2 a b ∧ b ≤ minmod2 a b) := by
  unfold minmod2
  by_cases h : a * b ≤ 0
  · exact Or.inl ⟨if_pos h, h⟩
  · right
    rw [if_neg h]
    have hpos : 0 < a * b := not_le.1 h
    rcases pos_and_pos_or_neg_and_neg_of_mul_pos hpos with ⟨ha, hb⟩ | ⟨ha, hb⟩
    · left
      rw [abs_of_pos ha, abs_of_pos hb]
      split
      · exact ⟨ha, hb, ha, le_refl _, by linarith⟩
      · exact ⟨ha, hb, hb, by linarith, le_refl _⟩
    · right
      rw [abs_of_neg ha, abs_of_neg hb]
      split
      · exact ⟨ha, hb, ha, le_refl _, by linarith⟩
      · exact ⟨ha, hb, hb, by linarith, le_refl _⟩

theorem minmod3_cases (a b c : ℝ) : (minmod3 a b c = 0 ∧ (a * b ≤ 0 ∨ a * c ≤ 0)) ∨
    (0 < a ∧ 0 < b ∧ 0 < c ∧ minmod3 a b c = min a (min b c)) ∨
    (a < 0 ∧ b < 0 ∧ c < 0 ∧ minmod3 a b c = max a (max b c)) := by
  unfold minmod3
  by_cases h : a * b ≤ 0 ∨ a * c ≤ 0
  · exact Or.inl ⟨if_pos h, h⟩
  · right
    rw [if_neg h]
    push Not at h
    rcases pos_and_pos_or_neg_and_neg_of_mul_pos h.1 with ⟨ha, hb⟩ | ⟨ha, hb⟩
    · have hc : 0 < c := by
        rcases pos_and_pos_or_neg_and_neg_of_mul_pos h.2 with h' | h'
        · exact h'.2
        · linarith [h'.1]
      left
      refine ⟨ha, hb, hc, ?_⟩
      rw [SIGN, if_pos ha.le, abs_of_pos ha, abs_of_pos hb, abs_of_pos hc, one_mul]
    · have hc : c < 0 := by
        rcases pos_and_pos_or_neg_and_neg_of_mul_pos h.2 with h' | h'
        · linarith [h'.1]
        · exact h'.2
      right
      refine ⟨ha, hb, hc, ?_⟩
      rw [SIGN, if_neg (not_le.2 ha), abs_of_neg ha, abs_of_neg hb, abs_of_neg hc, min_neg_neg,
        min_neg_neg]
      ring

theorem minmod2_comm_neg (a b : ℝ) : minmod2 (-b) (-a) = -minmod2 a b := by
  unfold minmod2
  rw [neg_mul_neg, mul_comm b a, abs_neg, abs_neg]
  by_cases h : a * b ≤ 0
  · simp [h]
  · rw [if_neg h, if_neg h]
    rcases lt_trichotomy |a| |b| with hab | hab | hab
    · rw [if_pos hab, if_neg (by linarith)]
    · rw [if_neg (by linarith), if_neg (by linarith)]
      have hpos : 0 < a * b := not_le.1 h
      rcases pos_and_pos_or_neg_and_neg_of_mul_pos hpos with ⟨ha, hb⟩ | ⟨ha, hb⟩
      · rw [abs_of_pos ha, abs_of_pos hb] at hab; rw [hab]
      · rw [abs_of_neg ha, abs_of_neg hb] at hab; linarith
    · rw [if_pos hab, if_neg (by linarith)]

theorem minmod3_mirror (a b c : ℝ) : minmod3 (-c) (-b) (-a) = -minmod3 a b c := by
  rcases minmod3_cases a b c with ⟨h, h'⟩ | ⟨ha, hb, hc, h⟩ | ⟨ha, hb, hc, h⟩ <;>
  rcases minmod3_cases (-c) (-b) (-a) with ⟨k, k'⟩ | ⟨ka, kb, kc, k⟩ | ⟨ka, kb, kc, k⟩
  · rw [h, k]; simp
  · exfalso
    rcases h' with h' | h'
    · nlinarith [mul_pos_of_neg_of_neg (show a < 0 by linarith) (show b < 0 by linarith)]
    · nlinarith [mul_pos_of_neg_of_neg (show a < 0 by linarith) (show c < 0 by linarith)]
  · exfalso
    rcases h' with h' | h'
    · nlinarith [mul_pos (show 0 < a by linarith) (show 0 < b by linarith)]
    · nlinarith [mul_pos (show 0 < a by linarith) (show 0 < c by linarith)]
  · exfalso
    rcases k' with k' | k'
    · nlinarith [mul_pos hc hb]
    · nlinarith [mul_pos hc ha]
  · linarith
  · rw [h, k, max_neg_neg, max_neg_neg]; congr 1; rw [min_comm b a, min_comm c, min_assoc]
  · exfalso
    rcases k' with k' | k'
    · nlinarith [mul_pos_of_neg_of_neg hc hb]
    · nlinarith [mul_pos_of_neg_of_neg hc ha]
  · rw [h, k, min_neg_neg, min_neg_neg]; congr 1; rw [max_comm b a, max_comm c, max_assoc]
  · linarith

/-! ## C08 -/

theorem upwind_monotone : MonotoneLim upwind where
  left_between m c p := ⟨min_le_right _ _, le_max_right _ _⟩
  right_between m c p := ⟨min_le_left _ _, le_max_left _ _⟩
  extremum m c p _ := ⟨rfl, rfl⟩
  mean m c p := by simp [upwind]; ring
  mirror m c p := ⟨rfl, rfl⟩

theorem minMod_monotone : MonotoneLim minMod where
  left_between m c p := by
    unfold Between minMod
    simp only
    rcases minmod2_cases (p - c) (c - m) with ⟨h, _⟩ | ⟨ha, hb, h0, h1, h2⟩ | ⟨ha, hb, h0, h1, h2⟩
    · rw [h]; simp
    · rw [min_eq_left (by linarith), max_eq_right (by linarith)]
      constructor <;> linarith
    · rw [min_eq_right (by linarith), max_eq_left (by linarith)]
      constructor <;> linarith
  right_between m c p := by
    unfold Between minMod
    simp only
    rcases minmod2_cases (p - c) (c - m) with ⟨h, _⟩ | ⟨ha, hb, h0, h1, h2⟩ | ⟨ha, hb, h0, h1, h2⟩
    · rw [h]; simp
    · rw [min_eq_left (by linarith), max_eq_right (by linarith)]
      constructor <;> linarith
    · rw [min_eq_right (by linarith), max_eq_left (by linarith)]
      constructor <;> linarith
  extremum m c p h := by
    have : minmod2 (p - c) (c - m) = 0 := by
      unfold minmod2
      rw [if_pos]
      rcases h with h | h <;> nlinarith [h.1, h.2]
    simp [minMod, this]
  mean m c p := by simp [minMod]; ring
  mirror m c p := by
    have : minmod2 (m - c) (c - p) = -minmod2 (p - c) (c - m) := by
      rw [← minmod2_comm_neg]; congr 1 <;> ring
    simp [minMod, this]; ring

theorem mc_monotone : MonotoneLim mc where
  left_between m c p := by
    unfold Between mc
    simp only
    rcases minmod3_cases (2 * (p - c)) (0.5 * (p - m)) (2 * (c - m)) with
      ⟨h, _⟩ | ⟨ha, hb, hc, h⟩ | ⟨ha, hb, hc, h⟩
    · rw [h]; simp
    · rw [h, min_eq_left (by linarith : m ≤ c), max_eq_right (by linarith : m ≤ c)]
      have h3 : min (2 * (p - c)) (min (0.5 * (p - m)) (2 * (c - m))) ≤ 2 * (c - m) :=
        (min_le_right _ _).trans (min_le_right _ _)
      have h4 : 0 ≤ min (2 * (p - c)) (min (0.5 * (p - m)) (2 * (c - m))) :=
        le_min ha.le (le_min hb.le hc.le)
      constructor <;> linarith
    · rw [h, min_eq_right (by linarith : c ≤ m), max_eq_left (by linarith : c ≤ m)]
      have h3 : 2 * (c - m) ≤ max (2 * (p - c)) (max (0.5 * (p - m)) (2 * (c - m))) :=
        (le_max_right _ _).trans (le_max_right _ _)
      have h4 : max (2 * (p - c)) (max (0.5 * (p - m)) (2 * (c - m))) ≤ 0 :=
        max_le ha.le (max_le hb.le hc.le)
      constructor <;> linarith
  right_between m c p := by
    unfold Between mc
    simp only
    rcases minmod3_cases (2 * (p - c)) (0.5 * (p - m)) (2 * (c - m)) with
      ⟨h, _⟩ | ⟨ha, hb, hc, h⟩ | ⟨ha, hb, hc, h⟩
    · rw [h]; simp
    · rw [h, min_eq_left (by linarith : c ≤ p), max_eq_right (by linarith : c ≤ p)]
      have h3 : min (2 * (p - c)) (min (0.5 * (p - m)) (2 * (c - m))) ≤ 2 * (p - c) := min_le_left _ _
      have h4 : 0 ≤ min (2 * (p - c)) (min (0.5 * (p - m)) (2 * (c - m))) :=
        le_min ha.le (le_min hb.le hc.le)
      constructor <;> linarith
    · rw [h, min_eq_right (by linarith : p ≤ c), max_eq_left (by linarith : p ≤ c)]
      have h3 : 2 * (p - c) ≤ max (2 * (p - c)) (max (0.5 * (p - m)) (2 * (c - m))) := le_max_left _ _
      have h4 : max (2 * (p - c)) (max (0.5 * (p - m)) (2 * (c - m))) ≤ 0 :=
        max_le ha.le (max_le hb.le hc.le)
      constructor <;> linarith
  extremum m c p h := by
    have : minmod3 (2 * (p - c)) (0.5 * (p - m)) (2 * (c - m)) = 0 := by
      unfold minmod3
      rw [if_pos]
      right
      rcases h with h | h <;> nlinarith [h.1, h.2]
    simp [mc, this]
  mean m c p := by simp [mc]; ring
  mirror m c p := by
    have : minmod3 (2 * (m - c)) (0.5 * (m - p)) (2 * (c - p))
        = -minmod3 (2 * (p - c)) (0.5 * (p - m)) (2 * (c - m)) := by
      rw [← minmod3_mirror]; congr 1 <;> ring
    simp [mc, this]; ring

theorem minMod_linear_exact : LinearExact minMod := by
  intro c h
  have : minmod2 (c + h - c) (c - (c - h)) = h := by
    have e1 : c + h - c = h := by ring
    have e2 : c - (c - h) = h := by ring
    rw [e1, e2]; unfold minmod2
    split
    · rename_i hh; nlinarith [mul_self_nonneg h]
    · simp
  simp only [minMod, this, Prod.mk.injEq]
  constructor <;> ring

theorem mc_linear_exact : LinearExact mc := by
  intro c h
  have : minmod3 (2 * (c + h - c)) (0.5 * (c + h - (c - h))) (2 * (c - (c - h))) = h := by
    have e1 : 2 * (c + h - c) = 2 * h := by ring
    have e2 : 0.5 * (c + h - (c - h)) = h := by ring
    have e3 : 2 * (c - (c - h)) = 2 * h := by ring
    rw [e1, e2, e3]
    rcases minmod3_cases (2 * h) h (2 * h) with ⟨h1, h2⟩ | ⟨ha, hb, hc, h1⟩ | ⟨ha, hb, hc, h1⟩
    · rw [h1]; rcases h2 with h2 | h2 <;> nlinarith [mul_self_nonneg h]
    · rw [h1, min_eq_left (b := 2 * h) (by linarith : h ≤ 2 * h), min_eq_right (by linarith)]
    · rw [h1, max_eq_left (b := 2 * h) (by linarith : 2 * h ≤ h), max_eq_right (by linarith)]
  simp only [mc, this, Prod.mk.injEq]
  constructor <;> ring

/-- C08.  For a monotone limiter constant data is reproduced. -/
theorem constant_exact {lim : Limiter} (h : MonotoneLim lim) (c : ℝ) : lim c c c = (c, c) := by
  have := h.extremum c c c (Or.inl ⟨le_refl _, le_refl _⟩)
  exact Prod.ext this.1 this.2

/-- C08.  For a monotone limiter non-negative data has non-negative edge values, and both are at most
twice the cell value: as the cell empties, so do its edges. -/
theorem edges_nonneg {lim : Limiter} (h : MonotoneLim lim) {m c p : ℝ} (hm : 0 ≤ m) (hc : 0 ≤ c)
    (hp : 0 ≤ p) : 0 ≤ (lim m c p).1 ∧ (lim m c p).1 ≤ 2 * c ∧ 0 ≤ (lim m c p).2 ∧ (lim m c p).2 ≤ 2 * c := by
  have h1 : 0 ≤ (lim m c p).1 := (le_min hm hc).trans (h.left_between m c p).1
  have h2 : 0 ≤ (lim m c p).2 := (le_min hc hp).trans (h.right_between m c p).1
  have h3 := h.mean m c p
  exact ⟨h1, by linarith, h2, by linarith⟩

/-- The bundle selected at build time by `HERMES_SLOPE_LIMITER` (`CMakeLists.txt:252-253`). -/
inductive Choice where
  | upwind | minMod | mc

noncomputable def Choice.limiter : Choice → Limiter
  | .upwind => Hermes.upwind
  | .minMod => Hermes.minMod
  | .mc => Hermes.mc

/-- C08, partial (Superbee missing, see below): every other selectable limiter is monotone. -/
theorem choices_monotone_partial (c : Choice) : MonotoneLim c.limiter := by
  cases c
  · exact upwind_monotone
  · exact minMod_monotone
  · exact mc_monotone

/-- C08, negation: with Superbee selected every use in the flux operators reads a value that was never
assigned, whatever the data. -/
theorem superbee_reads_unassigned (m c p : ℝ) : superbee (callerStencil m c p) = none := rfl

/-- C08, negation: in the cell averages, where unassigned members are zero, Superbee ignores the
neighbours: its edge values are the cell value for every data, so that it is not exact for linear
data. -/
theorem superbee_in_integrate_is_flat (m c p : ℝ) :
    ∃ n, superbee (integrateStencil m c p) = some n ∧
      ((n.L = some c ∧ n.R = some c)) := by
  unfold superbee integrateStencil
  simp only
  by_cases h : (c - 0) * (0 - c) < 0
  · rw [if_pos h]; exact ⟨_, rfl, rfl, rfl⟩
  · have hc : c = 0 := by
      by_contra hne
      apply h
      have : 0 < c * c := mul_self_pos.2 hne
      nlinarith
    rw [if_neg h]
    refine ⟨_, rfl, ?_⟩
    simp [hc]

/-- C08, negation for `Fromm` (available in `src/div_ops.cxx` but not selectable): it does create new
extrema. -/
theorem fromm_not_monotone : ¬ MonotoneLim fromm := by
  intro h
  have := (h.right_between 0 0 4).2
  have h2 := (h.extremum 0 4 0 (Or.inl ⟨by norm_num, by norm_num⟩))
  have h3 := (h.left_between 0 0 4).1
  norm_num [fromm] at h3

/-- C08 for `Fromm`: linear data is reproduced at the edges, the two edge values average to the cell
value and the limiter commutes with mirroring, so that only monotonicity is missing. -/
theorem fromm_linear_exact : LinearExact fromm ∧ (∀ m c p, (fromm m c p).1 + (fromm m c p).2 = 2 * c) ∧
    ∀ m c p, fromm p c m = ((fromm m c p).2, (fromm m c p).1) := by
  refine ⟨fun c h => ?_, fun m c p => ?_, fun m c p => ?_⟩
  · simp only [fromm, Prod.mk.injEq]; constructor <;> ring
  · simp only [fromm]; ring
  · simp only [fromm, Prod.mk.injEq]; constructor <;> ring

/-! ## C07 -/

/-- C07, partial: if the Jacobian is linear in the cell index (`Jm + Jp = 2 Ji`; constant in
particular) a constant integrand averages to that constant. -/
theorem average_of_constant_partial {κ : Type} (lim : Limiter) (k : ℝ) (a am ap : κ → ℝ) (Ji Jm Jp : ℝ)
    (hJ : Ji ≠ 0) (hlin : Jm + Jp = 2 * Ji) :
    cellAverage lim (fun _ => k) a am ap Ji Jm Jp = k := by
  have hp : Jp = 2 * Ji - Jm := by linarith
  unfold cellAverage
  rw [hp]
  field_simp
  ring

/-- C07, negation: the documented "these weights sum to 1" holds *only* for such Jacobians. -/
theorem average_of_constant_iff {κ : Type} (lim : Limiter) (a am ap : κ → ℝ) (Ji Jm Jp : ℝ)
    (hJ : Ji ≠ 0) : cellAverage lim (fun _ => 1) a am ap Ji Jm Jp = 1 ↔ Jm + Jp = 2 * Ji := by
  constructor
  · intro h
    unfold cellAverage at h
    field_simp at h
    linarith
  · exact average_of_constant_partial lim 1 a am ap Ji Jm Jp hJ

/-- C07, negation witness: Jacobians 1, 2, 4. -/
theorem average_of_constant_fails : ∃ Jm Ji Jp : ℝ, 0 < Jm ∧ 0 < Ji ∧ 0 < Jp ∧
    ∀ (lim : Limiter) (a am ap : Unit → ℝ), cellAverage lim (fun _ => 1) a am ap Ji Jm Jp ≠ 1 := by
  refine ⟨1, 2, 4, by norm_num, by norm_num, by norm_num, fun lim a am ap h => ?_⟩
  have := (average_of_constant_iff lim a am ap 2 1 4 (by norm_num)).1 h
  norm_num at this

/-- C07.  A non-negative integrand has a non-negative average for all positive Jacobians. -/
theorem average_nonneg {κ : Type} (lim : Limiter) (func : (κ → ℝ) → ℝ) (hf : ∀ x, 0 ≤ func x)
    (a am ap : κ → ℝ) (Ji Jm Jp : ℝ) (hi : 0 < Ji) (hm : 0 < Jm) (hp : 0 < Jp) :
    0 ≤ cellAverage lim func a am ap Ji Jm Jp := by
  unfold cellAverage
  have h1 := hf a
  have h2 := hf (fun k => (lim (am k) (a k) (ap k)).1)
  have h3 := hf (fun k => (lim (am k) (a k) (ap k)).2)
  positivity

/-- C07.  It suffices that the integrand is non-negative on non-negative arguments if the fields are
non-negative and the limiter is monotone (densities and temperatures). -/
theorem average_nonneg_of_nonneg_fields {κ : Type} (lim : Limiter) (hl : MonotoneLim lim)
    (func : (κ → ℝ) → ℝ) (hf : ∀ x, (∀ k, 0 ≤ x k) → 0 ≤ func x)
    (a am ap : κ → ℝ) (ha : ∀ k, 0 ≤ a k) (ham : ∀ k, 0 ≤ am k) (hap : ∀ k, 0 ≤ ap k)
    (Ji Jm Jp : ℝ) (hi : 0 < Ji) (hm : 0 < Jm) (hp : 0 < Jp) :
    0 ≤ cellAverage lim func a am ap Ji Jm Jp := by
  unfold cellAverage
  have h1 := hf a ha
  have h2 := hf (fun k => (lim (am k) (a k) (ap k)).1) (fun k => (edges_nonneg hl (ham k) (ha k) (hap k)).1)
  have h3 := hf (fun k => (lim (am k) (a k) (ap k)).2)
    (fun k => (edges_nonneg hl (ham k) (ha k) (hap k)).2.2.1)
  positivity

/-- C07, partial (linear Jacobian profile): the average lies between bounds of the integrand. -/
theorem average_between_partial {κ : Type} (lim : Limiter) (func : (κ → ℝ) → ℝ) (lo hi : ℝ)
    (hf : ∀ x, lo ≤ func x ∧ func x ≤ hi) (a am ap : κ → ℝ) (Ji Jm Jp : ℝ) (hJi : 0 < Ji) (hJm : 0 < Jm)
    (hJp : 0 < Jp) (hlin : Jm + Jp = 2 * Ji) :
    lo ≤ cellAverage lim func a am ap Ji Jm Jp ∧ cellAverage lim func a am ap Ji Jm Jp ≤ hi := by
  have e : ∀ k : ℝ, 4 / 6 * k + (Ji + Jm) / (12 * Ji) * k + (Ji + Jp) / (12 * Ji) * k = k := by
    intro k
    have := average_of_constant_partial lim k a am ap Ji Jm Jp hJi.ne' hlin
    simpa [cellAverage] using this
  have w1 : 0 ≤ (Ji + Jm) / (12 * Ji) := by positivity
  have w2 : 0 ≤ (Ji + Jp) / (12 * Ji) := by positivity
  unfold cellAverage
  have h1 := hf a
  have h2 := hf (fun k => (lim (am k) (a k) (ap k)).1)
  have h3 := hf (fun k => (lim (am k) (a k) (ap k)).2)
  constructor
  · calc lo = _ := (e lo).symm
      _ ≤ _ := by gcongr <;> [exact h1.1; exact h2.1; exact h3.1]
  · calc _ ≤ 4 / 6 * hi + (Ji + Jm) / (12 * Ji) * hi + (Ji + Jp) / (12 * Ji) * hi := by
          gcongr <;> [exact h1.2; exact h2.2; exact h3.2]
      _ = hi := e hi

/-- C07.  "As the density in a cell goes to zero the rate goes to zero": if the integrand vanishes when
argument `k₀` vanishes and that argument is zero in the cell (others non-negative), the average is zero. -/
theorem average_zero_in_empty_cell {κ : Type} (lim : Limiter) (hl : MonotoneLim lim)
    (func : (κ → ℝ) → ℝ) (k₀ : κ) (hf : ∀ x, x k₀ = 0 → func x = 0) (a am ap : κ → ℝ)
    (ha : a k₀ = 0) (ham : 0 ≤ am k₀) (hap : 0 ≤ ap k₀) (Ji Jm Jp : ℝ) :
    cellAverage lim func a am ap Ji Jm Jp = 0 := by
  have hx := hl.extremum (am k₀) (a k₀) (ap k₀) (Or.inr ⟨by rw [ha]; exact ham, by rw [ha]; exact hap⟩)
  unfold cellAverage
  rw [hf a ha, hf (fun k => (lim (am k) (a k) (ap k)).1) (hx.1.trans ha),
    hf (fun k => (lim (am k) (a k) (ap k)).2) (hx.2.trans ha)]
  simp

/-- Non-vacuity: a cell with `Jm, Ji, Jp = 1, 2, 3`. -/
example : (1 : ℝ) + 3 = 2 * 2 ∧ (0 : ℝ) < 2 := by norm_num

/-- Non-vacuity: MC on 0, 1, 4 gives edges 0 and 2. -/
example : mc 0 1 4 = (0, 2) := by
  rcases minmod3_cases (2 * (4 - 1)) (0.5 * (4 - 0)) (2 * (1 - 0)) with ⟨h1, h2⟩ | ⟨ha, hb, hc, h1⟩ | ⟨ha, hb, hc, h1⟩
  · norm_num at h2
  · unfold mc; simp only [h1, Prod.mk.injEq]; norm_num
  · norm_num at ha

end Hermes.Limiters
