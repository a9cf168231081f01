import Verif.Model.Metric
import Mathlib.Data.Matrix.Mul
import Mathlib.LinearAlgebra.Matrix.Notation
import Mathlib.LinearAlgebra.Matrix.Determinant.Basic
import Mathlib.Tactic.FieldSimp
import Mathlib.Tactic.Linarith
import Mathlib.Tactic.Positivity
import Mathlib.Tactic.LinearCombination

/-!
# The metric (C49) and the decay length boundary condition (C50)
-/

set_option linter.unusedSectionVars false
set_option linter.unusedVariables false

namespace Hermes.Metrics

/-! ## Specification -/

/-- The contravariant components as a matrix. -/
def contra (m : Metric) : Matrix (Fin 3) (Fin 3) ℝ := !![m.g11, m.g12, m.g13; m.g12, m.g22, m.g23; m.g13, m.g23, m.g33]

/-- The covariant components as a matrix. -/
def co (m : Metric) : Matrix (Fin 3) (Fin 3) ℝ := !![m.g_11, m.g_12, m.g_13; m.g_12, m.g_22, m.g_23; m.g_13, m.g_23, m.g_33]

/-- Co- and contravariant components are inverse, and the Jacobian is the volume: `J² det(g^ij) = 1`. -/
structure Consistent (m : Metric) : Prop where
  inverse : contra m * co m = 1
  jacobian : m.J ^ 2 * (contra m).det = 1

/-- Squared distance of two points with coordinate difference `d`. -/
def length2 (m : Metric) (d : Fin 3 → ℝ) : ℝ := d ⬝ᵥ (co m).mulVec d

theorem det_contra (m : Metric) : (contra m).det = m.g11 * (m.g22 * m.g33 - m.g23 * m.g23) - m.g12 * (m.g12 * m.g33 - m.g23 * m.g13) +
    m.g13 * (m.g12 * m.g23 - m.g22 * m.g13) := by
  unfold contra
  rw [Matrix.det_fin_three]
  simp
  ring

theorem inverse_iff (m : Metric) : contra m * co m = 1 ↔
    (m.g11 * m.g_11 + m.g12 * m.g_12 + m.g13 * m.g_13 = 1 ∧ m.g11 * m.g_12 + m.g12 * m.g_22 + m.g13 * m.g_23 = 0 ∧
      m.g11 * m.g_13 + m.g12 * m.g_23 + m.g13 * m.g_33 = 0) ∧
    (m.g12 * m.g_11 + m.g22 * m.g_12 + m.g23 * m.g_13 = 0 ∧ m.g12 * m.g_12 + m.g22 * m.g_22 + m.g23 * m.g_23 = 1 ∧
      m.g12 * m.g_13 + m.g22 * m.g_23 + m.g23 * m.g_33 = 0) ∧
    (m.g13 * m.g_11 + m.g23 * m.g_12 + m.g33 * m.g_13 = 0 ∧ m.g13 * m.g_12 + m.g23 * m.g_22 + m.g33 * m.g_23 = 0 ∧
      m.g13 * m.g_13 + m.g23 * m.g_23 + m.g33 * m.g_33 = 1) := by
  unfold contra co
  rw [← Matrix.ext_iff]
  simp [Fin.forall_fin_succ, Matrix.mul_apply, Fin.sum_univ_three]

/-! ## C49 -/

/-- **C49.**  Normalising keeps the metric consistent. -/
theorem normalise_consistent {L B : ℝ} (hL : L ≠ 0) (hB : B ≠ 0) {m : Metric} (h : Consistent m) : Consistent (normaliseMetric L B m) := by
  obtain ⟨h1, h2⟩ := h
  rw [inverse_iff] at h1
  obtain ⟨⟨a1, a2, a3⟩, ⟨b1, b2, b3⟩, ⟨c1, c2, c3⟩⟩ := h1
  rw [det_contra] at h2
  refine ⟨?_, ?_⟩
  · rw [inverse_iff]
    unfold normaliseMetric
    dsimp only
    refine ⟨⟨?_, ?_, ?_⟩, ⟨?_, ?_, ?_⟩, ⟨?_, ?_, ?_⟩⟩
    · field_simp; linear_combination a1
    · field_simp; linear_combination a2
    · field_simp; linear_combination a3
    · field_simp; linear_combination (B * L ^ 2) * b1
    · field_simp; linear_combination b2
    · field_simp; linear_combination b3
    · field_simp; linear_combination (B * L ^ 2) * c1
    · field_simp; linear_combination c2
    · field_simp; linear_combination c3
  · rw [det_contra]
    unfold normaliseMetric
    dsimp only
    field_simp
    linear_combination h2

/-- **C49.**  Normalising divides all lengths by `rho_s0`: the distance between two points, with the X coordinate normalised like `dx`. -/
theorem normalise_lengths {L B : ℝ} (hL : L ≠ 0) (hB : B ≠ 0) (m : Metric) (d : Fin 3 → ℝ) :
    length2 (normaliseMetric L B m) ![d 0 / (L * L * B), d 1, d 2] = length2 m d / L ^ 2 := by
  unfold length2 co normaliseMetric Matrix.mulVec
  simp [dotProduct, Fin.sum_univ_three]
  field_simp

/-- **C49.**  Normalising divides volumes by `rho_s0³`. -/
theorem normalise_volume {L B : ℝ} (hL : L ≠ 0) (hB : B ≠ 0) (m : Metric) (dy dz : ℝ) :
    (normaliseMetric L B m).J * (normaliseMetric L B m).dx * dy * dz = m.J * m.dx * dy * dz / L ^ 3 := by
  unfold normaliseMetric
  field_simp

/-- A point of a grid file that makes sense. -/
structure GridPoint.Ok (p : GridPoint) : Prop where
  R : p.Rxy ≠ 0
  Bp : p.Bpxy ≠ 0
  h : p.hthe ≠ 0
  B : p.Bxy ^ 2 = p.Bpxy ^ 2 + p.Btxy ^ 2

/-- **C49.**  Recalculating the metric gives an exactly inverse pair with the right Jacobian. -/
theorem metricOf_consistent {L B : ℝ} (hL : L ≠ 0) (hB : B ≠ 0) (shifted : Bool) {sbp : ℝ} (hs : sbp ^ 2 = 1) {p : GridPoint} (hp : GridPoint.Ok p) :
    Consistent (metricOf L B shifted sbp p) := by
  obtain ⟨hR, hBp, hh, hBB⟩ := hp
  have key : ∀ I : ℝ, Consistent
      { dx := p.dx / (L ^ 2 * B), Bxy := p.Bxy / B, g11 := (p.Rxy / L * (p.Bpxy / B)) ^ 2, g22 := 1 / (p.hthe / L) ^ 2,
        g33 := I ^ 2 * (p.Rxy / L * (p.Bpxy / B)) ^ 2 + (p.Bxy / B) ^ 2 / (p.Rxy / L * (p.Bpxy / B)) ^ 2, g12 := 0,
        g13 := -I * (p.Rxy / L * (p.Bpxy / B)) ^ 2, g23 := -sbp * (p.Btxy / B) / (p.hthe / L * (p.Bpxy / B) * (p.Rxy / L)),
        J := p.hthe / L / (p.Bpxy / B), g_11 := 1 / (p.Rxy / L * (p.Bpxy / B)) ^ 2 + (I * (p.Rxy / L)) ^ 2,
        g_22 := (p.Bxy / B * (p.hthe / L) / (p.Bpxy / B)) ^ 2, g_33 := p.Rxy / L * (p.Rxy / L),
        g_12 := sbp * (p.Btxy / B) * (p.hthe / L) * I * (p.Rxy / L) / (p.Bpxy / B), g_13 := I * (p.Rxy / L) * (p.Rxy / L),
        g_23 := sbp * (p.Btxy / B) * (p.hthe / L) * (p.Rxy / L) / (p.Bpxy / B) } := by
    intro I
    refine ⟨?_, ?_⟩
    · rw [inverse_iff]
      dsimp only
      refine ⟨⟨?_, ?_, ?_⟩, ⟨?_, ?_, ?_⟩, ⟨?_, ?_, ?_⟩⟩
      · field_simp; ring
      · field_simp; ring
      · field_simp; ring
      · field_simp; ring
      · field_simp
        linear_combination L ^ 2 * hBB - L ^ 2 * p.Btxy ^ 2 * hs
      · field_simp; ring
      · field_simp
        linear_combination I * L ^ 4 * B ^ 2 * hBB - I * L ^ 4 * B ^ 2 * p.Btxy ^ 2 * hs
      · field_simp; ring
      · field_simp
        linear_combination L ^ 4 * B ^ 2 * hBB - L ^ 4 * B ^ 2 * p.Btxy ^ 2 * hs
    · rw [det_contra]
      dsimp only
      field_simp
      linear_combination p.Bpxy ^ 2 * p.Rxy ^ 2 * L ^ 4 * B ^ 2 * hBB - p.Bpxy ^ 2 * p.Rxy ^ 2 * L ^ 4 * B ^ 2 * p.Btxy ^ 2 * hs
  exact key _

theorem sbp_sq (low : ℝ) : (if low < 0 then (-1 : ℝ) else 1) ^ 2 = 1 := by split <;> norm_num

/-- **C49.**  For every grid. -/
theorem recalculate_consistent {ι : Type} {L B : ℝ} (hL : L ≠ 0) (hB : B ≠ 0) (shifted : Bool) {grid : ι → GridPoint} (first : ι) (rest : List ι)
    {i : ι} (hp : GridPoint.Ok (grid i)) : Consistent (recalculateMetric L B shifted grid first rest i) :=
  metricOf_consistent hL hB shifted (sbp_sq _) hp

theorem foldl_min_div {ι : Type} {B : ℝ} (hB : 0 < B) (f : ι → ℝ) (l : List ι) (a : ℝ) :
    l.foldl (fun a j => min a (f j / B)) (a / B) = (l.foldl (fun a j => min a (f j / 1)) a) / B := by
  induction l generalizing a with
  | nil => rfl
  | cons x l ih =>
    rw [List.foldl_cons, List.foldl_cons, div_one]
    rw [← ih]
    congr 1
    rcases le_total a (f x) with h | h
    · rw [min_eq_left h, min_eq_left (div_le_div_of_nonneg_right h hB.le)]
    · rw [min_eq_right h, min_eq_right (div_le_div_of_nonneg_right h hB.le)]

/-- **C49.**  Recalculating with normalisations agrees with normalising the metric recalculated in SI units, in every point of every grid. -/
theorem recalculate_commutes {ι : Type} {L B : ℝ} (hL : 0 < L) (hB : 0 < B) (shifted : Bool) {grid : ι → GridPoint} (first : ι) (rest : List ι)
    {i : ι} (hp : GridPoint.Ok (grid i)) :
    recalculateMetric L B shifted grid first rest i = normaliseMetric L B (recalculateMetric 1 1 shifted grid first rest i) := by
  unfold recalculateMetric
  rw [foldl_min_div hB (fun j => (grid j).Bpxy), div_one]
  generalize rest.foldl (fun a j => min a ((grid j).Bpxy / 1)) (grid first).Bpxy = low
  have hsign : (if low / B < 0 then (-1 : ℝ) else 1) = if low < 0 then -1 else 1 := by
    have : low / B < 0 ↔ low < 0 := by rw [div_lt_iff₀ hB, zero_mul]
    simp only [this]
  rw [hsign]
  generalize (if low < 0 then (-1 : ℝ) else 1) = sbp
  obtain ⟨hR, hBp, hh, hBB⟩ := hp
  have hL' : L ≠ 0 := hL.ne'
  have hB' : B ≠ 0 := hB.ne'
  generalize grid i = p at *
  cases shifted <;>
  · unfold metricOf normaliseMetric
    simp only [Metric.mk.injEq, if_true, if_false, Bool.false_eq_true]
    refine ⟨?_, ?_, ?_, ?_, ?_, ?_, ?_, ?_, ?_, ?_, ?_, ?_, ?_, ?_, ?_⟩ <;> first | (field_simp; done) | (field_simp; ring) | simp

/-- Gradients of the coordinates `x = ψ`, `y = θ`, `z = ζ - ∫ν dθ` in the directions (ψ, θ, ζ), in the units of the grid file.  `I = ∂z/∂ψ` is the integrated
shear.  In shifted coordinates `z` is measured so that `I` does not occur. -/
noncomputable def gradients (shifted : Bool) (sbp : ℝ) (p : GridPoint) : Fin 3 → Fin 3 → ℝ :=
  ![![p.Rxy * p.Bpxy, 0, 0], ![0, 1 / p.hthe, 0],
    ![-(if shifted then 0 else p.sinty) * (p.Rxy * p.Bpxy), -sbp * p.Btxy / (p.Bpxy * p.Rxy), 1 / p.Rxy]]

/-- **C49.**  The contravariant metric is that of the coordinates: products of their gradients, for both kinds of parallel transform. -/
theorem metric_of_coordinates (shifted : Bool) {sbp : ℝ} (hs : sbp ^ 2 = 1) {p : GridPoint} (hp : GridPoint.Ok p) (a b : Fin 3) :
    contra (metricOf 1 1 shifted sbp p) a b = ∑ k, gradients shifted sbp p a k * gradients shifted sbp p b k := by
  obtain ⟨hR, hBp, hh, hBB⟩ := hp
  rw [Fin.sum_univ_three]
  generalize hI : (if shifted = true then (0 : ℝ) else p.sinty) = I
  have hI' : (if shifted = true then (0 : ℝ) else p.sinty * (1 ^ 2 * 1)) = I := by rw [← hI]; norm_num
  fin_cases a <;> fin_cases b <;> simp [contra, metricOf, gradients, hI] <;> first | done | (field_simp; done) | (field_simp; ring) | skip
  field_simp
  linear_combination hBB - p.Btxy ^ 2 * hs

/-- A tokamak grid point: hypotheses are met. -/
example : GridPoint.Ok ⟨2, 3, 4, 1, 0.5, 1, 5⟩ := ⟨by norm_num, by norm_num, by norm_num, by norm_num⟩

example : Consistent ⟨1, 1, 4, 1, 1, 0, 0, 0, 1 / 2, 1 / 4, 1, 1, 0, 0, 0⟩ := by
  refine ⟨?_, ?_⟩
  · rw [inverse_iff]; norm_num
  · rw [det_contra]; norm_num

/-- With `Bp < 0` the Jacobian is negative: the sign of `Bp` enters the off-diagonal components only. -/
theorem negative_jacobian : ∃ p : GridPoint, GridPoint.Ok p ∧ (recalculateMetric 1 1 false (fun _ : Unit => p) () [] ()).J < 0 :=
  ⟨⟨1, -1, 0, 1, 0, 1, 1⟩, ⟨by norm_num, by norm_num, by norm_num, by norm_num⟩, by norm_num [recalculateMetric, metricOf]⟩

/-! ## C50 -/

section
variable {β ι : Type} [DecidableEq ι]

/-- The guard cells are distinct, and none of them is a last cell of the domain. -/
structure RegionOk (r : BndryRegion β ι) : Prop where
  nodup : r.pts.Nodup
  inj : ∀ p ∈ r.pts, ∀ q ∈ r.pts, ∀ i j, r.guard p i = r.guard q j → p = q ∧ i = j
  out : ∀ p ∈ r.pts, ∀ q ∈ r.pts, ∀ i, r.guard p i ≠ r.inner q
  width : 1 ≤ r.width

/-- Distance between the centres of the last cell and the first guard cell. -/
noncomputable def centreDistance (r : BndryRegion β ι) (dx g11 : ι → ℝ) (p : β) : ℝ :=
  (dx (r.guard p 0) / Real.sqrt (g11 (r.guard p 0)) + dx (r.inner p) / Real.sqrt (g11 (r.inner p))) / 2

theorem fill_ok {r : BndryRegion β ι} (p : β) (hinj : ∀ i j, r.guard p i = r.guard p j → i = j) (a n : ℕ) (ha : 1 ≤ a) (f : ι → ℝ) :
    (∀ i, a ≤ i → i < a + n → ((List.range' a n).foldl (fun f i => Function.update f (r.guard p i) (f (r.guard p 0))) f) (r.guard p i) = f (r.guard p 0)) ∧
    ∀ c, (∀ i, a ≤ i → i < a + n → c ≠ r.guard p i) →
      ((List.range' a n).foldl (fun f i => Function.update f (r.guard p i) (f (r.guard p 0))) f) c = f c := by
  induction n generalizing a f with
  | zero => exact ⟨fun i h1 h2 => by omega, fun c _ => rfl⟩
  | succ n ih =>
    rw [List.range'_succ, List.foldl_cons]
    obtain ⟨i1, i2⟩ := ih (a + 1) (by omega) (Function.update f (r.guard p a) (f (r.guard p 0)))
    have h0 : Function.update f (r.guard p a) (f (r.guard p 0)) (r.guard p 0) = f (r.guard p 0) := by
      rw [Function.update_of_ne]
      intro e
      have := hinj _ _ e
      omega
    refine ⟨fun i h1 h2 => ?_, fun c hc => ?_⟩
    · rcases eq_or_lt_of_le h1 with rfl | h1
      · rw [i2 _ (fun j hj1 hj2 e => by have := hinj _ _ e; omega), Function.update_self]
      · rw [i1 i (by omega) (by omega), h0]
    · rw [i2 c (fun i h1 h2 => hc i (by omega) (by omega)), Function.update_of_ne (hc a (le_refl _) (by omega))]

theorem decayPoint_ok {r : BndryRegion β ι} (h : RegionOk r) (dx g11 : ι → ℝ) (lam : β → ℝ) (f : ι → ℝ) {p : β} (hp : p ∈ r.pts) :
    (∀ i, i < r.width → decayPoint r dx g11 lam f p (r.guard p i) = f (r.inner p) * Real.exp (-(centreDistance r dx g11 p / lam p))) ∧
    ∀ c, (∀ i, i < r.width → c ≠ r.guard p i) → decayPoint r dx g11 lam f p c = f c := by
  have hw := h.width
  have hd : -1 * (0.5 * (dx (r.guard p 0) / Real.sqrt (g11 (r.guard p 0)) + dx (r.inner p) / Real.sqrt (g11 (r.inner p)))) / lam p =
      -(centreDistance r dx g11 p / lam p) := by
    unfold centreDistance
    ring
  unfold decayPoint
  dsimp only
  rw [hd]
  obtain ⟨h1, h2⟩ := fill_ok (r := r) p (fun i j e => (h.inj p hp p hp i j e).2) 1 (r.width - 1) (le_refl _)
    (Function.update f (r.guard p 0) (f (r.inner p) * Real.exp (-(centreDistance r dx g11 p / lam p))))
  refine ⟨fun i hi => ?_, fun c hc => ?_⟩
  · rcases Nat.eq_zero_or_pos i with rfl | hpos
    · rw [h2 _ (fun j hj1 hj2 e => by have := (h.inj p hp p hp _ _ e).2; omega), Function.update_self]
    · rw [h1 i hpos (by omega), Function.update_self]
  · rw [h2 c (fun i hi1 hi2 => hc i (by omega)), Function.update_of_ne (hc 0 (by omega))]

/-- **C50.**  The values in all guard cells of the region, and everything else unchanged. -/
theorem decay_values {r : BndryRegion β ι} (h : RegionOk r) (dx g11 : ι → ℝ) (lam : β → ℝ) (f : ι → ℝ) :
    (∀ p ∈ r.pts, ∀ i, i < r.width → decayLength r dx g11 lam f (r.guard p i) = f (r.inner p) * Real.exp (-(centreDistance r dx g11 p / lam p))) ∧
    ∀ c, (∀ p ∈ r.pts, ∀ i, i < r.width → c ≠ r.guard p i) → decayLength r dx g11 lam f c = f c := by
  unfold decayLength
  suffices hs : ∀ (l : List β) (f : ι → ℝ), l.Nodup → (∀ p ∈ l, p ∈ r.pts) →
      (∀ p ∈ l, ∀ i, i < r.width → (l.foldl (decayPoint r dx g11 lam) f) (r.guard p i) = f (r.inner p) * Real.exp (-(centreDistance r dx g11 p / lam p))) ∧
      ∀ c, (∀ p ∈ l, ∀ i, i < r.width → c ≠ r.guard p i) → (l.foldl (decayPoint r dx g11 lam) f) c = f c from hs r.pts f h.nodup (fun _ hp => hp)
  intro l
  induction l with
  | nil => intro f _ _; exact ⟨by simp, fun c _ => rfl⟩
  | cons q l ih =>
    intro f hn hsub
    rw [List.nodup_cons] at hn
    have hq := hsub q List.mem_cons_self
    obtain ⟨d1, d2⟩ := decayPoint_ok h dx g11 lam f hq
    obtain ⟨i1, i2⟩ := ih (decayPoint r dx g11 lam f q) hn.2 (fun p hp => hsub p (List.mem_cons_of_mem _ hp))
    rw [List.foldl_cons]
    refine ⟨fun p hp i hi => ?_, fun c hc => ?_⟩
    · rcases List.mem_cons.1 hp with rfl | hp
      · rw [i2 _ (fun p' hp' j hj e => ?_), d1 i hi]
        have := (h.inj p hq p' (hsub p' (List.mem_cons_of_mem _ hp')) _ _ e).1
        subst this
        exact hn.1 hp'
      · rw [i1 p hp i hi, d2 _ (fun j hj e => h.out q hq p (hsub p (List.mem_cons_of_mem _ hp)) j e.symm)]
    · rw [i2 c (fun p hp => hc p (List.mem_cons_of_mem _ hp)), d2 c (hc q List.mem_cons_self)]

/-- **C50.**  With positive spacing and decay length the guard values have the sign of the last cell (zero if it is zero) and are no larger in
magnitude, for every field and every width. -/
theorem decay_sign_and_size {r : BndryRegion β ι} (h : RegionOk r) {dx g11 : ι → ℝ} {lam : β → ℝ} (f : ι → ℝ) (hdx : ∀ i, 0 ≤ dx i)
    {p : β} (hp : p ∈ r.pts) (hlam : 0 < lam p) {i : ℕ} (hi : i < r.width) :
    (0 < decayLength r dx g11 lam f (r.guard p i) ↔ 0 < f (r.inner p)) ∧ (decayLength r dx g11 lam f (r.guard p i) < 0 ↔ f (r.inner p) < 0) ∧
    |decayLength r dx g11 lam f (r.guard p i)| ≤ |decayLength r dx g11 lam f (r.inner p)| := by
  obtain ⟨h1, h2⟩ := decay_values h dx g11 lam f
  have he := Real.exp_pos (-(centreDistance r dx g11 p / lam p))
  have hd : 0 ≤ centreDistance r dx g11 p := by
    unfold centreDistance
    have a := div_nonneg (hdx (r.guard p 0)) (Real.sqrt_nonneg (g11 (r.guard p 0)))
    have b := div_nonneg (hdx (r.inner p)) (Real.sqrt_nonneg (g11 (r.inner p)))
    linarith
  have hle : Real.exp (-(centreDistance r dx g11 p / lam p)) ≤ 1 := by
    rw [Real.exp_le_one_iff]
    have := div_nonneg hd hlam.le
    linarith
  rw [h1 p hp i hi, h2 (r.inner p) (fun q hq j _ e => h.out q hq p hp j e.symm)]
  refine ⟨mul_pos_iff_of_pos_right he, ?_, ?_⟩
  · constructor
    · intro hh; by_contra hc
      have := mul_nonneg (not_lt.1 hc) he.le
      linarith
    · intro hh; exact mul_neg_of_neg_of_pos hh he
  · rw [abs_mul, abs_of_pos he]
    exact mul_le_of_le_one_right (abs_nonneg _) hle

/-- **C50.**  The ratio to the last value is `exp(-distance / decay length)`: over one decay length the value falls by `e`, and a larger distance
gives a smaller guard value. -/
theorem decay_monotone {r s : BndryRegion β ι} (hr : RegionOk r) (hs : RegionOk s) {dx g11 : ι → ℝ} {lam : β → ℝ} (f : ι → ℝ)
    {p q : β} (hp : p ∈ r.pts) (hq : q ∈ s.pts) (hlam : 0 < lam p) (heq : lam q = lam p) (hf : f (s.inner q) = f (r.inner p)) (h0 : 0 < f (r.inner p))
    (hd : centreDistance r dx g11 p < centreDistance s dx g11 q) {i j : ℕ} (hi : i < r.width) (hj : j < s.width) :
    decayLength s dx g11 lam f (s.guard q j) < decayLength r dx g11 lam f (r.guard p i) := by
  rw [(decay_values hr dx g11 lam f).1 p hp i hi, (decay_values hs dx g11 lam f).1 q hq j hj, hf, heq]
  refine mul_lt_mul_of_pos_left ?_ h0
  rw [Real.exp_lt_exp]
  have := div_lt_div_of_pos_right hd hlam
  linarith

/-- The outer guard cells are copies of the first: within the guard cells the value is constant. -/
theorem decay_flat {r : BndryRegion β ι} (h : RegionOk r) (dx g11 : ι → ℝ) (lam : β → ℝ) (f : ι → ℝ) {p : β} (hp : p ∈ r.pts) {i j : ℕ}
    (hi : i < r.width) (hj : j < r.width) :
    decayLength r dx g11 lam f (r.guard p i) = decayLength r dx g11 lam f (r.guard p j) := by
  rw [(decay_values h dx g11 lam f).1 p hp i hi, (decay_values h dx g11 lam f).1 p hp j hj]

end

/-- One boundary point: cell 0 is the last cell, cells 1 and 2 are guard cells. -/
def region : BndryRegion Unit ℕ := { pts := [()], width := 2, inner := fun _ => 0, guard := fun _ i => i + 1 }

theorem region_ok : RegionOk region :=
  ⟨by simp [region], fun p _ q _ i j e => ⟨rfl, by simpa [region] using e⟩, fun p _ q _ i => by simp [region], by simp [region]⟩

/-- **C50 fails for a decreasing X coordinate** (`dx < 0`, as in grids in which the poloidal flux decreases outwards): the values grow
outwards. -/
theorem decay_grows_for_negative_dx : ∃ f : ℕ → ℝ, 0 < f 0 ∧
    f 0 < decayLength region (fun _ => -1) (fun _ => 1) (fun _ => 3) f (region.guard () 0) := by
  refine ⟨fun _ => 1, one_pos, ?_⟩
  rw [(decay_values region_ok _ _ _ _).1 () (by simp [region]) 0 (by simp [region])]
  unfold centreDistance
  rw [one_mul]
  show (1 : ℝ) < _
  rw [Real.one_lt_exp_iff]
  norm_num

end Hermes.Metrics
