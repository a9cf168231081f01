import Verif.Props.ParConduction
import Verif.Props.Limiters

/-!
# C103: numerical dissipation along the field smooths

`FV::Div_par_mod` moves something along the field even where nothing flows: the difference of the edge values on both sides of a face, times half the wave speed.
The equations have `ddt(f) = - Div_par_mod(f, V, wave_speed)`.
-/

namespace Hermes.ParOps
open Finset Hermes Hermes.Limiters

/-- Wave speed at the face between cells `i` and `i + 1`, not below zero. -/
noncomputable def wave (w : ℤ → ℝ) (i : ℤ) : ℝ := max (max (w i) (w (i + 1))) 0

/-- Values on the lower and on the upper side of the face between cells `i` and `i + 1`. -/
def below (lim : Limiter) (f : ℤ → ℝ) (i : ℤ) : ℝ := (lim (f (i - 1)) (f i) (f (i + 1))).2
def above (lim : Limiter) (f : ℤ → ℝ) (i : ℤ) : ℝ := (lim (f i) (f (i + 1)) (f (i + 1 + 1))).1

theorem wave_nonneg (w : ℤ → ℝ) (i : ℤ) : 0 ≤ wave w i := le_max_right _ _

/-- Nothing moves. -/
abbrev rest : ℤ → ℝ := fun _ => 0

section
variable {g : Line} {lim : Limiter}

theorem rest_total (hc : Closed g) (hl : MonotoneLim lim) (f w : ℤ → ℝ) {i : ℤ} (h1 : g.ystart ≤ i) (h2 : i < g.yend) :
    g.total (g.modFluxR lim f rest w true) (g.modFluxL lim f rest w true) i = wave w i / 2 * (below lim f i - above lim f i) := by
  have z : lim 0 0 0 = (0, 0) := constant_exact hl 0
  have e1 : max4 (w i) (w (i + 1)) |(0 : ℝ)| |(0 : ℝ)| = wave w i := by simp [max4, wave]
  have e2 : max4 (w (i + 1)) (w i) |(0 : ℝ)| |(0 : ℝ)| = wave w i := by simp [max4, wave, max_comm]
  have l1 : g.isLast i = false := by
    unfold Line.isLast
    have : (i == g.yend) = false := by simp; omega
    simp [this]
  have l2 : g.isFirst (i + 1) = false := by
    unfold Line.isFirst
    have : (i + 1 == g.ystart) = false := by simp; omega
    simp [this]
  have y1 : g.ys = g.ystart := by unfold Line.ys; simp [hc.1, hc.2.2]
  have y2 : g.ye = g.yend := by unfold Line.ye; simp [hc.2.1, hc.2.2]
  unfold Line.total
  rw [if_pos (by rw [y1, y2]; omega), if_pos (by rw [y1, y2]; omega)]
  unfold Line.modFluxR Line.modFluxL
  rw [l1, l2]
  simp only [edges, rest, z, add_sub_cancel_right, e1, e2, Bool.false_eq_true, if_false, below, above]
  ring

theorem rest_ends (hc : Closed g) (hn : g.ystart ≤ g.yend) (f w : ℤ → ℝ) :
    g.total (g.modFluxR lim f rest w true) (g.modFluxL lim f rest w true) g.yend = 0 ∧
    g.total (g.modFluxR lim f rest w true) (g.modFluxL lim f rest w true) (g.ystart - 1) = 0 := by
  rw [total_at_upper_end hc hn, total_at_lower_end hc hn]
  obtain ⟨h1, h2, h3⟩ := hc
  constructor
  · unfold Line.modFluxR Line.isLast
    simp [h2, h3]
  · unfold Line.modFluxL Line.isFirst
    simp [h1, h3]

/-- **C103.**  What the operator moves from cell `i` to cell `i + 1` if nothing flows. -/
theorem flow_at_rest (hc : Closed g) (hl : MonotoneLim lim) (f w : ℤ → ℝ) {i : ℤ} (h1 : g.ystart ≤ i) (h2 : i < g.yend) :
    (g.divParMod lim f rest w true).flow (i + 1) = g.faceR i * (wave w i / 2 * (below lim f i - above lim f i)) * g.dx (i + 1) * g.dz (i + 1) := by
  unfold Line.divParMod
  rw [g.fluxLoop_flow, add_sub_cancel_right, rest_total hc hl f w h1 h2]

/-- Integral of `f` times the operator: minus half the rate of change of the integral of the square. -/
theorem rest_weighted (hg : Regular g) (hu : UniformPerp g) (hc : Closed g) (hl : MonotoneLim lim) (f w : ℤ → ℝ) :
    content g (fun i => f i * (g.divParMod lim f rest w true).result i) =
      (∑ i ∈ Icc g.ystart (g.yend - 1), g.faceR i * (wave w i / 2) * ((f i - f (i + 1)) * (below lim f i - above lim f i))) * (g.dx g.ystart * g.dz g.ystart) := by
  have hn := hg.nonempty
  set T := g.total (g.modFluxR lim f rest w true) (g.modFluxL lim f rest w true) with hT
  have s1 : content g (fun i => f i * (g.divParMod lim f rest w true).result i) =
      (∑ i ∈ Icc g.ystart g.yend, (f i * (g.faceR i * T i) - f i * (g.faceR (i - 1) * T (i - 1)))) * (g.dx g.ystart * g.dz g.ystart) := by
    unfold content
    rw [Finset.sum_mul]
    refine Finset.sum_congr rfl fun i hi => ?_
    obtain ⟨h1, h2⟩ := mem_Icc.1 hi
    unfold Line.divParMod
    simp only
    rw [g.fluxLoop_result, mul_assoc, volume_cancel hg hu h1 h2]
    ring
  have r := rest_ends (lim := lim) hc hn f w
  rw [← hT] at r
  rw [s1]
  congr 1
  rw [Finset.sum_sub_distrib, sum_Icc_split_last hn]
  have e := sum_Icc_shift_pred hn (fun i => f (i + 1) * (g.faceR i * T i))
  simp only [sub_add_cancel] at e
  rw [e, r.1, r.2, mul_zero, mul_zero, mul_zero, mul_zero, add_zero, zero_add, ← Finset.sum_sub_distrib]
  refine Finset.sum_congr rfl fun i hi => ?_
  obtain ⟨h1, h2⟩ := mem_Icc.1 hi
  rw [hT, rest_total hc hl f w h1 (by omega)]
  ring

/-- A limiter whose edge values do not go beyond the middle between two cells. -/
def Gentle (lim : Limiter) : Prop := ∀ m c p, Between (lim m c p).1 c ((m + c) / 2) ∧ Between (lim m c p).2 c ((c + p) / 2)

theorem upwind_gentle : Gentle upwind := fun _ _ _ => ⟨⟨min_le_left _ _, le_max_left _ _⟩, ⟨min_le_left _ _, le_max_left _ _⟩⟩

theorem minMod_gentle : Gentle minMod := by
  intro m c p
  unfold Between minMod
  simp only [min_le_iff, le_max_iff]
  rcases minmod2_cases (p - c) (c - m) with ⟨h, _⟩ | ⟨ha, hb, h0, h1, h2⟩ | ⟨ha, hb, h0, h1, h2⟩
  · rw [h]; norm_num
  · refine ⟨⟨Or.inr ?_, Or.inl ?_⟩, ⟨Or.inl ?_, Or.inr ?_⟩⟩ <;> linarith
  · refine ⟨⟨Or.inl ?_, Or.inr ?_⟩, ⟨Or.inr ?_, Or.inl ?_⟩⟩ <;> linarith

theorem gentle_face (h : Gentle lim) (f : ℤ → ℝ) (i : ℤ) : 0 ≤ (f i - f (i + 1)) * (below lim f i - above lim f i) := by
  have a := (h (f (i - 1)) (f i) (f (i + 1))).2
  have b := (h (f i) (f (i + 1)) (f (i + 1 + 1))).1
  unfold Between at a b
  rw [min_le_iff, le_max_iff] at a b
  unfold below above
  rcases le_total (f i) (f (i + 1)) with o | o
  · refine mul_nonneg_of_nonpos_of_nonpos (by linarith) ?_
    rcases a.2 with a | a <;> rcases b.1 with b | b <;> linarith
  · refine mul_nonneg (by linarith) ?_
    rcases a.1 with a | a <;> rcases b.2 with b | b <;> linarith

/-- **C103.**  With the limiters `Upwind` and `MinMod` nothing moves from a cell to a neighbour that has more. -/
theorem downhill (hp : Positive g) (hc : Closed g) (hl : MonotoneLim lim) (hm : Gentle lim) (f w : ℤ → ℝ) {i : ℤ} (h1 : g.ystart ≤ i) (h2 : i < g.yend) :
    0 ≤ (f i - f (i + 1)) * (g.divParMod lim f rest w true).flow (i + 1) := by
  rw [flow_at_rest hc hl f w h1 h2]
  have := mul_nonneg (mul_nonneg (hp.faceR_pos i).le (wave_nonneg w i)) (mul_nonneg (gentle_face hm f i) (mul_nonneg (hp.dx (i + 1)).le (hp.dz (i + 1)).le))
  linarith

/-- **C103.**  The integral of the square does not grow, with these limiters, in any geometry and for any wave speeds. -/
theorem smooths (hg : Regular g) (hp : Positive g) (hu : UniformPerp g) (hc : Closed g) (hl : MonotoneLim lim) (hm : Gentle lim) (f w : ℤ → ℝ) :
    0 ≤ content g (fun i => f i * (g.divParMod lim f rest w true).result i) := by
  rw [rest_weighted hg hu hc hl]
  exact mul_nonneg (Finset.sum_nonneg fun i _ => mul_nonneg (mul_nonneg (hp.faceR_pos i).le (by have := wave_nonneg w i; linarith)) (gentle_face hm f i))
    (mul_nonneg (hp.dx _).le (hp.dz _).le)

/-- Change across a cell with the limiter `MC`. -/
noncomputable def mcSlope (f : ℤ → ℝ) (i : ℤ) : ℝ := minmod3 (2 * (f (i + 1) - f i)) (0.5 * (f (i + 1) - f (i - 1))) (2 * (f i - f (i - 1)))

theorem mcSlope_le (f : ℤ → ℝ) (i : ℤ) :
    mcSlope f i * ((f (i + 1) - f i) + (f i - f (i - 1))) ≤ (f (i + 1) - f i) ^ 2 + (f i - f (i - 1)) ^ 2 := by
  unfold mcSlope
  set a := f (i + 1) - f i with ha
  set b := f i - f (i - 1) with hb
  have e : f (i + 1) - f (i - 1) = a + b := by rw [ha, hb]; ring
  rw [e]
  rcases minmod3_cases (2 * a) (0.5 * (a + b)) (2 * b) with ⟨h, _⟩ | ⟨h1, h2, h3, h⟩ | ⟨h1, h2, h3, h⟩
  · rw [h]; nlinarith [sq_nonneg a, sq_nonneg b]
  · have u : minmod3 (2 * a) (0.5 * (a + b)) (2 * b) ≤ 0.5 * (a + b) := h ▸ (min_le_right _ _).trans (min_le_left _ _)
    have := mul_le_mul_of_nonneg_right u (show 0 ≤ a + b by linarith)
    nlinarith [sq_nonneg (a - b)]
  · have u : 0.5 * (a + b) ≤ minmod3 (2 * a) (0.5 * (a + b)) (2 * b) := h ▸ (le_max_left _ _).trans (le_max_right _ _)
    have := mul_le_mul_of_nonpos_right u (show a + b ≤ 0 by linarith)
    nlinarith [sq_nonneg (a - b)]

theorem mc_below (f : ℤ → ℝ) (i : ℤ) : below mc f i = f i + mcSlope f i / 2 := by
  unfold below mc mcSlope
  ring

theorem mc_above (f : ℤ → ℝ) (i : ℤ) : above mc f i = f (i + 1) - mcSlope f (i + 1) / 2 := by
  unfold above mc mcSlope
  rw [add_sub_cancel_right]
  ring

/-- **C103, part.**  With the default limiter `MC` the integral of the square does not grow if cells and wave speed are the same all along the line.  Missing:
wave speeds that change (`mc_sharpens`). -/
theorem mc_smooths_partial (hg : Regular g) (hp : Positive g) (hu : UniformPerp g) (hc : Closed g) (f w : ℤ → ℝ) (hw : ∀ i, w i = w g.ystart)
    (hf : ∀ i, g.faceR i = g.faceR g.ystart) (hlo : f (g.ystart - 1) = f g.ystart) (hhi : f (g.yend + 1) = f g.yend) :
    0 ≤ content g (fun i => f i * (g.divParMod mc f rest w true).result i) := by
  rw [rest_weighted hg hu hc mc_monotone]
  have hn := hg.nonempty
  refine mul_nonneg ?_ (mul_nonneg (hp.dx _).le (hp.dz _).le)
  have e : ∀ i, wave w i = wave w g.ystart := fun i => by unfold wave; rw [hw i, hw (i + 1), hw (g.ystart + 1)]
  simp only [hf, e]
  rw [← Finset.mul_sum]
  refine mul_nonneg (mul_nonneg (hp.faceR_pos _).le (by have := wave_nonneg w g.ystart; linarith)) ?_
  let P : ℤ → ℝ := fun i => (f i - f (i - 1)) ^ 2 / 2 - (f i - f (i - 1)) * mcSlope f i / 2
  let Q : ℤ → ℝ := fun i => (f (i + 1) - f i) ^ 2 / 2 - (f (i + 1) - f i) * mcSlope f i / 2
  have pq : ∀ i, 0 ≤ P i + Q i := fun i => by
    have := mcSlope_le f i
    simp only [P, Q]
    linarith
  have P0 : P g.ystart = 0 := by simp [P, hlo]
  have Q0 : Q g.yend = 0 := by simp [Q, hhi]
  have t : ∑ i ∈ Icc g.ystart (g.yend - 1), (f i - f (i + 1)) * (below mc f i - above mc f i) = ∑ i ∈ Icc g.ystart g.yend, (P i + Q i) := by
    have s := sum_Icc_shift_pred hn (fun i => P (i + 1))
    simp only [sub_add_cancel] at s
    rw [Finset.sum_add_distrib, s, P0, zero_add, sum_Icc_split_last hn Q, Q0, add_zero, ← Finset.sum_add_distrib]
    refine Finset.sum_congr rfl fun i _ => ?_
    rw [mc_below, mc_above]
    simp only [P, Q, add_sub_cancel_right]
    ring
  rw [t]
  exact Finset.sum_nonneg fun i _ => pq i

/-- Fluxes through the two faces of a cell that is an extremum. -/
theorem extremum_faces (hl : MonotoneLim lim) (f : ℤ → ℝ) {i : ℤ} (h : (f (i - 1) ≤ f i ∧ f (i + 1) ≤ f i) ∨ (f i ≤ f (i - 1) ∧ f i ≤ f (i + 1))) :
    below lim f i = f i ∧ above lim f (i - 1) = f i ∧ Between (above lim f i) (f i) (f (i + 1)) ∧ Between (below lim f (i - 1)) (f (i - 1)) (f i) := by
  have e := hl.extremum (f (i - 1)) (f i) (f (i + 1)) h
  refine ⟨e.2, ?_, hl.left_between _ _ _, ?_⟩
  · unfold above
    rw [sub_add_cancel]
    exact e.1
  · have := hl.right_between (f (i - 1 - 1)) (f (i - 1)) (f (i - 1 + 1))
    rw [sub_add_cancel] at this
    unfold below
    rw [sub_add_cancel]
    exact this

theorem rest_result (hp : Positive g) (hc : Closed g) (hl : MonotoneLim lim) (f w : ℤ → ℝ) {i : ℤ} (h1 : g.ystart ≤ i) (h2 : i ≤ g.yend) (s : ℝ)
    (hu : i < g.yend → 0 ≤ s * (below lim f i - above lim f i)) (hd : g.ystart < i → s * (below lim f (i - 1) - above lim f (i - 1)) ≤ 0) :
    0 ≤ s * (g.divParMod lim f rest w true).result i := by
  unfold Line.divParMod
  rw [g.fluxLoop_result]
  have r := rest_ends (lim := lim) hc (h1.trans h2) f w
  set T := g.total (g.modFluxR lim f rest w true) (g.modFluxL lim f rest w true) with hT
  have t1 : 0 ≤ s * T i := by
    rcases lt_or_eq_of_le h2 with h | h
    · rw [hT, rest_total hc hl f w h1 h]
      have := mul_nonneg (wave_nonneg w i) (hu h)
      linarith
    · rw [h, r.1, mul_zero]
  have t2 : s * T (i - 1) ≤ 0 := by
    rcases lt_or_eq_of_le h1 with h | h
    · rw [hT, rest_total hc hl f w (by omega) (by omega)]
      have := mul_nonneg (wave_nonneg w (i - 1)) (neg_nonneg.2 (hd h))
      linarith
    · rw [← h, r.2, mul_zero]
  rw [mul_div_assoc']
  refine div_nonneg ?_ (mul_pos (hp.dy i) (hp.J i)).le
  have a1 := mul_nonneg (hp.faceR_pos i).le t1
  have a2 := mul_nonneg (hp.faceR_pos (i - 1)).le (neg_nonneg.2 t2)
  linarith

/-- **C103.**  With all three limiters, wave speeds and geometries, a cell that has no less than its neighbours does not gain, -/
theorem maximum_not_raised (hp : Positive g) (hc : Closed g) (hl : MonotoneLim lim) (f w : ℤ → ℝ) {i : ℤ} (h1 : g.ystart ≤ i) (h2 : i ≤ g.yend)
    (hm : f (i - 1) ≤ f i ∧ f (i + 1) ≤ f i) : 0 ≤ (g.divParMod lim f rest w true).result i := by
  obtain ⟨e1, e2, e3, e4⟩ := extremum_faces hl f (Or.inl hm)
  have := rest_result hp hc hl f w h1 h2 1 (fun _ => by rw [e1]; have := e3.2; rw [max_eq_left hm.2] at this; linarith)
    (fun _ => by rw [e2]; have := e4.2; rw [max_eq_right hm.1] at this; linarith)
  linarith

/-- **C103.**  and a cell that has no more than its neighbours does not lose. -/
theorem minimum_not_lowered (hp : Positive g) (hc : Closed g) (hl : MonotoneLim lim) (f w : ℤ → ℝ) {i : ℤ} (h1 : g.ystart ≤ i) (h2 : i ≤ g.yend)
    (hm : f i ≤ f (i - 1) ∧ f i ≤ f (i + 1)) : (g.divParMod lim f rest w true).result i ≤ 0 := by
  obtain ⟨e1, e2, e3, e4⟩ := extremum_faces hl f (Or.inr hm)
  have := rest_result hp hc hl f w h1 h2 (-1) (fun _ => by rw [e1]; have := e3.1; rw [min_eq_left hm.2] at this; linarith)
    (fun _ => by rw [e2]; have := e4.1; rw [min_eq_right hm.1] at this; linarith)
  linarith

end

/-- Five equal cells between walls. -/
def five : Line := ⟨0, 4, true, true, false, fun _ => 1, fun _ => 1, fun _ => 1, fun _ => 1, fun _ => 1⟩

theorem five_positive : Positive five := ⟨fun _ => one_pos, fun _ => one_pos, fun _ => one_pos, fun _ => one_pos, fun _ => one_pos⟩
theorem five_regular : Regular five := ⟨by decide, fun _ _ _ => one_ne_zero, fun _ _ _ => one_ne_zero⟩
theorem five_uniform : UniformPerp five := fun _ _ => ⟨rfl, rfl⟩
theorem five_closed : Closed five := ⟨rfl, rfl, rfl⟩

/-- Steep, flat and steep again. -/
def stairs : ℤ → ℝ := fun i => if i ≤ 0 then 0 else if i = 1 then 3 else if i = 2 then 4 else if i = 3 then 5 else 8

/-- Hot in the middle. -/
def middle : ℤ → ℝ := fun i => if i = 2 then 1 else 0

theorem five_face (i : ℤ) : five.faceR i = 1 := by
  unfold Line.faceR five
  norm_num

/-- **C103 (fails with the default limiter).**  At rest, with `MC`, density moves from a cell to a neighbour that has more, and the integral of the square grows. -/
theorem mc_sharpens : stairs 1 < stairs 2 ∧ 0 < (five.divParMod mc stairs rest middle true).flow 2 ∧
    content five (fun i => stairs i * (five.divParMod mc stairs rest middle true).result i) < 0 := by
  have s1 : mcSlope stairs 1 = 2 := by norm_num [mcSlope, minmod3, SIGN, stairs]
  have s2 : mcSlope stairs 2 = 1 := by norm_num [mcSlope, minmod3, SIGN, stairs]
  have s3 : mcSlope stairs 3 = 2 := by norm_num [mcSlope, minmod3, SIGN, stairs]
  have w0 : wave middle 0 = 0 := by norm_num [wave, middle]
  have w1 : wave middle 1 = 1 := by norm_num [wave, middle]
  have w2 : wave middle 2 = 1 := by norm_num [wave, middle]
  have w3 : wave middle 3 = 0 := by norm_num [wave, middle]
  refine ⟨by norm_num [stairs], ?_, ?_⟩
  · have := flow_at_rest five_closed mc_monotone stairs middle (i := 1) (by decide) (by decide)
    rw [show (1 : ℤ) + 1 = 2 by rfl] at this
    rw [this, mc_below, mc_above, show (1 : ℤ) + 1 = 2 by rfl, s1, s2, w1, five_face]
    norm_num [stairs, five]
  · rw [rest_weighted five_regular five_uniform five_closed mc_monotone]
    have : Icc five.ystart (five.yend - 1) = {0, 1, 2, 3} := by decide
    rw [this]
    simp only [Finset.sum_insert, Finset.mem_insert, Finset.mem_singleton, Finset.sum_singleton, mc_below, mc_above, five_face, w0, w1, w2, w3]
    norm_num [s1, s2, s3, stairs, five, w0, w1, w2, w3]

/-- The hypotheses of the other theorems: the same stairs, and the same wave speed everywhere. -/
example : 0 ≤ (five.divParMod mc stairs rest middle true).result 4 ∧ 0 ≤ content five (fun i => stairs i * (five.divParMod minMod stairs rest middle true).result i) ∧
    0 ≤ content five (fun i => stairs i * (five.divParMod mc stairs rest (fun _ => 1) true).result i) :=
  ⟨maximum_not_raised five_positive five_closed mc_monotone _ _ (by decide) (by decide) (by norm_num [stairs]), smooths five_regular five_positive five_uniform five_closed minMod_monotone minMod_gentle _ _,
    mc_smooths_partial five_regular five_positive five_uniform five_closed _ _ (fun _ => rfl) (fun i => by rw [five_face, five_face])
      (by norm_num [stairs, five]) (by norm_num [stairs, five])⟩

end Hermes.ParOps
