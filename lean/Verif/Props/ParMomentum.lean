import Verif.Props.ParPositivity

/-!
# C14 and C59: parallel momentum advection and the heat from its dissipation
-/

namespace Hermes.ParOps
open Finset Hermes Hermes.Limiters

theorem content_fluxLoop {g : Line} (hg : Regular g) (hu : UniformPerp g) (FR FL : ℤ → ℝ) :
    content g (g.fluxLoop FR FL).result =
      (g.faceR g.yend * g.total FR FL g.yend - g.faceR (g.ystart - 1) * g.total FR FL (g.ystart - 1))
        * (g.dx g.ystart * g.dz g.ystart) := by
  unfold content
  rw [Finset.sum_congr rfl (fun i hi => fluxLoop_volume hg hu FR FL (mem_Icc.1 hi).1 (mem_Icc.1 hi).2)]
  have := sum_telescope (fun i => (g.fluxLoop FR FL).flow (i + 1)) g.ystart g.yend
    (by have := hg.nonempty; omega)
  simp only [sub_add_cancel] at this
  rw [this, g.fluxLoop_flow, g.fluxLoop_flow, add_sub_cancel_right, (hu (g.yend + 1) g.ystart).1,
    (hu (g.yend + 1) g.ystart).2]
  ring

/-! ## C14 -/

/-- C14.  With fixed boundary flux, momentum in a closed line changes only by the midpoint flux `n v²` at
the two ends. -/
theorem momentum_changes_at_ends {g : Line} (hg : Regular g) (hu : UniformPerp g) (hc : Closed g)
    (lim : Limiter) (f v w : ℤ → ℝ) :
    content g (g.divParFvv lim f v w true) =
      (g.faceR g.yend * (((f g.yend + f (g.yend + 1)) / 2) * ((v g.yend + v (g.yend + 1)) / 2) ^ 2)
        - g.faceR (g.ystart - 1) *
          (((f g.ystart + f (g.ystart - 1)) / 2) * ((v g.ystart + v (g.ystart - 1)) / 2) ^ 2))
        * (g.dx g.ystart * g.dz g.ystart) := by
  unfold Line.divParFvv
  rw [content_fluxLoop hg hu, total_at_upper_end hc hg.nonempty, total_at_lower_end hc hg.nonempty]
  simp only [Line.fvvFluxR, Line.fvvFluxL, Line.isLast, Line.isFirst, hc.1, hc.2.1, hc.2.2,
    beq_self_eq_true, Bool.and_self, Bool.not_false, if_true]
  ring

/-- C14.  With a `noflow_boundary` at both ends advection conserves momentum. -/
theorem noflow_conserves_momentum {g : Line} (hg : Regular g) (hu : UniformPerp g) (hc : Closed g)
    (lim : Limiter) (f v w : ℤ → ℝ) :
    content g (g.divParFvv lim (g.noflowScalar true true f) (g.noflowFlow true true v) w true) = 0 := by
  rw [momentum_changes_at_ends hg hu hc]
  obtain ⟨h1, h2, h3⟩ := hc
  have hn := hg.nonempty
  have a1 : g.noflowFlow true true v (g.yend + 1) = -g.noflowFlow true true v g.yend := by
    unfold Line.noflowFlow
    have e1 : ¬ (g.yend + 1 = g.ystart - 1) := by omega
    have e2 : ¬ (g.yend = g.ystart - 1) := by omega
    have e3 : ¬ (g.yend = g.yend + 1) := by omega
    simp [h1, h2, h3, e1, e2, e3]
  have a2 : g.noflowFlow true true v (g.ystart - 1) = -g.noflowFlow true true v g.ystart := by
    unfold Line.noflowFlow
    have e1 : ¬ (g.ystart = g.yend + 1) := by omega
    have e3 : ¬ (g.ystart = g.ystart - 1) := by omega
    simp [h1, h2, h3, e1, e3]
  rw [a1, a2]
  ring

theorem sum_periodic_shift {g : Line} (hn : g.ystart ≤ g.yend) (C : ℤ → ℝ) (hC : PeriodicOn g C) :
    ∑ i ∈ Icc g.ystart g.yend, C (i - 1) = ∑ i ∈ Icc g.ystart g.yend, C i := by
  have := sum_telescope C g.ystart g.yend (by omega)
  rw [Finset.sum_sub_distrib] at this
  have e := hC (g.ystart - 1)
  have e1 : g.ystart - 1 + (g.yend + 1 - g.ystart) = g.yend := by ring
  rw [e1] at e
  linarith

theorem PeriodicOn.succ {g : Line} {f : ℤ → ℝ} (h : PeriodicOn g f) (i : ℤ) :
    f (i + (g.yend + 1 - g.ystart) + 1) = f (i + 1) := by
  have := h (i + 1)
  rw [← this]; congr 1; ring

theorem PeriodicOn.pred {g : Line} {f : ℤ → ℝ} (h : PeriodicOn g f) (i : ℤ) :
    f (i + (g.yend + 1 - g.ystart) - 1) = f (i - 1) := by
  have := h (i - 1)
  rw [← this]; congr 1; ring

theorem fvvFluxR_periodic {g : Line} (hp : g.periodicY = true) (lim : Limiter) {f v w : ℤ → ℝ} (fix : Bool)
    (hf : PeriodicOn g f) (hv : PeriodicOn g v) (hw : PeriodicOn g w) :
    PeriodicOn g (g.fvvFluxR lim f v w fix) := by
  intro i
  simp only [Line.fvvFluxR, Line.isLast, hp, edges, Bool.not_true, Bool.and_false, Bool.false_eq_true,
    if_false, hf.succ, hf.pred, hf i, hv.succ, hv.pred, hv i, hw.succ, hw i]

theorem fvvFluxL_periodic {g : Line} (hp : g.periodicY = true) (lim : Limiter) {f v w : ℤ → ℝ} (fix : Bool)
    (hf : PeriodicOn g f) (hv : PeriodicOn g v) (hw : PeriodicOn g w) :
    PeriodicOn g (g.fvvFluxL lim f v w fix) := by
  intro i
  simp only [Line.fvvFluxL, Line.isFirst, hp, edges, Bool.not_true, Bool.and_false, Bool.false_eq_true,
    if_false, hf.succ, hf.pred, hf i, hv.succ, hv.pred, hv i, hw.pred, hw i]

theorem faceR_periodic {g : Line} (hJ : PeriodicOn g g.J) (hg22 : PeriodicOn g g.g22) :
    PeriodicOn g g.faceR := by
  intro i
  unfold Line.faceR
  rw [hJ.succ, hJ i, hg22.succ, hg22 i]

/-- C14.  On a periodic line advection conserves momentum. -/
theorem periodic_conserves_momentum {g : Line} (hg : Regular g) (hu : UniformPerp g)
    (hp : g.periodicY = true) (lim : Limiter) (f v w : ℤ → ℝ) (fix : Bool)
    (hJ : PeriodicOn g g.J) (hg22 : PeriodicOn g g.g22)
    (hf : PeriodicOn g f) (hv : PeriodicOn g v) (hw : PeriodicOn g w) :
    content g (g.divParFvv lim f v w fix) = 0 := by
  unfold Line.divParFvv
  rw [content_fluxLoop hg hu, total_periodic hp hg.nonempty _ _ (fvvFluxR_periodic hp lim fix hf hv hw)
    (fvvFluxL_periodic hp lim fix hf hv hw)]
  have e := faceR_periodic hJ hg22 (g.ystart - 1)
  have e1 : g.ystart - 1 + (g.yend + 1 - g.ystart) = g.yend := by ring
  rw [e1] at e
  rw [e]; ring

/-- C14.  A uniform velocity stays uniform: the momentum divergence is that velocity times the particle
divergence, so that advection changes `n v` exactly as `v` times its change of `n`. -/
theorem uniform_velocity_consistent (g : Line) {lim : Limiter} (hl : MonotoneLim lim) (f w : ℤ → ℝ)
    (u : ℝ) (i : ℤ) :
    g.divParFvv lim f (fun _ => u) w true i = u * (g.divParMod lim f (fun _ => u) w true).result i := by
  have eR : ∀ j, g.fvvFluxR lim f (fun _ => u) w true j = u * g.modFluxR lim f (fun _ => u) w true j := by
    intro j
    simp only [Line.fvvFluxR, Line.modFluxR, edges, constant_exact hl, if_true]
    split <;> ring
  have eL : ∀ j, g.fvvFluxL lim f (fun _ => u) w true j = u * g.modFluxL lim f (fun _ => u) w true j := by
    intro j
    simp only [Line.fvvFluxL, Line.modFluxL, edges, constant_exact hl, if_true]
    split <;> ring
  have eT : ∀ j, g.total (g.fvvFluxR lim f (fun _ => u) w true) (g.fvvFluxL lim f (fun _ => u) w true) j =
      u * g.total (g.modFluxR lim f (fun _ => u) w true) (g.modFluxL lim f (fun _ => u) w true) j := by
    intro j
    unfold Line.total
    rw [eR, eL]
    split_ifs <;> ring
  unfold Line.divParFvv Line.divParMod
  rw [g.fluxLoop_result, g.fluxLoop_result, eT, eT]
  ring

/-! ## C59: kinetic energy and heat

With `∂n/∂t = -Div_par_mod(n, v)` and `∂(n v)/∂t = -Div_par_fvv(n, v)` the kinetic energy `n v²/2` of a
cell falls at the rate `v Div_par_fvv - v²/2 Div_par_mod`.  `Div_par_fvv_heating` is added to the pressure
equation to return the dissipated part as heat. -/

/-- Rate of loss of kinetic energy density in cell `i`. -/
noncomputable def kineticLoss (g : Line) (lim : Limiter) (f v w : ℤ → ℝ) (i : ℤ) : ℝ :=
  v i * g.divParFvv lim f v w true i - v i ^ 2 / 2 * (g.divParMod lim f v w true).result i

/-- What the heating term returns in excess of what was dissipated at the face between `i` and `i + 1`. -/
noncomputable def faceExcess (g : Line) (lim : Limiter) (f v w : ℤ → ℝ) (i : ℤ) : ℝ :=
  g.faceR i * (speedUp v w i / 2) *
    ((edges lim f i).2 * (v i - v (i + 1)) * ((edges lim v i).2 - (v i + v (i + 1)) / 2)
      + (edges lim f (i + 1)).1 * (v (i + 1) - v i) * ((edges lim v (i + 1)).1 - (v i + v (i + 1)) / 2))

/-- Contributions of the right and left half of the loop body to the heating of cell `j`. -/
noncomputable def heatR (g : Line) (lim : Limiter) (f v w : ℤ → ℝ) (fix : Bool) (j : ℤ) : ℝ :=
  if g.isLast j then
    v j * heatMomR lim f v w fix j - 0.5 * v j * v j * (0.5 * (f j + f (j + 1)) * (0.5 * (v j + v (j + 1))))
      - 0.5 * (0.5 * (f j + f (j + 1))) * (0.5 * (v j + v (j + 1))) * (0.5 * (v j + v (j + 1)))
        * (0.5 * (v j + v (j + 1)))
  else (speedUp v w j + 0.5 * (edges lim v j).2) * (edges lim f j).2 * (v j - v (j + 1))
      * ((edges lim v j).2 - 0.5 * (v j + v (j + 1)))

noncomputable def heatL (g : Line) (lim : Limiter) (f v w : ℤ → ℝ) (fix : Bool) (j : ℤ) : ℝ :=
  if g.isFirst j then
    -v j * heatMomL lim f v w fix j + 0.5 * v j * v j * (0.5 * (f j + f (j - 1)) * (0.5 * (v j + v (j - 1))))
      - -0.5 * (0.5 * (f j + f (j - 1))) * (0.5 * (v j + v (j - 1))) * (0.5 * (v j + v (j - 1)))
        * (0.5 * (v j + v (j - 1)))
  else (speedUp v w (j - 1) - 0.5 * (edges lim v j).1) * (edges lim f j).1 * (v j - v (j - 1))
      * ((edges lim v j).1 - 0.5 * (v j + v (j - 1)))

theorem speedUp_pred (v w : ℤ → ℝ) (j : ℤ) :
    max4 (w j) (w (j - 1)) |v j| |v (j - 1)| = speedUp v w (j - 1) := by
  unfold speedUp max4
  rw [sub_add_cancel, max_comm (w (j - 1)), max_comm |v (j - 1)|]

theorem heating_gather (g : Line) (lim : Limiter) (f v w : ℤ → ℝ) (fix : Bool) {i : ℤ}
    (h1 : g.ystart ≤ i) (h2 : i ≤ g.yend) :
    (g.fvvHeating lim f v w fix).result i =
      (g.faceR i * heatR g lim f v w fix i + g.faceR (i - 1) * heatL g lim f v w fix i) / (g.dy i * g.J i) := by
  unfold Line.fvvHeating
  rw [foldl_observe (g.heatStep lim f v w fix) (fun a => a.result i)
    (fun j => if i = j then heatR g lim f v w fix j * (g.faceR j / (g.dy j * g.J j))
      + heatL g lim f v w fix j * (g.faceL j / (g.dy j * g.J j)) else 0)]
  · rw [sum_forRange, sum_pick, if_pos ⟨by have := g.ys_le; omega, by have := g.le_ye; omega⟩]
    simp only [zero_add, Line.faceL_eq]
    ring
  · intro a j
    have e : max4 (w j) (w (j + 1)) |v j| |v (j + 1)| = speedUp v w j := rfl
    simp only [Line.heatStep, heatR, heatL, speedUp_pred, e]
    cases g.isLast j <;> cases g.isFirst j <;> by_cases hij : i = j <;>
      simp [hij, addAt_apply] <;> ring

/-- Interior face: dissipation in the two one-sided fluxes plus the excess equals the heating terms. -/
theorem face_identity (g : Line) (lim : Limiter) (f v w : ℤ → ℝ) (i : ℤ)
    (hL : g.isLast i = false) (hF : g.isFirst (i + 1) = false) :
    g.faceR i * heatR g lim f v w true i + g.faceR i * heatL g lim f v w true (i + 1)
      - g.faceR i * ((v i * (g.fvvFluxR lim f v w true i + g.fvvFluxL lim f v w true (i + 1))
            - v i ^ 2 / 2 * (g.modFluxR lim f v w true i + g.modFluxL lim f v w true (i + 1)))
          - (v (i + 1) * (g.fvvFluxR lim f v w true i + g.fvvFluxL lim f v w true (i + 1))
            - v (i + 1) ^ 2 / 2 * (g.modFluxR lim f v w true i + g.modFluxL lim f v w true (i + 1))))
      = faceExcess g lim f v w i := by
  have e : max4 (w i) (w (i + 1)) |v i| |v (i + 1)| = speedUp v w i := rfl
  have e2 : max4 (w (i + 1)) (w i) |v (i + 1)| |v i| = speedUp v w i := by
    have := speedUp_pred v w (i + 1)
    rwa [add_sub_cancel_right] at this
  simp only [heatR, heatL, Line.fvvFluxR, Line.fvvFluxL, Line.modFluxR, Line.modFluxL, hL, hF,
    Bool.false_eq_true, if_false, e, e2, add_sub_cancel_right, faceExcess]
  ring

theorem volume_cancel {g : Line} (hg : Regular g) (hu : UniformPerp g) {i : ℤ} (h1 : g.ystart ≤ i)
    (h2 : i ≤ g.yend) (x : ℝ) :
    x / (g.dy i * g.J i) * volume g i = x * (g.dx g.ystart * g.dz g.ystart) := by
  unfold volume
  rw [(hu i g.ystart).1, (hu i g.ystart).2]
  have := hg.J_ne i h1 h2
  have := hg.dy_ne i h1 h2
  field_simp

/-- Heating minus kinetic energy loss, summed over the line, in terms of faces. -/
theorem heating_minus_loss {g : Line} (hg : Regular g) (hu : UniformPerp g) (lim : Limiter)
    (f v w : ℤ → ℝ) :
    content g (g.fvvHeating lim f v w true).result - content g (kineticLoss g lim f v w) =
      (∑ i ∈ Icc g.ystart g.yend,
        ((g.faceR i * heatR g lim f v w true i + g.faceR (i - 1) * heatL g lim f v w true i)
          - (g.faceR i * (v i * g.total (g.fvvFluxR lim f v w true) (g.fvvFluxL lim f v w true) i
              - v i ^ 2 / 2 * g.total (g.modFluxR lim f v w true) (g.modFluxL lim f v w true) i)
            - g.faceR (i - 1) * (v i * g.total (g.fvvFluxR lim f v w true) (g.fvvFluxL lim f v w true) (i - 1)
              - v i ^ 2 / 2 * g.total (g.modFluxR lim f v w true) (g.modFluxL lim f v w true) (i - 1)))))
        * (g.dx g.ystart * g.dz g.ystart) := by
  unfold content
  rw [← Finset.sum_sub_distrib, Finset.sum_mul]
  refine Finset.sum_congr rfl fun i hi => ?_
  obtain ⟨h1, h2⟩ := mem_Icc.1 hi
  rw [heating_gather g lim f v w true h1 h2, volume_cancel hg hu h1 h2]
  unfold kineticLoss Line.divParFvv Line.divParMod
  rw [g.fluxLoop_result, g.fluxLoop_result]
  have e : ∀ a b c d : ℝ, (a * (b / (g.dy i * g.J i)) - c * (d / (g.dy i * g.J i))) * volume g i =
      (a * b - c * d) * (g.dx g.ystart * g.dz g.ystart) := by
    intro a b c d
    rw [← volume_cancel hg hu h1 h2 (a * b - c * d)]
    ring
  rw [e]
  ring

theorem sum_Icc_split_last {a b : ℤ} (hab : a ≤ b) (F : ℤ → ℝ) :
    ∑ i ∈ Icc a b, F i = (∑ i ∈ Icc a (b - 1), F i) + F b := by
  have : Icc a b = insert b (Icc a (b - 1)) := by
    ext j; simp only [mem_Icc, mem_insert]; omega
  rw [this, Finset.sum_insert (by simp)]
  ring

theorem sum_Icc_shift_pred {a b : ℤ} (hab : a ≤ b) (F : ℤ → ℝ) :
    ∑ i ∈ Icc a b, F (i - 1) = F (a - 1) + ∑ i ∈ Icc a (b - 1), F i := by
  have h := sum_telescope F a b (by omega)
  rw [Finset.sum_sub_distrib, sum_Icc_split_last hab F] at h
  linarith

/-- C59, exact energy balance of a closed line with the default boundary flux: the heating returned minus
the kinetic energy lost is minus the outflow of `n v³/2` at the ends, plus a numerical excess
`faceExcess` at every face between two cells. -/
theorem kinetic_energy_balance_closed {g : Line} (hg : Regular g) (hu : UniformPerp g) (hc : Closed g)
    (lim : Limiter) (f v w : ℤ → ℝ) :
    content g (g.fvvHeating lim f v w true).result - content g (kineticLoss g lim f v w) =
      ((∑ i ∈ Icc g.ystart (g.yend - 1), faceExcess g lim f v w i)
        - g.faceR g.yend * (((f g.yend + f (g.yend + 1)) / 2) * ((v g.yend + v (g.yend + 1)) / 2) ^ 3 / 2)
        + g.faceR (g.ystart - 1) *
          (((f g.ystart + f (g.ystart - 1)) / 2) * ((v g.ystart + v (g.ystart - 1)) / 2) ^ 3 / 2))
        * (g.dx g.ystart * g.dz g.ystart) := by
  have hn := hg.nonempty
  rw [heating_minus_loss hg hu]
  congr 1
  set TM := g.total (g.fvvFluxR lim f v w true) (g.fvvFluxL lim f v w true) with hTM
  set TN := g.total (g.modFluxR lim f v w true) (g.modFluxL lim f v w true) with hTN
  set C : ℤ → ℝ := fun i => g.faceR i * (v (i + 1) * TM i - v (i + 1) ^ 2 / 2 * TN i) with hC
  set H : ℤ → ℝ := fun i => g.faceR i * heatL g lim f v w true (i + 1) with hH
  have s1 : ∑ i ∈ Icc g.ystart g.yend,
        ((g.faceR i * heatR g lim f v w true i + g.faceR (i - 1) * heatL g lim f v w true i)
          - (g.faceR i * (v i * TM i - v i ^ 2 / 2 * TN i)
            - g.faceR (i - 1) * (v i * TM (i - 1) - v i ^ 2 / 2 * TN (i - 1)))) =
      ∑ i ∈ Icc g.ystart g.yend, (g.faceR i * heatR g lim f v w true i
          - g.faceR i * (v i * TM i - v i ^ 2 / 2 * TN i)) +
      ∑ i ∈ Icc g.ystart g.yend, (H (i - 1) + C (i - 1)) := by
    rw [← Finset.sum_add_distrib]
    refine Finset.sum_congr rfl fun i _ => ?_
    simp only [hC, hH, sub_add_cancel]
    ring
  rw [s1, sum_Icc_split_last hn, sum_Icc_shift_pred hn (fun i => H i + C i)]
  have s2 : ∑ i ∈ Icc g.ystart (g.yend - 1), faceExcess g lim f v w i =
      ∑ i ∈ Icc g.ystart (g.yend - 1), (g.faceR i * heatR g lim f v w true i
          - g.faceR i * (v i * TM i - v i ^ 2 / 2 * TN i)) + ∑ i ∈ Icc g.ystart (g.yend - 1), (H i + C i) := by
    rw [← Finset.sum_add_distrib]
    refine Finset.sum_congr rfl fun i hi => ?_
    obtain ⟨h1, h2⟩ := mem_Icc.1 hi
    have hL : g.isLast i = false := by
      unfold Line.isLast
      have : (i == g.yend) = false := by simp; omega
      simp [this]
    have hF : g.isFirst (i + 1) = false := by
      unfold Line.isFirst
      have : (i + 1 == g.ystart) = false := by simp; omega
      simp [this]
    rw [← face_identity g lim f v w i hL hF]
    have eM : TM i = g.fvvFluxR lim f v w true i + g.fvvFluxL lim f v w true (i + 1) := by
      rw [hTM]; unfold Line.total
      have := g.ys_le; have := g.le_ye
      rw [if_pos ⟨by omega, by omega⟩, if_pos ⟨by omega, by omega⟩]
    have eN : TN i = g.modFluxR lim f v w true i + g.modFluxL lim f v w true (i + 1) := by
      rw [hTN]; unfold Line.total
      have := g.ys_le; have := g.le_ye
      rw [if_pos ⟨by omega, by omega⟩, if_pos ⟨by omega, by omega⟩]
    simp only [hC, hH, eM, eN]
    ring
  rw [s2]
  have t1 : TM g.yend = g.fvvFluxR lim f v w true g.yend := total_at_upper_end hc hn _ _
  have t2 : TN g.yend = g.modFluxR lim f v w true g.yend := total_at_upper_end hc hn _ _
  have t3 : TM (g.ystart - 1) = g.fvvFluxL lim f v w true g.ystart := total_at_lower_end hc hn _ _
  have t4 : TN (g.ystart - 1) = g.modFluxL lim f v w true g.ystart := total_at_lower_end hc hn _ _
  obtain ⟨h1, h2, h3⟩ := hc
  have l1 : g.isLast g.yend = true := by simp [Line.isLast, h2, h3]
  have l2 : g.isFirst g.ystart = true := by simp [Line.isFirst, h1, h3]
  simp only [hC, hH, t1, t2, t3, t4, sub_add_cancel, heatR, heatL, heatMomR, heatMomL, Line.fvvFluxR,
    Line.fvvFluxL, Line.modFluxR, Line.modFluxL, l1, l2, if_true]
  ring

/-- Limiters whose edge values do not go beyond the face midpoint. -/
def WithinMidpoint (lim : Limiter) : Prop :=
  ∀ m c p, Between (lim m c p).1 c ((m + c) / 2) ∧ Between (lim m c p).2 c ((c + p) / 2)

theorem upwind_withinMidpoint : WithinMidpoint upwind := by
  intro m c p
  exact ⟨⟨min_le_left _ _, le_max_left _ _⟩, ⟨min_le_left _ _, le_max_left _ _⟩⟩

theorem minMod_withinMidpoint : WithinMidpoint minMod := by
  intro m c p
  unfold Between minMod
  simp only
  rcases minmod2_cases (p - c) (c - m) with ⟨h, _⟩ | ⟨ha, hb, h0, h1, h2⟩ | ⟨ha, hb, h0, h1, h2⟩
  · rw [h]; simp
  · rw [min_eq_right (by linarith : (m + c) / 2 ≤ c), max_eq_left (by linarith : (m + c) / 2 ≤ c),
      min_eq_left (by linarith : c ≤ (c + p) / 2), max_eq_right (by linarith : c ≤ (c + p) / 2)]
    refine ⟨⟨?_, ?_⟩, ⟨?_, ?_⟩⟩ <;> linarith
  · rw [min_eq_left (by linarith : c ≤ (m + c) / 2), max_eq_right (by linarith : c ≤ (m + c) / 2),
      min_eq_right (by linarith : (c + p) / 2 ≤ c), max_eq_left (by linarith : (c + p) / 2 ≤ c)]
    refine ⟨⟨?_, ?_⟩, ⟨?_, ?_⟩⟩ <;> linarith

theorem mul_nonneg_of_between {a b x : ℝ} (h : Between x a ((a + b) / 2)) :
    0 ≤ (a - b) * (x - (a + b) / 2) := by
  obtain ⟨h1, h2⟩ := h
  rcases le_total a b with hab | hab
  · rw [max_eq_right (by linarith : a ≤ (a + b) / 2)] at h2
    exact mul_nonneg_of_nonpos_of_nonpos (by linarith) (by linarith)
  · rw [min_eq_right (by linarith : (a + b) / 2 ≤ a)] at h1
    exact mul_nonneg (by linarith) (by linarith)

/-- C59.  For non-negative density and a limiter that stays within the face midpoint (MinMod, upwind) the
excess is never negative: dissipated kinetic energy is never lost. -/
theorem faceExcess_nonneg {g : Line} (hg : Positive g) {lim : Limiter} (hl : MonotoneLim lim)
    (hm : WithinMidpoint lim) {f : ℤ → ℝ} (v w : ℤ → ℝ) (hf : ∀ j, 0 ≤ f j) (i : ℤ) :
    0 ≤ faceExcess g lim f v w i := by
  unfold faceExcess edges
  have c := (hg.faceR_pos i).le
  have s : 0 ≤ speedUp v w i := by
    unfold speedUp; exact le_max_of_le_right (le_max_of_le_left (abs_nonneg _))
  have e1 := (edges_nonneg hl (hf (i - 1)) (hf i) (hf (i + 1))).2.2.1
  have e2 := (edges_nonneg hl (hf (i + 1 - 1)) (hf (i + 1)) (hf (i + 1 + 1))).1
  have b1 := mul_nonneg_of_between (hm (v (i - 1)) (v i) (v (i + 1))).2
  have b2' := (hm (v (i + 1 - 1)) (v (i + 1)) (v (i + 1 + 1))).1
  rw [add_comm (v (i + 1 - 1)), add_sub_cancel_right] at b2'
  have b2 := mul_nonneg_of_between b2'
  rw [add_comm (v (i + 1)) (v i)] at b2
  refine mul_nonneg (mul_nonneg c (by linarith)) (add_nonneg ?_ ?_)
  · rw [mul_assoc]; exact mul_nonneg e1 b1
  · rw [mul_assoc]
    rw [add_sub_cancel_right] at e2 ⊢
    exact mul_nonneg e2 b2

/-- C59, partial.  Closed line without flow through its ends, MinMod or upwind limiter: the heating is at
least the kinetic energy lost.  (Missing: equality.  See the negation below.) -/
theorem heating_at_least_loss_partial {g : Line} (hg : Regular g) (hpos : Positive g) (hu : UniformPerp g)
    (hc : Closed g) {lim : Limiter} (hl : MonotoneLim lim) (hm : WithinMidpoint lim) {f : ℤ → ℝ} (v w : ℤ → ℝ)
    (hf : ∀ j, 0 ≤ f j) (hup : v (g.yend + 1) = -v g.yend) (hdn : v (g.ystart - 1) = -v g.ystart) :
    content g (kineticLoss g lim f v w) ≤ content g (g.fvvHeating lim f v w true).result := by
  have h := kinetic_energy_balance_closed hg hu hc lim f v w
  rw [hup, hdn] at h
  have s : 0 ≤ ∑ i ∈ Icc g.ystart (g.yend - 1), faceExcess g lim f v w i :=
    Finset.sum_nonneg fun i _ => faceExcess_nonneg hpos hl hm v w hf i
  have d := mul_pos (hpos.dx g.ystart) (hpos.dz g.ystart)
  have e : ((∑ i ∈ Icc g.ystart (g.yend - 1), faceExcess g lim f v w i)
        - g.faceR g.yend * (((f g.yend + f (g.yend + 1)) / 2) * ((v g.yend + -v g.yend) / 2) ^ 3 / 2)
        + g.faceR (g.ystart - 1) *
          (((f g.ystart + f (g.ystart - 1)) / 2) * ((v g.ystart + -v g.ystart) / 2) ^ 3 / 2)) =
      ∑ i ∈ Icc g.ystart (g.yend - 1), faceExcess g lim f v w i := by ring
  rw [e] at h
  have := mul_nonneg s d.le
  linarith

/-- Two cells moving towards each other in a closed box. -/
noncomputable def twoCells : Line :=
  ⟨0, 1, true, true, false, fun _ => 1, fun _ => 1, fun _ => 1, fun _ => 1, fun _ => 1⟩

/-- C59, negation.  Energy is not conserved: two cells of unit density moving towards each other at unit
speed in a closed box lose kinetic energy at the rate 4 and are heated at the rate 6. -/
theorem heating_exceeds_loss : ∃ (f v w : ℤ → ℝ),
    (∀ j, f j = 1) ∧ (∀ j, w j = 0) ∧ v (-1) = -v 0 ∧ v 2 = -v 1 ∧
    content twoCells (kineticLoss twoCells upwind f v w) = 4 ∧
    content twoCells (twoCells.fvvHeating upwind f v w true).result = 6 := by
  have hreg : Regular twoCells := ⟨by decide, fun _ _ _ => one_ne_zero, fun _ _ _ => one_ne_zero⟩
  have hu : UniformPerp twoCells := fun _ _ => ⟨rfl, rfl⟩
  have hc : Closed twoCells := ⟨rfl, rfl, rfl⟩
  let v : ℤ → ℝ := fun j => if j = 0 ∨ j = 2 then 1 else -1
  refine ⟨fun _ => 1, v, fun _ => 0, fun _ => rfl, fun _ => rfl, by simp [v], by simp [v], ?_⟩
  have hb := kinetic_energy_balance_closed hreg hu hc upwind (fun _ => 1) v (fun _ => 0)
  have hh : content twoCells (twoCells.fvvHeating upwind (fun _ => 1) v (fun _ => 0) true).result = 6 := by
    unfold content
    have hI : Icc twoCells.ystart twoCells.yend = {0, 1} := by decide
    rw [hI, Finset.sum_pair (by decide), heating_gather _ _ _ _ _ _ (by decide) (by decide),
      heating_gather _ _ _ _ _ _ (by decide) (by decide)]
    norm_num [twoCells, volume, Line.faceR, heatR, heatL, Line.isLast, Line.isFirst, edges, upwind, v,
      heatMomR, heatMomL, speedUp]
  rw [hh] at hb
  refine ⟨?_, hh⟩
  have hI : Icc twoCells.ystart (twoCells.yend - 1) = {0} := by decide
  rw [hI, Finset.sum_singleton] at hb
  have hx : faceExcess twoCells upwind (fun _ => 1) v (fun _ => 0) 0 = 2 := by
    norm_num [twoCells, faceExcess, Line.faceR, speedUp, edges, upwind, v]
  rw [hx] at hb
  norm_num [twoCells, Line.faceR, v] at hb
  have : content twoCells (kineticLoss twoCells upwind (fun _ => 1) v (fun _ => 0)) = 4 := by
    unfold twoCells
    linarith
  exact this

/-- C59.  For `fix_momentum_boundary_flux = false` the boundary momentum flux assumed by the heating term differs from the one used by the
momentum equation by the largest speed times the momentum of the jump of the density, into the wall at both ends: they agree if the density
at the edge of the cell is the one at the wall. -/
theorem heating_boundary_flux_gap (g : Line) (lim : Limiter) (f v w : ℤ → ℝ) (j : ℤ) :
    (g.isLast j = true → heatMomR lim f v w false j - g.fvvFluxR lim f v w false j =
      max3 (w j) |v j| |v (j + 1)| * (edges lim v j).2 * ((edges lim f j).2 - (f j + f (j + 1)) / 2)) ∧
    (g.isFirst j = true → heatMomL lim f v w false j - g.fvvFluxL lim f v w false j =
      -(max3 (w j) |v j| |v (j - 1)| * (edges lim v j).1 * ((edges lim f j).1 - (f j + f (j - 1)) / 2))) := by
  constructor
  · intro h
    simp only [heatMomR, Line.fvvFluxR, h, if_true, Bool.false_eq_true, if_false]
    ring
  · intro h
    simp only [heatMomL, Line.fvvFluxL, h, if_true, Bool.false_eq_true, if_false]
    ring

/-- C14 / C59, negation for the non-default `fix_momentum_boundary_flux = false`: the boundary momentum flux
assumed by the heating term is not the one used by the momentum equation. -/
theorem heating_boundary_flux_differs : ∃ (g : Line) (f v w : ℤ → ℝ), Closed g ∧
    heatMomR upwind f v w false g.yend ≠ g.fvvFluxR upwind f v w false g.yend := by
  refine ⟨twoCells, fun j => if j = 2 then 0 else 1, fun _ => 1, fun _ => 0, ⟨rfl, rfl, rfl⟩, ?_⟩
  norm_num [twoCells, heatMomR, Line.fvvFluxR, Line.isLast, edges, upwind, max3]

end Hermes.ParOps
