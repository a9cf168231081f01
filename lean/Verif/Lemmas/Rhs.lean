import Verif.Model.Rhs
import Verif.Props.ExBPoloidal
import Verif.Props.ParMomentum

/-!
# The parallel operators on the whole grid
-/

namespace Hermes.Rhs
open Finset Hermes Hermes.Limiters Hermes.PerpOps

variable {nz : ℕ}

theorem line_regular {g : Grid} (hg : Regular g) (B : RhsOps nz) (i : ℤ) : ParOps.Regular (g.line B i) where
  nonempty := hg.y_nonempty
  J_ne j _ _ := hg.J_ne i j
  dy_ne j _ _ := hg.dy_ne i j

theorem line_uniform {g : Grid} (hs : Separable g) (B : RhsOps nz) (i : ℤ) : ParOps.UniformPerp (g.line B i) :=
  fun a b => ⟨hs.dx i a b, hs.dz i i a b⟩

theorem line_volume (g : Grid) (B : RhsOps nz) (i j : ℤ) : ParOps.volume (g.line B i) j = volume g i j := rfl

/-- `content` is linear. -/
theorem content_add (g : Grid) (a b : F3 nz) : content g (a + b) = content g a + content g b := by
  simp only [content, Pi.add_apply, add_mul, Finset.sum_add_distrib]
theorem content_sub (g : Grid) (a b : F3 nz) : content g (a - b) = content g a - content g b := by
  simp only [content, Pi.sub_apply, sub_mul, Finset.sum_sub_distrib]
theorem content_neg (g : Grid) (a : F3 nz) : content g (-a) = -content g a := by
  simp only [content, Pi.neg_apply, neg_mul, Finset.sum_neg_distrib]
theorem content_zero (g : Grid) : content g (0 : F3 nz) = 0 := by
  simp only [content, Pi.zero_apply, zero_mul, Finset.sum_const_zero]
theorem content_smul (g : Grid) (c : ℝ) (a : F3 nz) : content g (fun i j k => c * a i j k) = c * content g a := by
  simp only [content, Finset.mul_sum, mul_assoc]
theorem content_congr {g : Grid} {a b : F3 nz}
    (h : ∀ i j, g.xstart ≤ i ∧ i ≤ g.xend → g.ystart ≤ j ∧ j ≤ g.yend → ∑ k, a i j k = ∑ k, b i j k) : content g a = content g b := by
  unfold content
  refine Finset.sum_congr rfl fun i hi => Finset.sum_congr rfl fun j hj => ?_
  rw [← Finset.sum_mul, ← Finset.sum_mul, h i j (mem_Icc.1 hi) (mem_Icc.1 hj)]

/-- Content as a sum over the lines. -/
theorem content_lines (g : Grid) (B : RhsOps nz) (r : F3 nz) :
    content g r = ∑ i ∈ Icc g.xstart g.xend, ∑ k, ParOps.content (g.line B i) (fun j => r i j k) := by
  unfold content ParOps.content
  refine Finset.sum_congr rfl fun i _ => ?_
  rw [Finset.sum_comm]
  rfl

/-- Shifting back from field-aligned coordinates does not change the content. -/
theorem content_fromFA (g : Grid) {B : RhsOps nz} (hB : ExB.Shifts B.toBoutOps) (r : F3 nz) : content g (B.fromFA r) = content g r :=
  content_congr fun i j _ _ => hB.fromFA r i j

/-- Flow through the lower face of cell `j` of line `(i, k)` by `Div_par_mod`. -/
noncomputable def parFlow (g : Grid) (B : RhsOps nz) (lim : Limiter) (f v w : F3 nz) (i j : ℤ) (k : Fin nz) : ℝ :=
  (g.parMod B lim f v w true i k).flow j

theorem content_parMod {g : Grid} (hg : Regular g) (hs : Separable g) {B : RhsOps nz} (hB : ExB.Shifts B.toBoutOps)
    (lim : Limiter) (f v w : F3 nz) :
    content g (g.divParMod3 B lim f v w true) =
      ∑ i ∈ Icc g.xstart g.xend, ∑ k, (parFlow g B lim f v w i (g.yend + 1) k - parFlow g B lim f v w i g.ystart k) := by
  unfold Grid.divParMod3
  rw [content_fromFA g hB, content_lines g B]
  refine Finset.sum_congr rfl fun i _ => Finset.sum_congr rfl fun k _ => ?_
  exact ParOps.content_changes_at_ends (line_regular hg B i) (line_uniform hs B i) lim _ _ _ true

/-- A line of column `i` is closed for a flow with velocity `v`: the velocity vanishes at the two ends, halfway between the
last cell and the guard cell (this is what `noflow_boundary` makes). -/
structure ClosedEnds (g : Grid) (B : RhsOps nz) (v : F3 nz) (i : ℤ) : Prop where
  open_line : B.periodicY i = false
  first : g.firstY i = true
  last : g.lastY i = true
  upper : ∀ k, B.toFA v i g.yend k + B.toFA v i (g.yend + 1) k = 0
  lower : ∀ k, B.toFA v i g.ystart k + B.toFA v i (g.ystart - 1) k = 0

theorem closed_line {g : Grid} {B : RhsOps nz} {v : F3 nz} {i : ℤ} (h : ClosedEnds g B v i) : ParOps.Closed (g.line B i) :=
  ⟨h.first, h.last, h.open_line⟩

theorem closed_no_flow {g : Grid} (hg : Regular g) {B : RhsOps nz} {v : F3 nz} {i : ℤ} (h : ClosedEnds g B v i)
    (lim : Limiter) (f w : F3 nz) (k : Fin nz) :
    parFlow g B lim f v w i (g.yend + 1) k = 0 ∧ parFlow g B lim f v w i g.ystart k = 0 := by
  have hu := ParOps.upper_end_flow_is_midpoint (closed_line h) hg.y_nonempty lim (alongY (B.toFA f) i k) (alongY (B.toFA v) i k)
    (alongY (B.toFA w) i k)
  have hl := ParOps.lower_end_flow_is_midpoint (closed_line h) hg.y_nonempty lim (alongY (B.toFA f) i k) (alongY (B.toFA v) i k)
    (alongY (B.toFA w) i k)
  unfold parFlow Grid.parMod
  refine ⟨hu.trans ?_, hl.trans ?_⟩
  · have e : alongY (B.toFA v) i k (g.line B i).yend + alongY (B.toFA v) i k ((g.line B i).yend + 1) = 0 := h.upper k
    rw [e]; ring
  · have e : alongY (B.toFA v) i k (g.line B i).ystart + alongY (B.toFA v) i k ((g.line B i).ystart - 1) = 0 := h.lower k
    rw [e]; ring

/-- The geometry of column `i` repeats after the last cell. -/
structure GeometryWraps (g : Grid) (B : RhsOps nz) (i : ℤ) : Prop where
  periodic : B.periodicY i = true
  J : ∀ j, g.J i (j + (g.yend + 1 - g.ystart)) = g.J i j
  g_22 : ∀ j, B.g_22 i (j + (g.yend + 1 - g.ystart)) = B.g_22 i j
  dy : ∀ j, g.dy i (j + (g.yend + 1 - g.ystart)) = g.dy i j

/-- A field repeats after the last cell, shifted by `σ` cells in `z` (twist-shift). -/
def FieldWraps (g : Grid) (f : F3 nz) (i : ℤ) (σ : Fin nz) : Prop := ∀ j k, f i (j + (g.yend + 1 - g.ystart)) k = f i j (k + σ)

theorem FieldWraps.at {g : Grid} {f : F3 nz} {i : ℤ} {σ : Fin nz} (h : FieldWraps g f i σ) {a b : ℤ} (hab : a = b + (g.yend + 1 - g.ystart))
    (k : Fin nz) : f i a k = f i b (k + σ) := by rw [hab]; exact h b k

theorem faceR_wraps {g : Grid} {B : RhsOps nz} {i : ℤ} (h : GeometryWraps g B i) :
    (g.line B i).faceR g.yend = (g.line B i).faceR (g.ystart - 1) := by
  have J0 := h.J (g.ystart - 1)
  have J1 := h.J (g.ystart - 1 + 1)
  have a0 := h.g_22 (g.ystart - 1)
  have a1 := h.g_22 (g.ystart - 1 + 1)
  rw [show g.ystart - 1 + (g.yend + 1 - g.ystart) = g.yend by ring] at J0 a0
  rw [show g.ystart - 1 + 1 + (g.yend + 1 - g.ystart) = g.yend + 1 by ring] at J1 a1
  simp only [Line.faceR, Grid.line, J0, J1, a0, a1]

/-- Fluxes that repeat give equal flows through the first and the last face. -/
theorem total_wraps {L : Line} (hp : L.periodicY = true) (hn : L.ystart ≤ L.yend) {FR FL FR' FL' : ℤ → ℝ}
    (hR : FR L.yend = FR' (L.ystart - 1)) (hL : FL (L.yend + 1) = FL' L.ystart) :
    L.total FR FL L.yend = L.total FR' FL' (L.ystart - 1) := by
  unfold Line.total Line.ys Line.ye
  simp only [hp, Bool.or_true, if_true, sub_add_cancel]
  rw [if_pos (by omega), if_pos (by omega), if_pos (by omega), if_pos (by omega), hR, hL]

theorem periodic_flow [NeZero nz] {g : Grid} (hg : Regular g) (hs : Separable g) {B : RhsOps nz} {i : ℤ} (h : GeometryWraps g B i) (lim : Limiter)
    {f v w : F3 nz} (σ : Fin nz) (hf : FieldWraps g (B.toFA f) i σ) (hv : FieldWraps g (B.toFA v) i σ)
    (hw : FieldWraps g (B.toFA w) i σ) :
    ∑ k, parFlow g B lim f v w i (g.yend + 1) k = ∑ k, parFlow g B lim f v w i g.ystart k := by
  have key : ∀ k, parFlow g B lim f v w i (g.yend + 1) k = parFlow g B lim f v w i g.ystart (k + σ) := by
    intro k
    unfold parFlow Grid.parMod Line.divParMod
    rw [Line.fluxLoop_flow, Line.fluxLoop_flow, add_sub_cancel_right]
    have t : (g.line B i).total ((g.line B i).modFluxR lim (alongY (B.toFA f) i k) (alongY (B.toFA v) i k) (alongY (B.toFA w) i k) true)
        ((g.line B i).modFluxL lim (alongY (B.toFA f) i k) (alongY (B.toFA v) i k) (alongY (B.toFA w) i k) true) g.yend =
        (g.line B i).total ((g.line B i).modFluxR lim (alongY (B.toFA f) i (k + σ)) (alongY (B.toFA v) i (k + σ)) (alongY (B.toFA w) i (k + σ)) true)
        ((g.line B i).modFluxL lim (alongY (B.toFA f) i (k + σ)) (alongY (B.toFA v) i (k + σ)) (alongY (B.toFA w) i (k + σ)) true)
          (g.ystart - 1) := by
      have hp : (g.line B i).periodicY = true := h.periodic
      refine total_wraps (L := g.line B i) hp hg.y_nonempty ?_ ?_
      · have e0 : g.yend = g.ystart - 1 + (g.yend + 1 - g.ystart) := by ring
        have e1 : g.yend + 1 = g.ystart - 1 + 1 + (g.yend + 1 - g.ystart) := by ring
        have e2 : g.yend - 1 = g.ystart - 1 - 1 + (g.yend + 1 - g.ystart) := by ring
        simp only [Line.modFluxR, Line.isLast, hp, Bool.not_true, Bool.and_false, Bool.false_eq_true, if_false, edges, alongY,
          show (g.line B i).yend = g.yend from rfl, show (g.line B i).ystart = g.ystart from rfl,
          hf.at e0, hf.at e1, hf.at e2, hv.at e0, hv.at e1, hv.at e2, hw.at e0, hw.at e1]
      · have e0 : g.yend + 1 = g.ystart + (g.yend + 1 - g.ystart) := by ring
        have e1 : g.yend + 1 + 1 = g.ystart + 1 + (g.yend + 1 - g.ystart) := by ring
        have e2 : g.yend + 1 - 1 = g.ystart - 1 + (g.yend + 1 - g.ystart) := by ring
        simp only [Line.modFluxL, Line.isFirst, hp, Bool.not_true, Bool.and_false, Bool.false_eq_true, if_false, edges, alongY,
          show (g.line B i).yend = g.yend from rfl, show (g.line B i).ystart = g.ystart from rfl,
          hf.at e0, hf.at e1, hf.at e2, hv.at e0, hv.at e1, hv.at e2, hw.at e0, hw.at e2]
    rw [t, faceR_wraps h]
    have dx : (g.line B i).dx (g.yend + 1) = (g.line B i).dx g.ystart := hs.dx i _ _
    have dz : (g.line B i).dz (g.yend + 1) = (g.line B i).dz g.ystart := hs.dz i i _ _
    rw [dx, dz]
  rw [Finset.sum_congr rfl fun k _ => key k]
  exact Equiv.sum_comp (Equiv.addRight σ) fun k => parFlow g B lim f v w i g.ystart k

/-! ## Index-space dissipation -/

/-- `Div_Perp_Lap_FV_Index` on a grid with logically rectangular spacing. -/
theorem content_perpLap [NeZero nz] {g : Grid} (hg : Regular g) (hs : Separable g) (a f : F3 nz) :
    content g (g.perpLapIndex a f) =
      ∑ j ∈ Icc g.ystart g.yend, ∑ k, (lapFace g a f g.xend j k - lapFace g a f (g.xstart - 1) j k) * (g.dy g.xstart j * g.dz g.xstart j) := by
  unfold content
  rw [Finset.sum_comm]
  refine Finset.sum_congr rfl fun j _ => ?_
  rw [← Finset.sum_mul, ← perpLapIndex_conserves hg a f j, planeSum, Finset.sum_mul]
  refine Finset.sum_congr rfl fun i _ => ?_
  rw [Finset.sum_mul]
  refine Finset.sum_congr rfl fun k _ => ?_
  unfold volume
  rw [hs.dy i g.xstart j, hs.dz i g.xstart j j]
  ring

theorem content_divNG [NeZero nz] {g : Grid} (hg : Regular g) (hs : Separable g) {B : RhsOps nz} (ho : ExB.OneProcessorX g B.toBoutOps)
    (n v f : F3 nz) (b : Bool) :
    content g (g.divNG B n v f b) =
      ∑ j ∈ Icc g.ystart g.yend, ∑ k, (g.exbFaceX n v f b g.xend j k - g.exbFaceX n v f b (g.xstart - 1) j k)
        * (g.dy g.xstart j * g.dz g.xstart j) := by
  unfold content
  rw [Finset.sum_comm]
  refine Finset.sum_congr rfl fun j hj => ?_
  have e : ∀ i ∈ Icc g.xstart g.xend, ∑ k, g.divNG B n v f b i j k * volume g i j =
      ∑ k, (g.exbFaceX n v f b i j k - g.exbFaceX n v f b (i - 1) j k) * (g.dy g.xstart j * g.dz g.xstart j) := by
    intro i hi
    have z := ExB.zsum_faceX hg n v f b i (mem_Icc.1 hj)
    have : ∀ k, g.divNG B n v f b i j k * volume g i j =
        g.exbXZ n v f b i j k * (g.J i j * g.dx i j) * (g.dy g.xstart j * g.dz g.xstart j) := by
      intro k
      unfold Grid.divNG volume
      rw [ho.alone _ _ _ _ (mem_Icc.1 hi), hs.dy i g.xstart j, hs.dz i g.xstart j j]
      ring
    rw [Finset.sum_congr rfl fun k _ => this k, ← Finset.sum_mul, z, Finset.sum_mul]
  rw [Finset.sum_congr rfl e, Finset.sum_comm]
  refine Finset.sum_congr rfl fun k _ => ?_
  rw [← Finset.sum_mul, sum_telescope (fun i => g.exbFaceX n v f b i j k) _ _ (by have := hg.x_nonempty; omega)]

end Hermes.Rhs
