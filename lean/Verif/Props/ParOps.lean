import Verif.Lemmas.ParOps
import Verif.Props.Limiters
import Mathlib.Tactic.Positivity
import Mathlib.Tactic.NormNum

/-!
# C09–C13: advection along the field line

Specification vocabulary: the cell volume `J dx dy dz`, the content of a line, what it means for a
local line to be a piece of a longer one, and periodic data.
-/

namespace Hermes.ParOps
open Finset Hermes Hermes.Limiters

/-- Volume of a cell. -/
def volume (g : Line) (i : ℤ) : ℝ := g.J i * g.dx i * g.dy i * g.dz i

/-- Volume integral over the cells owned by the processor. -/
noncomputable def content (g : Line) (f : ℤ → ℝ) : ℝ := ∑ i ∈ Icc g.ystart g.yend, f i * volume g i

/-- A usable line: at least one cell, no degenerate cell. -/
structure Regular (g : Line) : Prop where
  nonempty : g.ystart ≤ g.yend
  J_ne : ∀ i, g.ystart ≤ i → i ≤ g.yend → g.J i ≠ 0
  dy_ne : ∀ i, g.ystart ≤ i → i ≤ g.yend → g.dy i ≠ 0

/-- `dx` and `dz` do not vary along the line (they are functions of `x` in every supplied grid). -/
def UniformPerp (g : Line) : Prop := ∀ i j, g.dx i = g.dx j ∧ g.dz i = g.dz j

/-- The line has a physical end on both sides. -/
def Closed (g : Line) : Prop := g.firstY = true ∧ g.lastY = true ∧ g.periodicY = false

/-- `f` repeats after the cells of the line. -/
def PeriodicOn (g : Line) (f : ℤ → ℝ) : Prop := ∀ i, f (i + (g.yend + 1 - g.ystart)) = f i

/-! ## The operators in terms of face fluxes -/

theorem fluxLoop_volume {g : Line} (hg : Regular g) (hu : UniformPerp g) (FR FL : ℤ → ℝ) {i : ℤ}
    (h1 : g.ystart ≤ i) (h2 : i ≤ g.yend) :
    (g.fluxLoop FR FL).result i * volume g i =
      (g.fluxLoop FR FL).flow (i + 1) - (g.fluxLoop FR FL).flow i := by
  rw [g.fluxLoop_result, g.fluxLoop_flow, g.fluxLoop_flow, add_sub_cancel_right,
    (hu (i + 1) i).1, (hu (i + 1) i).2]
  unfold volume
  have hJ := hg.J_ne i h1 h2
  have hd := hg.dy_ne i h1 h2
  field_simp

/-- C13 (advection of any quantity with `Div_par_mod`).  In every owned cell the divergence times the
cell volume is the difference of the reported flows through its two faces. -/
theorem flow_reproduces_divergence {g : Line} (hg : Regular g) (hu : UniformPerp g) (lim : Limiter)
    (f v w : ℤ → ℝ) (fix : Bool) {i : ℤ} (h1 : g.ystart ≤ i) (h2 : i ≤ g.yend) :
    (g.divParMod lim f v w fix).result i * volume g i =
      (g.divParMod lim f v w fix).flow (i + 1) - (g.divParMod lim f v w fix).flow i :=
  fluxLoop_volume hg hu _ _ h1 h2

/-- C09.  The content of the line changes only by the flows reported at its two ends, for every limiter,
velocity, wave speed, metric and boundary treatment. -/
theorem content_changes_at_ends {g : Line} (hg : Regular g) (hu : UniformPerp g) (lim : Limiter)
    (f v w : ℤ → ℝ) (fix : Bool) :
    content g (g.divParMod lim f v w fix).result =
      (g.divParMod lim f v w fix).flow (g.yend + 1) - (g.divParMod lim f v w fix).flow g.ystart := by
  unfold content
  rw [Finset.sum_congr rfl (fun i hi => flow_reproduces_divergence hg hu lim f v w fix
    (mem_Icc.1 hi).1 (mem_Icc.1 hi).2)]
  have := sum_telescope (fun i => (g.divParMod lim f v w fix).flow (i + 1)) g.ystart g.yend
    (by have := hg.nonempty; omega)
  simpa using this

/-! ### Boundary flux -/

theorem total_at_upper_end {g : Line} (hc : Closed g) (hn : g.ystart ≤ g.yend) (FR FL : ℤ → ℝ) :
    g.total FR FL g.yend = FR g.yend := by
  unfold Line.total Line.ys Line.ye
  obtain ⟨h1, h2, h3⟩ := hc
  simp [h1, h2, h3, hn]

theorem total_at_lower_end {g : Line} (hc : Closed g) (hn : g.ystart ≤ g.yend) (FR FL : ℤ → ℝ) :
    g.total FR FL (g.ystart - 1) = FL g.ystart := by
  unfold Line.total Line.ys Line.ye
  obtain ⟨h1, h2, h3⟩ := hc
  simp [h1, h2, h3, hn]

/-- C11.  With the default `fixflux`, the flow through the upper end of a closed line is exactly the
midpoint value of the advected quantity times the midpoint velocity (times the face area): the limiter,
the wave speed and every other cell are irrelevant. -/
theorem upper_end_flow_is_midpoint {g : Line} (hc : Closed g) (hn : g.ystart ≤ g.yend) (lim : Limiter)
    (f v w : ℤ → ℝ) :
    (g.divParMod lim f v w true).flow (g.yend + 1) =
      ((f g.yend + f (g.yend + 1)) / 2) * ((v g.yend + v (g.yend + 1)) / 2)
        * ((g.J g.yend + g.J (g.yend + 1)) / (√(g.g22 g.yend) + √(g.g22 (g.yend + 1))))
        * g.dx (g.yend + 1) * g.dz (g.yend + 1) := by
  unfold Line.divParMod
  rw [g.fluxLoop_flow, add_sub_cancel_right, total_at_upper_end hc hn]
  simp only [Line.modFluxR, Line.isLast, hc.2.1, hc.2.2, beq_self_eq_true, Bool.and_self, Bool.not_false,
    if_true, Line.faceR]
  ring

/-- C11, lower end. -/
theorem lower_end_flow_is_midpoint {g : Line} (hc : Closed g) (hn : g.ystart ≤ g.yend) (lim : Limiter)
    (f v w : ℤ → ℝ) :
    (g.divParMod lim f v w true).flow g.ystart =
      ((f g.ystart + f (g.ystart - 1)) / 2) * ((v g.ystart + v (g.ystart - 1)) / 2)
        * ((g.J (g.ystart - 1) + g.J g.ystart) / (√(g.g22 (g.ystart - 1)) + √(g.g22 g.ystart)))
        * g.dx g.ystart * g.dz g.ystart := by
  unfold Line.divParMod
  rw [g.fluxLoop_flow, total_at_lower_end hc hn]
  simp only [Line.modFluxL, Line.isFirst, hc.1, hc.2.2, beq_self_eq_true, Bool.and_self, Bool.not_false,
    if_true, Line.faceR, sub_add_cancel]
  ring

/-- C11.  After `noflow_boundary` has set the guard cells, nothing flows through either end, for both
settings of `fixflux` (with a monotone limiter). -/
theorem noflow_blocks_flow {g : Line} (hc : Closed g) (hn : g.ystart ≤ g.yend) {lim : Limiter}
    (hl : MonotoneLim lim) (f v w : ℤ → ℝ) (fix : Bool) :
    (g.divParMod lim (g.noflowScalar true true f) (g.noflowFlow true true v) w fix).flow (g.yend + 1) = 0 ∧
    (g.divParMod lim (g.noflowScalar true true f) (g.noflowFlow true true v) w fix).flow g.ystart = 0 := by
  obtain ⟨h1, h2, h3⟩ := hc
  have hfu : g.noflowScalar true true f (g.yend + 1) = f g.yend := by
    unfold Line.noflowScalar
    have : ¬ (g.yend + 1 = g.ystart - 1) := by omega
    simp [h1, h2, h3, this]
  have hfu' : g.noflowScalar true true f g.yend = f g.yend := by
    unfold Line.noflowScalar
    have : ¬ (g.yend = g.ystart - 1) := by omega
    simp [h1, h2, h3, this]
  have hvu : g.noflowFlow true true v (g.yend + 1) = -v g.yend := by
    unfold Line.noflowFlow
    have : ¬ (g.yend + 1 = g.ystart - 1) := by omega
    simp [h1, h2, h3, this]
  have hvu' : g.noflowFlow true true v g.yend = v g.yend := by
    unfold Line.noflowFlow
    have : ¬ (g.yend = g.ystart - 1) := by omega
    simp [h1, h2, h3, this]
  have hfl : g.noflowScalar true true f (g.ystart - 1) = f g.ystart := by
    unfold Line.noflowScalar
    simp [h1, h3]
  have hfl' : g.noflowScalar true true f g.ystart = f g.ystart := by
    unfold Line.noflowScalar
    have : ¬ (g.ystart = g.yend + 1) := by omega
    simp [h1, h2, h3, this]
  have hvl : g.noflowFlow true true v (g.ystart - 1) = -v g.ystart := by
    unfold Line.noflowFlow
    simp [h1, h3]
  have hvl' : g.noflowFlow true true v g.ystart = v g.ystart := by
    unfold Line.noflowFlow
    have : ¬ (g.ystart = g.yend + 1) := by omega
    have h' : ¬ (g.ystart = g.ystart - 1) := by omega
    simp [h1, h2, h3, this, h']
  unfold Line.divParMod
  constructor
  · rw [g.fluxLoop_flow, add_sub_cancel_right, total_at_upper_end ⟨h1, h2, h3⟩ hn]
    have e := (hl.extremum (g.noflowScalar true true f (g.yend - 1)) (f g.yend) (f g.yend))
    have e2 : (lim (g.noflowScalar true true f (g.yend - 1)) (f g.yend) (f g.yend)).2 = f g.yend := by
      rcases le_total (g.noflowScalar true true f (g.yend - 1)) (f g.yend) with h | h
      · exact (e (Or.inl ⟨h, le_refl _⟩)).2
      · exact (e (Or.inr ⟨h, le_refl _⟩)).2
    cases fix <;>
    simp only [Line.modFluxR, Line.isLast, h2, h3, beq_self_eq_true, Bool.and_self, Bool.not_false,
      if_true, hfu, hfu', hvu, hvu', edges, e2, Bool.false_eq_true, if_false] <;> ring
  · rw [g.fluxLoop_flow, total_at_lower_end ⟨h1, h2, h3⟩ hn]
    have e := (hl.extremum (f g.ystart) (f g.ystart) (g.noflowScalar true true f (g.ystart + 1)))
    have e2 : (lim (f g.ystart) (f g.ystart) (g.noflowScalar true true f (g.ystart + 1))).1 = f g.ystart := by
      rcases le_total (g.noflowScalar true true f (g.ystart + 1)) (f g.ystart) with h | h
      · exact (e (Or.inl ⟨le_refl _, h⟩)).1
      · exact (e (Or.inr ⟨le_refl _, h⟩)).1
    cases fix <;>
    simp only [Line.modFluxL, Line.isFirst, h1, h3, beq_self_eq_true, Bool.and_self, Bool.not_false,
      if_true, hfl, hfl', hvl, hvl', edges, e2, Bool.false_eq_true, if_false] <;> ring

/-- C09 + C11.  A line closed by `noflow_boundary` keeps its content exactly. -/
theorem noflow_line_conserves {g : Line} (hg : Regular g) (hu : UniformPerp g) (hc : Closed g)
    {lim : Limiter} (hl : MonotoneLim lim) (f v w : ℤ → ℝ) (fix : Bool) :
    content g (g.divParMod lim (g.noflowScalar true true f) (g.noflowFlow true true v) w fix).result = 0 := by
  rw [content_changes_at_ends hg hu, (noflow_blocks_flow hc hg.nonempty hl f v w fix).1,
    (noflow_blocks_flow hc hg.nonempty hl f v w fix).2, sub_zero]

/-! ### Periodic lines -/

theorem total_periodic {g : Line} (hp : g.periodicY = true) (hn : g.ystart ≤ g.yend) (FR FL : ℤ → ℝ)
    (hR : PeriodicOn g FR) (hL : PeriodicOn g FL) :
    g.total FR FL g.yend = g.total FR FL (g.ystart - 1) := by
  unfold Line.total Line.ys Line.ye
  have e1 := hR (g.ystart - 1)
  have e2 := hL g.ystart
  have i1 : g.ystart - 1 + (g.yend + 1 - g.ystart) = g.yend := by ring
  have i2 : g.ystart + (g.yend + 1 - g.ystart) = g.yend + 1 := by ring
  rw [i1] at e1
  rw [i2] at e2
  simp only [hp, Bool.or_true, if_true, sub_add_cancel]
  rw [if_pos (by omega), if_pos (by omega), if_pos (by omega), if_pos (by omega), e1, e2]

/-- C09.  A periodic field line (all data repeating after the cells of the line) keeps its content
exactly, for every limiter, velocity and wave speed. -/
theorem periodic_line_conserves {g : Line} (hg : Regular g) (hu : UniformPerp g)
    (hp : g.periodicY = true) (lim : Limiter) (f v w : ℤ → ℝ) (fix : Bool)
    (hJ : PeriodicOn g g.J) (hg22 : PeriodicOn g g.g22)
    (hf : PeriodicOn g f) (hv : PeriodicOn g v) (hw : PeriodicOn g w) :
    content g (g.divParMod lim f v w fix).result = 0 := by
  rw [content_changes_at_ends hg hu]
  unfold Line.divParMod
  rw [g.fluxLoop_flow, g.fluxLoop_flow, add_sub_cancel_right, (hu (g.yend + 1) g.ystart).1,
    (hu (g.yend + 1) g.ystart).2]
  set N := g.yend + 1 - g.ystart with hN
  have sh : ∀ (h : ℤ → ℝ), PeriodicOn g h → ∀ i, h (i + N + 1) = h (i + 1) ∧ h (i + N - 1) = h (i - 1) ∧
      h (i + N) = h i := by
    intro h hh i
    have a1 := hh (i + 1)
    have a2 := hh (i - 1)
    have b1 : i + 1 + N = i + N + 1 := by ring
    have b2 : i - 1 + N = i + N - 1 := by ring
    rw [← hN, b1] at a1
    rw [← hN, b2] at a2
    exact ⟨a1, a2, hh i⟩
  rw [total_periodic hp hg.nonempty]
  · have e : g.faceR g.yend = g.faceR (g.ystart - 1) := by
      unfold Line.faceR
      have i1 : g.yend = g.ystart - 1 + N := by rw [hN]; ring
      obtain ⟨a1, _, a2⟩ := sh _ hJ (g.ystart - 1)
      obtain ⟨b1, _, b2⟩ := sh _ hg22 (g.ystart - 1)
      rw [i1, a1, a2, b1, b2]
    rw [e, sub_self]
  · intro i
    obtain ⟨f1, f2, f3⟩ := sh f hf i
    obtain ⟨v1, v2, v3⟩ := sh v hv i
    obtain ⟨w1, w2, w3⟩ := sh w hw i
    simp only [Line.modFluxR, Line.isLast, hp, edges, Bool.not_true, Bool.and_false, Bool.false_eq_true,
      if_false, ← hN, f1, f2, f3, v1, v2, v3, w1, w3]
  · intro i
    obtain ⟨f1, f2, f3⟩ := sh f hf i
    obtain ⟨v1, v2, v3⟩ := sh v hv i
    obtain ⟨w1, w2, w3⟩ := sh w hw i
    simp only [Line.modFluxL, Line.isFirst, hp, edges, Bool.not_true, Bool.and_false, Bool.false_eq_true,
      if_false, ← hN, f1, f2, f3, v1, v2, v3, w2, w3]

/-! ## C10: independence of the domain decomposition -/

/-- `f` (local index) holds the global data `F` between the local indices `lo` and `hi`: what the guard
cell exchange provides. -/
def Agree (off lo hi : ℤ) (f F : ℤ → ℝ) : Prop := ∀ j, lo ≤ j → j ≤ hi → f j = F (j + off)

/-- `g` is the part of the line `G` owned by one processor; local index + `off` = global index. -/
structure IsPiece (g G : Line) (off : ℤ) : Prop where
  nonempty : g.ystart ≤ g.yend
  inside_lower : G.ystart ≤ g.ystart + off
  inside_upper : g.yend + off ≤ G.yend
  periodic : g.periodicY = G.periodicY
  first : g.firstY = (G.firstY && decide (g.ystart + off = G.ystart))
  last : g.lastY = (G.lastY && decide (g.yend + off = G.yend))
  J : Agree off (g.ystart - 1) (g.yend + 1) g.J G.J
  g22 : Agree off (g.ystart - 1) (g.yend + 1) g.g22 G.g22
  dx : Agree off (g.ystart - 1) (g.yend + 1) g.dx G.dx
  dy : Agree off (g.ystart - 1) (g.yend + 1) g.dy G.dy
  dz : Agree off (g.ystart - 1) (g.yend + 1) g.dz G.dz

/-- The local data a processor needs: owned cells, one guard cell at physical ends and two guard cells
where it meets a neighbour. -/
def HasData (g : Line) (off : ℤ) (f F : ℤ → ℝ) : Prop := Agree off (g.ys - 1) (g.ye + 1) f F

theorem IsPiece.ys_iff {g G : Line} {off : ℤ} (h : IsPiece g G off) {i : ℤ} (h1 : g.ystart - 1 ≤ i) :
    (g.ys ≤ i ↔ G.ys ≤ i + off) := by
  have a := h.first
  have b := h.periodic
  have c := h.inside_lower
  unfold Line.ys
  cases hG : G.firstY <;> cases hp : G.periodicY <;> rw [hp] at b <;> rw [hG] at a <;>
    by_cases e : g.ystart + off = G.ystart <;> simp [e] at a <;> simp [a, b] <;> omega

theorem IsPiece.ye_iff {g G : Line} {off : ℤ} (h : IsPiece g G off) {i : ℤ} (h2 : i ≤ g.yend + 1) :
    (i ≤ g.ye ↔ i + off ≤ G.ye) := by
  have a := h.last
  have b := h.periodic
  have c := h.inside_upper
  unfold Line.ye
  cases hG : G.lastY <;> cases hp : G.periodicY <;> rw [hp] at b <;> rw [hG] at a <;>
    by_cases e : g.yend + off = G.yend <;> simp [e] at a <;> simp [a, b] <;> omega

theorem IsPiece.isLast_eq {g G : Line} {off : ℤ} (h : IsPiece g G off) {i : ℤ} (h2 : i ≤ g.yend) :
    g.isLast i = G.isLast (i + off) := by
  have c := h.inside_upper
  rw [Bool.eq_iff_iff]
  unfold Line.isLast
  rw [h.last, h.periodic]
  simp only [Bool.and_eq_true, decide_eq_true_eq, beq_iff_eq, Bool.not_eq_true']
  constructor
  · rintro ⟨⟨⟨a, b⟩, d⟩, e⟩; exact ⟨⟨a, by omega⟩, e⟩
  · rintro ⟨⟨a, b⟩, e⟩; exact ⟨⟨⟨a, by omega⟩, by omega⟩, e⟩

theorem IsPiece.isFirst_eq {g G : Line} {off : ℤ} (h : IsPiece g G off) {i : ℤ} (h2 : g.ystart ≤ i) :
    g.isFirst i = G.isFirst (i + off) := by
  have c := h.inside_lower
  rw [Bool.eq_iff_iff]
  unfold Line.isFirst
  rw [h.first, h.periodic]
  simp only [Bool.and_eq_true, decide_eq_true_eq, beq_iff_eq, Bool.not_eq_true']
  constructor
  · rintro ⟨⟨⟨a, b⟩, d⟩, e⟩; exact ⟨⟨a, by omega⟩, e⟩
  · rintro ⟨⟨a, b⟩, e⟩; exact ⟨⟨⟨a, by omega⟩, by omega⟩, e⟩

theorem IsPiece.total_eq {g G : Line} {off : ℤ} (h : IsPiece g G off) {FR FL FR' FL' : ℤ → ℝ}
    (hR : ∀ j, g.ys ≤ j → j ≤ g.yend → FR j = FR' (j + off))
    (hL : ∀ j, g.ystart ≤ j → j ≤ g.ye → FL j = FL' (j + off))
    {i : ℤ} (h1 : g.ystart - 1 ≤ i) (h2 : i ≤ g.yend) :
    g.total FR FL i = G.total FR' FL' (i + off) := by
  unfold Line.total
  have e : i + off + 1 = i + 1 + off := by ring
  have a1 := h.ys_iff h1
  have a2 := h.ye_iff (i := i) (by omega)
  have a3 := h.ys_iff (i := i + 1) (by omega)
  have a4 := h.ye_iff (i := i + 1) (by omega)
  rw [e]
  congr 1
  · by_cases c : g.ys ≤ i ∧ i ≤ g.ye
    · rw [if_pos c, if_pos ⟨a1.1 c.1, a2.1 c.2⟩, hR i c.1 h2]
    · rw [if_neg c, if_neg (fun k => c ⟨a1.2 k.1, a2.2 k.2⟩)]
  · by_cases c : g.ys ≤ i + 1 ∧ i + 1 ≤ g.ye
    · rw [if_pos c, if_pos ⟨a3.1 c.1, a4.1 c.2⟩, hL (i + 1) (by omega) c.2]
    · rw [if_neg c, if_neg (fun k => c ⟨a3.2 k.1, a4.2 k.2⟩)]

theorem IsPiece.faceR_eq {g G : Line} {off : ℤ} (h : IsPiece g G off) {i : ℤ} (h1 : g.ystart - 1 ≤ i)
    (h2 : i ≤ g.yend) : g.faceR i = G.faceR (i + off) := by
  unfold Line.faceR
  have e : i + off + 1 = i + 1 + off := by ring
  rw [e, h.J i h1 (by omega), h.J (i + 1) (by omega) (by omega), h.g22 i h1 (by omega),
    h.g22 (i + 1) (by omega) (by omega)]

theorem IsPiece.result_eq {g G : Line} {off : ℤ} (h : IsPiece g G off) {FR FL FR' FL' : ℤ → ℝ}
    (hR : ∀ j, g.ys ≤ j → j ≤ g.yend → FR j = FR' (j + off))
    (hL : ∀ j, g.ystart ≤ j → j ≤ g.ye → FL j = FL' (j + off))
    {i : ℤ} (h1 : g.ystart ≤ i) (h2 : i ≤ g.yend) :
    (g.fluxLoop FR FL).result i = (G.fluxLoop FR' FL').result (i + off) := by
  have e : i + off - 1 = i - 1 + off := by ring
  rw [g.fluxLoop_result, G.fluxLoop_result, e, h.faceR_eq (by omega) h2,
    h.faceR_eq (i := i - 1) (by omega) (by omega), h.total_eq hR hL (by omega) h2,
    h.total_eq hR hL (i := i - 1) (by omega) (by omega), h.dy i (by omega) (by omega),
    h.J i (by omega) (by omega)]

theorem IsPiece.flow_eq {g G : Line} {off : ℤ} (h : IsPiece g G off) {FR FL FR' FL' : ℤ → ℝ}
    (hR : ∀ j, g.ys ≤ j → j ≤ g.yend → FR j = FR' (j + off))
    (hL : ∀ j, g.ystart ≤ j → j ≤ g.ye → FL j = FL' (j + off))
    {i : ℤ} (h1 : g.ystart ≤ i) (h2 : i ≤ g.yend + 1) :
    (g.fluxLoop FR FL).flow i = (G.fluxLoop FR' FL').flow (i + off) := by
  have e : i + off - 1 = i - 1 + off := by ring
  rw [g.fluxLoop_flow, G.fluxLoop_flow, e,
    h.faceR_eq (i := i - 1) (by omega) (by omega),
    h.total_eq hR hL (i := i - 1) (by omega) (by omega), h.dx i (by omega) (by omega),
    h.dz i (by omega) (by omega)]

theorem HasData.at {g : Line} {off : ℤ} {f F : ℤ → ℝ} (h : HasData g off f F) {j : ℤ}
    (h1 : g.ys ≤ j) (h2 : j ≤ g.ye) :
    f j = F (j + off) ∧ f (j + 1) = F (j + off + 1) ∧ f (j - 1) = F (j + off - 1) := by
  have e1 : j + off + 1 = j + 1 + off := by ring
  have e2 : j + off - 1 = j - 1 + off := by ring
  rw [e1, e2]
  exact ⟨h j (by omega) (by omega), h _ (by omega) (by omega), h _ (by omega) (by omega)⟩

/-- C10.  On every owned cell a processor computes the same divergence, and on every face of its cells the
same flow, as a single processor holding the whole line, however the line is cut: for every limiter, data,
metric and boundary treatment, provided its guard cells hold the neighbours' data. -/
theorem decomposition_independent {g G : Line} {off : ℤ} (h : IsPiece g G off) (lim : Limiter)
    {f v w F V W : ℤ → ℝ} (fix : Bool) (hf : HasData g off f F) (hv : HasData g off v V)
    (hw : HasData g off w W) :
    (∀ i, g.ystart ≤ i → i ≤ g.yend →
      (g.divParMod lim f v w fix).result i = (G.divParMod lim F V W fix).result (i + off)) ∧
    (∀ i, g.ystart ≤ i → i ≤ g.yend + 1 →
      (g.divParMod lim f v w fix).flow i = (G.divParMod lim F V W fix).flow (i + off)) := by
  have a1 := g.le_ye
  have a2 := g.ys_le
  have hR : ∀ j, g.ys ≤ j → j ≤ g.yend →
      g.modFluxR lim f v w fix j = G.modFluxR lim F V W fix (j + off) := by
    intro j h1 h2
    obtain ⟨f1, f2, f3⟩ := hf.at h1 (h2.trans a1)
    obtain ⟨v1, v2, v3⟩ := hv.at h1 (h2.trans a1)
    obtain ⟨w1, w2, w3⟩ := hw.at h1 (h2.trans a1)
    simp only [Line.modFluxR, edges, h.isLast_eq h2, f1, f2, f3, v1, v2, v3, w1, w2]
  have hL : ∀ j, g.ystart ≤ j → j ≤ g.ye →
      g.modFluxL lim f v w fix j = G.modFluxL lim F V W fix (j + off) := by
    intro j h1 h2
    obtain ⟨f1, f2, f3⟩ := hf.at (a2.trans h1) h2
    obtain ⟨v1, v2, v3⟩ := hv.at (a2.trans h1) h2
    obtain ⟨w1, w2, w3⟩ := hw.at (a2.trans h1) h2
    simp only [Line.modFluxL, edges, h.isFirst_eq h1, f1, f2, f3, v1, v2, v3, w1, w3]
  exact ⟨fun i h1 h2 => h.result_eq hR hL h1 h2, fun i h1 h2 => h.flow_eq hR hL h1 h2⟩

/-- C10 for the momentum flux `Div_par_fvv`. -/
theorem decomposition_independent_fvv {g G : Line} {off : ℤ} (h : IsPiece g G off) (lim : Limiter)
    {f v w F V W : ℤ → ℝ} (fix : Bool) (hf : HasData g off f F) (hv : HasData g off v V)
    (hw : HasData g off w W) {i : ℤ} (h1 : g.ystart ≤ i) (h2 : i ≤ g.yend) :
    g.divParFvv lim f v w fix i = G.divParFvv lim F V W fix (i + off) := by
  have a1 := g.le_ye
  have a2 := g.ys_le
  refine h.result_eq ?_ ?_ h1 h2
  · intro j h1 h2
    obtain ⟨f1, f2, f3⟩ := hf.at h1 (h2.trans a1)
    obtain ⟨v1, v2, v3⟩ := hv.at h1 (h2.trans a1)
    obtain ⟨w1, w2, w3⟩ := hw.at h1 (h2.trans a1)
    simp only [Line.fvvFluxR, edges, h.isLast_eq h2, f1, f2, f3, v1, v2, v3, w1, w2]
  · intro j h1 h2
    obtain ⟨f1, f2, f3⟩ := hf.at (a2.trans h1) h2
    obtain ⟨v1, v2, v3⟩ := hv.at (a2.trans h1) h2
    obtain ⟨w1, w2, w3⟩ := hw.at (a2.trans h1) h2
    simp only [Line.fvvFluxL, edges, h.isFirst_eq h1, f1, f2, f3, v1, v2, v3, w1, w3]

/-- C09 on a distributed line.  If the processors' cells tile the line (shifted pieces disjoint, union all
cells), the sum over processors of the local rates of change is the flow through the two ends of the
whole line. -/
theorem distributed_content {P : Type} [Fintype P] {G : Line} (hG : Regular G) (hu : UniformPerp G)
    (g : P → Line) (off : P → ℤ) (h : ∀ p, IsPiece (g p) G (off p))
    (hdisj : ∀ p q, p ≠ q → ∀ i j, (g p).ystart ≤ i → i ≤ (g p).yend → (g q).ystart ≤ j → j ≤ (g q).yend →
      i + off p ≠ j + off q)
    (hcover : ∀ k, G.ystart ≤ k → k ≤ G.yend → ∃ p i, (g p).ystart ≤ i ∧ i ≤ (g p).yend ∧ i + off p = k)
    (lim : Limiter) (f v w : P → ℤ → ℝ) (F V W : ℤ → ℝ) (fix : Bool)
    (hf : ∀ p, HasData (g p) (off p) (f p) F) (hv : ∀ p, HasData (g p) (off p) (v p) V)
    (hw : ∀ p, HasData (g p) (off p) (w p) W) :
    ∑ p, content (g p) ((g p).divParMod lim (f p) (v p) (w p) fix).result =
      (G.divParMod lim F V W fix).flow (G.yend + 1) - (G.divParMod lim F V W fix).flow G.ystart := by
  classical
  rw [← content_changes_at_ends hG hu]
  have step : ∀ p, content (g p) ((g p).divParMod lim (f p) (v p) (w p) fix).result =
      ∑ k ∈ (Icc (g p).ystart (g p).yend).image (fun i => i + off p),
        (G.divParMod lim F V W fix).result k * volume G k := by
    intro p
    rw [Finset.sum_image (by intro a _ b _ hab; simpa using hab)]
    unfold content
    refine Finset.sum_congr rfl fun i hi => ?_
    obtain ⟨h1, h2⟩ := mem_Icc.1 hi
    rw [(decomposition_independent (h p) lim fix (hf p) (hv p) (hw p)).1 i h1 h2]
    unfold volume
    rw [(h p).J i (by omega) (by omega), (h p).dx i (by omega) (by omega),
      (h p).dy i (by omega) (by omega), (h p).dz i (by omega) (by omega)]
  rw [Finset.sum_congr rfl (fun p _ => step p), ← Finset.sum_biUnion]
  · unfold content
    refine Finset.sum_congr ?_ fun _ _ => rfl
    ext k
    simp only [mem_biUnion, mem_univ, true_and, mem_image, mem_Icc]
    constructor
    · rintro ⟨p, i, ⟨h1, h2⟩, rfl⟩
      exact ⟨by have := (h p).inside_lower; omega, by have := (h p).inside_upper; omega⟩
    · rintro ⟨h1, h2⟩
      obtain ⟨p, i, a, b, c⟩ := hcover k h1 h2
      exact ⟨p, i, ⟨a, b⟩, c⟩
  · intro p _ q _ hpq
    rw [Function.onFun, Finset.disjoint_left]
    intro k hk hk'
    obtain ⟨i, hi, rfl⟩ := mem_image.1 hk
    obtain ⟨j, hj, e⟩ := mem_image.1 hk'
    exact hdisj p q hpq i j (mem_Icc.1 hi).1 (mem_Icc.1 hi).2 (mem_Icc.1 hj).1 (mem_Icc.1 hj).2 e.symm

/-- Non-vacuity: a line of six cells cut into two pieces of three with local indices `2..4`. -/
example : ∃ (G g : Line) (f : ℤ → ℝ), Regular G ∧ UniformPerp G ∧ Closed G ∧ IsPiece g G 1 ∧
    HasData g 1 f (fun j => (j : ℝ) ^ 2) ∧ g.firstY = false ∧ g.lastY = true := by
  let G : Line := ⟨0, 5, true, true, false, fun i => 1 + (i : ℝ) ^ 2, fun _ => 1, fun _ => 1, fun _ => 1, fun _ => 1⟩
  let g : Line := ⟨2, 4, false, true, false, fun i => 1 + ((i + 1 : ℤ) : ℝ) ^ 2, fun _ => 1, fun _ => 1, fun _ => 1, fun _ => 1⟩
  refine ⟨G, g, fun j => ((j + 1 : ℤ) : ℝ) ^ 2, ⟨by decide, fun i _ _ => ?_, fun i _ _ => one_ne_zero⟩,
    fun i j => ⟨rfl, rfl⟩, ⟨rfl, rfl, rfl⟩, ⟨by decide, by decide, by decide, rfl, by decide, by decide,
      fun _ _ _ => rfl, fun _ _ _ => rfl, fun _ _ _ => rfl, fun _ _ _ => rfl, fun _ _ _ => rfl⟩,
    fun _ _ _ => rfl, rfl, rfl⟩
  change (1 + (i : ℝ) ^ 2) ≠ 0
  positivity

/-- Non-vacuity: periodic data on a line of two cells that is not constant. -/
example : ∃ (g : Line) (f : ℤ → ℝ), Regular g ∧ UniformPerp g ∧ g.periodicY = true ∧ PeriodicOn g g.J ∧
    PeriodicOn g f ∧ f 0 ≠ f 1 := by
  let g : Line := ⟨0, 1, true, true, true, fun _ => 1, fun _ => 1, fun _ => 1, fun _ => 1, fun _ => 1⟩
  refine ⟨g, fun i => if i % 2 = 0 then 1 else 2, ⟨by decide, fun _ _ _ => one_ne_zero, fun _ _ _ => one_ne_zero⟩,
    fun i j => ⟨rfl, rfl⟩, rfl, fun i => rfl, fun i => ?_, by norm_num⟩
  change (if (i + (1 + 1 - 0)) % 2 = 0 then (1 : ℝ) else 2) = if i % 2 = 0 then 1 else 2
  have : (i + (1 + 1 - 0)) % 2 = i % 2 := by omega
  rw [this]

end Hermes.ParOps
