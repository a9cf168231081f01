import Verif.Props.ParMomentum
import Verif.Props.ParConduction

/-!
# C94: along a field line no direction is preferred

Specification vocabulary: a line counted from its other end, fields on it, and limiters that treat both sides and
both signs alike.
-/

namespace Hermes.Direction
open Finset Hermes Hermes.Limiters Hermes.ParOps

/-- The same line with the cells counted from the other end: cell `j` becomes cell `-j`. -/
def turned (g : Line) : Line where
  ystart := -g.yend
  yend := -g.ystart
  firstY := g.lastY
  lastY := g.firstY
  periodicY := g.periodicY
  J j := g.J (-j)
  g22 j := g.g22 (-j)
  dx j := g.dx (-j)
  dy j := g.dy (-j)
  dz j := g.dz (-j)

/-- A density, temperature, pressure or speed on the turned line. -/
def scalar (f : ℤ → ℝ) : ℤ → ℝ := fun j => f (-j)

/-- A velocity on the turned line: it has the opposite sign. -/
def vector (v : ℤ → ℝ) : ℤ → ℝ := fun j => -v (-j)

/-- Exchanging the neighbours exchanges the edges; changing the sign of the data changes that of the edges. -/
structure Fair (lim : Limiter) : Prop where
  sides : ∀ m c p, lim p c m = ((lim m c p).2, (lim m c p).1)
  signs : ∀ m c p, lim (-m) (-c) (-p) = (-(lim m c p).1, -(lim m c p).2)

theorem minmod2_neg (a b : ℝ) : minmod2 (-a) (-b) = -minmod2 a b := by
  unfold minmod2
  simp only [neg_mul_neg, abs_neg]
  split_ifs <;> simp

theorem minmod3_neg (a b c : ℝ) : minmod3 (-a) (-b) (-c) = -minmod3 a b c := by
  rcases minmod3_cases a b c with ⟨h1, h2⟩ | ⟨ha, hb, hc, h1⟩ | ⟨ha, hb, hc, h1⟩
  · rw [h1]; unfold minmod3; simp only [neg_mul_neg]; rw [if_pos h2, neg_zero]
  · rw [h1]
    rcases minmod3_cases (-a) (-b) (-c) with ⟨h3, h4⟩ | ⟨ha', -, -, -⟩ | ⟨-, -, -, h3⟩
    · exfalso; rcases h4 with h4 | h4 <;> nlinarith [mul_pos ha hb, mul_pos ha hc]
    · linarith
    · rw [h3, max_neg_neg, max_neg_neg]
  · rw [h1]
    rcases minmod3_cases (-a) (-b) (-c) with ⟨h3, h4⟩ | ⟨-, -, -, h3⟩ | ⟨ha', -, -, -⟩
    · exfalso; rcases h4 with h4 | h4 <;> nlinarith [mul_pos_of_neg_of_neg ha hb, mul_pos_of_neg_of_neg ha hc]
    · rw [h3, min_neg_neg, min_neg_neg]
    · linarith

/-- **C94.**  Every slope limiter that can be selected (other than Superbee) treats both sides and both signs alike. -/
theorem limiters_fair (c : Choice) : Fair c.limiter where
  sides m c' p := by
    have h := (choices_monotone_partial c).mirror m c' p
    exact Prod.ext h.1 h.2
  signs m c' p := by
    cases c
    · simp [Choice.limiter, upwind]
    · have e : minmod2 (-p - -c') (-c' - -m) = -minmod2 (p - c') (c' - m) := by
        rw [← minmod2_neg]; congr 1 <;> ring
      simp only [Choice.limiter, minMod, e, Prod.mk.injEq]
      constructor <;> ring
    · have e : minmod3 (2 * (-p - -c')) (0.5 * (-p - -m)) (2 * (-c' - -m)) =
          -minmod3 (2 * (p - c')) (0.5 * (p - m)) (2 * (c' - m)) := by
        rw [← minmod3_neg]; congr 1 <;> ring
      simp only [Choice.limiter, mc, e, Prod.mk.injEq]
      constructor <;> ring

theorem edges_scalar {lim : Limiter} (h : Fair lim) (f : ℤ → ℝ) (j : ℤ) :
    edges lim (scalar f) j = ((edges lim f (-j)).2, (edges lim f (-j)).1) := by
  unfold edges scalar
  rw [show -(j - 1) = -j + 1 by ring, show -(j + 1) = -j - 1 by ring, h.sides]

theorem edges_vector {lim : Limiter} (h : Fair lim) (v : ℤ → ℝ) (j : ℤ) :
    edges lim (vector v) j = (-(edges lim v (-j)).2, -(edges lim v (-j)).1) := by
  unfold edges vector
  rw [show -(j - 1) = -j + 1 by ring, show -(j + 1) = -j - 1 by ring, h.sides, h.signs]

theorem turned_isLast (g : Line) (j : ℤ) : (turned g).isLast j = g.isFirst (-j) := by
  have e : (j == -g.ystart) = (-j == g.ystart) := by
    rw [Bool.eq_iff_iff, beq_iff_eq, beq_iff_eq]; omega
  simp only [turned, Line.isLast, Line.isFirst, e]

theorem turned_isFirst (g : Line) (j : ℤ) : (turned g).isFirst j = g.isLast (-j) := by
  have e : (j == -g.yend) = (-j == g.yend) := by
    rw [Bool.eq_iff_iff, beq_iff_eq, beq_iff_eq]; omega
  simp only [turned, Line.isLast, Line.isFirst, e]

theorem turned_ys (g : Line) : (turned g).ys = -g.ye := by
  unfold Line.ys Line.ye turned
  dsimp only
  split <;> omega

theorem turned_ye (g : Line) : (turned g).ye = -g.ys := by
  unfold Line.ys Line.ye turned
  dsimp only
  split <;> omega

theorem turned_faceR (g : Line) (j : ℤ) : (turned g).faceR j = g.faceR (-j - 1) := by
  unfold Line.faceR turned
  dsimp only
  rw [sub_add_cancel, show -(j + 1) = -j - 1 by ring, add_comm (g.J (-j)), add_comm (Real.sqrt (g.g22 (-j)))]

/-- The fluxes seen from the other end: what enters through the right face entered through the left one. -/
theorem turned_total (g : Line) {s : ℝ} {R L R' L' : ℤ → ℝ} (hR : ∀ j, R' j = s * L (-j)) (hL : ∀ j, L' j = s * R (-j)) (i : ℤ) :
    (turned g).total R' L' i = s * g.total R L (-i - 1) := by
  unfold Line.total
  rw [turned_ys, turned_ye, hR, hL, sub_add_cancel, show -(i + 1) = -i - 1 by ring]
  have a : (-g.ye ≤ i ∧ i ≤ -g.ys) ↔ (g.ys ≤ -i ∧ -i ≤ g.ye) := by omega
  have b : (-g.ye ≤ i + 1 ∧ i + 1 ≤ -g.ys) ↔ (g.ys ≤ -i - 1 ∧ -i - 1 ≤ g.ye) := by omega
  simp only [a, b]
  split_ifs <;> ring

theorem turned_result (g : Line) {s : ℝ} {R L R' L' : ℤ → ℝ} (hR : ∀ j, R' j = s * L (-j)) (hL : ∀ j, L' j = s * R (-j)) (i : ℤ) :
    ((turned g).fluxLoop R' L').result i = -s * (g.fluxLoop R L).result (-i) := by
  rw [Line.fluxLoop_result, Line.fluxLoop_result, turned_total g hR hL, turned_total g hR hL, turned_faceR, turned_faceR,
    show -(i - 1) - 1 = -i by ring]
  simp only [turned]
  ring

theorem max4_swap (a b c d : ℝ) : max4 a b |-c| |-d| = max4 a b |c| |d| := by rw [abs_neg, abs_neg]

theorem mod_right {lim : Limiter} (h : Fair lim) (g : Line) (f v w : ℤ → ℝ) (fix : Bool) (j : ℤ) :
    (turned g).modFluxR lim (scalar f) (vector v) (scalar w) fix j = -1 * g.modFluxL lim f v w fix (-j) := by
  simp only [Line.modFluxR, Line.modFluxL, edges_scalar h, edges_vector h, turned_isLast]
  simp only [scalar, vector, max4_swap, show -(j + 1) = -j - 1 by ring]
  split_ifs <;> ring

theorem mod_left {lim : Limiter} (h : Fair lim) (g : Line) (f v w : ℤ → ℝ) (fix : Bool) (j : ℤ) :
    (turned g).modFluxL lim (scalar f) (vector v) (scalar w) fix j = -1 * g.modFluxR lim f v w fix (-j) := by
  simp only [Line.modFluxR, Line.modFluxL, edges_scalar h, edges_vector h, turned_isFirst]
  simp only [scalar, vector, max4_swap, show -(j - 1) = -j + 1 by ring]
  split_ifs <;> ring

/-- **C94.**  Advection of a density or pressure: its divergence in a cell is the same whichever end the cells are
counted from. -/
theorem advection_turned {lim : Limiter} (h : Fair lim) (g : Line) (f v w : ℤ → ℝ) (fix : Bool) :
    ((turned g).divParMod lim (scalar f) (vector v) (scalar w) fix).result = scalar (g.divParMod lim f v w fix).result := by
  funext i
  unfold Line.divParMod
  rw [turned_result g (mod_right h g f v w fix) (mod_left h g f v w fix)]
  simp [scalar]

/-- **C94.**  The flow through a face is the same, with the opposite sign: the lower face of a cell is the upper face
of that cell on the turned line. -/
theorem advection_flow_turned {lim : Limiter} (h : Fair lim) {g : Line} (hu : UniformPerp g) (f v w : ℤ → ℝ) (fix : Bool) (j : ℤ) :
    ((turned g).divParMod lim (scalar f) (vector v) (scalar w) fix).flow j = -(g.divParMod lim f v w fix).flow (-j + 1) := by
  unfold Line.divParMod
  rw [Line.fluxLoop_flow, Line.fluxLoop_flow, turned_total g (mod_right h g f v w fix) (mod_left h g f v w fix), turned_faceR,
    show -(j - 1) - 1 = -j by ring, add_sub_cancel_right, (hu (-j + 1) (-j)).1, (hu (-j + 1) (-j)).2]
  simp only [turned]
  ring

theorem fvv_right {lim : Limiter} (h : Fair lim) (g : Line) (f v w : ℤ → ℝ) (fix : Bool) (j : ℤ) :
    (turned g).fvvFluxR lim (scalar f) (vector v) (scalar w) fix j = 1 * g.fvvFluxL lim f v w fix (-j) := by
  simp only [Line.fvvFluxR, Line.fvvFluxL, edges_scalar h, edges_vector h, turned_isLast]
  simp only [scalar, vector, max4_swap, max3, abs_neg, show -(j + 1) = -j - 1 by ring]
  split_ifs <;> ring

theorem fvv_left {lim : Limiter} (h : Fair lim) (g : Line) (f v w : ℤ → ℝ) (fix : Bool) (j : ℤ) :
    (turned g).fvvFluxL lim (scalar f) (vector v) (scalar w) fix j = 1 * g.fvvFluxR lim f v w fix (-j) := by
  simp only [Line.fvvFluxR, Line.fvvFluxL, edges_scalar h, edges_vector h, turned_isFirst]
  simp only [scalar, vector, max4_swap, max3, abs_neg, show -(j - 1) = -j + 1 by ring]
  split_ifs <;> ring

/-- **C94.**  Advection of momentum: the opposite momentum is advected. -/
theorem momentum_turned {lim : Limiter} (h : Fair lim) (g : Line) (f v w : ℤ → ℝ) (fix : Bool) :
    (turned g).divParFvv lim (scalar f) (vector v) (scalar w) fix = vector (g.divParFvv lim f v w fix) := by
  funext i
  unfold Line.divParFvv
  rw [turned_result g (fvv_right h g f v w fix) (fvv_left h g f v w fix)]
  simp [vector]

theorem speedUp_turned (v w : ℤ → ℝ) (j : ℤ) : speedUp (vector v) (scalar w) j = speedUp v w (-j - 1) := by
  unfold speedUp vector scalar
  rw [abs_neg, abs_neg, sub_add_cancel, show -(j + 1) = -j - 1 by ring, max_comm (w (-j)), max_comm |v (-j)|]

theorem heat_right {lim : Limiter} (h : Fair lim) (g : Line) (f v w : ℤ → ℝ) (fix : Bool) (j : ℤ) :
    heatR (turned g) lim (scalar f) (vector v) (scalar w) fix j = heatL g lim f v w fix (-j) := by
  simp only [heatR, heatL, heatMomR, heatMomL, edges_scalar h, edges_vector h, turned_isLast, speedUp_turned]
  simp only [scalar, vector, max3, abs_neg, show -(j + 1) = -j - 1 by ring]
  split_ifs <;> ring

theorem heat_left {lim : Limiter} (h : Fair lim) (g : Line) (f v w : ℤ → ℝ) (fix : Bool) (j : ℤ) :
    heatL (turned g) lim (scalar f) (vector v) (scalar w) fix j = heatR g lim f v w fix (-j) := by
  simp only [heatR, heatL, heatMomR, heatMomL, edges_scalar h, edges_vector h, turned_isFirst, speedUp_turned]
  simp only [scalar, vector, max3, abs_neg, show -(j - 1) = -j + 1 by ring, show -j + 1 - 1 = -j by ring]
  split_ifs <;> ring

/-- **C94.**  The heat from the dissipation of momentum is the same in every cell of the line. -/
theorem heating_turned {lim : Limiter} (h : Fair lim) (g : Line) (f v w : ℤ → ℝ) (fix : Bool) {i : ℤ}
    (h1 : g.ystart ≤ i) (h2 : i ≤ g.yend) :
    ((turned g).fvvHeating lim (scalar f) (vector v) (scalar w) fix).result (-i) = (g.fvvHeating lim f v w fix).result i := by
  rw [heating_gather g lim f v w fix h1 h2, heating_gather (turned g) lim _ _ _ fix (by simp [turned]; exact h2) (by simp [turned]; exact h1),
    heat_right h, heat_left h, turned_faceR, turned_faceR, neg_neg, show -(-i - 1) - 1 = i by ring]
  simp only [turned, neg_neg]
  ring

/-- **C94.**  Conduction and diffusion along the line. -/
theorem conduction_turned (g : Line) (K f : ℤ → ℝ) (b : Bool) :
    (turned g).divParKGradPar (scalar K) (scalar f) b = scalar (g.divParKGradPar K f b) := by
  funext i
  have e1 : (turned g).condUp b i = g.condDown b (-i) := by
    have e : (i != -g.ystart) = (-i != g.ystart) := by
      rw [Bool.eq_iff_iff, bne_iff_ne, bne_iff_ne]; omega
    simp only [turned, Line.condUp, Line.condDown, e]
  have e2 : (turned g).condDown b i = g.condUp b (-i) := by
    have e : (i != -g.yend) = (-i != g.yend) := by
      rw [Bool.eq_iff_iff, bne_iff_ne, bne_iff_ne]; omega
    simp only [turned, Line.condUp, Line.condDown, e]
  have f1 : (turned g).condFluxUp (scalar K) (scalar f) i = -g.condFluxDown K f (-i) := by
    simp only [turned, Line.condFluxUp, Line.condFluxDown, scalar, show -(i + 1) = -i - 1 by ring]
    ring
  have f2 : (turned g).condFluxDown (scalar K) (scalar f) i = -g.condFluxUp K f (-i) := by
    simp only [turned, Line.condFluxUp, Line.condFluxDown, scalar, show -(i - 1) = -i + 1 by ring]
    ring
  simp only [Line.divParKGradPar, scalar, e1, e2] at f1 f2 ⊢
  rw [f1, f2]
  simp only [turned]
  split_ifs <;> ring

/-- **C94.**  The heat conducted through a face inside the line, with the opposite sign. -/
theorem conduction_flow_turned {g : Line} (hu : UniformPerp g) (K f : ℤ → ℝ) (b : Bool) {i : ℤ} (h1 : g.ystart < i) (h2 : i ≤ g.yend) :
    (turned g).condFlow (scalar K) (scalar f) b (-i + 1) = -g.condFlow K f b i := by
  have e1 : (turned g).condDown b (-i + 1) = true := by
    have : (-i + 1 != -g.yend) = true := by rw [bne_iff_ne]; omega
    simp [turned, Line.condDown, this]
  have e2 : g.condDown b i = true := by
    have : (i != g.ystart) = true := by rw [bne_iff_ne]; omega
    simp [Line.condDown, this]
  simp only [Line.condFlow, e1, e2, if_true]
  simp only [turned, Line.condFluxDown, scalar, show -(-i + 1) = i - 1 by ring, show -(-i + 1 - 1) = i by ring,
    (hu (i - 1) i).1, (hu (i - 1) i).2]
  ring

/-- **C94.**  The dissipation between neighbouring cells. -/
theorem dissipation_turned (g : Line) (f : ℤ → ℝ) (b : Bool) {i : ℤ} (h1 : g.ystart ≤ i) (h2 : i ≤ g.yend) :
    (turned g).diffIndex (scalar f) b (-i) = g.diffIndex f b i := by
  have e : ∀ j, indexFlux (turned g) (scalar f) b j = -indexFlux g f b (-j - 1) := by
    intro j
    have a1 : (j == -g.ystart) = (-j - 1 == g.ystart - 1) := by
      rw [Bool.eq_iff_iff, beq_iff_eq, beq_iff_eq]; omega
    have a2 : (j == -g.yend - 1) = (-j - 1 == g.yend) := by
      rw [Bool.eq_iff_iff, beq_iff_eq, beq_iff_eq]; omega
    simp only [indexFlux, turned, scalar, a1, a2, sub_add_cancel, show -(j + 1) = -j - 1 by ring]
    split_ifs <;> ring
  rw [diffIndex_gather g f b h1 h2, diffIndex_gather (turned g) _ b (by simp [turned]; exact h2) (by simp [turned]; exact h1), e, e,
    neg_neg, show -(-i - 1) - 1 = i by ring]
  simp only [turned, neg_neg]
  ring

/-- **C94.**  The values that `noflow_boundary` puts beyond the ends. -/
theorem noflow_turned (g : Line) (hg : g.ystart ≤ g.yend) (lower upper : Bool) (f : ℤ → ℝ) :
    (turned g).noflowScalar upper lower (scalar f) = scalar (g.noflowScalar lower upper f) ∧
    (turned g).noflowFlow upper lower (vector f) = vector (g.noflowFlow lower upper f) := by
  constructor <;> funext j
  all_goals
    have a1 : (j == -g.ystart + 1) = (-j == g.ystart - 1) := by
      rw [Bool.eq_iff_iff, beq_iff_eq, beq_iff_eq]; omega
    have a2 : (j == -g.yend - 1) = (-j == g.yend + 1) := by
      rw [Bool.eq_iff_iff, beq_iff_eq, beq_iff_eq]; omega
    simp only [Line.noflowScalar, Line.noflowFlow, turned, scalar, vector, a1, a2, neg_neg]
    have c3 : ¬ g.ystart - 1 = g.yend + 1 := by omega
    have c4 : ¬ g.yend + 1 = g.ystart - 1 := by omega
    by_cases c1 : -j = g.ystart - 1 <;> by_cases c2 : -j = g.yend + 1
    · omega
    · simp only [c1, c3, beq_self_eq_true, beq_eq_false_iff_ne.2 c3, Bool.and_true, Bool.and_false, Bool.false_eq_true, if_false]
      try (split_ifs <;> simp)
    · simp only [c2, c4, beq_self_eq_true, beq_eq_false_iff_ne.2 c4, Bool.and_true, Bool.and_false, Bool.false_eq_true, if_false]
      try (split_ifs <;> simp)
    · simp [c1, c2]

/-- **C94, negation.**  The flow of kinetic energy that comes with the heating depends on the end the cells are counted
from: two cells of unit density in a closed box, one of them moving towards the other.  One way round no kinetic energy
crosses the face between them, the other way round 3/4 of a unit. -/
theorem kinetic_flow_depends_on_direction : ∃ f v w : ℤ → ℝ,
    (twoCells.fvvHeating upwind f v w true).flow 1 = 0 ∧
    ((turned twoCells).fvvHeating upwind (scalar f) (vector v) (scalar w) true).flow 0 = -3 / 4 := by
  refine ⟨fun _ => 1, fun j => if j = 0 then 1 else 0, fun _ => 0, ?_, ?_⟩
  · have e : forRange twoCells.ys twoCells.ye = [0, 1] := by decide
    unfold Line.fvvHeating
    rw [e]
    simp [Line.heatStep, twoCells, Line.faceR, Line.faceL, Line.isLast, Line.isFirst, edges, upwind, addAt_apply, max4]
  · have e : forRange (turned twoCells).ys (turned twoCells).ye = [-1, 0] := by decide
    unfold Line.fvvHeating
    rw [e]
    norm_num [Line.heatStep, twoCells, turned, scalar, vector, Line.faceR, Line.faceL, Line.isLast, Line.isFirst, edges, upwind, addAt_apply, max4]

/-- A case with something to turn: two cells in a closed box, one of them moving; the divergence differs from cell to cell. -/
example : UniformPerp twoCells ∧ twoCells.ystart ≤ twoCells.yend ∧ Fair (Choice.limiter .mc) ∧
    (twoCells.divParMod upwind (fun _ => 1) (fun j => if j = 0 then 1 else 0) (fun _ => 0) true).result 1 = -1 / 2 := by
  refine ⟨fun _ _ => ⟨rfl, rfl⟩, by decide, limiters_fair .mc, ?_⟩
  unfold Line.divParMod
  have a : twoCells.ys = 0 := by decide
  have b : twoCells.ye = 1 := by decide
  rw [Line.fluxLoop_result]
  simp only [Line.total, a, b]
  norm_num [twoCells, Line.faceR, Line.modFluxR, Line.modFluxL, Line.isLast, Line.isFirst, edges, upwind, max4]

end Hermes.Direction
