import Verif.Props.Direction
import Verif.Props.ExB

/-!
# C94 across the field: neither x nor z has a preferred direction

A grid counted from its other end in `x`, or in `z`.  With one axis turned the triad of the axes changes its handedness, so
that the ExB velocity of a potential becomes that of the opposite potential.
-/

namespace Hermes.Direction
open Finset Hermes Hermes.Limiters Hermes.PerpOps

variable {nz : ℕ}

/-- The grid with the cells counted from the other radial end. -/
def turnedX (g : Grid) : Grid where
  xstart := -g.xend
  xend := -g.xstart
  ystart := g.ystart
  yend := g.yend
  firstX := g.lastX
  lastX := g.firstX
  firstY i := g.firstY (-i)
  lastY i := g.lastY (-i)
  J i := g.J (-i)
  dx i := g.dx (-i)
  dy i := g.dy (-i)
  dz i := g.dz (-i)
  g11 i := g.g11 (-i)
  g22 i := g.g22 (-i)
  g33 i := g.g33 (-i)
  g23 i := g.g23 (-i)
  g_23 i := g.g_23 (-i)
  Bxy i := g.Bxy (-i)

/-- The grid with `z` in the opposite direction: the components of the metric with one index `z` change sign. -/
def turnedZ (g : Grid) : Grid := { g with g23 := fun i j => -g.g23 i j, g_23 := fun i j => -g.g_23 i j }

/-- A field on these grids. -/
def overX (f : F3 nz) : F3 nz := fun i j k => f (-i) j k
def overZ [NeZero nz] (f : F3 nz) : F3 nz := fun i j k => f i j (-k)

/-- The same operator on other fields. -/
def onFields (t : F3 nz → F3 nz) : Operator nz → Operator nz
  | .flows a f aA fA => .flows (t a) (t f) (t aA) (t fA)
  | .upwind a f aA fA => .upwind (t a) (t f) (t aA) (t fA)
  | .limit lim a q f aA qA fA => .limit lim (t a) (t q) (t f) (t aA) (t qA) (t fA)

/-- The limiter of an operator treats both sides alike. -/
def FairOp : Operator nz → Prop
  | .limit lim _ _ _ _ _ _ => Fair lim
  | _ => True

theorem faceX_overX {op : Operator nz} (h : FairOp op) (g : Grid) (i j : ℤ) (k : Fin nz) :
    (onFields overX op).faceX (turnedX g) i j k = -op.faceX g (-i - 1) j k := by
  cases op with
  | flows a f aA fA =>
    simp only [onFields, Operator.faceX, Grid.flowsX, turnedX, overX, show -(i + 1) = -i - 1 by ring, sub_add_cancel]
    ring
  | upwind a f aA fA =>
    simp only [onFields, Operator.faceX, Grid.upwindX, turnedX, overX, show -(i + 1) = -i - 1 by ring, sub_add_cancel]
    set c := (g.J (-i) j * g.g11 (-i) j + g.J (-i - 1) j * g.g11 (-i - 1) j) with hc
    have e : (g.J (-i - 1) j * g.g11 (-i - 1) j + g.J (-i) j * g.g11 (-i) j) = c := by rw [hc]; ring
    have e2 : g.dx (-i - 1) j + g.dx (-i) j = g.dx (-i) j + g.dx (-i - 1) j := by ring
    have e3 : c * (f (-i - 1) j k - f (-i) j k) / (g.dx (-i) j + g.dx (-i - 1) j) =
        -(c * (f (-i) j k - f (-i - 1) j k) / (g.dx (-i) j + g.dx (-i - 1) j)) := by ring
    rw [e, e2, e3]
    generalize c * (f (-i) j k - f (-i - 1) j k) / (g.dx (-i) j + g.dx (-i - 1) j) = G
    rcases lt_trichotomy G 0 with hG | hG | hG
    · rw [if_pos (by linarith), if_neg (by linarith)]; ring
    · simp [hG]
    · rw [if_neg (by linarith), if_pos hG]; ring
  | limit lim a q f aA qA fA =>
    have hs := Fair.sides h
    have b1 : (i == -g.xend - 1) = (-i - 1 == g.xend) := by
      rw [Bool.eq_iff_iff, beq_iff_eq, beq_iff_eq]; omega
    have b2 : (i == -g.xstart) = (-i - 1 == g.xstart - 1) := by
      rw [Bool.eq_iff_iff, beq_iff_eq, beq_iff_eq]; omega
    simp only [onFields, Operator.faceX, Grid.limitX, turnedX, overX, show -(i + 1) = -i - 1 by ring, sub_add_cancel, b1, b2,
      show -(i + 2) = -i - 1 - 1 by ring, show -(i - 1) = -i + 1 by ring, show -i - 1 + 2 = -i + 1 by ring]
    rw [Bool.or_comm]
    split_ifs with h1 h2 h3 h3
    · ring
    · linarith
    · rw [hs (q (-i - 1 - 1) j k) (q (-i - 1) j k) (q (-i) j k)]; ring
    · rw [hs (q (-i - 1) j k) (q (-i) j k) (q (-i + 1) j k)]; ring
    · have : f (-i) j k - f (-i - 1) j k = 0 := by linarith
      rw [this, show f (-i - 1) j k - f (-i) j k = 0 by linarith]
      ring

/-- **C94.**  Cross-field diffusion, all variants: counted from the other radial end the change of every cell is the same. -/
theorem diffusion_turned_x [NeZero nz] {op : Operator nz} (h : FairOp op) (g : Grid) :
    (onFields overX op).run (turnedX g) = (overX (op.run g).1, overX (op.run g).2) := by
  rw [run_eq, run_eq]
  refine Prod.ext ?_ ?_
  · funext i j k
    dsimp only [overX]
    rw [Grid.xLoop_apply, Grid.xLoop_apply, faceX_overX h, faceX_overX h]
    have a : ((turnedX g).xstart - 1 ≤ i ∧ i ≤ (turnedX g).xend) ↔ (g.xstart ≤ -i ∧ -i ≤ g.xend + 1) := by
      simp only [turnedX]; omega
    have b : ((turnedX g).xstart ≤ i ∧ i ≤ (turnedX g).xend + 1) ↔ (g.xstart - 1 ≤ -i ∧ -i ≤ g.xend) := by
      simp only [turnedX]; omega
    have a' : (((turnedX g).xstart - 1 ≤ i ∧ i ≤ (turnedX g).xend) ∧ ((turnedX g).ystart ≤ j ∧ j ≤ (turnedX g).yend)) ↔
        ((g.xstart ≤ -i ∧ -i ≤ g.xend + 1) ∧ (g.ystart ≤ j ∧ j ≤ g.yend)) := and_congr a Iff.rfl
    have b' : (((turnedX g).xstart ≤ i ∧ i ≤ (turnedX g).xend + 1) ∧ ((turnedX g).ystart ≤ j ∧ j ≤ (turnedX g).yend)) ↔
        ((g.xstart - 1 ≤ -i ∧ -i ≤ g.xend) ∧ (g.ystart ≤ j ∧ j ≤ g.yend)) := and_congr b Iff.rfl
    rw [if_congr a' rfl rfl, if_congr b' rfl rfl, show -(i - 1) - 1 = -i by ring, show (turnedX g).dx i j = g.dx (-i) j from rfl,
      show (turnedX g).J i j = g.J (-i) j from rfl]
    split_ifs <;> ring
  · funext i j k
    dsimp only [overX]
    rw [Grid.yzLoop_apply, Grid.yzLoop_apply]
    have a : ((turnedX g).xstart ≤ i ∧ i ≤ (turnedX g).xend) ↔ (g.xstart ≤ -i ∧ -i ≤ g.xend) := by
      simp only [turnedX]; omega
    simp only [a]
    cases op <;> rfl

theorem neg_sub_one' [NeZero nz] (k : Fin nz) : -(k - 1) = -k + 1 := by rw [neg_sub, sub_eq_add_neg, add_comm]
theorem neg_add_one' [NeZero nz] (k : Fin nz) : -(k + 1) = -k - 1 := by rw [neg_add, sub_eq_add_neg]

theorem gradZ_overZ [NeZero nz] (g : Grid) (f : F3 nz) (i j : ℤ) (k : Fin nz) :
    (turnedZ g).gradZ (overZ f) i j k = -g.gradZ f i j (-k - 1) := by
  simp only [Grid.gradZ, turnedZ, overZ, neg_add_one', sub_add_cancel]
  ring

theorem faceZ_overZ [NeZero nz] (op : Operator nz) (g : Grid) (i j : ℤ) (k : Fin nz) :
    (onFields overZ op).faceZ (turnedZ g) i j k = -op.faceZ g i j (-k - 1) := by
  cases op with
  | flows a f aA fA =>
    simp only [onFields, Operator.faceZ, Grid.flowsZ, turnedZ, overZ, neg_add_one', sub_add_cancel]
    ring
  | upwind a f aA fA =>
    simp only [onFields, Operator.faceZ, Grid.upwindZ, gradZ_overZ]
    simp only [overZ, neg_add_one', sub_add_cancel]
    generalize g.gradZ fA i j (-k - 1) = G
    rcases lt_trichotomy G 0 with hG | hG | hG
    · rw [if_pos (by linarith), if_neg (by linarith)]; ring
    · simp [hG]
    · rw [if_neg (by linarith), if_pos hG]; ring
  | limit lim a q f aA qA fA =>
    simp only [onFields, Operator.faceZ, Grid.limitZ, gradZ_overZ]
    simp only [overZ, neg_add_one', sub_add_cancel]
    generalize g.gradZ fA i j (-k - 1) = G
    rcases lt_trichotomy G 0 with hG | hG | hG
    · rw [if_pos (by linarith), if_neg (by linarith)]; ring
    · simp [hG]
    · rw [if_neg (by linarith), if_pos hG]; ring

theorem faceUp_overZ [NeZero nz] (op : Operator nz) (g : Grid) (i j : ℤ) (k : Fin nz) :
    (onFields overZ op).faceUp (turnedZ g) i j k = op.faceUp g i j (-k) ∧
    (onFields overZ op).faceDown (turnedZ g) i j k = op.faceDown g i j (-k) := by
  cases op with
  | flows a f aA fA =>
    simp only [onFields, Operator.faceUp, Operator.faceDown, Grid.flowsYup, Grid.flowsYdown, turnedZ, overZ, neg_add_one', neg_sub_one']
    constructor <;> ring
  | upwind a f aA fA =>
    simp only [onFields, Operator.faceUp, Operator.faceDown, Grid.upwindYup, Grid.upwindYdown, turnedZ, overZ, neg_add_one', neg_sub_one']
    constructor <;> ring
  | limit lim a q f aA qA fA =>
    simp only [onFields, Operator.faceUp, Operator.faceDown, Grid.limitYup, Grid.limitYdown, turnedZ, overZ, neg_add_one', neg_sub_one']
    constructor <;> ring

/-- **C94.**  The same with `z` in the opposite direction. -/
theorem diffusion_turned_z [NeZero nz] (op : Operator nz) (g : Grid) :
    (onFields overZ op).run (turnedZ g) = (overZ (op.run g).1, overZ (op.run g).2) := by
  rw [run_eq, run_eq]
  refine Prod.ext ?_ ?_
  · funext i j k
    dsimp only [overZ]
    rw [Grid.xLoop_apply, Grid.xLoop_apply]
    cases op <;> rfl
  · funext i j k
    dsimp only [overZ]
    rw [Grid.yzLoop_apply, Grid.yzLoop_apply, (faceUp_overZ op g i j k).1, (faceUp_overZ op g i j k).2, faceZ_overZ, faceZ_overZ,
      neg_sub_one', add_sub_cancel_right]
    have w : (onFields overZ op).zWeight (turnedZ g) i j = op.zWeight g i j := by cases op <;> rfl
    rw [w]
    simp only [turnedZ]
    by_cases hc : (g.xstart ≤ i ∧ i ≤ g.xend) ∧ g.ystart ≤ j ∧ j ≤ g.yend
    · simp only [hc, and_self, if_true]; ring
    · simp only [hc, if_false]

/-! ## ExB -/

theorem mc_sides (m c p : ℝ) : mc p c m = ((mc m c p).2, (mc m c p).1) := (limiters_fair .mc).sides m c p

theorem exb_right_overX [NeZero nz] (g : Grid) (n q f : F3 nz) (b : Bool) (i j : ℤ) (k : Fin nz) :
    ((turnedX g).exbRight (overX n) (overX q) (overX (-f)) b i j k).getD 0 = -((g.exbLeft n q f b (-i) j k).getD 0) := by
  have v : (turnedX g).vR (overX (-f)) i j k = -g.vL f (-i) j k := by
    simp only [Grid.vR, Grid.vL, cornerPP, cornerPM, cornerMP, cornerMM, turnedX, overX, Pi.neg_apply, show -(i + 1) = -i - 1 by ring]
    ring
  have c : (i == (turnedX g).xend) = (-i == g.xstart) := by
    rw [Bool.eq_iff_iff, beq_iff_eq, beq_iff_eq]; simp only [turnedX]; omega
  simp only [Grid.exbRight, Grid.exbLeft, v, c]
  simp only [overX, turnedX, show -(i + 1) = -i - 1 by ring, show -(i - 1) = -i + 1 by ring,
    mc_sides (n (-i - 1) j k) (n (-i) j k) (n (-i + 1) j k), gt_iff_lt, Left.neg_pos_iff]
  split_ifs <;> simp only [Option.getD_some, Option.getD_none] <;> ring

theorem exb_left_overX [NeZero nz] (g : Grid) (n q f : F3 nz) (b : Bool) (i j : ℤ) (k : Fin nz) :
    ((turnedX g).exbLeft (overX n) (overX q) (overX (-f)) b i j k).getD 0 = -((g.exbRight n q f b (-i) j k).getD 0) := by
  have v : (turnedX g).vL (overX (-f)) i j k = -g.vR f (-i) j k := by
    simp only [Grid.vR, Grid.vL, cornerPP, cornerPM, cornerMP, cornerMM, turnedX, overX, Pi.neg_apply, show -(i - 1) = -i + 1 by ring]
    ring
  have c : (i == (turnedX g).xstart) = (-i == g.xend) := by
    rw [Bool.eq_iff_iff, beq_iff_eq, beq_iff_eq]; simp only [turnedX]; omega
  simp only [Grid.exbRight, Grid.exbLeft, v, c]
  simp only [overX, turnedX, show -(i + 1) = -i - 1 by ring, show -(i - 1) = -i + 1 by ring,
    mc_sides (n (-i - 1) j k) (n (-i) j k) (n (-i + 1) j k), gt_iff_lt, Left.neg_neg_iff]
  split_ifs <;> simp only [Option.getD_some, Option.getD_none] <;> ring

theorem exb_z_overX [NeZero nz] (g : Grid) (n q f : F3 nz) (i j : ℤ) (k : Fin nz) :
    (turnedX g).exbFaceZ (overX n) (overX q) (overX (-f)) i j k = g.exbFaceZ n q f (-i) j k := by
  have u : ∀ k, (turnedX g).vU (overX (-f)) i j k = g.vU f (-i) j k := by
    intro k
    simp only [Grid.vU, cornerPP, cornerMP, turnedX, overX, Pi.neg_apply, show -(i + 1) = -i - 1 by ring, show -(i - 1) = -i + 1 by ring]
    ring
  have d : ∀ k, (turnedX g).vD (overX (-f)) i j k = g.vD f (-i) j k := by
    intro k
    simp only [Grid.vD, cornerPM, cornerMM, turnedX, overX, Pi.neg_apply, show -(i + 1) = -i - 1 by ring, show -(i - 1) = -i + 1 by ring]
    ring
  simp only [Grid.exbFaceZ, Grid.exbUp, Grid.exbDown, u, d]
  rfl

/-- **C94.**  Advection by the ExB velocity: counted from the other radial end, with the potential of opposite sign, every
cell changes in the same way. -/
theorem exb_turned_x [NeZero nz] (g : Grid) (n q f : F3 nz) (b : Bool) {i j : ℤ} (k : Fin nz) (hj : g.ystart ≤ j ∧ j ≤ g.yend) :
    (turnedX g).exbXZ (overX n) (overX q) (overX (-f)) b i j k = overX (g.exbXZ n q f b) i j k := by
  have e : ∀ i, (turnedX g).exbFaceX (overX n) (overX q) (overX (-f)) b i j k = -g.exbFaceX n q f b (-i - 1) j k := by
    intro i
    simp only [Grid.exbFaceX]
    rw [exb_right_overX, exb_left_overX, show -(i + 1) = -i - 1 by ring, sub_add_cancel]
    have a : ((turnedX g).xstart ≤ i ∧ i ≤ (turnedX g).xend) ↔ (g.xstart ≤ -i ∧ -i ≤ g.xend) := by
      simp only [turnedX]; omega
    have a' : ((turnedX g).xstart ≤ i + 1 ∧ i + 1 ≤ (turnedX g).xend) ↔ (g.xstart ≤ -i - 1 ∧ -i - 1 ≤ g.xend) := by
      simp only [turnedX]; omega
    simp only [a, a']
    split_ifs <;> ring
  show _ = g.exbXZ n q f b (-i) j k
  rw [Grid.exbXZ_apply g n q f b k hj]
  rw [Grid.exbXZ_apply (turnedX g) _ _ _ b k hj, e, e, exb_z_overX, exb_z_overX,
    show -(i - 1) - 1 = -i by ring]
  have a : ((turnedX g).xstart ≤ i ∧ i ≤ (turnedX g).xend) ↔ (g.xstart ≤ -i ∧ -i ≤ g.xend) := by
    simp only [turnedX]; omega
  simp only [a]
  simp only [turnedX]
  split_ifs <;> ring

theorem exb_x_overZ [NeZero nz] (g : Grid) (n q f : F3 nz) (b : Bool) (i j : ℤ) (k : Fin nz) :
    (turnedZ g).exbFaceX (overZ n) (overZ q) (overZ (-f)) b i j k = g.exbFaceX n q f b i j (-k) := by
  have r : ∀ i, (turnedZ g).vR (overZ (-f)) i j k = g.vR f i j (-k) := by
    intro i
    simp only [Grid.vR, cornerPP, cornerPM, turnedZ, overZ, Pi.neg_apply, neg_add_one', neg_sub_one']
    ring
  have l : ∀ i, (turnedZ g).vL (overZ (-f)) i j k = g.vL f i j (-k) := by
    intro i
    simp only [Grid.vL, cornerMP, cornerMM, turnedZ, overZ, Pi.neg_apply, neg_add_one', neg_sub_one']
    ring
  simp only [Grid.exbFaceX, Grid.exbRight, Grid.exbLeft, r, l]
  rfl

theorem exb_up_overZ [NeZero nz] (g : Grid) (n q f : F3 nz) (i j : ℤ) (k : Fin nz) :
    ((turnedZ g).exbUp (overZ n) (overZ q) (overZ (-f)) i j k).getD 0 = -((g.exbDown n q f i j (-k)).getD 0) := by
  have v : (turnedZ g).vU (overZ (-f)) i j k = -g.vD f i j (-k) := by
    simp only [Grid.vU, Grid.vD, cornerPP, cornerPM, cornerMP, cornerMM, turnedZ, overZ, Pi.neg_apply, neg_add_one']
    ring
  simp only [Grid.exbUp, Grid.exbDown, v]
  simp only [overZ, turnedZ, neg_add_one', neg_sub_one', mc_sides (n i j (-k - 1)) (n i j (-k)) (n i j (-k + 1)), gt_iff_lt, Left.neg_pos_iff]
  split_ifs <;> simp only [Option.getD_some, Option.getD_none] <;> ring

theorem exb_down_overZ [NeZero nz] (g : Grid) (n q f : F3 nz) (i j : ℤ) (k : Fin nz) :
    ((turnedZ g).exbDown (overZ n) (overZ q) (overZ (-f)) i j k).getD 0 = -((g.exbUp n q f i j (-k)).getD 0) := by
  have v : (turnedZ g).vD (overZ (-f)) i j k = -g.vU f i j (-k) := by
    simp only [Grid.vU, Grid.vD, cornerPP, cornerPM, cornerMP, cornerMM, turnedZ, overZ, Pi.neg_apply, neg_sub_one']
    ring
  simp only [Grid.exbUp, Grid.exbDown, v]
  simp only [overZ, turnedZ, neg_add_one', neg_sub_one', mc_sides (n i j (-k - 1)) (n i j (-k)) (n i j (-k + 1)), gt_iff_lt, Left.neg_neg_iff]
  split_ifs <;> simp only [Option.getD_some, Option.getD_none] <;> ring

/-- **C94.**  The same with `z` in the opposite direction. -/
theorem exb_turned_z [NeZero nz] (g : Grid) (n q f : F3 nz) (b : Bool) {i j : ℤ} (k : Fin nz) (hj : g.ystart ≤ j ∧ j ≤ g.yend) :
    (turnedZ g).exbXZ (overZ n) (overZ q) (overZ (-f)) b i j k = overZ (g.exbXZ n q f b) i j k := by
  have e : ∀ k, (turnedZ g).exbFaceZ (overZ n) (overZ q) (overZ (-f)) i j k = -g.exbFaceZ n q f i j (-k - 1) := by
    intro k
    simp only [Grid.exbFaceZ]
    rw [exb_up_overZ, exb_down_overZ, neg_add_one', sub_add_cancel]
    ring
  show _ = g.exbXZ n q f b i j (-k)
  rw [Grid.exbXZ_apply g n q f b (-k) hj, Grid.exbXZ_apply (turnedZ g) _ _ _ b k hj, e, e, exb_x_overZ, exb_x_overZ, neg_sub_one',
    add_sub_cancel_right]
  simp only [turnedZ]
  by_cases hc : g.xstart ≤ i ∧ i ≤ g.xend
  · simp only [hc, and_self, if_true]; ring
  · simp only [hc, if_false]

/-- A grid and fields that are not the same from the other side. -/
example : FairOp (Operator.limit (nz := 3) mc (fun _ _ _ => 1) (fun _ _ _ => 1) (fun i _ _ => i) (fun _ _ _ => 1) (fun _ _ _ => 1)
      (fun _ _ _ => 0)) ∧ (boxGrid.ystart ≤ 2 ∧ (2 : ℤ) ≤ boxGrid.yend) ∧
    boxGrid.exbXZ (fun _ _ _ => 1) (fun _ _ _ => 1) (fun i _ k => if i = 2 ∧ k = 0 then 4 else 0) false 2 2 (1 : Fin 3) ≠
      boxGrid.exbXZ (fun _ _ _ => 1) (fun _ _ _ => 1) (fun i _ k => if i = 2 ∧ k = 0 then 4 else 0) false 2 2 (2 : Fin 3) := by
  refine ⟨limiters_fair .mc, by norm_num [boxGrid], ?_⟩
  rw [Grid.exbXZ_apply _ _ _ _ _ _ (by norm_num [boxGrid]), Grid.exbXZ_apply _ _ _ _ _ _ (by norm_num [boxGrid])]
  norm_num [boxGrid, Grid.exbFaceX, Grid.exbFaceZ, Grid.exbRight, Grid.exbLeft, Grid.exbUp, Grid.exbDown, Grid.vU, Grid.vD, Grid.vR, Grid.vL,
    cornerMM, cornerMP, cornerPP, cornerPM, mc, minmod3, show (1 : Fin 3) + 1 = 2 from rfl, show (2 : Fin 3) + 1 = 0 from rfl, show (2 : Fin 3) - 1 = 1 from rfl,
    show ¬ (2 : Fin 3) = 0 by decide]

end Hermes.Direction
