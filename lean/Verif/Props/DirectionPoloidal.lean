import Verif.Props.DirectionPerp
import Verif.Props.ExBPoloidal

/-!
# C94 in the poloidal direction: operators across the field with `y` turned, and the poloidal ExB flows
-/

namespace Hermes.Direction
open Finset Hermes Hermes.Limiters Hermes.PerpOps Hermes.ExB

variable {nz : ℕ}

/-- The grid with `y` in the opposite direction: the components of the metric with one index `y` change sign. -/
def turnedY (g : Grid) : Grid where
  xstart := g.xstart
  xend := g.xend
  ystart := -g.yend
  yend := -g.ystart
  firstX := g.firstX
  lastX := g.lastX
  firstY := g.lastY
  lastY := g.firstY
  J i j := g.J i (-j)
  dx i j := g.dx i (-j)
  dy i j := g.dy i (-j)
  dz i j := g.dz i (-j)
  g11 i j := g.g11 i (-j)
  g22 i j := g.g22 i (-j)
  g33 i j := g.g33 i (-j)
  g23 i j := -g.g23 i (-j)
  g_23 i j := -g.g_23 i (-j)
  Bxy i j := g.Bxy i (-j)

def overY (f : F3 nz) : F3 nz := fun i j k => f i (-j) k

/-! ## Diffusion across the field -/

/-- The limited operator takes its value from one of two neighbouring rows, depending on which of them has more of the
diffused field: they must differ. -/
def RowsDiffer (g : Grid) : Operator nz → Prop
  | .limit _ _ _ _ _ _ fA => ∀ i j k, fA i (j + 1) k ≠ fA i j k ∧ g.dy i (j + 1) + g.dy i j ≠ 0
  | _ => True

theorem faces_overY [NeZero nz] {op : Operator nz} {g : Grid} (h : RowsDiffer g op) (i j : ℤ) (k : Fin nz) :
    (onFields overY op).faceUp (turnedY g) i j k = -op.faceDown g i (-j) k ∧
    (onFields overY op).faceDown (turnedY g) i j k = -op.faceUp g i (-j) k := by
  cases op with
  | flows a f aA fA =>
    simp only [onFields, Operator.faceUp, Operator.faceDown, Grid.flowsYup, Grid.flowsYdown, turnedY, overY,
      show -(j + 1) = -j - 1 by ring, show -(j - 1) = -j + 1 by ring]
    constructor <;> ring
  | upwind a f aA fA =>
    simp only [onFields, Operator.faceUp, Operator.faceDown, Grid.upwindYup, Grid.upwindYdown, turnedY, overY,
      show -(j + 1) = -j - 1 by ring, show -(j - 1) = -j + 1 by ring]
    constructor <;> ring
  | limit lim a q f aA qA fA =>
    have b1 : (j == -g.ystart) = (-j == g.ystart) := by
      rw [Bool.eq_iff_iff, beq_iff_eq, beq_iff_eq]; omega
    have b2 : (j == -g.yend) = (-j == g.yend) := by
      rw [Bool.eq_iff_iff, beq_iff_eq, beq_iff_eq]; omega
    simp only [onFields, Operator.faceUp, Operator.faceDown, Grid.limitYup, Grid.limitYdown, turnedY, overY,
      show -(j + 1) = -j - 1 by ring, show -(j - 1) = -j + 1 by ring, b1, b2]
    have h1 := h i (-j - 1) k
    have h2 := h i (-j) k
    rw [sub_add_cancel] at h1
    have d1 : 2 * (fA i (-j) k - fA i (-j - 1) k) / (g.dy i (-j) + g.dy i (-j - 1)) ≠ 0 :=
      div_ne_zero (mul_ne_zero two_ne_zero (sub_ne_zero.2 h1.1)) h1.2
    have d2 : 2 * (fA i (-j + 1) k - fA i (-j) k) / (g.dy i (-j + 1) + g.dy i (-j)) ≠ 0 :=
      div_ne_zero (mul_ne_zero two_ne_zero (sub_ne_zero.2 h2.1)) h2.2
    have e1 : 2 * (fA i (-j - 1) k - fA i (-j) k) / (g.dy i (-j - 1) + g.dy i (-j)) =
        -(2 * (fA i (-j) k - fA i (-j - 1) k) / (g.dy i (-j) + g.dy i (-j - 1))) := by
      rw [add_comm]; ring
    have e2 : 2 * (fA i (-j) k - fA i (-j + 1) k) / (g.dy i (-j) + g.dy i (-j + 1)) =
        -(2 * (fA i (-j + 1) k - fA i (-j) k) / (g.dy i (-j + 1) + g.dy i (-j))) := by
      rw [add_comm (g.dy i (-j)) (g.dy i (-j + 1))]; ring
    rw [e1, e2]
    generalize 2 * (fA i (-j) k - fA i (-j - 1) k) / (g.dy i (-j) + g.dy i (-j - 1)) = G at d1
    generalize 2 * (fA i (-j + 1) k - fA i (-j) k) / (g.dy i (-j + 1) + g.dy i (-j)) = H at d2
    constructor
    · split_ifs with h3 h4 h5 h5
      · ring
      · linarith
      · ring
      · ring
      · exact absurd (by linarith : G = 0) d1
    · split_ifs with h3 h4 h5 h5
      · ring
      · linarith
      · ring
      · ring
      · exact absurd (by linarith : H = 0) d2

theorem gradZ_overY [NeZero nz] (g : Grid) (f : F3 nz) (i j : ℤ) (k : Fin nz) :
    (turnedY g).gradZ (overY f) i j k = g.gradZ f i (-j) k := by
  simp only [Grid.gradZ, turnedY, overY, show -(j + 1) = -j - 1 by ring, show -(j - 1) = -j + 1 by ring,
    show g.dy i (-j - 1) + 2 * g.dy i (-j) + g.dy i (-j + 1) = g.dy i (-j + 1) + 2 * g.dy i (-j) + g.dy i (-j - 1) by ring]
  ring

theorem faceZ_overY [NeZero nz] (op : Operator nz) (g : Grid) (i j : ℤ) (k : Fin nz) :
    (onFields overY op).faceZ (turnedY g) i j k = op.faceZ g i (-j) k := by
  cases op with
  | flows a f aA fA =>
    simp only [onFields, Operator.faceZ, Grid.flowsZ, turnedY, overY, show -(j + 1) = -j - 1 by ring, show -(j - 1) = -j + 1 by ring,
      show g.dy i (-j - 1) + 2 * g.dy i (-j) + g.dy i (-j + 1) = g.dy i (-j + 1) + 2 * g.dy i (-j) + g.dy i (-j - 1) by ring]
    ring
  | upwind a f aA fA => simp only [onFields, Operator.faceZ, Grid.upwindZ, gradZ_overY]; rfl
  | limit lim a q f aA qA fA => simp only [onFields, Operator.faceZ, Grid.limitZ, gradZ_overY]; rfl

/-- **C94.**  Cross-field diffusion with `y` in the opposite direction. -/
theorem diffusion_turned_y [NeZero nz] {op : Operator nz} {g : Grid} (h : RowsDiffer g op) :
    (onFields overY op).run (turnedY g) = (overY (op.run g).1, overY (op.run g).2) := by
  rw [run_eq, run_eq]
  have r : ∀ j, ((turnedY g).ystart ≤ j ∧ j ≤ (turnedY g).yend) ↔ (g.ystart ≤ -j ∧ -j ≤ g.yend) := by
    intro j; simp only [turnedY]; omega
  refine Prod.ext ?_ ?_
  · funext i j k
    dsimp only [overY]
    rw [Grid.xLoop_apply, Grid.xLoop_apply]
    have e : ∀ i, (onFields overY op).faceX (turnedY g) i j k = op.faceX g i (-j) k := by
      intro i; cases op <;> rfl
    simp only [e, r]
    rfl
  · funext i j k
    dsimp only [overY]
    rw [Grid.yzLoop_apply, Grid.yzLoop_apply, (faces_overY h i j k).1, (faces_overY h i j k).2, faceZ_overY, faceZ_overY]
    have w : (onFields overY op).zWeight (turnedY g) i j = op.zWeight g i (-j) := by cases op <;> rfl
    rw [w]
    simp only [r]
    show _ / (g.dy i (-j) * g.J i (-j)) + (if (g.xstart ≤ i ∧ i ≤ g.xend) ∧ _ then _ / (_ * g.dz i (-j)) else 0) = _
    ring

/-- A slanted field in the middle of a field line. -/
noncomputable def middleGrid : Grid := { slantGrid with firstY := fun _ => false, lastY := fun _ => false }

/-- The limited operator, for a field that is the same in neighbouring rows and varies along `z`: the flux through the face
between the rows carries the value of the row with the lower number, so that the result depends on the direction in which the
rows are numbered. -/
noncomputable def levelRows : Operator 3 :=
  .limit mc (fun _ _ _ => 1) (fun _ j _ => (j : ℝ) ^ 2) (fun _ _ k => if k = 1 then 1 else 0)
    (fun _ _ _ => 1) (fun _ j _ => (j : ℝ) ^ 2) (fun _ _ k => if k = 1 then 1 else 0)

theorem limited_diffusion_depends_on_direction :
    Positive middleGrid ∧ FairOp levelRows ∧ (levelRows.run middleGrid).2 2 2 0 = 5.5 ∧
      ((onFields overY levelRows).run (turnedY middleGrid)).2 2 (-2) 0 = 6.5 := by
  refine ⟨?_, limiters_fair .mc, ?_, ?_⟩
  · constructor <;> intro _ _ <;> norm_num [middleGrid, slantGrid, boxGrid]
  · rw [run_eq]
    dsimp only
    rw [Grid.yzLoop_apply]
    norm_num [levelRows, middleGrid, slantGrid, boxGrid, Operator.faceUp, Operator.faceDown, Operator.faceZ, Operator.zWeight,
      Grid.limitYup, Grid.limitYdown, Grid.limitZ, Grid.gradZ, show (2 : Fin 3) + 1 = 0 from rfl,
      show ¬ (-1 : Fin 3) = 1 by decide]
  · rw [run_eq]
    dsimp only
    rw [Grid.yzLoop_apply]
    norm_num [levelRows, middleGrid, slantGrid, boxGrid, Operator.faceUp, Operator.faceDown, Operator.faceZ, Operator.zWeight, onFields,
      turnedY, overY, Grid.limitYup, Grid.limitYdown, Grid.limitZ, Grid.gradZ, show (2 : Fin 3) + 1 = 0 from rfl,
      show ¬ (-1 : Fin 3) = 1 by decide]

/-! ## Poloidal ExB flows -/

theorem polYLoop_all (g : Grid) (per : ℤ → Bool) (n dfdx : F3 nz) (b pos : Bool) (i j : ℤ) (k : Fin nz) :
    g.polYLoop per n dfdx b pos i j k = if g.xstart ≤ i ∧ i ≤ g.xend then
      ((if g.polYs per b i ≤ j ∧ j ≤ g.polYe per b i then g.polY per n dfdx pos i j k else 0)
       - (if g.polYs per b i ≤ j - 1 ∧ j - 1 ≤ g.polYe per b i then g.polY per n dfdx pos i (j - 1) k else 0))
        / (g.dy i j * g.J i j) else 0 := by
  by_cases hi : g.xstart ≤ i ∧ i ≤ g.xend
  · rw [if_pos hi, polYLoop_apply g per n dfdx b pos j k hi]
  · rw [if_neg hi]
    have key : ∀ (l : List (ℤ × ℤ × Fin nz)) (r : F3 nz), (∀ p ∈ l, p.1 ≠ i) →
        l.foldl (g.yStep (g.polY per n dfdx pos)) r i j k = r i j k := by
      intro l
      induction l with
      | nil => intro r _; rfl
      | cons p l ih =>
        intro r hl
        rw [List.foldl_cons, ih _ fun q hq => hl q (List.mem_cons_of_mem _ hq)]
        obtain ⟨a, c, d⟩ := p
        have ha : i ≠ a := fun e => hl _ List.mem_cons_self e.symm
        simp [Grid.yStep, addAt3, ha]
    exact key _ _ fun p hp e => hi (e ▸ (mem_polYPoints.1 hp).1)

/-- The functions of BOUT++ on a grid whose `x` axis is turned: derivatives along the axis change sign, shifts and the
exchange with other processors act on the same cells. -/
structure TurnedOpsX (g : Grid) (B B' : BoutOps nz) : Prop where
  ddx : ∀ f, B'.ddx (overX f) = -overX (B.ddx f)
  ddy : ∀ f, B'.ddy (overX f) = overX (B.ddy f)
  toFA : ∀ f, B'.toFA (overX f) = overX (B.toFA f)
  fromFA : ∀ f, B'.fromFA (overX f) = overX (B.fromFA f)
  communicate : ∀ r r' : F3 nz, (∀ i j k, g.ystart ≤ j ∧ j ≤ g.yend → r' i j k = r (-i) j k) →
    ∀ i j k, g.ystart ≤ j ∧ j ≤ g.yend → B'.communicate r' i j k = B.communicate r (-i) j k
  periodicY : ∀ i, B'.periodicY i = B.periodicY (-i)
  linear : ∀ f, B.ddx (-f) = -B.ddx f ∧ B.ddy (-f) = -B.ddy f

structure TurnedOpsY (g : Grid) (B B' : BoutOps nz) : Prop where
  ddx : ∀ f, B'.ddx (overY f) = overY (B.ddx f)
  ddy : ∀ f, B'.ddy (overY f) = -overY (B.ddy f)
  toFA : ∀ f, B'.toFA (overY f) = overY (B.toFA f)
  fromFA : ∀ f, B'.fromFA (overY f) = overY (B.fromFA f)
  communicate : ∀ r r' : F3 nz, (∀ i j k, g.ystart ≤ -j ∧ -j ≤ g.yend → r' i j k = r i (-j) k) →
    ∀ i j k, g.ystart ≤ -j ∧ -j ≤ g.yend → B'.communicate r' i j k = B.communicate r i (-j) k
  periodicY : B'.periodicY = B.periodicY

structure TurnedOpsZ [NeZero nz] (g : Grid) (B B' : BoutOps nz) : Prop where
  ddx : ∀ f, B'.ddx (overZ f) = overZ (B.ddx f)
  ddy : ∀ f, B'.ddy (overZ f) = overZ (B.ddy f)
  toFA : ∀ f, B'.toFA (overZ f) = overZ (B.toFA f)
  fromFA : ∀ f, B'.fromFA (overZ f) = overZ (B.fromFA f)
  communicate : ∀ r r' : F3 nz, (∀ i j k, g.ystart ≤ j ∧ j ≤ g.yend → r' i j k = r i j (-k)) →
    ∀ i j k, g.ystart ≤ j ∧ j ≤ g.yend → B'.communicate r' i j k = B.communicate r i j (-k)
  periodicY : B'.periodicY = B.periodicY
  linear : ∀ f, B.ddx (-f) = -B.ddx f ∧ B.ddy (-f) = -B.ddy f

theorem rangeX_turned (g : Grid) (b : Bool) :
    (turnedX g).polXs b = -g.polXe b - 1 ∧ (turnedX g).polXe b = -g.polXs b - 1 := by
  rcases hf : g.firstX <;> rcases hl : g.lastX <;> cases b <;>
    simp [Grid.polXs, Grid.polXe, turnedX, hf, hl] <;> omega

theorem rangeY_turned (g : Grid) (per : ℤ → Bool) (b : Bool) (i : ℤ) :
    (turnedY g).polYs per b i = -g.polYe per b i - 1 ∧ (turnedY g).polYe per b i = -g.polYs per b i - 1 := by
  rcases hf : g.firstY i <;> rcases hl : g.lastY i <;> rcases hp : per i <;> cases b <;>
    simp [Grid.polYs, Grid.polYe, turnedY, hf, hl, hp] <;> omega

theorem polX_overX (g : Grid) (n d : F3 nz) (pos : Bool) (i j : ℤ) (k : Fin nz) :
    (turnedX g).polX (overX n) (-overX d) pos i j k = -g.polX n d pos (-i - 1) j k := by
  simp only [Grid.polX, turnedX, overX, Pi.neg_apply, show -(i + 1) = -i - 1 by ring, show -(i - 1) = -i + 1 by ring,
    show -(i + 2) = -i - 1 - 1 by ring, sub_add_cancel, show -i - 1 + 2 = -i + 1 by ring]
  have e : 0.5 * (g.J (-i - 1) j + g.J (-i) j) * (0.5 * (g.g11 (-i - 1) j * g.g23 (-i - 1) j / g.Bxy (-i - 1) j ^ 2 * -d (-i - 1) j k
        + g.g11 (-i) j * g.g23 (-i) j / g.Bxy (-i) j ^ 2 * -d (-i) j k)) =
      -(0.5 * (g.J (-i) j + g.J (-i - 1) j) * (0.5 * (g.g11 (-i) j * g.g23 (-i) j / g.Bxy (-i) j ^ 2 * d (-i) j k
        + g.g11 (-i - 1) j * g.g23 (-i - 1) j / g.Bxy (-i - 1) j ^ 2 * d (-i - 1) j k))) := by ring
  rw [e]
  have a1 : n (-i) j k + 0.25 * (n (-i - 1) j k - n (-i + 1) j k) = n (-i) j k - 0.25 * (n (-i + 1) j k - n (-i - 1) j k) := by ring
  have a2 : n (-i - 1) j k - 0.25 * (n (-i - 1 - 1) j k - n (-i) j k) = n (-i - 1) j k + 0.25 * (n (-i) j k - n (-i - 1 - 1) j k) := by ring
  rw [a1, a2]
  generalize 0.5 * (g.J (-i) j + g.J (-i - 1) j) * _ = V
  rcases lt_trichotomy V 0 with hV | hV | hV
  · rw [if_pos (by linarith), if_neg (by linarith)]; ring
  · simp [hV]
  · rw [if_neg (by linarith), if_pos hV]; ring

theorem polY_overX (g : Grid) (per per' : ℤ → Bool) (hp : ∀ i, per' i = per (-i)) (n d : F3 nz) (pos : Bool) (i j : ℤ) (k : Fin nz) :
    (turnedX g).polY per' (overX n) (overX d) pos i j k = g.polY per n d pos (-i) j k := by
  simp only [Grid.polY, Grid.polVy, hp]
  rfl

/-- **C94.**  ExB advection with its poloidal part, counted from the other radial end. -/
theorem poloidal_turned_x [NeZero nz] {g : Grid} {B B' : BoutOps nz} (hB : TurnedOpsX g B B') (n f : F3 nz) (b p pos : Bool)
    {i j : ℤ} (k : Fin nz) (hj : g.ystart ≤ j ∧ j ≤ g.yend) :
    (turnedX g).exbXPPM B' (overX n) (overX (-f)) b p pos i j k = overX (g.exbXPPM B n f b p pos) i j k := by
  have h0 : ∀ i j k, g.ystart ≤ j ∧ j ≤ g.yend → B'.communicate ((turnedX g).exbXZ (overX n) (fun _ _ _ => 1) (overX (-f)) b) i j k =
      B.communicate (g.exbXZ n (fun _ _ _ => 1) f b) (-i) j k :=
    hB.communicate _ _ fun i j k hj => exb_turned_x g n (fun _ _ _ => 1) f b k hj
  have hx : B'.ddx (overX (-f)) = overX (B.ddx f) := by
    rw [hB.ddx, (hB.linear f).1]; funext i j k; simp [overX]
  have hy : B'.ddy (overX (-f)) = -overX (B.ddy f) := by
    rw [hB.ddy, (hB.linear f).2]; rfl
  cases p with
  | false => exact h0 i j k hj
  | true =>
    have hY : (turnedX g).polYLoop B'.periodicY (B'.toFA (overX n)) (B'.toFA (overX (B.ddx f))) b pos =
        overX (g.polYLoop B.periodicY (B.toFA n) (B.toFA (B.ddx f)) b pos) := by
      rw [hB.toFA, hB.toFA]
      funext i j k
      dsimp only [overX]
      have a : ((turnedX g).xstart ≤ i ∧ i ≤ (turnedX g).xend) ↔ (g.xstart ≤ -i ∧ -i ≤ g.xend) := by
        simp only [turnedX]; omega
      have s : (turnedX g).polYs B'.periodicY b i = g.polYs B.periodicY b (-i) := by simp only [Grid.polYs, hB.periodicY, turnedX]
      have t : (turnedX g).polYe B'.periodicY b i = g.polYe B.periodicY b (-i) := by simp only [Grid.polYe, hB.periodicY, turnedX]
      rw [polYLoop_all, polYLoop_all, if_congr a rfl rfl, s, t, polY_overX g _ _ hB.periodicY, polY_overX g _ _ hB.periodicY]
      rfl
    show (turnedX g).polXLoop (overX n) (B'.ddy (overX (-f))) b pos _ i j k +
        B'.fromFA ((turnedX g).polYLoop B'.periodicY (B'.toFA (overX n)) (B'.toFA (B'.ddx (overX (-f)))) b pos) i j k =
      g.polXLoop n (B.ddy f) b pos _ (-i) j k +
        B.fromFA (g.polYLoop B.periodicY (B.toFA n) (B.toFA (B.ddx f)) b pos) (-i) j k
    rw [hx, hy, hY, hB.fromFA, polXLoop_apply g n _ b pos _ k hj, polXLoop_apply (turnedX g) _ _ b pos _ k hj, h0 i j k hj,
      polX_overX, polX_overX, show -(i - 1) - 1 = -i by ring]
    have a : ((turnedX g).polXs b ≤ i ∧ i ≤ (turnedX g).polXe b) ↔ (g.polXs b ≤ -i - 1 ∧ -i - 1 ≤ g.polXe b) := by
      rw [(rangeX_turned g b).1, (rangeX_turned g b).2]; omega
    have c : ((turnedX g).polXs b ≤ i - 1 ∧ i - 1 ≤ (turnedX g).polXe b) ↔ (g.polXs b ≤ -i ∧ -i ≤ g.polXe b) := by
      rw [(rangeX_turned g b).1, (rangeX_turned g b).2]; omega
    rw [if_congr a rfl rfl, if_congr c rfl rfl]
    show _ + _ / (g.dx (-i) j * g.J (-i) j) + _ = _
    simp only [overX]
    split_ifs <;> ring

theorem polX_overZ [NeZero nz] (g : Grid) (n d : F3 nz) (pos : Bool) (i j : ℤ) (k : Fin nz) :
    (turnedZ g).polX (overZ n) (-overZ d) pos i j k = g.polX n d pos i j (-k) := by
  simp only [Grid.polX, turnedZ, overZ, Pi.neg_apply, mul_neg, neg_mul, neg_div, neg_neg]

theorem polY_overZ [NeZero nz] (g : Grid) (per : ℤ → Bool) (n d : F3 nz) (pos : Bool) (i j : ℤ) (k : Fin nz) :
    (turnedZ g).polY per (overZ n) (-overZ d) pos i j k = g.polY per n d pos i j (-k) := by
  simp only [Grid.polY, Grid.polVy, turnedZ, overZ, Pi.neg_apply, mul_neg, neg_mul, neg_div, neg_neg]

/-- **C94.**  The same with `z` in the opposite direction. -/
theorem poloidal_turned_z [NeZero nz] {g : Grid} {B B' : BoutOps nz} (hB : TurnedOpsZ g B B') (n f : F3 nz) (b p pos : Bool)
    {i j : ℤ} (k : Fin nz) (hj : g.ystart ≤ j ∧ j ≤ g.yend) (hneg : ∀ f, B.toFA (-f) = -B.toFA f) :
    (turnedZ g).exbXPPM B' (overZ n) (overZ (-f)) b p pos i j k = overZ (g.exbXPPM B n f b p pos) i j k := by
  have h0 : ∀ i j k, g.ystart ≤ j ∧ j ≤ g.yend → B'.communicate ((turnedZ g).exbXZ (overZ n) (fun _ _ _ => 1) (overZ (-f)) b) i j k =
      B.communicate (g.exbXZ n (fun _ _ _ => 1) f b) i j (-k) :=
    hB.communicate _ _ fun i j k hj => exb_turned_z g n (fun _ _ _ => 1) f b k hj
  have hx : B'.ddx (overZ (-f)) = overZ (-B.ddx f) := by rw [hB.ddx, (hB.linear f).1]
  have hy : B'.ddy (overZ (-f)) = -overZ (B.ddy f) := by
    rw [hB.ddy, (hB.linear f).2]; rfl
  cases p with
  | false => exact h0 i j k hj
  | true =>
    have hY : (turnedZ g).polYLoop B'.periodicY (B'.toFA (overZ n)) (B'.toFA (overZ (-B.ddx f))) b pos =
        overZ (g.polYLoop B.periodicY (B.toFA n) (B.toFA (B.ddx f)) b pos) := by
      rw [hB.toFA, hB.toFA, hneg, hB.periodicY, show overZ (-B.toFA (B.ddx f)) = -overZ (B.toFA (B.ddx f)) from rfl]
      funext i j k
      dsimp only [overZ]
      rw [polYLoop_all, polYLoop_all]
      have := polY_overZ g B.periodicY (B.toFA n) (B.toFA (B.ddx f)) pos i j k
      have := polY_overZ g B.periodicY (B.toFA n) (B.toFA (B.ddx f)) pos i (j - 1) k
      simp only [*]
      rfl
    show (turnedZ g).polXLoop (overZ n) (B'.ddy (overZ (-f))) b pos _ i j k +
        B'.fromFA ((turnedZ g).polYLoop B'.periodicY (B'.toFA (overZ n)) (B'.toFA (B'.ddx (overZ (-f)))) b pos) i j k =
      g.polXLoop n (B.ddy f) b pos _ i j (-k) +
        B.fromFA (g.polYLoop B.periodicY (B.toFA n) (B.toFA (B.ddx f)) b pos) i j (-k)
    rw [hx, hy, hY, hB.fromFA, polXLoop_apply g n _ b pos _ (-k) hj, polXLoop_apply (turnedZ g) _ _ b pos _ k hj, h0 i j k hj,
      polX_overZ, polX_overZ]
    rfl

theorem polX_overY (g : Grid) (n d : F3 nz) (pos : Bool) (i j : ℤ) (k : Fin nz) :
    (turnedY g).polX (overY n) (-overY d) pos i j k = g.polX n d pos i (-j) k := by
  simp only [Grid.polX, turnedY, overY, Pi.neg_apply, mul_neg, neg_mul, neg_div, neg_neg]

theorem polVy_overY (g : Grid) (per : ℤ → Bool) (d : F3 nz) (i j : ℤ) (k : Fin nz) :
    (turnedY g).polVy per (overY d) i j k = -g.polVy per d i (-j - 1) k := by
  have b1 : (j == -g.yend - 1) = (-j - 1 == g.yend) := by
    rw [Bool.eq_iff_iff, beq_iff_eq, beq_iff_eq]; omega
  have b2 : (j == -g.ystart) = (-j - 1 == g.ystart - 1) := by
    rw [Bool.eq_iff_iff, beq_iff_eq, beq_iff_eq]; omega
  simp only [Grid.polVy, turnedY, overY, show -(j + 1) = -j - 1 by ring, sub_add_cancel, b1, b2]
  have e : -0.5 * (g.J i (-j - 1) + g.J i (-j)) * (0.5 * (g.g11 i (-j - 1) * -g.g23 i (-j - 1) / g.Bxy i (-j - 1) ^ 2 * d i (-j - 1) k
        + g.g11 i (-j) * -g.g23 i (-j) / g.Bxy i (-j) ^ 2 * d i (-j) k)) =
      -(-0.5 * (g.J i (-j) + g.J i (-j - 1)) * (0.5 * (g.g11 i (-j) * g.g23 i (-j) / g.Bxy i (-j) ^ 2 * d i (-j) k
        + g.g11 i (-j - 1) * g.g23 i (-j - 1) / g.Bxy i (-j - 1) ^ 2 * d i (-j - 1) k))) := by ring
  rw [e]
  generalize -0.5 * (g.J i (-j) + g.J i (-j - 1)) * _ = V
  generalize (g.lastY i && !per i && (-j - 1 == g.yend)) = P
  generalize (g.firstY i && !per i && (-j - 1 == g.ystart - 1)) = Q
  rcases lt_trichotomy V 0 with hV | hV | hV <;> cases P <;> cases Q <;>
    simp [hV, hV.le, not_lt.2 hV.le]

theorem polY_overY (g : Grid) (per : ℤ → Bool) (n d : F3 nz) (pos : Bool) (i j : ℤ) (k : Fin nz) :
    (turnedY g).polY per (overY n) (overY d) pos i j k = -g.polY per n d pos i (-j - 1) k := by
  simp only [Grid.polY, polVy_overY]
  simp only [overY, show -(j + 1) = -j - 1 by ring, show -(j - 1) = -j + 1 by ring, show -(j + 2) = -j - 1 - 1 by ring, sub_add_cancel,
    show -j - 1 + 2 = -j + 1 by ring]
  have a1 : n i (-j) k + 0.25 * (n i (-j - 1) k - n i (-j + 1) k) = n i (-j) k - 0.25 * (n i (-j + 1) k - n i (-j - 1) k) := by ring
  have a2 : n i (-j - 1) k - 0.25 * (n i (-j - 1 - 1) k - n i (-j) k) = n i (-j - 1) k + 0.25 * (n i (-j) k - n i (-j - 1 - 1) k) := by ring
  rw [a1, a2]
  generalize g.polVy per d i (-j - 1) k = V
  rcases lt_trichotomy V 0 with hV | hV | hV
  · rw [if_pos (by linarith), if_neg (by linarith)]; ring
  · simp [hV]
  · rw [if_neg (by linarith), if_pos hV]; ring

theorem exb_turned_y [NeZero nz] (g : Grid) (n q f : F3 nz) (b : Bool) {i j : ℤ} (k : Fin nz) (hj : g.ystart ≤ -j ∧ -j ≤ g.yend) :
    (turnedY g).exbXZ (overY n) (overY q) (overY f) b i j k = overY (g.exbXZ n q f b) i j k := by
  show _ = g.exbXZ n q f b i (-j) k
  rw [Grid.exbXZ_apply g n q f b k hj, Grid.exbXZ_apply (turnedY g) _ _ _ b k (by simp only [turnedY]; omega)]
  rfl

/-- **C94.**  The same with `y` in the opposite direction. -/
theorem poloidal_turned_y [NeZero nz] {g : Grid} {B B' : BoutOps nz} (hB : TurnedOpsY g B B') (n f : F3 nz) (b p pos : Bool)
    {i j : ℤ} (k : Fin nz) (hj : g.ystart ≤ -j ∧ -j ≤ g.yend) :
    (turnedY g).exbXPPM B' (overY n) (overY f) b p pos i j k = overY (g.exbXPPM B n f b p pos) i j k := by
  have h0 : ∀ i j k, g.ystart ≤ -j ∧ -j ≤ g.yend → B'.communicate ((turnedY g).exbXZ (overY n) (fun _ _ _ => 1) (overY f) b) i j k =
      B.communicate (g.exbXZ n (fun _ _ _ => 1) f b) i (-j) k :=
    hB.communicate _ _ fun i j k hj => exb_turned_y g n (fun _ _ _ => 1) f b k hj
  cases p with
  | false => exact h0 i j k hj
  | true =>
    have hY : (turnedY g).polYLoop B'.periodicY (B'.toFA (overY n)) (B'.toFA (overY (B.ddx f))) b pos =
        overY (g.polYLoop B.periodicY (B.toFA n) (B.toFA (B.ddx f)) b pos) := by
      rw [hB.toFA, hB.toFA, hB.periodicY]
      funext i j k
      dsimp only [overY]
      have a : ((turnedY g).polYs B.periodicY b i ≤ j ∧ j ≤ (turnedY g).polYe B.periodicY b i) ↔
          (g.polYs B.periodicY b i ≤ -j - 1 ∧ -j - 1 ≤ g.polYe B.periodicY b i) := by
        rw [(rangeY_turned g B.periodicY b i).1, (rangeY_turned g B.periodicY b i).2]; omega
      have c : ((turnedY g).polYs B.periodicY b i ≤ j - 1 ∧ j - 1 ≤ (turnedY g).polYe B.periodicY b i) ↔
          (g.polYs B.periodicY b i ≤ -j ∧ -j ≤ g.polYe B.periodicY b i) := by
        rw [(rangeY_turned g B.periodicY b i).1, (rangeY_turned g B.periodicY b i).2]; omega
      rw [polYLoop_all, polYLoop_all, if_congr a rfl rfl, if_congr c rfl rfl]
      have e1 := polY_overY g B.periodicY (B.toFA n) (B.toFA (B.ddx f)) pos i j k
      have e2 := polY_overY g B.periodicY (B.toFA n) (B.toFA (B.ddx f)) pos i (j - 1) k
      rw [show -(j - 1) - 1 = -j by ring] at e2
      rw [e1, e2]
      show (if g.xstart ≤ i ∧ i ≤ g.xend then _ / (g.dy i (-j) * g.J i (-j)) else 0) = _
      split_ifs <;> ring
    show (turnedY g).polXLoop (overY n) (B'.ddy (overY f)) b pos _ i j k +
        B'.fromFA ((turnedY g).polYLoop B'.periodicY (B'.toFA (overY n)) (B'.toFA (B'.ddx (overY f))) b pos) i j k =
      g.polXLoop n (B.ddy f) b pos _ i (-j) k +
        B.fromFA (g.polYLoop B.periodicY (B.toFA n) (B.toFA (B.ddx f)) b pos) i (-j) k
    rw [hB.ddx, hB.ddy, hY, hB.fromFA, polXLoop_apply g n _ b pos _ k hj,
      polXLoop_apply (turnedY g) _ _ b pos _ k (by simp only [turnedY]; omega), h0 i j k hj, polX_overY, polX_overY]
    rfl

/-- Central differences and no shift meet the assumptions on all three axes. -/
theorem plainOps_turned [NeZero nz] (g : Grid) : TurnedOpsX g (plainOps nz) (plainOps nz) ∧ TurnedOpsY g (plainOps nz) (plainOps nz) ∧
    TurnedOpsZ g (plainOps nz) (plainOps nz) ∧ ∀ f, (plainOps nz).toFA (-f) = -(plainOps nz).toFA f := by
  refine ⟨⟨?_, ?_, fun _ => rfl, fun _ => rfl, fun r r' h => h, fun _ => rfl, ?_⟩, ⟨?_, ?_, fun _ => rfl, fun _ => rfl, fun r r' h => h, rfl⟩,
    ⟨fun _ => rfl, fun _ => rfl, fun _ => rfl, fun _ => rfl, fun r r' h => h, rfl, ?_⟩, fun _ => rfl⟩
  · intro f; funext i j k
    simp only [plainOps, overX, Pi.neg_apply, show -(i + 1) = -i - 1 by ring, show -(i - 1) = -i + 1 by ring]; ring
  · intro f; rfl
  · intro f; constructor <;> funext i j k <;> simp only [plainOps, Pi.neg_apply] <;> ring
  · intro f; rfl
  · intro f; funext i j k
    simp only [plainOps, overY, Pi.neg_apply, show -(j + 1) = -j - 1 by ring, show -(j - 1) = -j + 1 by ring]; ring
  · intro f; constructor <;> funext i j k <;> simp only [plainOps, Pi.neg_apply] <;> ring

/-- A poloidal flow that is not zero, on a grid that meets the hypotheses: the result differs from that of the fields that are
not turned. -/
example : (slantGrid.ystart ≤ 2 ∧ (2 : ℤ) ≤ slantGrid.yend) ∧
    slantGrid.exbXPPM (plainOps 3) (fun _ j _ => (j : ℝ)) (fun i _ _ => (i : ℝ)) false true true 2 2 0 ≠
      slantGrid.exbXPPM (plainOps 3) (fun _ j _ => (j : ℝ)) (fun i _ _ => (i : ℝ)) false true true 2 3 0 := by
  refine ⟨by norm_num [slantGrid, boxGrid], ?_⟩
  rw [slant_value (fun j => (j : ℝ)) true (j := 2) (by norm_num), slant_value (fun j => (j : ℝ)) true (j := 3) (by norm_num)]
  norm_num [limitPositive]

end Hermes.Direction
