import Verif.Props.ParOps

/-!
# C12: advection does not make an empty cell negative

`ddt = -Div_par_mod`.  An "inner" cell is one whose two faces are not physical ends (an end face carries
the prescribed midpoint flux, C11, whatever is in the cell).
-/

namespace Hermes.ParOps
open Finset Hermes Hermes.Limiters

/-- Both faces of cell `i` are between two cells of the simulated domain. -/
def Inner (g : Line) (i : ℤ) : Prop :=
  g.ystart ≤ i ∧ i ≤ g.yend ∧ g.isFirst i = false ∧ g.isLast i = false

/-- All metric quantities positive where used. -/
structure Positive (g : Line) : Prop where
  J : ∀ i, 0 < g.J i
  g22 : ∀ i, 0 < g.g22 i
  dx : ∀ i, 0 < g.dx i
  dy : ∀ i, 0 < g.dy i
  dz : ∀ i, 0 < g.dz i

theorem Positive.faceR_pos {g : Line} (h : Positive g) (i : ℤ) : 0 < g.faceR i := by
  unfold Line.faceR
  have := h.J i
  have := h.J (i + 1)
  have := Real.sqrt_pos.2 (h.g22 i)
  have := Real.sqrt_pos.2 (h.g22 (i + 1))
  positivity

theorem inner_total_upper {g : Line} {i : ℤ} (h : Inner g i) (FR FL : ℤ → ℝ) :
    g.total FR FL i = FR i + FL (i + 1) := by
  obtain ⟨h1, h2, h3, h4⟩ := h
  have a1 := g.le_ye
  have a2 := g.ys_le
  unfold Line.total
  rw [if_pos ⟨by omega, by omega⟩, if_pos]
  refine ⟨by omega, ?_⟩
  unfold Line.isLast at h4
  unfold Line.ye
  by_cases e : i = g.yend
  · cases hl : g.lastY <;> cases hp : g.periodicY <;> simp_all
  · split <;> omega

theorem inner_total_lower {g : Line} {i : ℤ} (h : Inner g i) (FR FL : ℤ → ℝ) :
    g.total FR FL (i - 1) = FR (i - 1) + FL i := by
  obtain ⟨h1, h2, h3, h4⟩ := h
  have a1 := g.le_ye
  have a2 := g.ys_le
  unfold Line.total
  rw [sub_add_cancel, if_pos, if_pos ⟨by omega, by omega⟩]
  refine ⟨?_, by omega⟩
  unfold Line.isFirst at h3
  unfold Line.ys
  by_cases e : i = g.ystart
  · cases hl : g.firstY <;> cases hp : g.periodicY <;> simp_all
  · split <;> omega

theorem inner_isLast_pred {g : Line} {i : ℤ} (h : Inner g i) : g.isLast (i - 1) = false := by
  obtain ⟨h1, h2, h3, h4⟩ := h
  unfold Line.isLast
  have : (i - 1 == g.yend) = false := by simp; omega
  simp [this]

theorem inner_isFirst_succ {g : Line} {i : ℤ} (h : Inner g i) : g.isFirst (i + 1) = false := by
  obtain ⟨h1, h2, h3, h4⟩ := h
  unfold Line.isFirst
  have : (i + 1 == g.ystart) = false := by simp; omega
  simp [this]

theorem abs_le_of_between {x a b A : ℝ} (h : Between x a b) (ha : |a| ≤ A) (hb : |b| ≤ A) :
    -A ≤ x ∧ x ≤ A := by
  obtain ⟨h1, h2⟩ := h
  obtain ⟨a1, a2⟩ := abs_le.1 ha
  obtain ⟨b1, b2⟩ := abs_le.1 hb
  exact ⟨(le_min a1 b1).trans h1, h2.trans (max_le a2 b2)⟩

theorem max4_bounds (a b c d : ℝ) : a ≤ max4 a b c d ∧ b ≤ max4 a b c d ∧ c ≤ max4 a b c d ∧ d ≤ max4 a b c d := by
  unfold max4
  refine ⟨?_, ?_, ?_, ?_⟩ <;> simp

/-- Fastest speed at the upper face of cell `i`, `include/div_ops.hxx:645-646`. -/
noncomputable def speedUp (v w : ℤ → ℝ) (i : ℤ) : ℝ := max (max (w i) (w (i + 1))) (max |v i| |v (i + 1)|)

/-- The two one-sided fluxes have a sign and are bounded by the edge value times the fastest speed. -/
theorem modFluxR_bounds {g : Line} {lim : Limiter} (hl : MonotoneLim lim) {f : ℤ → ℝ} (v w : ℤ → ℝ)
    (fix : Bool) {j : ℤ} (hj : g.isLast j = false) (hm : 0 ≤ f (j - 1)) (hc : 0 ≤ f j) (hp : 0 ≤ f (j + 1)) :
    0 ≤ g.modFluxR lim f v w fix j ∧
      g.modFluxR lim f v w fix j ≤ (lim (f (j - 1)) (f j) (f (j + 1))).2 * speedUp v w j := by
  obtain ⟨m1, m2, m3, m4⟩ := max4_bounds (w j) (w (j + 1)) |v j| |v (j + 1)|
  have e := edges_nonneg hl hm hc hp
  obtain ⟨b1, b2⟩ := abs_le_of_between (hl.right_between (v (j - 1)) (v j) (v (j + 1))) m3 m4
  unfold Line.modFluxR
  simp only [hj, Bool.false_eq_true, if_false, edges]
  change 0 ≤ _ * 0.5 * (_ + max4 _ _ _ _) ∧ _ * 0.5 * (_ + max4 _ _ _ _) ≤ _ * max4 _ _ _ _
  constructor
  · have h1 : 0 ≤ (lim (v (j - 1)) (v j) (v (j + 1))).2 + max4 (w j) (w (j + 1)) |v j| |v (j + 1)| := by
      linarith
    have := e.2.2.1
    positivity
  · have h1 := mul_le_mul_of_nonneg_left b2 e.2.2.1
    nlinarith

theorem modFluxL_bounds {g : Line} {lim : Limiter} (hl : MonotoneLim lim) {f : ℤ → ℝ} (v w : ℤ → ℝ)
    (fix : Bool) {j : ℤ} (hj : g.isFirst j = false) (hm : 0 ≤ f (j - 1)) (hc : 0 ≤ f j) (hp : 0 ≤ f (j + 1)) :
    g.modFluxL lim f v w fix j ≤ 0 ∧
      -((lim (f (j - 1)) (f j) (f (j + 1))).1 * speedUp v w (j - 1)) ≤ g.modFluxL lim f v w fix j := by
  obtain ⟨m1, m2, m3, m4⟩ := max4_bounds (w j) (w (j - 1)) |v j| |v (j - 1)|
  have e := edges_nonneg hl hm hc hp
  obtain ⟨b1, b2⟩ := abs_le_of_between (hl.left_between (v (j - 1)) (v j) (v (j + 1))) m4 m3
  have es : speedUp v w (j - 1) = max4 (w j) (w (j - 1)) |v j| |v (j - 1)| := by
    unfold speedUp max4
    rw [sub_add_cancel, max_comm (w (j - 1)), max_comm |v (j - 1)|]
  unfold Line.modFluxL
  rw [es]
  simp only [hj, Bool.false_eq_true, if_false, edges]
  constructor
  · have h1 : 0 ≤ max4 (w j) (w (j - 1)) |v j| |v (j - 1)| - (lim (v (j - 1)) (v j) (v (j + 1))).1 := by
      linarith
    have := mul_nonneg e.1 h1
    nlinarith
  · have h1 := mul_le_mul_of_nonneg_left b1 e.1
    nlinarith

/-- C12.  In an inner cell that is empty while its neighbours (two on each side) are not negative, the
divergence is not positive, so that advection can only refill the cell: for every monotone limiter, every
velocity, wave speed and metric. -/
theorem empty_cell_not_drained {g : Line} (hg : Positive g) {lim : Limiter} (hl : MonotoneLim lim)
    {f : ℤ → ℝ} (v w : ℤ → ℝ) (fix : Bool) {i : ℤ} (hi : Inner g i)
    (hf : ∀ j, i - 2 ≤ j → j ≤ i + 2 → 0 ≤ f j) (h0 : f i = 0) :
    (g.divParMod lim f v w fix).result i ≤ 0 := by
  have R0 := modFluxR_bounds (g := g) hl v w fix hi.2.2.2 (hf (i - 1) (by omega) (by omega))
    (hf i (by omega) (by omega)) (hf (i + 1) (by omega) (by omega))
  have L0 := modFluxL_bounds (g := g) hl v w fix hi.2.2.1 (hf (i - 1) (by omega) (by omega))
    (hf i (by omega) (by omega)) (hf (i + 1) (by omega) (by omega))
  have Rm := (modFluxR_bounds (g := g) hl v w fix (inner_isLast_pred hi) (hf (i - 1 - 1) (by omega) (by omega))
    (hf (i - 1) (by omega) (by omega)) (hf (i - 1 + 1) (by omega) (by omega))).1
  have Lp := (modFluxL_bounds (g := g) hl v w fix (inner_isFirst_succ hi) (hf (i + 1 - 1) (by omega) (by omega))
    (hf (i + 1) (by omega) (by omega)) (hf (i + 1 + 1) (by omega) (by omega))).1
  have ex := hl.extremum (f (i - 1)) (f i) (f (i + 1))
    (Or.inr ⟨by rw [h0]; exact hf _ (by omega) (by omega), by rw [h0]; exact hf _ (by omega) (by omega)⟩)
  rw [ex.2, h0, zero_mul] at R0
  rw [ex.1, h0, zero_mul, neg_zero] at L0
  unfold Line.divParMod
  rw [g.fluxLoop_result, inner_total_upper hi, inner_total_lower hi]
  have c1 := hg.faceR_pos i
  have c2 := hg.faceR_pos (i - 1)
  have p := mul_pos (hg.dy i) (hg.J i)
  refine div_nonpos_of_nonpos_of_nonneg ?_ p.le
  have r0 : g.modFluxR lim f v w fix i = 0 := le_antisymm R0.2 R0.1
  have l0 : g.modFluxL lim f v w fix i = 0 := le_antisymm L0.1 L0.2
  rw [r0, l0, zero_add, add_zero]
  nlinarith

/-- C12.  A forward Euler step of an inner cell stays non-negative as long as the time step satisfies the
CFL condition `2 dt (A₊ a₊ + A₋ a₋) ≤ V` with face areas `A`, fastest speeds `a` and cell volume `V`
(all divided by `dx dz`). -/
theorem euler_step_nonneg {g : Line} (hg : Positive g) {lim : Limiter} (hl : MonotoneLim lim)
    {f : ℤ → ℝ} (v w : ℤ → ℝ) (fix : Bool) {i : ℤ} (hi : Inner g i)
    (hf : ∀ j, i - 2 ≤ j → j ≤ i + 2 → 0 ≤ f j) {dt : ℝ} (hdt : 0 ≤ dt)
    (cfl : 2 * dt * (g.faceR i * speedUp v w i + g.faceR (i - 1) * speedUp v w (i - 1)) ≤ g.dy i * g.J i) :
    0 ≤ f i + dt * (-(g.divParMod lim f v w fix).result i) := by
  have n0 := hf i (by omega) (by omega)
  have nm := hf (i - 1) (by omega) (by omega)
  have np := hf (i + 1) (by omega) (by omega)
  have R0 := (modFluxR_bounds (g := g) hl v w fix hi.2.2.2 nm n0 np).2
  have L0 := (modFluxL_bounds (g := g) hl v w fix hi.2.2.1 nm n0 np).2
  have Rm := (modFluxR_bounds (g := g) hl v w fix (inner_isLast_pred hi) (hf (i - 1 - 1) (by omega) (by omega))
    (hf (i - 1) (by omega) (by omega)) (hf (i - 1 + 1) (by omega) (by omega))).1
  have Lp := (modFluxL_bounds (g := g) hl v w fix (inner_isFirst_succ hi) (hf (i + 1 - 1) (by omega) (by omega))
    (hf (i + 1) (by omega) (by omega)) (hf (i + 1 + 1) (by omega) (by omega))).1
  obtain ⟨e1, e2, e3, e4⟩ := edges_nonneg hl nm n0 np
  have sR : 0 ≤ speedUp v w i := by
    unfold speedUp; exact le_max_of_le_right (le_max_of_le_left (abs_nonneg _))
  have sL : 0 ≤ speedUp v w (i - 1) := by
    unfold speedUp; exact le_max_of_le_right (le_max_of_le_left (abs_nonneg _))
  unfold Line.divParMod
  rw [g.fluxLoop_result, inner_total_upper hi, inner_total_lower hi]
  have c1 := hg.faceR_pos i
  have c2 := hg.faceR_pos (i - 1)
  have p := mul_pos (hg.dy i) (hg.J i)
  set FR := g.modFluxR lim f v w fix i
  set FL := g.modFluxL lim f v w fix i
  set FRm := g.modFluxR lim f v w fix (i - 1)
  set FLp := g.modFluxL lim f v w fix (i + 1)
  set a := speedUp v w i
  set b := speedUp v w (i - 1)
  have k1 : FR ≤ 2 * f i * a := R0.trans (mul_le_mul_of_nonneg_right e4 sR)
  have k2 : -FL ≤ 2 * f i * b := by
    have := mul_le_mul_of_nonneg_right e2 sL
    linarith
  have k3 : g.faceR i * (FR + FLp) - g.faceR (i - 1) * (FRm + FL) ≤
      2 * f i * (g.faceR i * a + g.faceR (i - 1) * b) := by
    have t1 := mul_le_mul_of_nonneg_left k1 c1.le
    have t2 := mul_le_mul_of_nonneg_left k2 c2.le
    have t3 := mul_nonneg c1.le (neg_nonneg.2 Lp)
    have t4 := mul_nonneg c2.le Rm
    nlinarith
  have k4 : dt * (g.faceR i * (FR + FLp) - g.faceR (i - 1) * (FRm + FL)) ≤ f i * (g.dy i * g.J i) := by
    have t1 := mul_le_mul_of_nonneg_left k3 hdt
    have t2 := mul_le_mul_of_nonneg_left cfl n0
    nlinarith
  have k5 : dt * ((g.faceR i * (FR + FLp) - g.faceR (i - 1) * (FRm + FL)) / (g.dy i * g.J i)) ≤ f i := by
    rw [← mul_div_assoc, div_le_iff₀ p]; exact k4
  linarith

/-- C12, cell at a physical end, default `fixflux`: the empty cell is not drained if the midpoint flux at the
end does not point outwards, e.g. after `noflow_boundary`, or when the guard cell value is not positive. -/
theorem empty_end_cell_not_drained_partial {g : Line} (hg : Positive g) (hn : g.ystart < g.yend)
    (hc : Closed g) {lim : Limiter} (hl : MonotoneLim lim) {f : ℤ → ℝ} (v w : ℤ → ℝ)
    (hf : ∀ j, 0 ≤ f j) (h0 : f g.yend = 0)
    (hout : f (g.yend + 1) * (v g.yend + v (g.yend + 1)) ≤ 0) :
    (g.divParMod lim f v w true).result g.yend ≤ 0 := by
  have hF : g.isFirst g.yend = false := by unfold Line.isFirst; simp; omega
  have hFm : g.isLast (g.yend - 1) = false := by unfold Line.isLast; simp
  have L0 := modFluxL_bounds (g := g) hl v w true hF (hf _) (hf _) (hf _)
  have Rm := (modFluxR_bounds (g := g) hl v w true hFm (hf _) (hf _) (hf _)).1
  have ex := hl.extremum (f (g.yend - 1)) (f g.yend) (f (g.yend + 1))
    (Or.inr ⟨by rw [h0]; exact hf _, by rw [h0]; exact hf _⟩)
  rw [ex.1, h0, zero_mul, neg_zero] at L0
  have l0 : g.modFluxL lim f v w true g.yend = 0 := le_antisymm L0.1 L0.2
  have tl : g.total (g.modFluxR lim f v w true) (g.modFluxL lim f v w true) (g.yend - 1)
      = g.modFluxR lim f v w true (g.yend - 1) := by
    unfold Line.total Line.ys Line.ye
    obtain ⟨h1, h2, h3⟩ := hc
    simp only [h1, h2, h3, Bool.not_true, Bool.or_false, Bool.false_eq_true, if_false]
    rw [if_pos ⟨by omega, by omega⟩, if_pos ⟨by omega, by omega⟩, sub_add_cancel, l0, add_zero]
  unfold Line.divParMod
  rw [g.fluxLoop_result, total_at_upper_end hc hn.le, tl]
  have p := mul_pos (hg.dy g.yend) (hg.J g.yend)
  refine div_nonpos_of_nonpos_of_nonneg ?_ p.le
  have r : g.modFluxR lim f v w true g.yend = 0.25 * (f (g.yend + 1) * (v g.yend + v (g.yend + 1))) := by
    simp only [Line.modFluxR, Line.isLast, hc.2.1, hc.2.2, beq_self_eq_true, Bool.and_self, Bool.not_false,
      if_true, h0]
    ring
  rw [r]
  have t1 := mul_nonneg (hg.faceR_pos g.yend).le (neg_nonneg.2 hout)
  have t2 := mul_nonneg (hg.faceR_pos (g.yend - 1)).le Rm
  nlinarith

/-- C12, negation at an end: with a positive guard value and outflow the prescribed midpoint flux drains an
empty cell below zero. -/
theorem empty_end_cell_can_be_drained : ∃ (g : Line) (f v w : ℤ → ℝ), Positive g ∧ Closed g ∧
    g.ystart < g.yend ∧ (∀ j, 0 ≤ f j) ∧ f g.yend = 0 ∧
    0 < (g.divParMod upwind f v w true).result g.yend := by
  let g : Line := ⟨0, 1, true, true, false, fun _ => 1, fun _ => 1, fun _ => 1, fun _ => 1, fun _ => 1⟩
  have hc : Closed g := ⟨rfl, rfl, rfl⟩
  refine ⟨g, fun j => if j = 2 then 1 else 0, fun _ => 1, fun _ => 0,
    ⟨fun _ => one_pos, fun _ => one_pos, fun _ => one_pos, fun _ => one_pos, fun _ => one_pos⟩, hc,
    by decide, fun j => by dsimp only; split <;> norm_num, by simp [g], ?_⟩
  unfold Line.divParMod
  rw [g.fluxLoop_result, total_at_upper_end hc (by decide)]
  simp [g, Line.total, Line.ys, Line.ye, Line.modFluxR, Line.modFluxL, Line.isLast, Line.isFirst, edges,
    upwind, Line.faceR]
  norm_num

/-- Non-vacuity: a line with an inner empty cell between full ones, MC limiter. -/
example : ∃ (g : Line) (f v w : ℤ → ℝ), Positive g ∧ Inner g 3 ∧
    (∀ j, 3 - 2 ≤ j → j ≤ 3 + 2 → 0 ≤ f j) ∧ f 3 = 0 ∧ f 2 = 1 ∧
    (g.divParMod mc f v w true).result 3 ≤ 0 := by
  let g : Line := ⟨0, 7, true, true, false, fun _ => 1, fun _ => 4, fun _ => 1, fun _ => 1, fun _ => 1⟩
  have hp : Positive g :=
    ⟨fun _ => one_pos, fun _ => four_pos, fun _ => one_pos, fun _ => one_pos, fun _ => one_pos⟩
  have hi : Inner g 3 := ⟨by decide, by decide, by decide, by decide⟩
  have hf : ∀ j : ℤ, 3 - 2 ≤ j → j ≤ 3 + 2 → (0:ℝ) ≤ (fun j : ℤ => if j = 3 then (0:ℝ) else 1) j :=
    fun j _ _ => by dsimp only; split <;> norm_num
  exact ⟨g, _, fun j => (j : ℝ) - 3, fun _ => 1, hp, hi, hf, by simp, by norm_num,
    empty_cell_not_drained hp mc_monotone _ _ true hi hf (by simp)⟩

end Hermes.ParOps
