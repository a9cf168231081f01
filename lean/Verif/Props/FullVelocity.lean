import Verif.Model.FullVelocity
import Verif.Props.Reactions
import Mathlib.Algebra.BigOperators.Ring.Finset
import Mathlib.Algebra.Order.BigOperators.Group.Finset
import Mathlib.Tactic.Positivity
import Mathlib.Tactic.FieldSimp
import Mathlib.Tactic.Linarith
import Mathlib.Tactic.LinearCombination

/-!
# C72: axisymmetric neutral gas
-/

namespace Hermes.FullVelocity
open Finset

/-! ## Geometry -/

/-- A cell in which the grid is not degenerate. -/
structure Sound (m : Mesh) (q : Geometry) (i j : ℤ) : Prop where
  hthe : 0 < q.hthe i j
  field : 0 < q.Bpxy i j * q.Rxy i j
  eta : q.etaxy i j ^ 2 < 1
  across : dpsi m q.Rxy i j * dtheta m q.Zxy i j ≠ dpsi m q.Zxy i j * dtheta m q.Rxy i j

/-- C72.  Going to cylindrical components and back gives the velocity again, and the other way round. -/
theorem rotation_inverse {m : Mesh} {q : Geometry} {i j : ℤ} (h : Sound m q i j) (a b : ℝ) :
    let r := rotation m q i j
    (r.Urx * (r.Txr * a + r.Tyr * b) + r.Uzx * (r.Txz * a + r.Tyz * b) = a) ∧
    (r.Ury * (r.Txr * a + r.Tyr * b) + r.Uzy * (r.Txz * a + r.Tyz * b) = b) ∧
    (r.Txr * (r.Urx * a + r.Uzx * b) + r.Tyr * (r.Ury * a + r.Uzy * b) = a) ∧
    (r.Txz * (r.Urx * a + r.Uzx * b) + r.Tyz * (r.Ury * a + r.Uzy * b) = b) := by
  intro r
  have hJ : r.Urx * r.Uzy - r.Uzx * r.Ury ≠ 0 := by
    have hθ : 0 < dtheta m q.Rxy i j ^ 2 + dtheta m q.Zxy i j ^ 2 := by
      rcases eq_or_ne (dtheta m q.Rxy i j) 0 with h0 | h0
      · rcases eq_or_ne (dtheta m q.Zxy i j) 0 with h1 | h1
        · exact absurd (by rw [h0, h1]; ring) h.across
        · have := sq_pos_of_ne_zero h1; positivity
      · have := sq_pos_of_ne_zero h0; positivity
    have hψ : 0 < dpsi m q.Rxy i j ^ 2 + dpsi m q.Zxy i j ^ 2 := by
      rcases eq_or_ne (dpsi m q.Rxy i j) 0 with h0 | h0
      · rcases eq_or_ne (dpsi m q.Zxy i j) 0 with h1 | h1
        · exact absurd (by rw [h0, h1]; ring) h.across
        · have := sq_pos_of_ne_zero h1; positivity
      · have := sq_pos_of_ne_zero h0; positivity
    have s1 := Real.sqrt_pos.2 hθ
    have s2 := Real.sqrt_pos.2 hψ
    have s3 : 0 < Real.sqrt (1 - q.etaxy i j ^ 2) := Real.sqrt_pos.2 (by linarith [h.eta])
    have hh := h.hthe
    have hf := h.field
    have e : r.Urx * r.Uzy - r.Uzx * r.Ury = (dpsi m q.Rxy i j * dtheta m q.Zxy i j - dpsi m q.Zxy i j * dtheta m q.Rxy i j)
        * (q.hthe i j / (Real.sqrt (dtheta m q.Rxy i j ^ 2 + dtheta m q.Zxy i j ^ 2)
          * (Real.sqrt (dpsi m q.Rxy i j ^ 2 + dpsi m q.Zxy i j ^ 2) * Real.sqrt (1 - q.etaxy i j ^ 2) * q.Bpxy i j * q.Rxy i j))) := by
      simp only [r, rotation, one_div, div_inv_eq_mul]
      ring
    rw [e]
    refine mul_ne_zero (sub_ne_zero.2 h.across) (ne_of_gt ?_)
    rw [mul_assoc (_ * _) (q.Bpxy i j)]
    positivity
  have e1 : r.Txr = r.Uzy / (r.Urx * r.Uzy - r.Uzx * r.Ury) := rfl
  have e2 : r.Txz = -r.Ury / (r.Urx * r.Uzy - r.Uzx * r.Ury) := rfl
  have e3 : r.Tyr = -r.Uzx / (r.Urx * r.Uzy - r.Uzx * r.Ury) := rfl
  have e4 : r.Tyz = r.Urx / (r.Urx * r.Uzy - r.Uzx * r.Ury) := rfl
  rw [e1, e2, e3, e4]
  generalize r.Urx = A at *
  generalize r.Ury = Bb at *
  generalize r.Uzx = C at *
  generalize r.Uzy = Dd at *
  have hD : ∀ x y : ℝ, x = y * (A * Dd - C * Bb) → x / (A * Dd - C * Bb) = y := fun x y h => (div_eq_iff hJ).2 h
  refine ⟨Eq.trans ?_ (hD (a * (A * Dd - C * Bb)) a rfl), Eq.trans ?_ (hD (b * (A * Dd - C * Bb)) b rfl), Eq.trans ?_ (hD (a * (A * Dd - C * Bb)) a rfl),
    Eq.trans ?_ (hD (b * (A * Dd - C * Bb)) b rfl)⟩ <;> ring

/-- C72.  The basis vectors have the lengths that the grid file gives: `hthe` along θ, `1/(R B_p cos β)` along ψ. -/
theorem rotation_lengths {m : Mesh} {q : Geometry} {i j : ℤ} (h : Sound m q i j) :
    (rotation m q i j).Ury ^ 2 + (rotation m q i j).Uzy ^ 2 = q.hthe i j ^ 2 ∧
    (rotation m q i j).Urx ^ 2 + (rotation m q i j).Uzx ^ 2 = 1 / ((q.Rxy i j * q.Bpxy i j) ^ 2 * (1 - q.etaxy i j ^ 2)) := by
  have hθ : 0 < dtheta m q.Rxy i j ^ 2 + dtheta m q.Zxy i j ^ 2 := by
    rcases eq_or_ne (dtheta m q.Rxy i j) 0 with h0 | h0
    · rcases eq_or_ne (dtheta m q.Zxy i j) 0 with h1 | h1
      · exact absurd (by rw [h0, h1]; ring) h.across
      · have := sq_pos_of_ne_zero h1; positivity
    · have := sq_pos_of_ne_zero h0; positivity
  have hψ : 0 < dpsi m q.Rxy i j ^ 2 + dpsi m q.Zxy i j ^ 2 := by
    rcases eq_or_ne (dpsi m q.Rxy i j) 0 with h0 | h0
    · rcases eq_or_ne (dpsi m q.Zxy i j) 0 with h1 | h1
      · exact absurd (by rw [h0, h1]; ring) h.across
      · have := sq_pos_of_ne_zero h1; positivity
    · have := sq_pos_of_ne_zero h0; positivity
  have a1 : Real.sqrt (dtheta m q.Rxy i j ^ 2 + dtheta m q.Zxy i j ^ 2) ^ 2 = dtheta m q.Rxy i j ^ 2 + dtheta m q.Zxy i j ^ 2 :=
    Real.sq_sqrt hθ.le
  have a2 : Real.sqrt (dpsi m q.Rxy i j ^ 2 + dpsi m q.Zxy i j ^ 2) ^ 2 = dpsi m q.Rxy i j ^ 2 + dpsi m q.Zxy i j ^ 2 :=
    Real.sq_sqrt hψ.le
  have he : 0 < 1 - q.etaxy i j ^ 2 := by linarith [h.eta]
  have a3 : Real.sqrt (1 - q.etaxy i j ^ 2) ^ 2 = 1 - q.etaxy i j ^ 2 := Real.sq_sqrt he.le
  have hf : q.Rxy i j * q.Bpxy i j ≠ 0 := by rw [mul_comm]; exact h.field.ne'
  constructor
  · have : (rotation m q i j).Ury ^ 2 + (rotation m q i j).Uzy ^ 2 =
        q.hthe i j ^ 2 * (dtheta m q.Rxy i j ^ 2 + dtheta m q.Zxy i j ^ 2) / Real.sqrt (dtheta m q.Rxy i j ^ 2 + dtheta m q.Zxy i j ^ 2) ^ 2 := by
      simp only [rotation, one_div, div_inv_eq_mul]
      ring
    rw [this, a1]
    field_simp
  · have : (rotation m q i j).Urx ^ 2 + (rotation m q i j).Uzx ^ 2 =
        (dpsi m q.Rxy i j ^ 2 + dpsi m q.Zxy i j ^ 2) / (Real.sqrt (dpsi m q.Rxy i j ^ 2 + dpsi m q.Zxy i j ^ 2) ^ 2
          * Real.sqrt (1 - q.etaxy i j ^ 2) ^ 2 * (q.Rxy i j * q.Bpxy i j) ^ 2) := by
      simp only [rotation]
      ring
    rw [this, a2, a3]
    field_simp

/-- C72.  Gas that moves as a whole in the poloidal plane, with no pressure gradient and no force, keeps its velocity, whatever the curvature of the grid:
advection and viscosity of constants are zero, and that is all that is asked of the operators. -/
theorem uniform_motion_persists {o : Opts} {m : Mesh} {T : ℤ → ℤ → Rotation} {B : Ops} {g : Gas} {s : Sources} {cr cz : ℝ}
    (hadv : ∀ V (c : ℝ), B.adv V (fun _ _ => c) = 0) (hlap : ∀ a (c : ℝ), B.laplace a (fun _ _ => c) = 0)
    (hr : toR T g.V = fun _ _ => cr) (hz : toZ T g.V = fun _ _ => cz) (hP : ∀ i j, (B.grad g.P).x i j = 0 ∧ (B.grad g.P).y i j = 0)
    (hs : s.momentum_source = none) (i j : ℤ) : (ddtV o m T B g s).x i j = 0 ∧ (ddtV o m T B g s).y i j = 0 := by
  simp only [ddtV, hr, hz, hadv, hlap, backX, backY, (hP i j).1, (hP i j).2, hs, Option.getD_none, Pi.zero_apply]
  constructor <;> simp

/-- The differences are exact for a coordinate that varies uniformly, in every cell, also at the ends. -/
theorem differences_exact {m : Mesh} {h w : ℝ} (hh : h ≠ 0) (hw : w ≠ 0) (hdy : ∀ i j, m.dy i j = h) (hdx : ∀ i j, m.dx i j = w) (a b c : ℝ) (i j : ℤ) :
    dtheta m (fun i j => a + b * (i * w) + c * (j * h)) i j = c ∧ dpsi m (fun i j => a + b * (i * w) + c * (j * h)) i j = b := by
  unfold dtheta dpsi
  simp only [hdy, hdx]
  push_cast
  constructor <;> split_ifs <;> field_simp <;> ring

/-- C72.  In cylindrical components the gas obeys `dv/dt = -V·∇v + ∇·(η∇v) - ∇p/(m n) + F b/(m n)`: the first two terms act on each cylindrical component by
itself, whatever the grid. -/
theorem cylindrical_acceleration {m : Mesh} {q : Geometry} {i j : ℤ} (h : Sound m q i j) (o : Opts) (B : Ops) (g : Gas) (s : Sources) :
    let T := rotation m q
    let force : Vec := { x := fun i j => -(B.grad g.P).x i j / (o.AA * floor2 g.N 1e-2 i j)
                         y := fun i j => (s.momentum_source.getD 0 i j * (m.J i j * m.Bxy i j) - (B.grad g.P).y i j) / (o.AA * floor2 g.N 1e-2 i j)
                         z := fun _ _ => 0 }
    toR T (ddtV o m T B g s) i j = -B.adv g.V (toR T g.V) i j + B.laplace o.neutral_viscosity (toR T g.V) i j + toR T force i j ∧
    toZ T (ddtV o m T B g s) i j = -B.adv g.V (toZ T g.V) i j + B.laplace o.neutral_viscosity (toZ T g.V) i j + toZ T force i j := by
  intro T force
  obtain ⟨-, -, a1, a2⟩ := rotation_inverse h (-B.adv g.V (toR T g.V) i j + B.laplace o.neutral_viscosity (toR T g.V) i j)
    (-B.adv g.V (toZ T g.V) i j + B.laplace o.neutral_viscosity (toZ T g.V) i j)
  constructor
  · simp only [toR, ddtV, backX, backY, force] at a1 ⊢
    linear_combination a1
  · simp only [toR, toZ, ddtV, backX, backY, force] at a2 ⊢
    linear_combination a2

/-! ## Published values -/

/-- C72.  What other components see: a density of at least `1e-8`, a temperature of at least `0.01 eV`, and a momentum that is mass times density times
velocity; for every state of the gas, also negative densities. -/
theorem published_values (o : Opts) (m : Mesh) (g : Gas) (i j : ℤ) :
    ∃ N T V NV, (transform o m g).2.2.density = some N ∧ (transform o m g).2.2.temperature = some T ∧ (transform o m g).2.2.velocity = some V ∧
      (transform o m g).2.2.momentum = some NV ∧ 1e-8 ≤ N i j ∧ 0.01 / o.Tnorm ≤ T i j ∧ NV i j = o.AA * N i j * V i j ∧
      (1e-8 ≤ g.N i j → N i j = g.N i j) ∧ (0.01 / o.Tnorm ≤ g.P i j / g.N i j → T i j = g.P i j / g.N i j) := by
  refine ⟨_, _, _, _, rfl, rfl, rfl, rfl, ?_, ?_, ?_, ?_, ?_⟩
  · unfold floor2; split_ifs with h
    · exact le_rfl
    · exact not_lt.1 h
  · unfold floor2; split_ifs with h
    · exact le_rfl
    · exact not_lt.1 h
  · ring
  · intro h; unfold floor2; rw [if_neg (not_lt.2 h)]
  · intro h; unfold floor2; rw [if_neg (not_lt.2 h)]

/-- C72.  Gas that moves along the field with speed `v`, that is with the covariant component `J B v`, is seen by the other components with this velocity. -/
theorem published_velocity {o : Opts} (ho : o.outflow_ydown = false) (m : Mesh) (g : Gas) {i j : ℤ} (hJ : m.J i j * m.Bxy i j ≠ 0) {v : ℝ}
    (hv : g.V.y i j = m.J i j * m.Bxy i j * v) : ∃ V, (transform o m g).2.2.velocity = some V ∧ V i j = v := by
  refine ⟨_, rfl, ?_⟩
  simp only [ho, Bool.false_eq_true, if_false, hv]
  exact mul_div_cancel_left₀ v hJ

/-- C72.  With `outflow_ydown` gas leaves through the lower boundary or stands still there; it does not enter.  `V.y` on the boundary face is the mean of
the two cells. -/
theorem outflow_only {o : Opts} (ho : o.outflow_ydown = true) (m : Mesh) (g : Gas) {i : ℤ} (hi : m.lower i = true) :
    let g' := (transform o m g).1
    (g'.V.y i (m.ystart - 1) + g'.V.y i m.ystart) / 2 = min (g.V.y i m.ystart) 0 ∧
    g'.N i (m.ystart - 1) = g.N i m.ystart ∧ g'.P i (m.ystart - 1) = g.P i m.ystart ∧
    ∀ j, j ≠ m.ystart - 1 → g'.N i j = g.N i j ∧ g'.P i j = g.P i j ∧ g'.V.x i j = g.V.x i j ∧ g'.V.y i j = g.V.y i j ∧ g'.V.z i j = g.V.z i j := by
  intro g'
  have e : g' = outflow m g := by simp only [g', transform, ho, if_true]
  clear_value g'
  subst e
  have h1 : ∀ (f : F2) (v : ℤ → ℝ), setLower m f v i (m.ystart - 1) = v i := by intro f v; simp [setLower, hi]
  have h2 : ∀ (f : F2) (v : ℤ → ℝ) j, j ≠ m.ystart - 1 → setLower m f v i j = f i j := by intro f v j hj; simp [setLower, hj]
  have hne : m.ystart ≠ m.ystart - 1 := by omega
  simp only [outflow, h1]
  refine ⟨?_, trivial, trivial, fun j hj => by simp only [h2 _ _ j hj, and_self]⟩
  rw [h2 _ _ _ hne]
  split_ifs with h
  · rw [min_eq_left h.le]; ring
  · rw [min_eq_right (not_lt.1 h)]; ring

/-! ## Equations -/

/-- C72.  Below the floor the density does not fall; above it, it changes by the flow and the source. -/
theorem density_not_driven_down (B : Ops) (g : Gas) (s : Sources) (i j : ℤ) :
    (g.N i j < 1e-8 → 0 ≤ ddtN B g s i j) ∧ (1e-8 ≤ g.N i j → ddtN B g s i j = -B.div g.V g.N i j + s.density_source.getD 0 i j) := by
  unfold ddtN
  simp only
  constructor
  · intro h
    split_ifs with h1
    · exact le_rfl
    · exact not_lt.1 fun h2 => h1 ⟨h, h2⟩
  · intro h
    rw [if_neg fun h1 => absurd h1.1 (not_lt.2 h)]

/-- Power through the wall next to cell `a` with guard cell `b`: `γ n T √T` times the area of the face per unit `dx dz`, with values on the face, taken as
zero if negative. -/
noncomputable def wallPower (o : Opts) (m : Mesh) (N T : F2) (i a b : ℤ) : ℝ :=
  o.neutral_gamma * max 0 ((N i a + N i b) / 2) * max 0 ((T i a + T i b) / 2) * Real.sqrt (max 0 ((T i a + T i b) / 2))
    * ((m.J i a + m.J i b) / (Real.sqrt (m.g_22 i a) + Real.sqrt (m.g_22 i b)))

theorem wallLoss_eq (o : Opts) (m : Mesh) (N T : F2) (i a b : ℤ) :
    wallLoss o m N T i a b = 2 / 3 * wallPower o m N T i a b / (m.dy i a * m.J i a) := by
  have h : ∀ x y : ℝ, (if 0.5 * (x + y) < 0 then 0 else 0.5 * (x + y)) = max 0 ((x + y) / 2) := by
    intro x y
    have e : 0.5 * (x + y) = (x + y) / 2 := by norm_num; ring
    rw [e]
    split_ifs with h
    · rw [max_eq_left h.le]
    · rw [max_eq_right (not_lt.1 h)]
  unfold wallLoss wallPower
  simp only [h]
  ring

/-- A mesh with positive volumes. -/
structure Mesh.Positive (m : Mesh) : Prop where
  nonempty : m.ystart ≤ m.yend
  J : ∀ i j, 0 < m.J i j
  dy : ∀ i j, 0 < m.dy i j

/-- C72.  The heat that a column of gas loses at its ends is exactly the power through the two walls: `3/2` times the integral of the loss over the column.
It is never negative. -/
theorem wall_heat {o : Opts} (hγ : 0 ≤ o.neutral_gamma) {m : Mesh} (hm : m.Positive) (N T : F2) (i : ℤ) :
    3 / 2 * ∑ j ∈ Icc m.ystart m.yend, wallLosses o m N T i j * (m.J i j * m.dy i j) =
      (if m.lower i = true then wallPower o m N T i m.ystart (m.ystart - 1) else 0)
        + (if m.upper i = true then wallPower o m N T i m.yend (m.yend + 1) else 0) ∧
    ∀ j, 0 ≤ wallLosses o m N T i j := by
  have hp : ∀ a b, 0 ≤ wallPower o m N T i a b := by
    intro a b
    have h1 := (hm.J i a).le
    have h2 := (hm.J i b).le
    unfold wallPower
    have := le_max_left 0 ((N i a + N i b) / 2)
    have := le_max_left 0 ((T i a + T i b) / 2)
    positivity
  have hl : ∀ a b, 0 ≤ wallLoss o m N T i a b := by
    intro a b
    rw [wallLoss_eq]
    have h1 := hm.J i a
    have h2 := hm.dy i a
    have := hp a b
    positivity
  constructor
  · unfold wallLosses
    simp only [add_mul, ite_mul, zero_mul, Finset.sum_add_distrib]
    have c : ∀ a b, wallLoss o m N T i a b * (m.J i a * m.dy i a) = 2 / 3 * wallPower o m N T i a b := by
      intro a b
      have h1 := (hm.J i a).ne'
      have h2 := (hm.dy i a).ne'
      rw [wallLoss_eq]
      field_simp
    have e1 : ∑ j ∈ Icc m.ystart m.yend, (if j = m.ystart ∧ m.lower i = true then
        wallLoss o m N T i m.ystart (m.ystart - 1) * (m.J i j * m.dy i j) else 0) =
        if m.lower i = true then 2 / 3 * wallPower o m N T i m.ystart (m.ystart - 1) else 0 := by
      rw [Finset.sum_eq_single m.ystart]
      · simp only [true_and]
        rw [c]
      · intro j _ hj; rw [if_neg fun h => hj h.1]
      · intro h; exact absurd (mem_Icc.2 ⟨le_rfl, hm.nonempty⟩) h
    have e2 : ∑ j ∈ Icc m.ystart m.yend, (if j = m.yend ∧ m.upper i = true then
        wallLoss o m N T i m.yend (m.yend + 1) * (m.J i j * m.dy i j) else 0) =
        if m.upper i = true then 2 / 3 * wallPower o m N T i m.yend (m.yend + 1) else 0 := by
      rw [Finset.sum_eq_single m.yend]
      · simp only [true_and]
        rw [c]
      · intro j _ hj; rw [if_neg fun h => hj h.1]
      · intro h; exact absurd (mem_Icc.2 ⟨hm.nonempty, le_rfl⟩) h
    rw [e1, e2, mul_add]
    congr 1 <;> · split_ifs <;> ring
  · intro j
    unfold wallLosses
    refine add_nonneg ?_ ?_ <;> · split_ifs <;> first | exact hl _ _ | exact le_rfl

/-- C72.  A force along the field accelerates the gas as it should where the density is at least `1e-2`: mass times density times the change of the
parallel velocity is the momentum source. -/
theorem momentum_source_received (o : Opts) (hA : o.AA ≠ 0) (m : Mesh) (T : ℤ → ℤ → Rotation) (B : Ops) (g : Gas) (F : F2) (sn se : Option F2) {i j : ℤ}
    (hJ : m.J i j * m.Bxy i j ≠ 0) (hN : 1e-2 ≤ g.N i j) :
    o.AA * g.N i j * (((ddtV o m T B g ⟨sn, some F, se⟩).y i j - (ddtV o m T B g ⟨sn, none, se⟩).y i j) / (m.J i j * m.Bxy i j)) = F i j := by
  have hN0 : g.N i j ≠ 0 := by
    have : (0 : ℝ) < 1e-2 := by norm_num
    exact (this.trans_le hN).ne'
  have hf : floor2 g.N 1e-2 i j = g.N i j := by unfold floor2; rw [if_neg (not_lt.2 hN)]
  simp only [ddtV, Option.getD_some, Option.getD_none, Pi.zero_apply, hf]
  generalize m.J i j * m.Bxy i j = K at *
  field_simp
  ring

/-- C72.  A source of energy heats the gas by as much: three halves of the pressure. -/
theorem energy_source_received (o : Opts) (m : Mesh) (B : Ops) (g : Gas) (Tn2D Q : F2) (sn sm : Option F2) (i j : ℤ) :
    3 / 2 * (ddtP o m B g Tn2D ⟨sn, sm, some Q⟩ i j - ddtP o m B g Tn2D ⟨sn, sm, none⟩ i j) = Q i j := by
  simp only [ddtP, Option.getD_some, Option.getD_none, Pi.zero_apply]
  ring

/-- Scalar product of two vectors given by covariant components, with the contravariant metric `G`. -/
def scalar (G : Fin 3 → Fin 3 → F2) (V W : Vec) : F2 := fun i j =>
  G 0 0 i j * V.x i j * W.x i j + G 1 1 i j * V.y i j * W.y i j + G 2 2 i j * V.z i j * W.z i j
    + G 0 1 i j * (V.x i j * W.y i j + V.y i j * W.x i j) + G 0 2 i j * (V.x i j * W.z i j + V.z i j * W.x i j)
    + G 1 2 i j * (V.y i j * W.z i j + V.z i j * W.y i j)

/-- Difference of two vectors. -/
def Vec.minus (V W : Vec) : Vec := ⟨fun i j => V.x i j - W.x i j, fun i j => V.y i j - W.y i j, fun i j => V.z i j - W.z i j⟩

/-- Kinetic energy that the gas gains because of its pressure: mass density times `V · dV/dt`, with the pressure gradient less without it. -/
noncomputable def pressureWork (o : Opts) (m : Mesh) (T : ℤ → ℤ → Rotation) (B : Ops) (G : Fin 3 → Fin 3 → F2) (g : Gas) (s : Sources) : F2 := fun i j =>
  o.AA * g.N i j * scalar G g.V ((ddtV o m T B g s).minus (ddtV o m T { B with grad := fun _ => ⟨0, 0, 0⟩ } g s)) i j

/-- Heat that the gas gains by compression: with the divergence of the velocity less without it. -/
noncomputable def compressionHeat (o : Opts) (m : Mesh) (B : Ops) (g : Gas) (Tn2D : F2) (s : Sources) : F2 := fun i j =>
  1 / (o.gamma_ratio - 1) * (ddtP o m B g Tn2D s i j - ddtP o m { B with bc := fun _ => 0 } g Tn2D s i j)

/-- C72.  What the gas gains in kinetic energy from its pressure it loses in heat, over any region in which the density is at least `1e-2` and gradient and
divergence are adjoint (up to the boundary term `bnd`).  Partial: not below that density, and the adjointness of the operators of BOUT++ is assumed. -/
theorem pressure_work_balances_partial {o : Opts} (hA : o.AA ≠ 0) (hγ : o.gamma_ratio ≠ 1) (m : Mesh) (T : ℤ → ℤ → Rotation) (B : Ops)
    (G : Fin 3 → Fin 3 → F2) (g : Gas) (Tn2D : F2) (s : Sources) (cells : Finset (ℤ × ℤ)) (vol : F2) (bnd : ℝ)
    (hadj : ∑ c ∈ cells, (scalar G g.V (B.grad g.P) c.1 c.2 + g.P c.1 c.2 * B.bc (B.divV g.V) c.1 c.2) * vol c.1 c.2 = bnd)
    (hN : ∀ c ∈ cells, 1e-2 ≤ g.N c.1 c.2) :
    ∑ c ∈ cells, (pressureWork o m T B G g s c.1 c.2 + compressionHeat o m B g Tn2D s c.1 c.2) * vol c.1 c.2 = -bnd := by
  rw [← hadj, ← Finset.sum_neg_distrib]
  refine Finset.sum_congr rfl fun c hc => ?_
  have h := hN c hc
  have h0 : (0 : ℝ) < g.N c.1 c.2 := lt_of_lt_of_le (by norm_num) h
  have f1 : floor2 g.N 1e-2 c.1 c.2 = g.N c.1 c.2 := by unfold floor2; rw [if_neg (not_lt.2 h)]
  have f2 : floor2 g.N 0 c.1 c.2 = g.N c.1 c.2 := by unfold floor2; rw [if_neg (not_lt.2 h0.le)]
  have hn := h0.ne'
  have hg : o.gamma_ratio - 1 ≠ 0 := sub_ne_zero.2 hγ
  have hm : o.AA * g.N c.1 c.2 ≠ 0 := mul_ne_zero hA hn
  have k1 : pressureWork o m T B G g s c.1 c.2 = -scalar G g.V (B.grad g.P) c.1 c.2 := by
    simp only [pressureWork, scalar, Vec.minus, ddtV, f1, Pi.zero_apply]
    generalize o.AA * g.N c.1 c.2 = M at *
    field_simp
    ring
  have k2 : compressionHeat o m B g Tn2D s c.1 c.2 = -(g.P c.1 c.2 * B.bc (B.divV g.V) c.1 c.2) := by
    simp only [compressionHeat, ddtP, f1, f2, Pi.zero_apply]
    field_simp
    ring
  rw [k1, k2]
  ring

/-! ## Where the full statement fails -/

/-- Momentum `m n V` of the gas along the field changes at this rate. -/
noncomputable def momentumRate (o : Opts) (m : Mesh) (T : ℤ → ℤ → Rotation) (B : Ops) (g : Gas) (s : Sources) : F2 := fun i j =>
  o.AA * (g.N i j * ((ddtV o m T B g s).y i j / (m.J i j * m.Bxy i j)) + ddtN B g s i j * (g.V.y i j / (m.J i j * m.Bxy i j)))

/-- The velocity equation lacks the term `-V S_n / n` of a density source, so that the gas gains `S_NV + m V S_n` instead of the momentum source `S_NV`.
For every state with density at least `1e-2`. -/
theorem momentum_counted_twice (o : Opts) (hA : o.AA ≠ 0) (m : Mesh) (T : ℤ → ℤ → Rotation) (B : Ops) (g : Gas) (S F : F2) (se : Option F2) {i j : ℤ}
    (hJ : m.J i j * m.Bxy i j ≠ 0) (hN : 1e-2 ≤ g.N i j) :
    momentumRate o m T B g ⟨some S, some F, se⟩ i j - momentumRate o m T B g ⟨none, none, se⟩ i j =
      F i j + o.AA * (g.V.y i j / (m.J i j * m.Bxy i j)) * S i j := by
  have h1 := momentum_source_received o hA m T B g F (some S) se hJ hN
  have e8 : (1e-8 : ℝ) ≤ g.N i j := le_trans (by norm_num) hN
  have h2 := (density_not_driven_down B g ⟨some S, some F, se⟩ i j).2 e8
  have h3 := (density_not_driven_down B g ⟨none, none, se⟩ i j).2 e8
  have h4 : (ddtV o m T B g ⟨some S, none, se⟩) = ddtV o m T B g ⟨none, none, se⟩ := rfl
  rw [h4] at h1
  unfold momentumRate
  rw [h2, h3]
  simp only [Option.getD_some, Option.getD_none, Pi.zero_apply]
  linear_combination h1

/-- Ionisation takes atoms with their momentum, so the velocity of the remaining gas should not change; but it is slowed down, and the gas loses twice the
momentum that the ions receive. -/
theorem ionisation_slows_gas (o : Opts) (hA : 0 < o.AA) (m : Mesh) (T : ℤ → ℤ → Rotation) (B : Ops) (g : Gas) {i j : ℤ} (hJ : 0 < m.J i j * m.Bxy i j)
    (hN : 1e-2 ≤ g.N i j) (R : F2) (hR : 0 < R i j) (hV : 0 < g.V.y i j) :
    let s : Sources := { density_source := some fun i j => -R i j, momentum_source := some fun i j => -(o.AA * R i j * (g.V.y i j / (m.J i j * m.Bxy i j))) }
    (ddtV o m T B g s).y i j < (ddtV o m T B g {}).y i j ∧
    momentumRate o m T B g s i j - momentumRate o m T B g {} i j = -(2 * (o.AA * R i j * (g.V.y i j / (m.J i j * m.Bxy i j)))) := by
  intro s
  have h := momentum_counted_twice o hA.ne' m T B g (fun i j => -R i j) (fun i j => -(o.AA * R i j * (g.V.y i j / (m.J i j * m.Bxy i j)))) none hJ.ne' hN
  refine ⟨?_, h.trans (by ring)⟩
  have h1 := momentum_source_received o hA.ne' m T B g (fun i j => -(o.AA * R i j * (g.V.y i j / (m.J i j * m.Bxy i j)))) (some fun i j => -R i j) none
    hJ.ne' hN
  have h0 : (0 : ℝ) < g.N i j := lt_of_lt_of_le (by norm_num) hN
  have hp : 0 < o.AA * R i j * (g.V.y i j / (m.J i j * m.Bxy i j)) := by positivity
  by_contra hc
  have hc' : 0 ≤ (ddtV o m T B g s).y i j - (ddtV o m T B g {}).y i j := by linarith [not_lt.1 hc]
  have : 0 ≤ o.AA * g.N i j * (((ddtV o m T B g s).y i j - (ddtV o m T B g {}).y i j) / (m.J i j * m.Bxy i j)) := by positivity
  have h2 : o.AA * g.N i j * (((ddtV o m T B g s).y i j - (ddtV o m T B g {}).y i j) / (m.J i j * m.Bxy i j)) =
      -(o.AA * R i j * (g.V.y i j / (m.J i j * m.Bxy i j))) := h1
  linarith

/-- The published pressure has no floor: it may be negative, while density and temperature are positive, so that `P ≠ N T`. -/
theorem published_pressure_inconsistent : ∃ (o : Opts) (m : Mesh) (g : Gas) (N P T : F2), (transform o m g).2.2.density = some N ∧
    (transform o m g).2.2.pressure = some P ∧ (transform o m g).2.2.temperature = some T ∧ P 0 0 < 0 ∧ 0 < N 0 0 * T 0 0 := by
  refine ⟨{ Tnorm := 1 }, ⟨1, 0, 0, fun _ => false, fun _ => false, 1, 1, 1, 1, 1⟩, ⟨1, -1, ⟨0, 0, 0⟩⟩, _, _, _, rfl, rfl, rfl, ?_, ?_⟩
  · norm_num
  · norm_num [floor2]

/-- With `outflow_ydown` the temperature that enters the heat loss was computed before the guard cells were set: at the boundary it is not `P/N`. -/
theorem outflow_temperature_stale : ∃ (o : Opts) (m : Mesh) (g : Gas), o.outflow_ydown = true ∧ m.lower 0 = true ∧
    (transform o m g).1.P 0 (-1) / (transform o m g).1.N 0 (-1) = 1 ∧ (transform o m g).2.1 0 (-1) = 5 := by
  refine ⟨{ Tnorm := 1, outflow_ydown := true }, ⟨1, 0, 0, fun _ => true, fun _ => true, 1, 1, 1, 1, 1⟩, ⟨1, fun _ j => if j = -1 then 5 else 1, ⟨0, 0, 0⟩⟩,
    rfl, rfl, ?_, ?_⟩
  · norm_num [transform, outflow, setLower]
  · norm_num [transform]

/-- The heat of viscosity is not given back: the pressure equation does not know the viscosity. -/
theorem viscous_heat_is_lost (o : Opts) (nu : ℝ) (m : Mesh) (B : Ops) (g : Gas) (T : F2) (s : Sources) :
    ddtP { o with neutral_viscosity := nu } m B g T s = ddtP o m B g T s := rfl

/-- The mass is not published.  A reaction of such a species throws. -/
theorem mass_not_published (o : Opts) (m : Mesh) (g : Gas) : (transform o m g).2.2.AA = none ∧
    ∀ {ι : Type} (nm : Norms) (rate rad : ℝ → ℝ → ℝ) (heat kr kR : ℝ) (e fr dst : String) (w : World ι), w.num fr Var.AA = none →
      ∀ r, electronReaction nm rate rad heat kr kR e fr dst w ≠ .ok r := by
  refine ⟨rfl, fun nm rate rad heat kr kR e fr dst w h r hr => ?_⟩
  obtain ⟨-, -, -, -, -, -, A, -, -, -, -, -, -, hA, -⟩ := Reactions.electronReaction_ok hr
  rw [h] at hA
  cases hA

/-! ## The conditions are met -/

/-- Circular flux surfaces: `R = 3 + x cos`, in a cell where the normal direction is `R` and the poloidal direction is `Z`. -/
noncomputable def sector : Mesh := ⟨3, 0, 2, fun _ => true, fun _ => true, 1, 1, 1, 1, 1⟩

noncomputable def sectorGeometry : Geometry where
  Rxy i _ := 3 + i
  Zxy _ j := j
  hthe _ _ := 2
  Bpxy _ _ := 1
  etaxy _ _ := 1 / 2

example : Sound sector sectorGeometry 1 1 where
  hthe := by norm_num [sectorGeometry]
  field := by norm_num [sectorGeometry]
  eta := by norm_num [sectorGeometry]
  across := by norm_num [sectorGeometry, dpsi, dtheta, sector]

example : sector.Positive := ⟨by norm_num [sector], fun _ _ => one_pos, fun _ _ => one_pos⟩

/-- Operators of a periodic row of three cells with unit spacing: central differences along `y`. -/
noncomputable def rowOps : Ops where
  div V f := fun i j => (V.y i (j + 1) * f i (j + 1) - V.y i (j - 1) * f i (j - 1)) / 2
  divV V := fun i j => (V.y i (j + 1) - V.y i (j - 1)) / 2
  grad f := ⟨0, fun i j => (f i (j + 1) - f i (j - 1)) / 2, 0⟩
  adv V f := fun i j => V.y i j * ((f i (j + 1) - f i (j - 1)) / 2)
  laplace a f := fun i j => a * (f i (j + 1) - 2 * f i j + f i (j - 1))
  bc f := f

/-- They leave uniform motion alone. -/
example : (∀ V (c : ℝ), rowOps.adv V (fun _ _ => c) = 0) ∧ ∀ a (c : ℝ), rowOps.laplace a (fun _ _ => c) = 0 := by
  constructor <;> intro a c <;> funext i j <;> simp only [rowOps, Pi.zero_apply] <;> ring

/-- Summation by parts holds with the flow through the ends as boundary term, for example for a gas that expands against a falling pressure. -/
example : ∑ c ∈ ({(0, 0), (0, 1), (0, 2)} : Finset (ℤ × ℤ)),
    (scalar (fun a b _ _ => if a = b then 1 else 0) ⟨0, fun _ j => j, 0⟩ (rowOps.grad fun _ j => 5 - j) c.1 c.2
      + (5 - (c.2 : ℝ)) * rowOps.bc (rowOps.divV ⟨0, fun _ j => j, 0⟩) c.1 c.2) * (1 : F2) c.1 c.2 = 9 := by
  rw [Finset.sum_insert (by decide), Finset.sum_insert (by decide), Finset.sum_singleton]
  norm_num [scalar, rowOps]

/-- Gas of density and temperature one loses the power `5/4` at each wall. -/
example : 3 / 2 * ∑ j ∈ Icc sector.ystart sector.yend, wallLosses { Tnorm := 1 } sector 1 1 1 j * (sector.J 1 j * sector.dy 1 j) = 5 / 2 := by
  rw [(wall_heat (by norm_num) ⟨by norm_num [sector], fun _ _ => one_pos, fun _ _ => one_pos⟩ 1 1 1).1]
  norm_num [wallPower, sector]

end Hermes.FullVelocity
