import Verif.Lemmas.PerpOps
import Verif.Props.Limiters
import Mathlib.Tactic.Positivity
import Mathlib.Tactic.NormNum

/-!
# C16, C13 and C18: cross-field diffusion and index-space dissipation

Specification vocabulary: cell volume, content, `Regular`/`Separable` grids, radially reflecting data.
-/

namespace Hermes.PerpOps
open Finset Hermes Hermes.Limiters

variable {nz : ℕ}

/-- Volume of a cell. -/
def volume (g : Grid) (i j : ℤ) : ℝ := g.J i j * g.dx i j * g.dy i j * g.dz i j

/-- Volume integral over the cells owned by the processor. -/
noncomputable def content (g : Grid) (r : F3 nz) : ℝ :=
  ∑ i ∈ Icc g.xstart g.xend, ∑ j ∈ Icc g.ystart g.yend, ∑ k, r i j k * volume g i j

/-- A usable grid: at least one cell, no degenerate cell. -/
structure Regular (g : Grid) : Prop where
  x_nonempty : g.xstart ≤ g.xend
  y_nonempty : g.ystart ≤ g.yend
  J_ne : ∀ i j, g.J i j ≠ 0
  dx_ne : ∀ i j, g.dx i j ≠ 0
  dy_ne : ∀ i j, g.dy i j ≠ 0
  dz_ne : ∀ i j, g.dz i j ≠ 0

/-- Logically rectangular spacing: `dx` depends on `x` only, `dy` on `y` only, `dz` is constant. -/
structure Separable (g : Grid) : Prop where
  dx : ∀ i j j', g.dx i j = g.dx i j'
  dy : ∀ i i' j, g.dy i j = g.dy i' j
  dz : ∀ i i' j j', g.dz i j = g.dz i' j'

/-- Positive geometry. -/
structure Positive (g : Grid) : Prop where
  J : ∀ i j, 0 < g.J i j
  dx : ∀ i j, 0 < g.dx i j
  dy : ∀ i j, 0 < g.dy i j
  dz : ∀ i j, 0 < g.dz i j
  g11 : ∀ i j, 0 < g.g11 i j
  g33 : ∀ i j, 0 < g.g33 i j

theorem Positive.regular {g : Grid} (h : Positive g) (hx : g.xstart ≤ g.xend) (hy : g.ystart ≤ g.yend) :
    Regular g where
  x_nonempty := hx
  y_nonempty := hy
  J_ne i j := (h.J i j).ne'
  dx_ne i j := (h.dx i j).ne'
  dy_ne i j := (h.dy i j).ne'
  dz_ne i j := (h.dz i j).ne'

/-- The operators of the code. -/
inductive Operator (nz : ℕ)
  /-- `Div_a_Grad_perp_flows(a, f)` -/
  | flows (a f aA fA : F3 nz)
  /-- `Div_a_Grad_perp_upwind(a, f)` and `Div_a_Grad_perp_upwind_flows(a, f)` -/
  | upwind (a f aA fA : F3 nz)
  /-- `Div_a_Grad_perp_limit<lim>(a, q, f)` -/
  | limit (lim : Limiter) (a q f aA qA fA : F3 nz)

/-- Its radial part and its field-aligned part. -/
noncomputable def Operator.run [NeZero nz] (g : Grid) : Operator nz → F3 nz × F3 nz
  | .flows a f aA fA => g.divPerpFlows a f aA fA
  | .upwind a f aA fA => g.divPerpUpwind a f aA fA
  | .limit lim a q f aA qA fA => g.divPerpLimit lim a q f aA qA fA

/-- Radial face flux of an operator (through the face between `i` and `i + 1`). -/
noncomputable def Operator.faceX (g : Grid) : Operator nz → F3 nz
  | .flows a f _ _ => g.flowsX a f
  | .upwind a f _ _ => g.upwindX a f
  | .limit lim a q f _ _ _ => g.limitX lim a q f

/-- Flux through the upper and lower `y` face of a cell. -/
noncomputable def Operator.faceUp [NeZero nz] (g : Grid) : Operator nz → F3 nz
  | .flows _ _ aA fA => g.flowsYup aA fA
  | .upwind _ _ aA fA => g.upwindYup aA fA
  | .limit _ _ _ _ aA qA fA => g.limitYup aA qA fA
noncomputable def Operator.faceDown [NeZero nz] (g : Grid) : Operator nz → F3 nz
  | .flows _ _ aA fA => g.flowsYdown aA fA
  | .upwind _ _ aA fA => g.upwindYdown aA fA
  | .limit _ _ _ _ aA qA fA => g.limitYdown aA qA fA

/-- The diffused field. -/
def Operator.field : Operator nz → F3 nz
  | .flows _ f _ _ => f
  | .upwind _ f _ _ => f
  | .limit _ _ _ f _ _ _ => f
def Operator.fieldA : Operator nz → F3 nz
  | .flows _ _ _ fA => fA
  | .upwind _ _ _ fA => fA
  | .limit _ _ _ _ _ _ fA => fA

/-- Weight of the z fluxes. -/
def Operator.zWeight (g : Grid) : Operator nz → ℤ → ℤ → ℝ
  | .flows _ _ _ _ => g.J
  | _ => fun _ _ => 1

noncomputable def Operator.faceZ [NeZero nz] (g : Grid) : Operator nz → F3 nz
  | .flows _ _ aA fA => g.flowsZ aA fA
  | .upwind _ _ aA fA => g.upwindZ aA fA
  | .limit _ _ _ _ aA qA fA => g.limitZ aA qA fA

theorem run_eq [NeZero nz] (g : Grid) (op : Operator nz) :
    op.run g = (g.xLoop (op.faceX g), g.yzLoop (op.faceUp g) (op.faceDown g) (op.zWeight g) (op.faceZ g)) := by
  cases op <;> rfl

/-! ## Radial part -/

theorem xLoop_volume {g : Grid} (hg : Regular g) (hs : Separable g) (fout : F3 nz) {i j : ℤ} (k : Fin nz)
    (hi : g.xstart ≤ i ∧ i ≤ g.xend) (hj : g.ystart ≤ j ∧ j ≤ g.yend) :
    g.xLoop fout i j k * volume g i j = g.flowX fout i j k - g.flowX fout (i + 1) j k := by
  rw [g.xLoop_apply, if_pos ⟨by omega, hj⟩, if_pos ⟨by omega, hj⟩]
  unfold Grid.flowX volume
  rw [add_sub_cancel_right, hs.dy (i - 1) i, hs.dz (i - 1) i j j]
  have := hg.J_ne i j
  have := hg.dx_ne i j
  field_simp
  ring

/-- C13 (radial flow diagnostic).  In every owned cell the radial part of the divergence times the cell
volume is the reported `flow_xlow` of the cell minus that of the next cell. -/
theorem radial_flow_reproduces_divergence [NeZero nz] {g : Grid} (hg : Regular g) (hs : Separable g)
    (op : Operator nz) {i j : ℤ} (k : Fin nz) (hi : g.xstart ≤ i ∧ i ≤ g.xend)
    (hj : g.ystart ≤ j ∧ j ≤ g.yend) :
    (op.run g).1 i j k * volume g i j = g.flowX (op.faceX g) i j k - g.flowX (op.faceX g) (i + 1) j k := by
  rw [run_eq]
  exact xLoop_volume hg hs _ k hi hj

/-- C16 (radial).  The content of the domain changes only by what flows through its two radial boundaries. -/
theorem radial_content_changes_at_boundaries [NeZero nz] {g : Grid} (hg : Regular g) (hs : Separable g)
    (op : Operator nz) :
    content g (op.run g).1 = ∑ j ∈ Icc g.ystart g.yend, ∑ k,
      (g.flowX (op.faceX g) g.xstart j k - g.flowX (op.faceX g) (g.xend + 1) j k) := by
  unfold content
  rw [Finset.sum_comm]
  refine Finset.sum_congr rfl fun j hj => ?_
  rw [Finset.sum_comm]
  refine Finset.sum_congr rfl fun k _ => ?_
  rw [Finset.sum_congr rfl fun i hi => radial_flow_reproduces_divergence hg hs op k
    (mem_Icc.1 hi) (mem_Icc.1 hj)]
  have := sum_telescope (fun i => -g.flowX (op.faceX g) (i + 1) j k) g.xstart g.xend
    (by have := hg.x_nonempty; omega)
  simp only [sub_add_cancel] at this
  calc _ = ∑ i ∈ Icc g.xstart g.xend,
        (-g.flowX (op.faceX g) (i + 1) j k - -g.flowX (op.faceX g) i j k) :=
        Finset.sum_congr rfl fun i _ => by ring
    _ = _ := by rw [this]; ring

/-- Zero-gradient (reflecting) radial guard cells. -/
def ZeroGradientX (g : Grid) (f : F3 nz) : Prop := ∀ j k,
  f (g.xstart - 1) j k = f g.xstart j k ∧ f (g.xend + 1) j k = f g.xend j k

theorem faceX_zero_of_eq (g : Grid) (op : Operator nz) {i j : ℤ} {k : Fin nz}
    (h : op.field (i + 1) j k = op.field i j k) : op.faceX g i j k = 0 := by
  cases op <;> simp only [Operator.field] at h <;>
    simp [Operator.faceX, Grid.flowsX, Grid.upwindX, Grid.limitX, h]

/-- C16.  With zero-gradient radial boundaries nothing leaves or enters: the integral of the radial part
of every operator over the domain is exactly zero, for all coefficients. -/
theorem radial_diffusion_conserves [NeZero nz] {g : Grid} (hg : Regular g) (hs : Separable g)
    (op : Operator nz) (h0 : ZeroGradientX g op.field) : content g (op.run g).1 = 0 := by
  rw [radial_content_changes_at_boundaries hg hs]
  refine Finset.sum_eq_zero fun j _ => Finset.sum_eq_zero fun k _ => ?_
  have h1 : op.faceX g (g.xstart - 1) j k = 0 :=
    faceX_zero_of_eq g op (by rw [sub_add_cancel]; exact (h0 j k).1.symm)
  have h2 : op.faceX g g.xend j k = 0 := faceX_zero_of_eq g op (h0 j k).2
  unfold Grid.flowX
  rw [add_sub_cancel_right, h1, h2]
  simp

/-! ## Field-aligned part -/

/-- The upper flux of a cell is the lower flux of the next one (inside the domain). -/
theorem faceUp_eq_faceDown [NeZero nz] {g : Grid} (hs : Separable g) (op : Operator nz) {i j : ℤ} (k : Fin nz)
    (h1 : g.ystart ≤ j) (h2 : j < g.yend) : op.faceUp g i j k = op.faceDown g i (j + 1) k := by
  cases op with
  | flows a f aA fA =>
    simp only [Operator.faceUp, Operator.faceDown, Grid.flowsYup, Grid.flowsYdown, add_sub_cancel_right]
    rw [hs.dz i i (j + 1) j]
    ring
  | upwind a f aA fA =>
    simp only [Operator.faceUp, Operator.faceDown, Grid.upwindYup, Grid.upwindYdown, add_sub_cancel_right]
    rw [hs.dz i i (j + 1) j]
    ring
  | limit lim a q f aA qA fA =>
    simp only [Operator.faceUp, Operator.faceDown, Grid.limitYup, Grid.limitYdown, add_sub_cancel_right]
    rw [hs.dz i i (j + 1) j]
    have e1 : (j == g.yend) = false := by simp; omega
    have e2 : (j + 1 == g.ystart) = false := by simp; omega
    simp only [e1, e2, Bool.false_and, Bool.false_eq_true, if_false]
    ring

theorem aligned_zsum [NeZero nz] {g : Grid} (hg : Regular g) (op : Operator nz) {i j : ℤ}
    (hi : g.xstart ≤ i ∧ i ≤ g.xend) (hj : g.ystart ≤ j ∧ j ≤ g.yend) :
    ∑ k, (op.run g).2 i j k * volume g i j =
      ∑ k, (op.faceUp g i j k - op.faceDown g i j k) * g.dx i j * g.dz i j := by
  rw [run_eq]
  have : ∀ k, g.yzLoop (op.faceUp g) (op.faceDown g) (op.zWeight g) (op.faceZ g) i j k * volume g i j =
      (op.faceUp g i j k - op.faceDown g i j k) * g.dx i j * g.dz i j
      + (op.faceZ g i j k * (1 / (op.zWeight g i j * g.dz i j) * volume g i j)
        - op.faceZ g i j (k - 1) * (1 / (op.zWeight g i j * g.dz i j) * volume g i j)) := by
    intro k
    rw [g.yzLoop_apply, if_pos ⟨hi, hj⟩]
    unfold volume
    have := hg.J_ne i j
    have := hg.dy_ne i j
    have : (op.faceUp g i j k - op.faceDown g i j k) / (g.dy i j * g.J i j)
        * (g.J i j * g.dx i j * g.dy i j * g.dz i j)
        = (op.faceUp g i j k - op.faceDown g i j k) * g.dx i j * g.dz i j := by field_simp
    rw [add_mul, this]
    ring
  simp only [this]
  rw [Finset.sum_add_distrib, Finset.sum_sub_distrib,
    sum_cyclic_succ fun k => op.faceZ g i j k * (1 / (op.zWeight g i j * g.dz i j) * volume g i j)]
  ring

/-- C16 (binormal direction).  The fluxes in the binormal direction never create or destroy anything: if
there are no fluxes in `y` (for instance because `g23 = 0`), the aligned part of every operator sums to
zero round every ring of cells. -/
theorem binormal_conserves [NeZero nz] {g : Grid} (hg : Regular g) (h23 : ∀ i j, g.g23 i j = 0)
    (op : Operator nz) {i j : ℤ} (hi : g.xstart ≤ i ∧ i ≤ g.xend) (hj : g.ystart ≤ j ∧ j ≤ g.yend) :
    ∑ k, (op.run g).2 i j k * volume g i j = 0 := by
  rw [aligned_zsum hg op hi hj]
  refine Finset.sum_eq_zero fun k _ => ?_
  have h1 : op.faceUp g i j k = 0 := by
    cases op <;> simp [Operator.faceUp, Grid.flowsYup, Grid.upwindYup, Grid.limitYup, h23]
  have h2 : op.faceDown g i j k = 0 := by
    cases op <;> simp [Operator.faceDown, Grid.flowsYdown, Grid.upwindYdown, Grid.limitYdown, h23]
  rw [h1, h2]; simp

/-- C13 (poloidal flow diagnostic, summed round the ring because the binormal flow is not reported).
The last row is excluded: the flow through the upper end of the domain is not reported. -/
theorem poloidal_flow_reproduces_divergence_partial [NeZero nz] {g : Grid} (hg : Regular g)
    (hs : Separable g) (op : Operator nz) {i j : ℤ} (hi : g.xstart ≤ i ∧ i ≤ g.xend)
    (hj : g.ystart ≤ j ∧ j < g.yend) :
    ∑ k, (op.run g).2 i j k * volume g i j =
      ∑ k, (g.flowY (op.faceDown g) i j k - g.flowY (op.faceDown g) i (j + 1) k) := by
  rw [aligned_zsum hg op hi ⟨hj.1, hj.2.le⟩]
  refine Finset.sum_congr rfl fun k _ => ?_
  unfold Grid.flowY
  rw [faceUp_eq_faceDown hs op k hj.1 hj.2, hs.dx i (j + 1) j, hs.dz i i (j + 1) j]
  ring

/-- C16 (aligned part).  The content changes only by the fluxes through the two ends of the field lines. -/
theorem aligned_content_changes_at_ends [NeZero nz] {g : Grid} (hg : Regular g) (hs : Separable g)
    (op : Operator nz) :
    content g (op.run g).2 = ∑ i ∈ Icc g.xstart g.xend, ∑ k,
      (op.faceUp g i g.yend k - op.faceDown g i g.ystart k) * g.dx i g.ystart * g.dz i g.ystart := by
  unfold content
  refine Finset.sum_congr rfl fun i hi => ?_
  rw [Finset.sum_congr rfl fun j hj => aligned_zsum hg op (mem_Icc.1 hi) (mem_Icc.1 hj), Finset.sum_comm]
  refine Finset.sum_congr rfl fun k _ => ?_
  -- telescoping with the lower flux of the next cell, replaced by the upper flux at the end
  have key : ∀ j ∈ Icc g.ystart g.yend,
      (op.faceUp g i j k - op.faceDown g i j k) * g.dx i j * g.dz i j =
      ((if j < g.yend then op.faceDown g i (j + 1) k else op.faceUp g i g.yend k)
        - (if j - 1 < g.yend then op.faceDown g i (j - 1 + 1) k else op.faceUp g i g.yend k))
        * g.dx i g.ystart * g.dz i g.ystart := by
    intro j hj
    rw [mem_Icc] at hj
    rw [hs.dx i j g.ystart, hs.dz i i j g.ystart, if_pos (show j - 1 < g.yend by omega), sub_add_cancel]
    by_cases h : j < g.yend
    · rw [if_pos h, faceUp_eq_faceDown hs op k hj.1 h]
    · rw [if_neg h, show j = g.yend by omega]
  rw [Finset.sum_congr rfl key, ← Finset.sum_mul, ← Finset.sum_mul]
  have := sum_telescope
    (fun j => if j < g.yend then op.faceDown g i (j + 1) k else op.faceUp g i g.yend k)
    g.ystart g.yend (by have := hg.y_nonempty; omega)
  rw [this, if_neg (lt_irrefl _), if_pos (by have := hg.y_nonempty; omega), sub_add_cancel]

/-! ## Uniform fields and the direction of the flux -/

/-- C16.  A uniform field is left alone by every operator, in every cell including guard cells, whatever
the coefficient and the geometry. -/
theorem uniform_field_unchanged [NeZero nz] (g : Grid) (op : Operator nz) (c cA : ℝ)
    (hf : op.field = fun _ _ _ => c) (hA : op.fieldA = fun _ _ _ => cA) (i j : ℤ) (k : Fin nz) :
    (op.run g).1 i j k = 0 ∧ (op.run g).2 i j k = 0 := by
  rw [run_eq]
  constructor
  · simp only
    rw [g.xLoop_apply]
    rw [faceX_zero_of_eq g op (by rw [hf]), faceX_zero_of_eq g op (i := i - 1) (by rw [hf])]
    simp
  · simp only
    rw [g.yzLoop_apply]
    cases op <;> simp only [Operator.fieldA] at hA <;> subst hA <;>
      simp [Operator.faceUp, Operator.faceDown, Operator.faceZ, Grid.flowsYup, Grid.flowsYdown, Grid.flowsZ,
        Grid.upwindYup, Grid.upwindYdown, Grid.upwindZ, Grid.gradZ, Grid.limitYup, Grid.limitYdown,
        Grid.limitZ]

/-- Non-negative coefficient. -/
def Operator.NonnegCoef : Operator nz → Prop
  | .flows a _ aA _ => (∀ i j k, 0 ≤ a i j k) ∧ (∀ i j k, 0 ≤ aA i j k)
  | .upwind a _ aA _ => (∀ i j k, 0 ≤ a i j k) ∧ (∀ i j k, 0 ≤ aA i j k)
  | .limit _ a q _ aA qA _ => ((∀ i j k, 0 ≤ a i j k) ∧ (∀ i j k, 0 ≤ aA i j k)) ∧
      ((∀ i j k, 0 ≤ q i j k) ∧ (∀ i j k, 0 ≤ qA i j k))

/-- The limiter, if there is one, is one of the monotone ones. -/
def Operator.Mono : Operator nz → Prop
  | .limit lim .. => MonotoneLim lim
  | _ => True

/-- Flux down the gradient: the radial face flux has the sign of the difference across the face. -/
theorem faceX_sign {g : Grid} (hp : Positive g) (op : Operator nz) (ha : op.NonnegCoef) (hm : op.Mono)
    (i j : ℤ) (k : Fin nz) : (op.field i j k ≤ op.field (i + 1) j k → 0 ≤ op.faceX g i j k) ∧
      (op.field (i + 1) j k ≤ op.field i j k → op.faceX g i j k ≤ 0) := by
  have hJ : 0 < g.J i j * g.g11 i j + g.J (i + 1) j * g.g11 (i + 1) j :=
    add_pos (mul_pos (hp.J _ _) (hp.g11 _ _)) (mul_pos (hp.J _ _) (hp.g11 _ _))
  have hd : 0 < g.dx i j + g.dx (i + 1) j := add_pos (hp.dx _ _) (hp.dx _ _)
  have gen : ∀ A D : ℝ, 0 ≤ A → (0 ≤ D → 0 ≤ A * D) ∧ (D ≤ 0 → A * D ≤ 0) := fun A D hA =>
    ⟨fun h => mul_nonneg hA h, fun h => mul_nonpos_of_nonneg_of_nonpos hA h⟩
  cases op with
  | flows a f aA fA =>
    simp only [Operator.field, Operator.faceX, Grid.flowsX]
    have e : 0.5 * (a i j k + a (i + 1) j k) * (g.J i j * g.g11 i j + g.J (i + 1) j * g.g11 (i + 1) j)
        * (f (i + 1) j k - f i j k) / (g.dx i j + g.dx (i + 1) j) =
        (0.5 * (a i j k + a (i + 1) j k) * (g.J i j * g.g11 i j + g.J (i + 1) j * g.g11 (i + 1) j)
          / (g.dx i j + g.dx (i + 1) j)) * (f (i + 1) j k - f i j k) := by ring
    rw [e]
    have h0 : 0 ≤ 0.5 * (a i j k + a (i + 1) j k) *
        (g.J i j * g.g11 i j + g.J (i + 1) j * g.g11 (i + 1) j) / (g.dx i j + g.dx (i + 1) j) := by
      have := ha.1 i j k
      have := ha.1 (i + 1) j k
      positivity
    exact ⟨fun h => (gen _ _ h0).1 (by linarith), fun h => (gen _ _ h0).2 (by linarith)⟩
  | upwind a f aA fA =>
    simp only [Operator.field, Operator.faceX, Grid.upwindX]
    have e : (g.J i j * g.g11 i j + g.J (i + 1) j * g.g11 (i + 1) j) * (f (i + 1) j k - f i j k)
        / (g.dx i j + g.dx (i + 1) j) = ((g.J i j * g.g11 i j + g.J (i + 1) j * g.g11 (i + 1) j)
        / (g.dx i j + g.dx (i + 1) j)) * (f (i + 1) j k - f i j k) := by ring
    rw [e]
    generalize hA : (if (g.J i j * g.g11 i j + g.J (i + 1) j * g.g11 (i + 1) j) / (g.dx i j + g.dx (i + 1) j)
      * (f (i + 1) j k - f i j k) > 0 then a (i + 1) j k else a i j k) = A
    have h0 : 0 ≤ A := by rw [← hA]; split; exacts [ha.1 _ _ _, ha.1 _ _ _]
    have h1 : 0 ≤ A * ((g.J i j * g.g11 i j + g.J (i + 1) j * g.g11 (i + 1) j)
      / (g.dx i j + g.dx (i + 1) j)) := by positivity
    have e2 : ∀ X D : ℝ, X * D * A = A * X * D := fun X D => by ring
    rw [e2]
    exact ⟨fun h => (gen _ _ h1).1 (by linarith), fun h => (gen _ _ h1).2 (by linarith)⟩
  | limit lim a q f aA qA fA =>
    simp only [Operator.field, Operator.faceX, Grid.limitX]
    generalize hA : (if ((i == g.xstart - 1) && g.firstX || (i == g.xend) && g.lastX) = true then
      0.5 * (q (i + 1) j k + q i j k)
      else if f (i + 1) j k - f i j k > 0 then (lim (q i j k) (q (i + 1) j k) (q (i + 2) j k)).1
      else (lim (q (i - 1) j k) (q i j k) (q (i + 1) j k)).2) = A
    have hq := ha.2.1
    have h0 : 0 ≤ A := by
      rw [← hA]
      split
      · have := hq (i + 1) j k
        have := hq i j k
        positivity
      · split
        · exact (edges_nonneg hm (hq _ _ _) (hq _ _ _) (hq _ _ _)).1
        · exact (edges_nonneg hm (hq _ _ _) (hq _ _ _) (hq _ _ _)).2.2.1
    have h1 : 0 ≤ (0.5 * (a (i + 1) j k + a i j k)) * A
        * ((g.J i j * g.g11 i j + g.J (i + 1) j * g.g11 (i + 1) j) / (g.dx i j + g.dx (i + 1) j)) := by
      have := ha.1.1 i j k
      have := ha.1.1 (i + 1) j k
      positivity
    have e2 : (f (i + 1) j k - f i j k) * (0.5 * (a (i + 1) j k + a i j k)) * A
        * (g.J i j * g.g11 i j + g.J (i + 1) j * g.g11 (i + 1) j) / (g.dx i j + g.dx (i + 1) j)
        = ((0.5 * (a (i + 1) j k + a i j k)) * A
        * ((g.J i j * g.g11 i j + g.J (i + 1) j * g.g11 (i + 1) j) / (g.dx i j + g.dx (i + 1) j)))
        * (f (i + 1) j k - f i j k) := by ring
    rw [e2]
    exact ⟨fun h => (gen _ _ h1).1 (by linarith), fun h => (gen _ _ h1).2 (by linarith)⟩

/-- C16, C12.  Diffusion fills minima and erodes maxima: where a cell is not above (below) its two radial
neighbours, the radial part of every operator is non-negative (non-positive).  In particular an empty cell
among non-negative ones is never drained. -/
theorem radial_diffusion_fills_minima [NeZero nz] {g : Grid} (hp : Positive g) (op : Operator nz)
    (ha : op.NonnegCoef) (hm : op.Mono) {i j : ℤ} (k : Fin nz) (hi : g.xstart ≤ i ∧ i ≤ g.xend)
    (hj : g.ystart ≤ j ∧ j ≤ g.yend) :
    ((op.field i j k ≤ op.field (i + 1) j k ∧ op.field i j k ≤ op.field (i - 1) j k) → 0 ≤ (op.run g).1 i j k) ∧
    ((op.field (i + 1) j k ≤ op.field i j k ∧ op.field (i - 1) j k ≤ op.field i j k) → (op.run g).1 i j k ≤ 0) := by
  have hw : 0 < g.dx i j * g.J i j := mul_pos (hp.dx _ _) (hp.J _ _)
  have s1 := faceX_sign hp op ha hm i j k
  have s2 := faceX_sign hp op ha hm (i - 1) j k
  rw [sub_add_cancel] at s2
  have e : (op.run g).1 i j k = (op.faceX g i j k - op.faceX g (i - 1) j k) / (g.dx i j * g.J i j) := by
    rw [run_eq]
    simp only
    rw [g.xLoop_apply, if_pos ⟨by omega, hj⟩, if_pos ⟨by omega, hj⟩]
  rw [e]
  constructor
  · rintro ⟨h1, h2⟩
    exact div_nonneg (by linarith [s1.1 h1, s2.2 h2]) hw.le
  · rintro ⟨h1, h2⟩
    exact div_nonpos_of_nonpos_of_nonneg (by linarith [s1.2 h1, s2.1 h2]) hw.le

/-! ## The variants compared -/

/-- With a uniform coefficient the upwind variant has the same radial part as the centred one. -/
theorem upwind_radial_agrees [NeZero nz] (g : Grid) (c : ℝ) (f aA fA : F3 nz) :
    (g.divPerpUpwind (fun _ _ _ => c) f aA fA).1 = (g.divPerpFlows (fun _ _ _ => c) f aA fA).1 := by
  have : g.upwindX (fun _ _ _ => c) f = g.flowsX (fun _ _ _ => c) f := by
    funext i j k
    simp only [Grid.upwindX, Grid.flowsX, ite_self]
    ring
  simp only [Grid.divPerpUpwind, Grid.divPerpFlows, this]

/-- The limited variant takes two coefficients and multiplies them: with both uniform it is the upwind variant
with their product, in every direction. -/
theorem limit_agrees_with_upwind [NeZero nz] (g : Grid) {lim : Limiter} (hl : MonotoneLim lim) (a q : ℝ) (f fA : F3 nz) :
    g.divPerpLimit lim (fun _ _ _ => a) (fun _ _ _ => q) f (fun _ _ _ => a) (fun _ _ _ => q) fA =
      g.divPerpUpwind (fun _ _ _ => a * q) f (fun _ _ _ => a * q) fA := by
  have hc : lim q q q = (q, q) := Limiters.constant_exact hl q
  have x : g.limitX lim (fun _ _ _ => a) (fun _ _ _ => q) f = g.upwindX (fun _ _ _ => a * q) f := by
    funext i j k
    have e : (0.5 : ℝ) * (q + q) = q := by ring
    simp only [Grid.limitX, Grid.upwindX, ite_self, hc, e]
    ring
  have yu : g.limitYup (fun _ _ _ => a) (fun _ _ _ => q) fA = g.upwindYup (fun _ _ _ => a * q) fA := by
    funext i j k
    have e : (0.5 : ℝ) * (q + q) = q := by ring
    simp only [Grid.limitYup, Grid.upwindYup, ite_self, e]
    ring
  have yd : g.limitYdown (fun _ _ _ => a) (fun _ _ _ => q) fA = g.upwindYdown (fun _ _ _ => a * q) fA := by
    funext i j k
    have e : (0.5 : ℝ) * (q + q) = q := by ring
    simp only [Grid.limitYdown, Grid.upwindYdown, ite_self, e]
    ring
  have z : g.limitZ (fun _ _ _ => a) (fun _ _ _ => q) fA = g.upwindZ (fun _ _ _ => a * q) fA := by
    funext i j k
    simp only [Grid.limitZ, Grid.upwindZ, ite_self]
    ring
  simp only [Grid.divPerpLimit, Grid.divPerpUpwind, x, yu, yd, z]

/-- With a coefficient that varies, the binormal flux of the limited variant is the gradient times the average of
the first coefficient and the upwind value of the second. -/
theorem limit_binormal_flux [NeZero nz] (g : Grid) (a q f : F3 nz) (i j : ℤ) (k : Fin nz) :
    g.limitZ a q f i j k = (a i j k + a i j (k + 1)) / 2 * g.upwindZ q f i j k := by
  simp only [Grid.limitZ, Grid.upwindZ]
  ring

/-- C16.  The upwind variant takes from the cell that the flux comes from: with a coefficient that is nowhere negative, and without fluxes
in `y`, a cell where the coefficient is zero (an empty cell) loses nothing, neither radially nor in the binormal direction. -/
theorem upwind_spares_empty_cells [NeZero nz] {g : Grid} (hp : Positive g) (h23 : ∀ i j, g.g23 i j = 0) {a f aA fA : F3 nz}
    (ha : ∀ i j k, 0 ≤ a i j k) (haA : ∀ i j k, 0 ≤ aA i j k) {i j : ℤ} {k : Fin nz} (hi : g.xstart ≤ i ∧ i ≤ g.xend)
    (hj : g.ystart ≤ j ∧ j ≤ g.yend) (h0 : a i j k = 0) (h0A : aA i j k = 0) :
    0 ≤ (g.divPerpUpwind a f aA fA).1 i j k ∧ 0 ≤ (g.divPerpUpwind a f aA fA).2 i j k := by
  have x1 : 0 ≤ g.upwindX a f i j k := by
    simp only [Grid.upwindX]
    split
    · rename_i h; exact mul_nonneg h.le (ha _ _ _)
    · rw [h0, mul_zero]
  have x2 : g.upwindX a f (i - 1) j k ≤ 0 := by
    simp only [Grid.upwindX]
    split
    · rw [sub_add_cancel, h0, mul_zero]
    · rename_i h; exact mul_nonpos_of_nonpos_of_nonneg (not_lt.1 h) (ha _ _ _)
  have z1 : 0 ≤ g.upwindZ aA fA i j k := by
    simp only [Grid.upwindZ]
    split
    · rename_i h; exact mul_nonneg h.le (haA _ _ _)
    · rw [h0A, mul_zero]
  have z2 : g.upwindZ aA fA i j (k - 1) ≤ 0 := by
    simp only [Grid.upwindZ]
    split
    · rw [sub_add_cancel, h0A, mul_zero]
    · rename_i h; exact mul_nonpos_of_nonpos_of_nonneg (not_lt.1 h) (haA _ _ _)
  have yu : g.upwindYup aA fA i j k = 0 := by simp [Grid.upwindYup, h23]
  have yd : g.upwindYdown aA fA i j k = 0 := by simp [Grid.upwindYdown, h23]
  have pJ := hp.J i j
  have px := hp.dx i j
  have pz := hp.dz i j
  constructor
  · show 0 ≤ g.xLoop (g.upwindX a f) i j k
    rw [g.xLoop_apply, if_pos ⟨by omega, hj⟩, if_pos ⟨by omega, hj⟩]
    exact div_nonneg (by linarith) (by positivity)
  · show 0 ≤ g.yzLoop (g.upwindYup aA fA) (g.upwindYdown aA fA) (fun _ _ => 1) (g.upwindZ aA fA) i j k
    rw [g.yzLoop_apply, if_pos ⟨hi, hj⟩, yu, yd]
    rw [sub_zero, zero_div, zero_add]
    exact div_nonneg (by linarith) (by positivity)

/-- The binormal flux of the upwind variant (with a uniform coefficient) is the centred one divided by `g33`:
the factor is missing from the code. -/
theorem upwind_binormal_flux_lacks_metric [NeZero nz] {g : Grid} (hg : Regular g) (c : ℝ) (fA : F3 nz)
    (i j : ℤ) (k : Fin nz) :
    g.flowsZ (fun _ _ _ => c) fA i j k / (g.J i j * g.dz i j) =
      g.g33 i j * (g.upwindZ (fun _ _ _ => c) fA i j k / (1 * g.dz i j)) := by
  have := hg.J_ne i j
  have := hg.dz_ne i j
  have e : g.upwindZ (fun _ _ _ => c) fA i j k = g.gradZ fA i j k * c := by
    simp only [Grid.upwindZ, ite_self]
  have e2 : g.flowsZ (fun _ _ _ => c) fA i j k = c * (g.J i j * g.g33 i j) * g.gradZ fA i j k := by
    simp only [Grid.flowsZ, Grid.gradZ]
    ring
  rw [e, e2]
  field_simp

/-- A unit box with `g33 = 4`: the same field with the same uniform coefficient. -/
noncomputable def boxGrid : Grid where
  xstart := 2
  xend := 3
  ystart := 2
  yend := 3
  firstX := true
  lastX := true
  firstY _ := true
  lastY _ := true
  J _ _ := 1
  dx _ _ := 1
  dy _ _ := 1
  dz _ _ := 1
  g11 _ _ := 1
  g22 _ _ := 1
  g33 _ _ := 4
  g23 _ _ := 0
  g_23 _ _ := 0
  Bxy _ _ := 1

theorem boxGrid_positive : Positive boxGrid := by
  constructor <;> intro _ _ <;> norm_num [boxGrid]

theorem boxGrid_separable : Separable boxGrid := by
  constructor <;> intros <;> rfl

/-- C16 is violated across variants: for a uniform coefficient `Div_a_Grad_perp_upwind` and
`Div_a_Grad_perp_flows` should be the same operator, but they differ on a grid with `g33 ≠ 1`. -/
theorem variants_disagree_in_binormal_direction : ∃ (g : Grid) (f : F3 3), Positive g ∧ Separable g ∧
    (g.divPerpFlows (fun _ _ _ => 1) f (fun _ _ _ => 1) f).2 2 2 0 = 4 ∧
    (g.divPerpUpwind (fun _ _ _ => 1) f (fun _ _ _ => 1) f).2 2 2 0 = 1 := by
  refine ⟨boxGrid, fun _ _ k => if k = 1 then 1 else 0, boxGrid_positive, boxGrid_separable, ?_, ?_⟩
  · simp only [Grid.divPerpFlows]
    rw [Grid.yzLoop_apply]
    have h : ¬ ((-1 : Fin 3) = 1) := by decide
    simp [boxGrid, Grid.flowsYup, Grid.flowsYdown, Grid.flowsZ, h]
    norm_num
  · simp only [Grid.divPerpUpwind]
    rw [Grid.yzLoop_apply]
    have h : ¬ ((-1 : Fin 3) = 1) := by decide
    simp [boxGrid, Grid.upwindYup, Grid.upwindYdown, Grid.upwindZ, Grid.gradZ, h]

/-- The hypotheses of the theorems above are met by a non-trivial case. -/
example : Regular boxGrid ∧ Separable boxGrid ∧ Positive boxGrid ∧
    (Operator.flows (nz := 3) (fun _ _ _ => 1) (fun i _ k => if i ≤ 2 ∧ k = 1 then 1 else 0)
      (fun _ _ _ => 1) (fun i _ k => if i ≤ 2 ∧ k = 1 then 1 else 0)).NonnegCoef ∧
    ZeroGradientX boxGrid (Operator.flows (nz := 3) (fun _ _ _ => 1) (fun i _ k => if i ≤ 2 ∧ k = 1 then 1 else 0)
      (fun _ _ _ => 1) (fun i _ k => if i ≤ 2 ∧ k = 1 then 1 else 0)).field ∧
    ((Operator.flows (nz := 3) (fun _ _ _ => 1) (fun i _ k => if i ≤ 2 ∧ k = 1 then 1 else 0)
      (fun _ _ _ => 1) (fun i _ k => if i ≤ 2 ∧ k = 1 then 1 else 0)).run boxGrid).1 2 2 1 = -1 := by
  refine ⟨boxGrid_positive.regular (by norm_num [boxGrid]) (by norm_num [boxGrid]), boxGrid_separable,
    boxGrid_positive, ⟨fun _ _ _ => zero_le_one, fun _ _ _ => zero_le_one⟩, fun j k => ?_, ?_⟩
  · constructor <;> simp [Operator.field, boxGrid]
  · rw [run_eq]
    simp only
    rw [Grid.xLoop_apply]
    simp [Operator.faceX, Grid.flowsX, boxGrid]
    norm_num

/-! ## C18: index-space dissipation -/

/-- Sum over a plane `j` weighted with `J dx` (the volume in index space). -/
noncomputable def planeSum (g : Grid) (r : F3 nz) (j : ℤ) : ℝ :=
  ∑ i ∈ Icc g.xstart g.xend, ∑ k, r i j k * (g.J i j * g.dx i j)

/-- Radial face flux of `Div_Perp_Lap_FV_Index`. -/
noncomputable def lapFace (g : Grid) (a f : F3 nz) (i j : ℤ) (k : Fin nz) : ℝ :=
  (f (i + 1) j k - f i j k) * ((a i j k + a (i + 1) j k) / 2)
    * (((g.J i j + g.J (i + 1) j) / 2) * (g.dx i j + g.dx (i + 1) j))

/-- C18 (`Div_Perp_Lap_FV_Index`, used by the low-density and low-pressure dissipation).  Summed over a
plane it is the difference of the fluxes through the two radial boundaries; there is no decomposition
dependence because each processor evaluates its own cells from guard-cell values only. -/
theorem perpLapIndex_conserves [NeZero nz] {g : Grid} (hg : Regular g) (a f : F3 nz) (j : ℤ) :
    planeSum g (g.perpLapIndex a f) j =
      ∑ k, (lapFace g a f g.xend j k - lapFace g a f (g.xstart - 1) j k) := by
  unfold planeSum
  have key : ∀ i, ∑ k, g.perpLapIndex a f i j k * (g.J i j * g.dx i j) =
      ∑ k, (lapFace g a f i j k - lapFace g a f (i - 1) j k) := by
    intro i
    have hJ := hg.J_ne i j
    have hd := hg.dx_ne i j
    let Z : Fin nz → ℝ := fun k => (f i j (k + 1) - f i j k) * 0.5 * (a i j k + a i j (k + 1)) * (g.J i j * g.dx i j)
    have e : ∀ k, g.perpLapIndex a f i j k * (g.J i j * g.dx i j) =
        (lapFace g a f i j k - lapFace g a f (i - 1) j k) + (Z k - Z (k - 1)) := by
      intro k
      simp only [Grid.perpLapIndex, lapFace, Z, sub_add_cancel]
      field_simp
      ring
    simp only [e]
    rw [Finset.sum_add_distrib, Finset.sum_sub_distrib (f := fun k => Z k), sum_cyclic_succ Z, sub_self,
      add_zero]
  rw [Finset.sum_congr rfl fun i _ => key i, Finset.sum_comm]
  exact Finset.sum_congr rfl fun k _ => sum_telescope (fun i => lapFace g a f i j k) _ _
    (by have := hg.x_nonempty; omega)

/-- C18.  With zero-gradient radial boundaries it conserves exactly. -/
theorem perpLapIndex_conserves_closed [NeZero nz] {g : Grid} (hg : Regular g) (a f : F3 nz)
    (h0 : ZeroGradientX g f) (j : ℤ) : planeSum g (g.perpLapIndex a f) j = 0 := by
  rw [perpLapIndex_conserves hg]
  refine Finset.sum_eq_zero fun k _ => ?_
  unfold lapFace
  rw [sub_add_cancel, (h0 j k).1, (h0 j k).2]
  simp

/-- C18.  It fills minima (four neighbours, non-negative coefficient): an empty cell is not drained. -/
theorem perpLapIndex_fills_minima [NeZero nz] {g : Grid} (hp : Positive g) (a f : F3 nz)
    (ha : ∀ i j k, 0 ≤ a i j k) {i j : ℤ} (k : Fin nz) (h1 : f i j k ≤ f (i + 1) j k)
    (h2 : f i j k ≤ f (i - 1) j k) (h3 : f i j k ≤ f i j (k + 1)) (h4 : f i j k ≤ f i j (k - 1)) :
    0 ≤ g.perpLapIndex a f i j k := by
  have hJ := hp.J i j
  have hJp := hp.J (i + 1) j
  have hJm := hp.J (i - 1) j
  have hd := hp.dx i j
  have hdp := hp.dx (i + 1) j
  have hdm := hp.dx (i - 1) j
  have a0 := ha i j k
  have a1 := ha (i + 1) j k
  have a2 := ha (i - 1) j k
  have a3 := ha i j (k + 1)
  have a4 := ha i j (k - 1)
  have d1 : 0 ≤ f (i + 1) j k - f i j k := by linarith
  have d2 : 0 ≤ f (i - 1) j k - f i j k := by linarith
  have d3 : 0 ≤ f i j (k + 1) - f i j k := by linarith
  have d4 : 0 ≤ f i j (k - 1) - f i j k := by linarith
  have e : g.perpLapIndex a f i j k =
      (f (i + 1) j k - f i j k) * 0.25 * (g.J (i + 1) j + g.J i j) * (g.dx (i + 1) j + g.dx i j)
        * (a (i + 1) j k + a i j k) / (g.dx i j * g.J i j)
      + (f (i - 1) j k - f i j k) * 0.25 * (g.J (i - 1) j + g.J i j) * (g.dx (i - 1) j + g.dx i j)
        * (a (i - 1) j k + a i j k) / (g.dx i j * g.J i j)
      + (f i j (k + 1) - f i j k) * 0.5 * (a i j k + a i j (k + 1))
      + (f i j (k - 1) - f i j k) * 0.5 * (a i j k + a i j (k - 1)) := by
    simp only [Grid.perpLapIndex]
    ring
  rw [e]
  positivity

/-- C18 (`Div_Z_FV_Index`).  Nothing is created or destroyed round a ring. -/
theorem divZIndex_conserves [NeZero nz] (a f : F3 nz) (i j : ℤ) : ∑ k, divZIndex a f i j k = 0 := by
  let Z : Fin nz → ℝ := fun k => (f i j (k + 1) - f i j k) * 0.5 * (a i j k + a i j (k + 1))
  have e : ∀ k, divZIndex a f i j k = Z k - Z (k - 1) := by
    intro k
    simp only [divZIndex, Z, sub_add_cancel]
    ring
  simp only [e]
  rw [Finset.sum_sub_distrib, sum_cyclic_succ Z, sub_self]

/-- C18 (`D4DZ4_Index`).  Nothing is created or destroyed round a ring. -/
theorem d4dz4Index_conserves [NeZero nz] (f : F3 nz) (i j : ℤ) : ∑ k, d4dz4Index f i j k = 0 := by
  have p1 : ∑ k, f i j (k + 1) = ∑ k, f i j k := Equiv.sum_comp (Equiv.addRight (1 : Fin nz)) (f i j)
  have p2 : ∑ k, f i j (k + 1 + 1) = ∑ k, f i j k := by
    rw [← p1]; exact Equiv.sum_comp (Equiv.addRight (1 : Fin nz)) (fun k => f i j (k + 1))
  have m1 : ∑ k, f i j (k - 1) = ∑ k, f i j k := sum_cyclic_succ (f i j)
  have m2 : ∑ k, f i j (k - 1 - 1) = ∑ k, f i j k := by
    rw [← m1]; exact sum_cyclic_succ (fun k => f i j (k - 1))
  simp only [d4dz4Index, Finset.sum_add_distrib, Finset.sum_sub_distrib, ← Finset.mul_sum, p1, p2, m1, m2]
  ring

/-- C18.  `D4DZ4_Index` dissipates: its correlation with the field is the sum of the squared second
differences, so subtracting it can only reduce the variance of the field. -/
theorem d4dz4Index_dissipates [NeZero nz] (f : F3 nz) (i j : ℤ) :
    ∑ k, f i j k * d4dz4Index f i j k = ∑ k, (f i j (k + 1) - 2 * f i j k + f i j (k - 1)) ^ 2 := by
  let u := f i j
  have sh : ∀ G : Fin nz → ℝ, ∑ k, G (k + 1) = ∑ k, G k := fun G =>
    Equiv.sum_comp (Equiv.addRight (1 : Fin nz)) G
  -- every product u_k u_{k+m} can be shifted
  have A : ∑ k, u k * u (k - 1) = ∑ k, u k * u (k + 1) := by
    rw [← sh fun k => u k * u (k - 1)]
    refine Finset.sum_congr rfl fun k _ => ?_
    rw [add_sub_cancel_right]; ring
  have B : ∑ k, u k * u (k - 1 - 1) = ∑ k, u k * u (k + 1 + 1) := by
    rw [← sh fun k => u k * u (k - 1 - 1), ← sh fun k => u (k + 1) * u (k + 1 - 1 - 1)]
    refine Finset.sum_congr rfl fun k _ => ?_
    rw [add_sub_cancel_right, add_sub_cancel_right]; ring
  have Cc : ∑ k, u (k - 1) * u (k + 1) = ∑ k, u k * u (k + 1 + 1) := by
    rw [← sh fun k => u (k - 1) * u (k + 1)]
    refine Finset.sum_congr rfl fun k _ => ?_
    rw [add_sub_cancel_right]
  have D : ∑ k, u (k + 1) * u (k + 1) = ∑ k, u k * u k := sh fun k => u k * u k
  have E : ∑ k, u (k - 1) * u (k - 1) = ∑ k, u k * u k := sum_cyclic_succ fun k => u k * u k
  have l : ∀ k, f i j k * d4dz4Index f i j k =
      u k * u (k + 1 + 1) - 4 * (u k * u (k + 1)) + 6 * (u k * u k) - 4 * (u k * u (k - 1))
        + u k * u (k - 1 - 1) := by
    intro k; simp only [d4dz4Index, u]; ring
  have r : ∀ k, (f i j (k + 1) - 2 * f i j k + f i j (k - 1)) ^ 2 =
      u (k + 1) * u (k + 1) + 4 * (u k * u k) + u (k - 1) * u (k - 1) - 4 * (u k * u (k + 1))
        - 4 * (u k * u (k - 1)) + 2 * (u (k - 1) * u (k + 1)) := by
    intro k; simp only [u]; ring
  simp only [l, r, Finset.sum_add_distrib, Finset.sum_sub_distrib, ← Finset.mul_sum, A, B, Cc, D, E]
  ring

/-! ### `Laplace_FV` -/

/-- Fluxes of `Laplace_FV` through the upper x face and the upper y face. -/
noncomputable def laplaceFaceX (g : Grid) (κ f : ℤ → ℤ → ℝ) (i j : ℤ) : ℝ :=
  (g.g11 i j + g.g11 (i + 1) j) * (f (i + 1) j - f i j) / (g.dx (i + 1) j + g.dx i j)
    * ((g.J (i + 1) j + g.J i j) / 2) * ((κ (i + 1) j + κ i j) / 2) * g.dy i j
noncomputable def laplaceFaceY (g : Grid) (κ f : ℤ → ℤ → ℝ) (i j : ℤ) : ℝ :=
  (g.g22 i j + g.g22 i (j + 1)) * (f i (j + 1) - f i j) / (g.dy i (j + 1) + g.dy i j)
    * ((g.J i (j + 1) + g.J i j) / 2) * ((κ i (j + 1) + κ i j) / 2) * g.dx i j

/-- C16 (`Laplace_FV`, used for the viscosity and conduction of the 2D neutral model).  The divergence times
the cell area is the sum of the face flux differences, each face flux being shared by the two cells. -/
theorem laplaceFV_cell {g : Grid} (hg : Regular g) (hs : Separable g) (κ f : ℤ → ℤ → ℝ) (i j : ℤ) :
    g.laplaceFV κ f i j * (g.J i j * g.dx i j * g.dy i j) =
      (laplaceFaceX g κ f i j - laplaceFaceX g κ f (i - 1) j)
        + (laplaceFaceY g κ f i j - laplaceFaceY g κ f i (j - 1)) := by
  have hJ := hg.J_ne i j
  have hx := hg.dx_ne i j
  have hy := hg.dy_ne i j
  simp only [Grid.laplaceFV, laplaceFaceX, laplaceFaceY, sub_add_cancel, hs.dy (i - 1) i j,
    hs.dx i (j - 1) j]
  generalize (g.g11 i j + g.g11 (i + 1) j) * (f (i + 1) j - f i j) / (g.dx (i + 1) j + g.dx i j) = A
  rw [add_comm (g.dx (i - 1) j)]
  generalize (g.g11 (i - 1) j + g.g11 i j) * (f i j - f (i - 1) j) / (g.dx i j + g.dx (i - 1) j) = B
  generalize (g.g22 i j + g.g22 i (j + 1)) * (f i (j + 1) - f i j) / (g.dy i (j + 1) + g.dy i j) = C
  generalize (g.g22 i (j - 1) + g.g22 i j) * (f i j - f i (j - 1)) / (g.dy i j + g.dy i (j - 1)) = D
  field_simp
  ring

/-- C16.  The integral of `Laplace_FV` over the domain is the flux through its boundary. -/
theorem laplaceFV_conserves {g : Grid} (hg : Regular g) (hs : Separable g) (κ f : ℤ → ℤ → ℝ) :
    ∑ i ∈ Icc g.xstart g.xend, ∑ j ∈ Icc g.ystart g.yend,
        g.laplaceFV κ f i j * (g.J i j * g.dx i j * g.dy i j) =
      (∑ j ∈ Icc g.ystart g.yend, (laplaceFaceX g κ f g.xend j - laplaceFaceX g κ f (g.xstart - 1) j))
      + ∑ i ∈ Icc g.xstart g.xend, (laplaceFaceY g κ f i g.yend - laplaceFaceY g κ f i (g.ystart - 1)) := by
  simp only [laplaceFV_cell hg hs, Finset.sum_add_distrib]
  congr 1
  · rw [Finset.sum_comm]
    exact Finset.sum_congr rfl fun j _ => sum_telescope (fun i => laplaceFaceX g κ f i j) _ _
      (by have := hg.x_nonempty; omega)
  · exact Finset.sum_congr rfl fun i _ => sum_telescope (fun j => laplaceFaceY g κ f i j) _ _
      (by have := hg.y_nonempty; omega)

/-! ### `D4DX4_FV_Index` -/

theorem d4dx4Index_apply_of_ne (g : Grid) (f : F3 nz) (b : Bool) {i j : ℤ} (k : Fin nz)
    (hj : g.ystart ≤ j ∧ j ≤ g.yend) (hne : j ≠ g.xstart) :
    g.d4dx4Index f b i j k =
      ((if g.xstart ≤ i ∧ i ≤ g.xend then g.d4RightFlux f b i j k else 0)
       - (if g.xstart + 1 ≤ i ∧ i ≤ g.xend + 1 then g.d4RightFlux f b (i - 1) j k else 0))
        / (g.J i j * g.dx i j) := by
  unfold Grid.d4dx4Index
  rw [foldl_observe' (g.d4Step f b) (fun r => r i j k)
    (fun p => (if (i, j, k) = Equiv.refl _ p then
        g.d4RightFlux f b p.1 p.2.1 p.2.2 / (g.J p.1 p.2.1 * g.dx p.1 p.2.1) else 0)
      + (if (i, j, k) = shX 1 p then
          -(g.d4RightFlux f b p.1 p.2.1 p.2.2 / (g.J (p.1 + 1) p.2.1 * g.dx (p.1 + 1) p.2.1)) else 0))]
  · rw [sum_loop3, Finset.sum_add_distrib, sum_pick3, sum_pick3]
    simp only [Equiv.refl_symm, Equiv.refl_apply, mem_box, shX, Equiv.coe_fn_symm_mk, sub_add_cancel,
      zero_add, hj, and_true, and_self]
    have e : (g.xstart ≤ i - 1 ∧ i - 1 ≤ g.xend) ↔ (g.xstart + 1 ≤ i ∧ i ≤ g.xend + 1) := by omega
    simp only [e]
    split_ifs <;> ring
  · rintro r ⟨i', j', k'⟩
    simp only [Equiv.refl_apply, shX, Equiv.coe_fn_mk]
    by_cases h : j = j'
    · subst h
      simp only [Grid.d4Step, if_neg hne, addAt3_apply]
      ring
    · simp only [Grid.d4Step, Prod.mk.injEq, h, false_and, and_false, if_false, add_zero]
      split_ifs <;> simp [addAt3_apply, h]

/-- On a uniform grid, away from the edges, the operator is the fourth difference. -/
theorem d4dx4Index_stencil {g : Grid} {J dx : ℝ} (hJ : ∀ i j, g.J i j = J) (hdx : ∀ i j, g.dx i j = dx) (hJ0 : J ≠ 0) (hdx0 : dx ≠ 0) (f : F3 nz)
    (b : Bool) {i j : ℤ} (k : Fin nz) (hj : g.ystart ≤ j ∧ j ≤ g.yend) (hne : j ≠ g.xstart) (h1 : g.xstart < i) (h2 : i < g.xend) :
    g.d4dx4Index f b i j k = f (i + 2) j k - 4 * f (i + 1) j k + 6 * f i j k - 4 * f (i - 1) j k + f (i - 2) j k := by
  rw [d4dx4Index_apply_of_ne g f b k hj hne, if_pos ⟨h1.le, h2.le⟩, if_pos ⟨by omega, by omega⟩]
  have e1 : (i == g.xend) = false := by simpa using h2.ne
  have e2 : (i - 1 == g.xend) = false := by simp; omega
  unfold Grid.d4RightFlux
  simp only [e1, e2, Bool.and_false, Bool.false_eq_true, if_false, hJ, hdx]
  rw [show i - 1 + 2 = i + 1 by omega, show i - 1 + 1 = i by omega, show i - 1 - 1 = i - 2 by omega,
    show (0.25 : ℝ) * (dx + dx) * (J + J) = J * dx by norm_num; ring, ← mul_sub, mul_div_cancel_left₀ _ (mul_ne_zero hJ0 hdx0)]
  ring

/-- C18 (`D4DX4_FV_Index`), undivided domain, no boundary flux: on every row except the one that the code
mistakes for the first column (`j == mesh->xstart`) the sum over the plane is zero.  Missing: that row, and
domains divided in `x` (see the two theorems below). -/
theorem d4dx4Index_conserves_partial {g : Grid} (hg : Regular g) (hl : g.lastX = true) (f : F3 nz) {j : ℤ}
    (hj : g.ystart ≤ j ∧ j ≤ g.yend) (hne : j ≠ g.xstart) :
    planeSum g (g.d4dx4Index f false) j = 0 := by
  unfold planeSum
  rw [Finset.sum_comm]
  refine Finset.sum_eq_zero fun k _ => ?_
  have key : ∀ i ∈ Icc g.xstart g.xend, g.d4dx4Index f false i j k * (g.J i j * g.dx i j) =
      (if g.xstart ≤ i then g.d4RightFlux f false i j k else 0)
      - (if g.xstart ≤ i - 1 then g.d4RightFlux f false (i - 1) j k else 0) := by
    intro i hi
    rw [mem_Icc] at hi
    have hJ := hg.J_ne i j
    have hd := hg.dx_ne i j
    rw [d4dx4Index_apply_of_ne g f false k hj hne, if_pos hi, div_mul_cancel₀ _ (mul_ne_zero hJ hd),
      if_pos hi.1]
    by_cases h : g.xstart + 1 ≤ i
    · rw [if_pos ⟨h, by omega⟩, if_pos (by omega)]
    · rw [if_neg (by omega), if_neg (by omega)]
  rw [Finset.sum_congr rfl key, sum_telescope
    (fun i => if g.xstart ≤ i then g.d4RightFlux f false i j k else 0) _ _
    (by have := hg.x_nonempty; omega), if_pos hg.x_nonempty, if_neg (by omega)]
  simp [Grid.d4RightFlux, hl]

/-- One column, rows 2 and 3, both radial boundaries on this processor. -/
noncomputable def columnGrid : Grid := { boxGrid with xend := 2 }

/-- C18 is violated: the test `j == mesh->xstart` (line 683) makes one row behave differently from the
others.  For a field that does not depend on the row, the result on the row `j = xstart` differs from the
result on the next row. -/
theorem d4dx4Index_row_dependent : ∃ (g : Grid) (f : F3 1), Positive g ∧ Separable g ∧
    (∀ i j j' k, f i j k = f i j' k) ∧ (∀ i j j', g.J i j = g.J i j') ∧
    g.d4dx4Index f true 2 2 0 ≠ g.d4dx4Index f true 2 3 0 := by
  refine ⟨columnGrid, fun i _ _ => (i : ℝ) ^ 2, ?_, ?_, fun _ _ _ _ => rfl, fun _ _ _ => rfl, ?_⟩
  · constructor <;> intro _ _ <;> norm_num [columnGrid, boxGrid]
  · constructor <;> intros <;> rfl
  · have hl : loop3 1 columnGrid.xstart columnGrid.xend columnGrid.ystart columnGrid.yend
        = [(2, 2, 0), (2, 3, 0)] := by
      simp only [columnGrid, boxGrid]
      decide
    unfold Grid.d4dx4Index
    rw [hl]
    simp [Grid.d4Step, Grid.d4RightFlux, addAt3, columnGrid, boxGrid]
    norm_num

/-- C18 is violated: the result depends on the decomposition.  The fluxes written to the guard cells are
never communicated, so a processor that does not own the first column misses the flux from its left
neighbour: with the same data, the value in the cell `i = 3` differs between the undivided domain
(`i = 2, 3`) and the right half of the divided one (`i = 3`). -/
theorem d4dx4Index_depends_on_decomposition : ∃ (G g : Grid) (f : F3 1), Positive G ∧ Separable G ∧
    g = { G with xstart := 3, firstX := false } ∧ G.xstart = 2 ∧ G.xend = 3 ∧ G.lastX = true ∧
    G.ystart = 5 ∧ G.yend = 5 ∧
    g.d4dx4Index f false 3 5 0 ≠ G.d4dx4Index f false 3 5 0 := by
  refine ⟨{ boxGrid with ystart := 5, yend := 5 }, _, fun i _ _ => if i = 2 then 1 else 0, ?_, ?_, rfl, rfl,
    rfl, rfl, rfl, rfl, ?_⟩
  · constructor <;> intro _ _ <;> norm_num [boxGrid]
  · constructor <;> intros <;> rfl
  · rw [d4dx4Index_apply_of_ne _ _ _ _ (by simp) (by simp),
      d4dx4Index_apply_of_ne _ _ _ _ (by simp) (by simp [boxGrid])]
    simp [boxGrid, Grid.d4RightFlux]
    norm_num

end Hermes.PerpOps
