import Verif.Props.PerpOps

/-!
# C17 (and C10, C12 for this operator): ExB advection in the X–Z plane

`g.exbXZ n q f b` is `Div_n_g_bxGrad_f_B_XZ(n, q, f, b)`; with `q = 1` it is the X–Z part of
`Div_n_bxGrad_f_B_XPPM(n, f, b)`.
-/

namespace Hermes.ExB
open Finset Hermes Hermes.Limiters Hermes.PerpOps

variable {nz : ℕ}

/-- Sum over the cells of a plane and one guard cell on each side (the guard cells hold what is sent to the
neighbouring processor by `communicateFluxes`), weighted with `J dx`. -/
noncomputable def planeSumWithGuards (g : Grid) (r : F3 nz) (j : ℤ) : ℝ :=
  ∑ i ∈ Icc (g.xstart - 1) (g.xend + 1), ∑ k, r i j k * (g.J i j * g.dx i j)

theorem faceX_outside [NeZero nz] (g : Grid) (n q f : F3 nz) (b : Bool) (j : ℤ) (k : Fin nz) :
    g.exbFaceX n q f b (g.xend + 1) j k = 0 ∧ g.exbFaceX n q f b (g.xstart - 2) j k = 0 := by
  unfold Grid.exbFaceX
  constructor
  · rw [if_neg (by omega), if_neg (by omega), add_zero]
  · rw [if_neg (by omega), if_neg (by omega), add_zero]

theorem zsum_faceX [NeZero nz] {g : Grid} (hg : Regular g) (n q f : F3 nz) (b : Bool) (i : ℤ) {j : ℤ}
    (hj : g.ystart ≤ j ∧ j ≤ g.yend) :
    ∑ k, g.exbXZ n q f b i j k * (g.J i j * g.dx i j) =
      ∑ k, (g.exbFaceX n q f b i j k - g.exbFaceX n q f b (i - 1) j k) := by
  have hJ := hg.J_ne i j
  have hd := hg.dx_ne i j
  let Z : Fin nz → ℝ := fun k => if g.xstart ≤ i ∧ i ≤ g.xend then
    g.exbFaceZ n q f i j k * (g.J i j * g.dx i j) else 0
  have e : ∀ k, g.exbXZ n q f b i j k * (g.J i j * g.dx i j) =
      (g.exbFaceX n q f b i j k - g.exbFaceX n q f b (i - 1) j k) + (Z k - Z (k - 1)) := by
    intro k
    rw [g.exbXZ_apply n q f b k hj]
    simp only [Z]
    split_ifs
    · field_simp
    · field_simp
      ring
  simp only [e]
  rw [Finset.sum_add_distrib, Finset.sum_sub_distrib (f := fun k => Z k), sum_cyclic_succ Z, sub_self, add_zero]

/-- C17.  Nothing is created or destroyed: everything that leaves the owned cells of a plane is found in the
guard cells, whatever the advected quantity, the potential, the geometry and the boundary option. -/
theorem exb_conserves [NeZero nz] {g : Grid} (hg : Regular g) (n q f : F3 nz) (b : Bool) {j : ℤ}
    (hj : g.ystart ≤ j ∧ j ≤ g.yend) : planeSumWithGuards g (g.exbXZ n q f b) j = 0 := by
  unfold planeSumWithGuards
  rw [Finset.sum_congr rfl fun i _ => zsum_faceX hg n q f b i hj, Finset.sum_comm]
  refine Finset.sum_eq_zero fun k _ => ?_
  rw [sum_telescope (fun i => g.exbFaceX n q f b i j k) _ _ (by have := hg.x_nonempty; omega),
    show g.xstart - 1 - 1 = g.xstart - 2 by ring, (faceX_outside g n q f b j k).1,
    (faceX_outside g n q f b j k).2, sub_zero]

/-- C17.  With the boundary flux switched off nothing is written outside the domain … -/
theorem exb_closed_boundary_no_leak [NeZero nz] {g : Grid} (n q f : F3 nz) {j : ℤ} (k : Fin nz)
    (hj : g.ystart ≤ j ∧ j ≤ g.yend) :
    (g.lastX = true → g.exbXZ n q f false (g.xend + 1) j k = 0) ∧
    (g.firstX = true → g.exbXZ n q f false (g.xstart - 1) j k = 0) := by
  constructor
  · intro hl
    rw [g.exbXZ_apply n q f false k hj, if_neg (by omega), (faceX_outside g n q f false j k).1]
    rw [add_sub_cancel_right]
    unfold Grid.exbFaceX
    rw [if_neg (show ¬ (g.xstart ≤ g.xend + 1 ∧ g.xend + 1 ≤ g.xend) by omega)]
    simp [Grid.exbRight, hl]
  · intro hf
    rw [g.exbXZ_apply n q f false k hj, if_neg (by omega), show g.xstart - 1 - 1 = g.xstart - 2 by ring,
      (faceX_outside g n q f false j k).2]
    unfold Grid.exbFaceX
    rw [if_neg (show ¬ (g.xstart ≤ g.xstart - 1 ∧ g.xstart - 1 ≤ g.xend) by omega)]
    simp [Grid.exbLeft, hf]

/-- C17.  … and the plane owned by a single processor keeps its content exactly. -/
theorem exb_closed_plane_conserves [NeZero nz] {g : Grid} (hg : Regular g) (hf : g.firstX = true)
    (hl : g.lastX = true) (n q f : F3 nz) {j : ℤ} (hj : g.ystart ≤ j ∧ j ≤ g.yend) :
    planeSum g (g.exbXZ n q f false) j = 0 := by
  have h := exb_conserves hg n q f false hj
  unfold planeSumWithGuards at h
  have hx := hg.x_nonempty
  have e : Icc (g.xstart - 1) (g.xend + 1) =
      insert (g.xstart - 1) (insert (g.xend + 1) (Icc g.xstart g.xend)) := by
    ext i; simp only [mem_insert, mem_Icc]; omega
  rw [e, Finset.sum_insert (by simp; omega), Finset.sum_insert (by simp)] at h
  simp only [(exb_closed_boundary_no_leak (g := g) n q f _ hj).1 hl,
    (exb_closed_boundary_no_leak (g := g) n q f _ hj).2 hf, zero_mul, Finset.sum_const_zero, zero_add] at h
  exact h

/-- C17.  A potential that is constant in the plane moves nothing. -/
theorem exb_constant_potential [NeZero nz] (g : Grid) (n q : F3 nz) (b : Bool) (c : ℝ) {i j : ℤ} (k : Fin nz)
    (hj : g.ystart ≤ j ∧ j ≤ g.yend) : g.exbXZ n q (fun _ _ _ => c) b i j k = 0 := by
  have vR : ∀ i j (k : Fin nz), g.vR (fun _ _ _ => c) i j k = 0 := by
    intros; simp [Grid.vR, cornerPP, cornerPM]
  have vL : ∀ i j (k : Fin nz), g.vL (fun _ _ _ => c) i j k = 0 := by
    intros; simp [Grid.vL, cornerMP, cornerMM]
  have vU : ∀ i j (k : Fin nz), g.vU (fun _ _ _ => c) i j k = 0 := by
    intros; simp [Grid.vU, cornerMP, cornerPP]
  have vD : ∀ i j (k : Fin nz), g.vD (fun _ _ _ => c) i j k = 0 := by
    intros; simp [Grid.vD, cornerMM, cornerPM]
  have hx : ∀ i j (k : Fin nz), g.exbFaceX n q (fun _ _ _ => c) b i j k = 0 := by
    intro i j k
    simp only [Grid.exbFaceX, Grid.exbRight, Grid.exbLeft, vR, vL, lt_irrefl, if_false, zero_mul]
    split_ifs <;> simp
  have hz : ∀ i j (k : Fin nz), g.exbFaceZ n q (fun _ _ _ => c) i j k = 0 := by
    intro i j k
    simp [Grid.exbFaceZ, Grid.exbUp, Grid.exbDown, vU, vD]
  rw [g.exbXZ_apply n q _ b k hj]
  simp [hx, hz]

/-! ## Velocities on shared faces -/

theorem vL_succ [NeZero nz] {g : Grid} (hs : Separable g) (f : F3 nz) (i j : ℤ) (k : Fin nz) :
    g.vL f (i + 1) j k = g.vR f i j k := by
  simp only [Grid.vL, Grid.vR, cornerMP, cornerMM, cornerPP, cornerPM, add_sub_cancel_right,
    hs.dz (i + 1) i j j]
  ring

theorem vD_succ [NeZero nz] (g : Grid) (f : F3 nz) (i j : ℤ) (k : Fin nz) :
    g.vD f i j (k + 1) = g.vU f i j k := by
  simp only [Grid.vD, Grid.vU, cornerMP, cornerMM, cornerPP, cornerPM, add_sub_cancel_right]
  ring

/-- Inside the domain exactly one of the two cells supplies the flux through the shared face: the upwind
one. -/
theorem exbFaceX_upwind [NeZero nz] {g : Grid} (hs : Separable g) (n q f : F3 nz) (b : Bool) {i j : ℤ}
    (k : Fin nz) (hi : g.xstart ≤ i ∧ i + 1 ≤ g.xend) :
    g.exbFaceX n q f b i j k = g.vR f i j k * ((q i j k + q (i + 1) j k) / 2) *
      (if g.vR f i j k > 0 then (mc (n (i - 1) j k) (n i j k) (n (i + 1) j k)).2
        else (mc (n i j k) (n (i + 1) j k) (n (i + 2) j k)).1) := by
  have e1 : (i == g.xend) = false := by simp; omega
  have e2 : (i + 1 == g.xstart) = false := by simp; omega
  unfold Grid.exbFaceX
  rw [if_pos ⟨hi.1, by omega⟩, if_pos ⟨by omega, hi.2⟩]
  simp only [Grid.exbRight, Grid.exbLeft, e1, e2, Bool.false_and, Bool.false_eq_true, if_false,
    vL_succ hs, add_sub_cancel_right, show i + 1 + 1 = i + 2 by ring]
  rcases lt_trichotomy (g.vR f i j k) 0 with h | h | h
  · rw [if_neg (not_lt.2 h.le), if_pos h, if_neg (not_lt.2 h.le)]
    simp only [Option.getD_none, Option.getD_some]
    ring
  · simp [h]
  · rw [if_pos h, if_neg (not_lt.2 h.le), if_pos h]
    simp only [Option.getD_none, Option.getD_some]
    ring

theorem exbFaceZ_upwind [NeZero nz] (g : Grid) (n q f : F3 nz) (i j : ℤ) (k : Fin nz) :
    g.exbFaceZ n q f i j k = g.vU f i j k * ((q i j k + q i j (k + 1)) / 2) *
      (if g.vU f i j k > 0 then (mc (n i j (k - 1)) (n i j k) (n i j (k + 1))).2
        else (mc (n i j k) (n i j (k + 1)) (n i j (k + 1 + 1))).1) / (g.J i j * g.dz i j) := by
  unfold Grid.exbFaceZ
  simp only [Grid.exbUp, Grid.exbDown, vD_succ, add_sub_cancel_right]
  rcases lt_trichotomy (g.vU f i j k) 0 with h | h | h
  · rw [if_neg (not_lt.2 h.le), if_pos h, if_neg (not_lt.2 h.le)]
    simp only [Option.getD_none, Option.getD_some]
    ring
  · simp [h]
  · rw [if_pos h, if_neg (not_lt.2 h.le), if_pos h]
    simp only [Option.getD_none, Option.getD_some]
    ring

/-- C17.  Incompressibility: where the Jacobian does not vary radially, ExB advection leaves a uniform
density uniform — the divergence vanishes in every cell away from the radial boundary, for every potential. -/
theorem exb_uniform_density_partial [NeZero nz] {g : Grid} (hg : Regular g) (hs : Separable g)
    (hJ : ∀ i i' j, g.J i j = g.J i' j) (c : ℝ) (f : F3 nz) (b : Bool) {i j : ℤ} (k : Fin nz)
    (hi : g.xstart < i ∧ i < g.xend) (hj : g.ystart ≤ j ∧ j ≤ g.yend) :
    g.exbXZ (fun _ _ _ => c) (fun _ _ _ => 1) f b i j k = 0 := by
  have hc := constant_exact mc_monotone c
  rw [g.exbXZ_apply _ _ _ b k hj, if_pos ⟨by omega, by omega⟩,
    exbFaceX_upwind hs _ _ _ b k ⟨by omega, by omega⟩, exbFaceX_upwind hs _ _ _ b k ⟨by omega, by omega⟩,
    exbFaceZ_upwind, exbFaceZ_upwind]
  simp only [hc, ite_self]
  have j0 := hg.J_ne i j
  have d0 := hg.dx_ne i j
  have z0 := hg.dz_ne i j
  simp only [Grid.vR, Grid.vU, cornerMP, cornerPP, cornerPM, sub_add_cancel, hJ (i + 1) i j,
    hJ (i - 1) i j, hs.dz (i - 1) i j j]
  field_simp
  ring

/-- C17, C12.  An empty cell is not drained by ExB advection: if the density is non-negative in the
neighbourhood and zero in a cell, the divergence there is not positive (the density cannot decrease),
for every potential, at the radial boundaries as well, with or without boundary flux. -/
theorem exb_empty_cell_not_drained [NeZero nz] {g : Grid} (hp : Positive g) (n q f : F3 nz)
    (hn : ∀ i j k, 0 ≤ n i j k) (hq : ∀ i j k, 0 ≤ q i j k) (b : Bool) {i j : ℤ} (k : Fin nz)
    (hi : g.xstart ≤ i ∧ i ≤ g.xend) (hj : g.ystart ≤ j ∧ j ≤ g.yend) (h0 : n i j k = 0) :
    g.exbXZ n q f b i j k ≤ 0 := by
  have edge : ∀ m p : ℝ, 0 ≤ m → 0 ≤ p → (mc m 0 p).1 = 0 ∧ (mc m 0 p).2 = 0 := by
    intro m p hm hp'
    obtain ⟨a, b, c, d⟩ := edges_nonneg mc_monotone hm le_rfl hp'
    exact ⟨by linarith, by linarith⟩
  have pos : ∀ m c p : ℝ, 0 ≤ m → 0 ≤ c → 0 ≤ p → 0 ≤ (mc m c p).1 ∧ 0 ≤ (mc m c p).2 := by
    intro m c p hm hc hp'
    obtain ⟨a, b, c, d⟩ := edges_nonneg mc_monotone hm hc hp'
    exact ⟨a, c⟩
  have qa : ∀ i j k i' j' k', (0 : ℝ) ≤ 0.5 * (q i j k + q i' j' k') := fun i j k i' j' k' => by
    have := hq i j k; have := hq i' j' k'; positivity
  -- outflow through the right face of the cell: nothing but inflow
  have R : (g.exbRight n q f b i j k).getD 0 ≤ 0 := by
    simp only [Grid.exbRight, h0, (edge _ _ (hn (i - 1) j k) (hn (i + 1) j k)).2]
    split_ifs with h1 h2 h3 h3
    · simp
    · simp only [Option.getD_some, add_zero]
      have h4 : g.vR f i j k * 0.5 * n (i + 1) j k ≤ 0 := by
        have := hn (i + 1) j k
        have : g.vR f i j k ≤ 0 := not_lt.1 h3
        nlinarith
      exact mul_nonpos_of_nonpos_of_nonneg h4 (qa _ _ _ _ _ _)
    · simp
    · simp
    · simp
  have L : 0 ≤ (g.exbLeft n q f b i j k).getD 0 := by
    simp only [Grid.exbLeft, h0, (edge _ _ (hn (i - 1) j k) (hn (i + 1) j k)).1]
    split_ifs with h1 h2 h3 h3
    · simp
    · simp only [Option.getD_some, add_zero]
      have h4 : 0 ≤ g.vL f i j k * 0.5 * n (i - 1) j k := by
        have := hn (i - 1) j k
        have : 0 ≤ g.vL f i j k := not_lt.1 h3
        positivity
      exact mul_nonneg h4 (qa _ _ _ _ _ _)
    · simp
    · simp
    · simp
  -- what the neighbours send can only be inflow
  have LR : g.xstart ≤ i + 1 ∧ i + 1 ≤ g.xend → (g.exbLeft n q f b (i + 1) j k).getD 0 ≤ 0 := by
    intro hi'
    have e2 : (i + 1 == g.xstart) = false := by simp; omega
    simp only [Grid.exbLeft, e2, Bool.false_and, Bool.false_eq_true, if_false]
    split_ifs with h1
    · simp only [Option.getD_some]
      refine mul_nonpos_of_nonpos_of_nonneg (mul_nonpos_of_nonpos_of_nonneg h1.le ?_) (qa _ _ _ _ _ _)
      exact (pos _ _ _ (hn _ _ _) (hn _ _ _) (hn _ _ _)).1
    · simp
  have RL : g.xstart ≤ i - 1 ∧ i - 1 ≤ g.xend → 0 ≤ (g.exbRight n q f b (i - 1) j k).getD 0 := by
    intro hi'
    have e2 : (i - 1 == g.xend) = false := by simp; omega
    simp only [Grid.exbRight, e2, Bool.false_and, Bool.false_eq_true, if_false]
    split_ifs with h1
    · simp only [Option.getD_some]
      refine mul_nonneg (mul_nonneg (le_of_lt h1) ?_) (qa _ _ _ _ _ _)
      exact (pos _ _ _ (hn _ _ _) (hn _ _ _) (hn _ _ _)).2
    · simp
  have FX1 : g.exbFaceX n q f b i j k ≤ 0 := by
    unfold Grid.exbFaceX
    rw [if_pos hi]
    split_ifs with h
    · linarith [LR h]
    · linarith
  have FX2 : 0 ≤ g.exbFaceX n q f b (i - 1) j k := by
    unfold Grid.exbFaceX
    rw [sub_add_cancel, if_pos hi]
    split_ifs with h
    · linarith [RL h]
    · linarith
  have wz : 0 < g.J i j * g.dz i j := mul_pos (hp.J _ _) (hp.dz _ _)
  have FZ1 : g.exbFaceZ n q f i j k ≤ 0 := by
    rw [exbFaceZ_upwind]
    refine div_nonpos_of_nonpos_of_nonneg ?_ wz.le
    have hqq : 0 ≤ (q i j k + q i j (k + 1)) / 2 := by
      have := hq i j k; have := hq i j (k + 1); positivity
    split_ifs with h
    · rw [h0, (edge _ _ (hn _ _ _) (hn _ _ _)).2]; simp
    · have := (pos _ _ _ (hn i j k) (hn i j (k + 1)) (hn i j (k + 1 + 1))).1
      exact mul_nonpos_of_nonpos_of_nonneg (mul_nonpos_of_nonpos_of_nonneg (not_lt.1 h) hqq) this
  have FZ2 : 0 ≤ g.exbFaceZ n q f i j (k - 1) := by
    rw [exbFaceZ_upwind]
    refine div_nonneg ?_ wz.le
    rw [sub_add_cancel]
    have hqq : 0 ≤ (q i j (k - 1) + q i j k) / 2 := by
      have := hq i j k; have := hq i j (k - 1); positivity
    split_ifs with h
    · have := (pos _ _ _ (hn i j (k - 1 - 1)) (hn i j (k - 1)) (hn i j k)).2
      exact mul_nonneg (mul_nonneg (le_of_lt h) hqq) this
    · rw [h0, (edge _ _ (hn _ _ _) (hn _ _ _)).1]; simp
  have wx : 0 < g.dx i j * g.J i j := mul_pos (hp.dx _ _) (hp.J _ _)
  rw [g.exbXZ_apply n q f b k hj, if_pos hi]
  have := div_nonpos_of_nonpos_of_nonneg
    (show g.exbFaceX n q f b i j k - g.exbFaceX n q f b (i - 1) j k ≤ 0 by linarith) wx.le
  linarith

/-! ## Decomposition -/

/-- `G` split radially after column `m`: the left and the right processor (global indexing). -/
def leftPart (G : Grid) (m : ℤ) : Grid := { G with xend := m, lastX := false }
def rightPart (G : Grid) (m : ℤ) : Grid := { G with xstart := m + 1, firstX := false }

/-- C17, C10.  Decomposition independence: in every cell, adding what the two processors computed (their own
cells and what they wrote to their guard cells, which is what `communicateFluxes` adds) gives exactly the
result on the undivided domain. -/
theorem exb_decomposition_independent [NeZero nz] {G : Grid} {m : ℤ} (h1 : G.xstart ≤ m) (h2 : m < G.xend)
    (n q f : F3 nz) (b : Bool) {i j : ℤ} (k : Fin nz) (hj : G.ystart ≤ j ∧ j ≤ G.yend) :
    G.exbXZ n q f b i j k = (leftPart G m).exbXZ n q f b i j k + (rightPart G m).exbXZ n q f b i j k := by
  have RL : ∀ i, i ≤ m → (leftPart G m).exbRight n q f b i j k = G.exbRight n q f b i j k := by
    intro i hi
    have e : (i == G.xend) = false := by simp; omega
    simp only [Grid.exbRight, leftPart, e, Bool.and_false, Bool.false_and, Bool.false_eq_true, if_false]
    rfl
  have LL : ∀ i, (leftPart G m).exbLeft n q f b i j k = G.exbLeft n q f b i j k := fun i => rfl
  have RR : ∀ i, (rightPart G m).exbRight n q f b i j k = G.exbRight n q f b i j k := fun i => rfl
  have LR : ∀ i, m + 1 ≤ i → (rightPart G m).exbLeft n q f b i j k = G.exbLeft n q f b i j k := by
    intro i hi
    have e : (i == G.xstart) = false := by simp; omega
    simp only [Grid.exbLeft, rightPart, e, Bool.and_false, Bool.false_and, Bool.false_eq_true, if_false]
    rfl
  have X : ∀ i, G.exbFaceX n q f b i j k =
      (leftPart G m).exbFaceX n q f b i j k + (rightPart G m).exbFaceX n q f b i j k := by
    intro i
    unfold Grid.exbFaceX
    rw [LL, RR]
    have hxl : (leftPart G m).xstart = G.xstart := rfl
    have hxl' : (leftPart G m).xend = m := rfl
    have hxr : (rightPart G m).xstart = m + 1 := rfl
    have hxr' : (rightPart G m).xend = G.xend := rfl
    rw [hxl, hxl', hxr, hxr']
    have A : (if G.xstart ≤ i ∧ i ≤ G.xend then (G.exbRight n q f b i j k).getD 0 else 0) =
        (if G.xstart ≤ i ∧ i ≤ m then ((leftPart G m).exbRight n q f b i j k).getD 0 else 0)
        + (if m + 1 ≤ i ∧ i ≤ G.xend then (G.exbRight n q f b i j k).getD 0 else 0) := by
      by_cases c : i ≤ m
      · rw [RL i c]
        by_cases c2 : G.xstart ≤ i
        · rw [if_pos ⟨c2, by omega⟩, if_pos ⟨c2, c⟩, if_neg (by omega), add_zero]
        · rw [if_neg (by omega), if_neg (by omega), if_neg (by omega), add_zero]
      · by_cases c2 : i ≤ G.xend
        · rw [if_pos ⟨by omega, c2⟩, if_neg (by omega), if_pos ⟨by omega, c2⟩, zero_add]
        · rw [if_neg (by omega), if_neg (by omega), if_neg (by omega), add_zero]
    have B : (if G.xstart ≤ i + 1 ∧ i + 1 ≤ G.xend then (G.exbLeft n q f b (i + 1) j k).getD 0 else 0) =
        (if G.xstart ≤ i + 1 ∧ i + 1 ≤ m then (G.exbLeft n q f b (i + 1) j k).getD 0 else 0)
        + (if m + 1 ≤ i + 1 ∧ i + 1 ≤ G.xend then ((rightPart G m).exbLeft n q f b (i + 1) j k).getD 0 else 0) := by
      by_cases c : i + 1 ≤ m
      · by_cases c2 : G.xstart ≤ i + 1
        · rw [if_pos ⟨c2, by omega⟩, if_pos ⟨c2, c⟩, if_neg (by omega), add_zero]
        · rw [if_neg (by omega), if_neg (by omega), if_neg (by omega), add_zero]
      · rw [LR (i + 1) (by omega)]
        by_cases c2 : i + 1 ≤ G.xend
        · rw [if_pos ⟨by omega, c2⟩, if_neg (by omega), if_pos ⟨by omega, c2⟩, zero_add]
        · rw [if_neg (by omega), if_neg (by omega), if_neg (by omega), add_zero]
    rw [A, B]
    ring
  have Zl : ∀ k, (leftPart G m).exbFaceZ n q f i j k = G.exbFaceZ n q f i j k := fun _ => rfl
  have Zr : ∀ k, (rightPart G m).exbFaceZ n q f i j k = G.exbFaceZ n q f i j k := fun _ => rfl
  rw [G.exbXZ_apply n q f b k hj, (leftPart G m).exbXZ_apply n q f b k hj,
    (rightPart G m).exbXZ_apply n q f b k hj, X i, X (i - 1), Zl, Zl, Zr, Zr]
  have el : (leftPart G m).dx i j * (leftPart G m).J i j = G.dx i j * G.J i j := rfl
  have er : (rightPart G m).dx i j * (rightPart G m).J i j = G.dx i j * G.J i j := rfl
  rw [el, er]
  have Z : ∀ z : ℝ, (if G.xstart ≤ i ∧ i ≤ G.xend then z else 0) =
      (if (leftPart G m).xstart ≤ i ∧ i ≤ (leftPart G m).xend then z else 0)
      + (if (rightPart G m).xstart ≤ i ∧ i ≤ (rightPart G m).xend then z else 0) := by
    intro z
    have hxl : (leftPart G m).xstart = G.xstart := rfl
    have hxl' : (leftPart G m).xend = m := rfl
    have hxr : (rightPart G m).xstart = m + 1 := rfl
    have hxr' : (rightPart G m).xend = G.xend := rfl
    rw [hxl, hxl', hxr, hxr']
    by_cases c : i ≤ m
    · by_cases c2 : G.xstart ≤ i
      · rw [if_pos ⟨c2, by omega⟩, if_pos ⟨c2, c⟩, if_neg (by omega), add_zero]
      · rw [if_neg (by omega), if_neg (by omega), if_neg (by omega), add_zero]
    · by_cases c2 : i ≤ G.xend
      · rw [if_pos ⟨by omega, c2⟩, if_neg (by omega), if_pos ⟨by omega, c2⟩, zero_add]
      · rw [if_neg (by omega), if_neg (by omega), if_neg (by omega), add_zero]
  rw [Z]
  ring

/-! ## Non-vacuity -/

/-- The hypotheses are met, and the operator does something: a potential varying in `z` empties a cell with
density 1 into the next column. -/
example : Regular boxGrid ∧ Separable boxGrid ∧ (∀ i i' j, boxGrid.J i j = boxGrid.J i' j) ∧
    boxGrid.exbXZ (nz := 3) (fun i _ _ => if i = 2 then 1 else 0) (fun _ _ _ => 1)
      (fun _ _ k => if k = 1 then 1 else 0) false 3 2 0 = -1 / 2 := by
  refine ⟨boxGrid_positive.regular (by norm_num [boxGrid]) (by norm_num [boxGrid]), boxGrid_separable,
    fun _ _ _ => rfl, ?_⟩
  have h : ¬ ((-1 : Fin 3) = 1) := by decide
  have h2 : ¬ ((-1 + 1 : Fin 3) = 1) := by decide
  have h3 : ((-1 - 1 : Fin 3) = 1) := by decide
  rw [Grid.exbXZ_apply _ _ _ _ _ _ (by simp [boxGrid])]
  simp [boxGrid, Grid.exbFaceX, Grid.exbRight, Grid.exbLeft, Grid.exbFaceZ, Grid.exbUp, Grid.exbDown,
    Grid.vR, Grid.vL, Grid.vU, Grid.vD, cornerPP, cornerPM, cornerMP, cornerMM, mc, minmod3, h, h2, h3]
  norm_num

end Hermes.ExB
