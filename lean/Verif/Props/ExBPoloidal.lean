import Verif.Model.ExBPoloidal
import Verif.Props.ExB

/-!
# C17: `Div_n_bxGrad_f_B_XPPM` with poloidal flows

`g.exbXPPM B n f b p pos` is `Div_n_bxGrad_f_B_XPPM(n, f, b, p, pos)`.
-/

namespace Hermes.ExB
open Finset Hermes Hermes.Limiters Hermes.PerpOps

variable {nz : ℕ}

/-! ## The loops in gather form -/

theorem polXLoop_apply (g : Grid) (n dfdy : F3 nz) (b pos : Bool) (r : F3 nz) {i j : ℤ} (k : Fin nz)
    (hj : g.ystart ≤ j ∧ j ≤ g.yend) :
    g.polXLoop n dfdy b pos r i j k = r i j k +
      ((if g.polXs b ≤ i ∧ i ≤ g.polXe b then g.polX n dfdy pos i j k else 0)
       - (if g.polXs b ≤ i - 1 ∧ i - 1 ≤ g.polXe b then g.polX n dfdy pos (i - 1) j k else 0)) / (g.dx i j * g.J i j) := by
  unfold Grid.polXLoop
  rw [foldl_observe' (g.xStep (g.polX n dfdy pos)) (fun r => r i j k)
    (fun p => (if (i, j, k) = Equiv.refl _ p then g.polX n dfdy pos p.1 p.2.1 p.2.2 / (g.dx p.1 p.2.1 * g.J p.1 p.2.1) else 0)
      + (if (i, j, k) = shX 1 p then
          -(g.polX n dfdy pos p.1 p.2.1 p.2.2 / (g.dx (p.1 + 1) p.2.1 * g.J (p.1 + 1) p.2.1)) else 0))]
  · rw [sum_loop3, Finset.sum_add_distrib, sum_pick3, sum_pick3]
    simp only [Equiv.refl_symm, Equiv.refl_apply, mem_box, shX, Equiv.coe_fn_symm_mk, sub_add_cancel]
    have e : (g.ystart - 1 ≤ j ∧ j ≤ g.yend) ↔ True := by simp; omega
    simp only [e, and_true]
    split_ifs <;> ring
  · rintro r ⟨i', j', k'⟩
    simp only [Grid.xStep, addAt3_apply, Equiv.refl_apply, shX, Equiv.coe_fn_mk]
    ring

theorem mem_polYPoints {g : Grid} {per : ℤ → Bool} {b : Bool} {p : ℤ × ℤ × Fin nz} :
    p ∈ g.polYPoints nz per b ↔
      (g.xstart ≤ p.1 ∧ p.1 ≤ g.xend) ∧ (g.polYs per b p.1 ≤ p.2.1 ∧ p.2.1 ≤ g.polYe per b p.1) := by
  obtain ⟨i, j, k⟩ := p
  simp only [Grid.polYPoints, List.mem_flatMap, List.mem_map, mem_forRange, List.mem_product, List.mem_finRange, and_true,
    Prod.mk.injEq]
  constructor
  · rintro ⟨a, ha, q, hq, rfl, rfl⟩
    exact ⟨ha, mem_forRange.1 (List.mem_product.1 hq).1⟩
  · rintro ⟨ha, hq⟩
    exact ⟨i, ha, (j, k), List.mem_product.2 ⟨mem_forRange.2 hq, List.mem_finRange _⟩, rfl, rfl⟩

theorem nodup_polYPoints (g : Grid) (per : ℤ → Bool) (b : Bool) : (g.polYPoints nz per b).Nodup := by
  unfold Grid.polYPoints
  rw [List.nodup_flatMap]
  constructor
  · intro i _
    refine List.Nodup.map (fun a b h => (Prod.mk.inj h).2) ?_
    exact (nodup_forRange _ _).product (List.nodup_finRange _)
  · refine (nodup_forRange _ _).imp ?_
    intro a b hab x hx hy
    simp only [List.mem_map] at hx hy
    obtain ⟨q, _, rfl⟩ := hx
    obtain ⟨q', _, h⟩ := hy
    exact hab (Prod.mk.inj h).1.symm

/-- Shift in `y`. -/
def shY (d : ℤ) : (ℤ × ℤ × Fin nz) ≃ (ℤ × ℤ × Fin nz) where
  toFun p := (p.1, p.2.1 + d, p.2.2)
  invFun p := (p.1, p.2.1 - d, p.2.2)
  left_inv p := by simp
  right_inv p := by simp

theorem polYLoop_apply (g : Grid) (per : ℤ → Bool) (n dfdx : F3 nz) (b pos : Bool) {i : ℤ} (j : ℤ) (k : Fin nz)
    (hi : g.xstart ≤ i ∧ i ≤ g.xend) :
    g.polYLoop per n dfdx b pos i j k =
      ((if g.polYs per b i ≤ j ∧ j ≤ g.polYe per b i then g.polY per n dfdx pos i j k else 0)
       - (if g.polYs per b i ≤ j - 1 ∧ j - 1 ≤ g.polYe per b i then g.polY per n dfdx pos i (j - 1) k else 0))
        / (g.dy i j * g.J i j) := by
  unfold Grid.polYLoop
  rw [foldl_observe' (g.yStep (g.polY per n dfdx pos)) (fun r => r i j k)
    (fun p => (if (i, j, k) = Equiv.refl _ p then g.polY per n dfdx pos p.1 p.2.1 p.2.2 / (g.dy p.1 p.2.1 * g.J p.1 p.2.1) else 0)
      + (if (i, j, k) = shY 1 p then
          -(g.polY per n dfdx pos p.1 p.2.1 p.2.2 / (g.dy p.1 (p.2.1 + 1) * g.J p.1 (p.2.1 + 1))) else 0))]
  · rw [← List.sum_toFinset _ (nodup_polYPoints g per b), Finset.sum_add_distrib, sum_pick3, sum_pick3]
    simp only [Equiv.refl_symm, Equiv.refl_apply, List.mem_toFinset, mem_polYPoints, shY, Equiv.coe_fn_symm_mk, sub_add_cancel]
    simp only [hi, and_self, true_and, zero_add]
    split_ifs <;> ring
  · rintro r ⟨i', j', k'⟩
    simp only [Grid.yStep, addAt3_apply, Equiv.refl_apply, shY, Equiv.coe_fn_mk]
    ring

/-! ## Specification -/

/-- What is assumed of BOUT++: shifting to and from field-aligned coordinates moves a quantity along `z` only. -/
structure Shifts (B : BoutOps nz) : Prop where
  fromFA : ∀ (r : F3 nz) i j, ∑ k, B.fromFA r i j k = ∑ k, r i j k

/-- One processor holds the whole radial range, so that `communicateFluxes` has nobody to exchange with. -/
structure OneProcessorX (g : Grid) (B : BoutOps nz) : Prop where
  firstX : g.firstX = true
  lastX : g.lastX = true
  alone : ∀ (r : F3 nz) i j k, g.xstart ≤ i ∧ i ≤ g.xend → B.communicate r i j k = r i j k

/-- Flow through the face between `(i, j, k)` and `(i + 1, j, k)`. -/
noncomputable def flowX [NeZero nz] (g : Grid) (B : BoutOps nz) (n f : F3 nz) (b p pos : Bool) (i j : ℤ) (k : Fin nz) : ℝ :=
  (g.exbFaceX n (fun _ _ _ => 1) f b i j k
    + (if p = true ∧ g.polXs b ≤ i ∧ i ≤ g.polXe b then g.polX n (B.ddy f) pos i j k else 0)) * (g.dy i j * g.dz i j)

/-- Flow through the face between `(i, j, k)` and `(i, j + 1, k)`. -/
noncomputable def flowY (g : Grid) (B : BoutOps nz) (n f : F3 nz) (b p pos : Bool) (i j : ℤ) (k : Fin nz) : ℝ :=
  (if p = true ∧ g.polYs B.periodicY b i ≤ j ∧ j ≤ g.polYe B.periodicY b i then
    g.polY B.periodicY (B.toFA n) (B.toFA (B.ddx f)) pos i j k else 0) * (g.dx i j * g.dz i j)

/-! ## Balance -/

theorem xppm_zsum [NeZero nz] {g : Grid} (hg : Regular g) (hs : Separable g) {B : BoutOps nz} (hB : Shifts B)
    (ho : OneProcessorX g B) (n f : F3 nz) (b p pos : Bool) {i j : ℤ} (hi : g.xstart ≤ i ∧ i ≤ g.xend)
    (hj : g.ystart ≤ j ∧ j ≤ g.yend) :
    ∑ k, g.exbXPPM B n f b p pos i j k * volume g i j =
      ∑ k, (flowX g B n f b p pos i j k - flowX g B n f b p pos (i - 1) j k)
      + ∑ k, (flowY g B n f b p pos i j k - flowY g B n f b p pos i (j - 1) k) := by
  have hJ := hg.J_ne i j
  have hd := hg.dx_ne i j
  have hy := hg.dy_ne i j
  let Z : Fin nz → ℝ := fun k => g.exbFaceZ n (fun _ _ _ => 1) f i j k * volume g i j
  have z0 : ∑ k, (Z k - Z (k - 1)) = 0 := by
    rw [Finset.sum_sub_distrib, sum_cyclic_succ Z, sub_self]
  have e1 : ∀ k, g.exbXZ n (fun _ _ _ => 1) f b i j k * volume g i j =
      (g.exbFaceX n (fun _ _ _ => 1) f b i j k - g.exbFaceX n (fun _ _ _ => 1) f b (i - 1) j k) * (g.dy i j * g.dz i j)
      + (Z k - Z (k - 1)) := by
    intro k
    rw [g.exbXZ_apply n _ f b k hj, if_pos hi]
    simp only [Z, volume]
    field_simp
  have sx : g.dy (i - 1) j * g.dz (i - 1) j = g.dy i j * g.dz i j := by rw [hs.dy (i - 1) i, hs.dz (i - 1) i j j]
  have sy : g.dx i (j - 1) * g.dz i (j - 1) = g.dx i j * g.dz i j := by rw [hs.dx i (j - 1) j, hs.dz i i (j - 1) j]
  cases p with
  | false =>
    have : ∀ k, g.exbXPPM B n f b false pos i j k * volume g i j = g.exbXZ n (fun _ _ _ => 1) f b i j k * volume g i j := by
      intro k
      simp only [Grid.exbXPPM, Bool.false_eq_true, if_false]
      rw [ho.alone _ _ _ _ hi]
    rw [Finset.sum_congr rfl fun k _ => (this k).trans (e1 k), Finset.sum_add_distrib, z0, add_zero]
    simp only [flowX, flowY, Bool.false_eq_true, false_and, if_false, zero_mul, sub_self, Finset.sum_const_zero, add_zero]
    refine Finset.sum_congr rfl fun k _ => ?_
    rw [sx]
    ring
  | true =>
    have e2 : ∀ k, g.exbXPPM B n f b true pos i j k * volume g i j =
        (flowX g B n f b true pos i j k - flowX g B n f b true pos (i - 1) j k) + (Z k - Z (k - 1))
        + B.fromFA (g.polYLoop B.periodicY (B.toFA n) (B.toFA (B.ddx f)) b pos) i j k * volume g i j := by
      intro k
      simp only [Grid.exbXPPM, if_true]
      rw [polXLoop_apply g _ _ _ _ _ k hj, ho.alone _ _ _ _ hi, add_mul, add_mul, e1 k]
      simp only [flowX, true_and]
      rw [sx]
      simp only [volume]
      have : ∀ x y z : ℝ, (x - y) / (g.dx i j * g.J i j) * (g.J i j * g.dx i j * g.dy i j * z) = (x - y) * (g.dy i j * z) := by
        intro x y z; field_simp
      rw [this]
      ring
    rw [Finset.sum_congr rfl fun k _ => e2 k, Finset.sum_add_distrib, Finset.sum_add_distrib, z0, add_zero]
    congr 1
    rw [← Finset.sum_mul, hB.fromFA, Finset.sum_mul]
    refine Finset.sum_congr rfl fun k _ => ?_
    rw [polYLoop_apply g _ _ _ _ _ j k hi]
    simp only [flowY, true_and]
    rw [sy]
    simp only [volume]
    field_simp

/-- C17.  Balance: the integral of the divergence over the domain is exactly what flows through its radial and its poloidal
ends, for all fields, potentials, geometries and options. -/
theorem xppm_balance [NeZero nz] {g : Grid} (hg : Regular g) (hs : Separable g) {B : BoutOps nz} (hB : Shifts B)
    (ho : OneProcessorX g B) (n f : F3 nz) (b p pos : Bool) :
    content g (g.exbXPPM B n f b p pos) =
      ∑ j ∈ Icc g.ystart g.yend, ∑ k, (flowX g B n f b p pos g.xend j k - flowX g B n f b p pos (g.xstart - 1) j k)
      + ∑ i ∈ Icc g.xstart g.xend, ∑ k, (flowY g B n f b p pos i g.yend k - flowY g B n f b p pos i (g.ystart - 1) k) := by
  unfold content
  rw [Finset.sum_congr rfl fun i hi => Finset.sum_congr rfl fun j hj =>
    xppm_zsum hg hs hB ho n f b p pos (mem_Icc.1 hi) (mem_Icc.1 hj)]
  simp only [Finset.sum_add_distrib]
  congr 1
  · rw [Finset.sum_comm]
    refine Finset.sum_congr rfl fun j _ => ?_
    rw [Finset.sum_comm]
    refine Finset.sum_congr rfl fun k _ => ?_
    exact sum_telescope (fun i => flowX g B n f b p pos i j k) _ _ (by have := hg.x_nonempty; omega)
  · refine Finset.sum_congr rfl fun i _ => ?_
    rw [Finset.sum_comm]
    refine Finset.sum_congr rfl fun k _ => ?_
    exact sum_telescope (fun j => flowY g B n f b p pos i j k) _ _ (by have := hg.y_nonempty; omega)

/-- C17.  With the boundary flux switched off nothing crosses the radial boundary … -/
theorem xppm_no_radial_leak [NeZero nz] {g : Grid} (hg : Regular g) (B : BoutOps nz) (n f : F3 nz) (p pos : Bool) (j : ℤ) (k : Fin nz) :
    (g.lastX = true → flowX g B n f false p pos g.xend j k = 0) ∧
    (g.firstX = true → flowX g B n f false p pos (g.xstart - 1) j k = 0) := by
  have hx := hg.x_nonempty
  constructor
  · intro hl
    have h1 : g.exbFaceX n (fun _ _ _ => 1) f false g.xend j k = 0 := by
      unfold Grid.exbFaceX
      rw [if_neg (show ¬ (g.xstart ≤ g.xend + 1 ∧ g.xend + 1 ≤ g.xend) by omega)]
      simp [Grid.exbRight, hl]
    rw [flowX, h1, if_neg, add_zero, zero_mul]
    rintro ⟨-, -, h⟩
    simp only [Grid.polXe, hl, Bool.not_false, Bool.and_self, if_true] at h
    omega
  · intro hf
    have h1 : g.exbFaceX n (fun _ _ _ => 1) f false (g.xstart - 1) j k = 0 := by
      unfold Grid.exbFaceX
      rw [if_neg (show ¬ (g.xstart ≤ g.xstart - 1 ∧ g.xstart - 1 ≤ g.xend) by omega)]
      simp [Grid.exbLeft, hf]
    rw [flowX, h1, if_neg, add_zero, zero_mul]
    rintro ⟨-, h, -⟩
    simp only [Grid.polXs, hf, Bool.not_false, Bool.and_self, if_true] at h
    omega

/-- … nor the ends of the open field lines. -/
theorem xppm_no_poloidal_leak (g : Grid) (B : BoutOps nz) (n f : F3 nz) (p pos : Bool) {i : ℤ} (k : Fin nz)
    (hi : B.periodicY i = false) :
    (g.lastY i = true → flowY g B n f false p pos i g.yend k = 0) ∧
    (g.firstY i = true → flowY g B n f false p pos i (g.ystart - 1) k = 0) := by
  constructor
  · intro hl
    rw [flowY, if_neg, zero_mul]
    rintro ⟨-, -, h⟩
    simp only [Grid.polYe, hl, hi, Bool.not_false, Bool.and_self, if_true] at h
    omega
  · intro hf
    rw [flowY, if_neg, zero_mul]
    rintro ⟨-, h, -⟩
    simp only [Grid.polYs, hf, hi, Bool.not_false, Bool.and_self, if_true] at h
    omega

/-- Periodic field line: the geometry and the fields repeat after the last cell, shifted by a whole number of cells in `z`
(twist-shift). -/
structure Wraps (g : Grid) (n dfdx : F3 nz) (i : ℤ) (σ : Fin nz) : Prop where
  J : ∀ j, g.J i (j + (g.yend - g.ystart + 1)) = g.J i j
  dx : ∀ j, g.dx i (j + (g.yend - g.ystart + 1)) = g.dx i j
  dz : ∀ j, g.dz i (j + (g.yend - g.ystart + 1)) = g.dz i j
  g11 : ∀ j, g.g11 i (j + (g.yend - g.ystart + 1)) = g.g11 i j
  g23 : ∀ j, g.g23 i (j + (g.yend - g.ystart + 1)) = g.g23 i j
  Bxy : ∀ j, g.Bxy i (j + (g.yend - g.ystart + 1)) = g.Bxy i j
  n : ∀ j k, n i (j + (g.yend - g.ystart + 1)) k = n i j (k + σ)
  dfdx : ∀ j k, dfdx i (j + (g.yend - g.ystart + 1)) k = dfdx i j (k + σ)

/-- On a periodic field line what leaves through the last face enters through the first. -/
theorem xppm_periodic [NeZero nz] (g : Grid) (B : BoutOps nz) (n f : F3 nz) (b p pos : Bool) {i : ℤ} (σ : Fin nz)
    (hi : B.periodicY i = true) (hw : Wraps g (B.toFA n) (B.toFA (B.ddx f)) i σ) :
    ∑ k, flowY g B n f b p pos i g.yend k = ∑ k, flowY g B n f b p pos i (g.ystart - 1) k := by
  have key : ∀ k, flowY g B n f b p pos i g.yend k = flowY g B n f b p pos i (g.ystart - 1) (k + σ) := by
    intro k
    have es : g.polYs B.periodicY b i = g.ystart - 1 := by simp [Grid.polYs, hi]
    have ee : g.polYe B.periodicY b i = g.yend := by simp [Grid.polYe, hi]
    have n0 := hw.n (g.ystart - 1) k
    have n1 := hw.n (g.ystart - 1 + 1) k
    have n2 := hw.n (g.ystart - 1 + 2) k
    have nm := hw.n (g.ystart - 1 - 1) k
    have d0 := hw.dfdx (g.ystart - 1) k
    have d1 := hw.dfdx (g.ystart - 1 + 1) k
    have J0 := hw.J (g.ystart - 1)
    have J1 := hw.J (g.ystart - 1 + 1)
    have a0 := hw.g11 (g.ystart - 1)
    have a1 := hw.g11 (g.ystart - 1 + 1)
    have c0 := hw.g23 (g.ystart - 1)
    have c1 := hw.g23 (g.ystart - 1 + 1)
    have b0 := hw.Bxy (g.ystart - 1)
    have b1 := hw.Bxy (g.ystart - 1 + 1)
    have x0 := hw.dx (g.ystart - 1)
    have z0 := hw.dz (g.ystart - 1)
    rw [show g.ystart - 1 + (g.yend - g.ystart + 1) = g.yend by ring] at *
    rw [show g.ystart - 1 + 1 + (g.yend - g.ystart + 1) = g.yend + 1 by ring] at *
    rw [show g.ystart - 1 + 2 + (g.yend - g.ystart + 1) = g.yend + 2 by ring] at n2
    rw [show g.ystart - 1 - 1 + (g.yend - g.ystart + 1) = g.yend - 1 by ring] at nm
    have v : g.polVy B.periodicY (B.toFA (B.ddx f)) i g.yend k =
        g.polVy B.periodicY (B.toFA (B.ddx f)) i (g.ystart - 1) (k + σ) := by
      simp only [Grid.polVy, hi, Bool.not_true, Bool.and_false, Bool.false_and, Bool.false_eq_true, if_false]
      rw [d0, d1, J0, J1, a0, a1, c0, c1, b0, b1]
    have q : g.polY B.periodicY (B.toFA n) (B.toFA (B.ddx f)) pos i g.yend k =
        g.polY B.periodicY (B.toFA n) (B.toFA (B.ddx f)) pos i (g.ystart - 1) (k + σ) := by
      simp only [Grid.polY]
      rw [v, n0, n1, n2, nm]
    unfold flowY
    rw [es, ee, q, x0, z0]
    by_cases hye : g.ystart - 1 ≤ g.yend
    · simp [hye]
    · have h1 : ¬ (p = true ∧ g.ystart - 1 ≤ g.yend ∧ g.yend ≤ g.yend) := fun h => hye h.2.1
      have h2 : ¬ (p = true ∧ g.ystart - 1 ≤ g.ystart - 1 ∧ g.ystart - 1 ≤ g.yend) := fun h => hye h.2.2
      rw [if_neg h1, if_neg h2]
  rw [Finset.sum_congr rfl fun k _ => key k]
  exact Equiv.sum_comp (Equiv.addRight σ) fun k => flowY g B n f b p pos i (g.ystart - 1) k

/-- C17.  Closed domain: nothing is created or destroyed.  Field lines may be open (they end inside the domain of the
processor) or periodic. -/
theorem xppm_conserves [NeZero nz] {g : Grid} (hg : Regular g) (hs : Separable g) {B : BoutOps nz} (hB : Shifts B)
    (ho : OneProcessorX g B) (n f : F3 nz) (p pos : Bool)
    (hy : ∀ i, g.xstart ≤ i ∧ i ≤ g.xend →
      (B.periodicY i = false ∧ g.firstY i = true ∧ g.lastY i = true) ∨
      (B.periodicY i = true ∧ ∃ σ, Wraps g (B.toFA n) (B.toFA (B.ddx f)) i σ)) :
    content g (g.exbXPPM B n f false p pos) = 0 := by
  rw [xppm_balance hg hs hB ho]
  have h1 : ∀ j (k : Fin nz), flowX g B n f false p pos g.xend j k - flowX g B n f false p pos (g.xstart - 1) j k = 0 := by
    intro j k
    rw [(xppm_no_radial_leak hg B n f p pos j k).1 ho.lastX, (xppm_no_radial_leak hg B n f p pos j k).2 ho.firstX, sub_zero]
  simp only [h1, Finset.sum_const_zero, zero_add]
  refine Finset.sum_eq_zero fun i hi => ?_
  rcases hy i (mem_Icc.1 hi) with ⟨hp, hf, hl⟩ | ⟨hp, σ, hw⟩
  · refine Finset.sum_eq_zero fun k _ => ?_
    rw [(xppm_no_poloidal_leak g B n f p pos k hp).1 hl, (xppm_no_poloidal_leak g B n f p pos k hp).2 hf, sub_zero]
  · rw [Finset.sum_sub_distrib, xppm_periodic g B n f false p pos σ hp hw, sub_self]

/-- C17.  A constant potential moves nothing. -/
theorem xppm_constant_potential [NeZero nz] (g : Grid) {B : BoutOps nz} (c : ℝ) (hx : B.ddx (fun _ _ _ => c) = fun _ _ _ => 0)
    (hyy : B.ddy (fun _ _ _ => c) = fun _ _ _ => 0) (h0 : B.toFA (fun _ _ _ => 0) = fun _ _ _ => 0)
    (h1 : ∀ r : F3 nz, (∀ i j k, g.xstart ≤ i ∧ i ≤ g.xend → r i j k = 0) →
      ∀ i j k, g.xstart ≤ i ∧ i ≤ g.xend → B.fromFA r i j k = 0)
    (h2 : ∀ r : F3 nz, (∀ i j k, g.ystart ≤ j ∧ j ≤ g.yend → r i j k = 0) →
      ∀ i j k, g.ystart ≤ j ∧ j ≤ g.yend → B.communicate r i j k = 0)
    (n : F3 nz) (b p pos : Bool) {i j : ℤ} (k : Fin nz) (hi : g.xstart ≤ i ∧ i ≤ g.xend) (hj : g.ystart ≤ j ∧ j ≤ g.yend) :
    g.exbXPPM B n (fun _ _ _ => c) b p pos i j k = 0 := by
  have e1 : B.communicate (g.exbXZ n (fun _ _ _ => 1) (fun _ _ _ => c) b) i j k = 0 :=
    h2 _ (fun i j k hj => exb_constant_potential g n _ b c k hj) i j k hj
  have px : ∀ i j (k : Fin nz), g.polX n (fun _ _ _ => 0) pos i j k = 0 := by
    intro i j k; simp [Grid.polX]
  have vy : ∀ i j (k : Fin nz), g.polVy B.periodicY (fun _ _ _ => 0) i j k = 0 := by
    intro i j k; simp [Grid.polVy]
  have py : ∀ i j (k : Fin nz), g.polY B.periodicY (B.toFA n) (fun _ _ _ => 0) pos i j k = 0 := by
    intro i j k; simp [Grid.polY, vy]
  unfold Grid.exbXPPM
  cases p with
  | false => simpa using e1
  | true =>
    simp only [if_true, hx, hyy, h0]
    rw [polXLoop_apply g _ _ _ _ _ k hj, e1]
    simp only [px, ite_self, sub_self, zero_div, zero_add]
    refine h1 _ (fun i j k hi => ?_) i j k hi
    rw [polYLoop_apply g _ _ _ _ _ j k hi]
    simp [py]

/-- C17.  Open field lines with boundary flux and the option `positive`: the quantity can only leave through the ends. -/
theorem xppm_ends_only_outflow (g : Grid) (hgd : ∀ i j, 0 ≤ g.dx i j * g.dz i j) (B : BoutOps nz) (n f : F3 nz) (b p : Bool) {i : ℤ}
    (k : Fin nz) (hi : B.periodicY i = false) (hy : g.ystart ≤ g.yend) :
    (g.lastY i = true → 0 ≤ flowY g B n f b p true i g.yend k) ∧
    (g.firstY i = true → flowY g B n f b p true i (g.ystart - 1) k ≤ 0) := by
  have lp : ∀ x, 0 ≤ limitPositive true x := by
    intro x; unfold limitPositive; split_ifs with h
    · exact le_rfl
    · exact not_lt.1 fun h' => h ⟨rfl, h'⟩
  constructor
  · intro hl
    have hv : 0 ≤ g.polVy B.periodicY (B.toFA (B.ddx f)) i g.yend k := by
      simp only [Grid.polVy, hl, hi, Bool.not_false, Bool.and_true, beq_self_eq_true, if_true]
      split_ifs with h h' h'
      all_goals linarith
    unfold flowY
    refine mul_nonneg ?_ (hgd _ _)
    split_ifs
    · unfold Grid.polY
      simp only []
      split_ifs with h
      · exact mul_nonneg hv (lp _)
      · exact mul_nonneg hv (lp _)
    · exact le_rfl
  · intro hf
    have hne : (g.ystart - 1 == g.yend) = false := by simp; omega
    have hv : g.polVy B.periodicY (B.toFA (B.ddx f)) i (g.ystart - 1) k ≤ 0 := by
      simp only [Grid.polVy, hf, hi, hne, Bool.not_false, Bool.and_true, Bool.and_false, beq_self_eq_true, if_true,
        Bool.false_eq_true, if_false]
      split_ifs with h
      all_goals linarith
    unfold flowY
    refine mul_nonpos_of_nonpos_of_nonneg ?_ (hgd _ _)
    split_ifs
    · unfold Grid.polY
      simp only []
      split_ifs with h
      · exact mul_nonpos_of_nonpos_of_nonneg hv (lp _)
      · exact mul_nonpos_of_nonpos_of_nonneg hv (lp _)
    · exact le_rfl

/-! ## Decomposition -/

/-- Two processors which share a poloidal boundary: `G` split after row `m`. -/
def lowerPart (G : Grid) (m : ℤ) : Grid := { G with yend := m, lastY := fun _ => false }
def upperPart (G : Grid) (m : ℤ) : Grid := { G with ystart := m + 1, firstY := fun _ => false }

/-- C17, C10.  The poloidal part in a cell does not depend on how the domain is split: in `y` … -/
theorem polY_decomposition {G : Grid} {m : ℤ} (h1 : G.ystart ≤ m) (h2 : m < G.yend) (per : ℤ → Bool) (hp : ∀ i, per i = false)
    (n dfdx : F3 nz) (b pos : Bool) {i j : ℤ} (k : Fin nz) (hi : G.xstart ≤ i ∧ i ≤ G.xend) :
    (G.ystart ≤ j → j ≤ m → (lowerPart G m).polYLoop per n dfdx b pos i j k = G.polYLoop per n dfdx b pos i j k) ∧
    (m < j → j ≤ G.yend → (upperPart G m).polYLoop per n dfdx b pos i j k = G.polYLoop per n dfdx b pos i j k) := by
  have fl : ∀ j, j ≤ m → (lowerPart G m).polY per n dfdx pos i j k = G.polY per n dfdx pos i j k := by
    intro j hj
    have e : (j == G.yend) = false := by simp; omega
    have v : (lowerPart G m).polVy per dfdx i j k = G.polVy per dfdx i j k := by
      simp only [Grid.polVy, lowerPart, e, Bool.and_false, Bool.false_and, Bool.false_eq_true, if_false]
      rfl
    simp only [Grid.polY, v]
  have fu : ∀ j, m ≤ j → (upperPart G m).polY per n dfdx pos i j k = G.polY per n dfdx pos i j k := by
    intro j hj
    have e : (j == G.ystart - 1) = false := by simp; omega
    have v : (upperPart G m).polVy per dfdx i j k = G.polVy per dfdx i j k := by
      simp only [Grid.polVy, upperPart, e, Bool.and_false, Bool.false_and, Bool.false_eq_true, if_false]
    simp only [Grid.polY, v]
  have s1 : (lowerPart G m).polYs per b i = G.polYs per b i := rfl
  have e1 : (lowerPart G m).polYe per b i = m := by simp [Grid.polYe, lowerPart]
  have s2 : (upperPart G m).polYs per b i = m := by simp [Grid.polYs, upperPart]
  have e2 : (upperPart G m).polYe per b i = G.polYe per b i := rfl
  have w1 : G.yend - 1 ≤ G.polYe per b i := by unfold Grid.polYe; split <;> omega
  have w2 : G.polYs per b i ≤ G.ystart := by unfold Grid.polYs; split <;> omega
  constructor
  · intro a c
    rw [polYLoop_apply (lowerPart G m) _ _ _ _ _ j k hi, polYLoop_apply G _ _ _ _ _ j k hi, s1, e1, fl j c, fl (j - 1) (by omega)]
    have q1 : (G.polYs per b i ≤ j ∧ j ≤ m) ↔ (G.polYs per b i ≤ j ∧ j ≤ G.polYe per b i) := by omega
    have q2 : (G.polYs per b i ≤ j - 1 ∧ j - 1 ≤ m) ↔ (G.polYs per b i ≤ j - 1 ∧ j - 1 ≤ G.polYe per b i) := by omega
    simp only [q1, q2]
    rfl
  · intro a c
    rw [polYLoop_apply (upperPart G m) _ _ _ _ _ j k hi, polYLoop_apply G _ _ _ _ _ j k hi, s2, e2, fu j (by omega),
      fu (j - 1) (by omega)]
    have q1 : (m ≤ j ∧ j ≤ G.polYe per b i) ↔ (G.polYs per b i ≤ j ∧ j ≤ G.polYe per b i) := by omega
    have q2 : (m ≤ j - 1 ∧ j - 1 ≤ G.polYe per b i) ↔ (G.polYs per b i ≤ j - 1 ∧ j - 1 ≤ G.polYe per b i) := by omega
    simp only [q1, q2]
    rfl

/-- … and in `x`. -/
theorem polX_decomposition {G : Grid} {m : ℤ} (h1 : G.xstart ≤ m) (h2 : m < G.xend)
    (n dfdy : F3 nz) (b pos : Bool) (r : F3 nz) {i j : ℤ} (k : Fin nz) (hj : G.ystart ≤ j ∧ j ≤ G.yend) :
    (G.xstart ≤ i → i ≤ m → (leftPart G m).polXLoop n dfdy b pos r i j k = G.polXLoop n dfdy b pos r i j k) ∧
    (m < i → i ≤ G.xend → (rightPart G m).polXLoop n dfdy b pos r i j k = G.polXLoop n dfdy b pos r i j k) := by
  have s1 : (leftPart G m).polXs b = G.polXs b := rfl
  have e1 : (leftPart G m).polXe b = m := by simp [Grid.polXe, leftPart]
  have s2 : (rightPart G m).polXs b = m := by simp [Grid.polXs, rightPart]
  have e2 : (rightPart G m).polXe b = G.polXe b := rfl
  have w1 : G.xend - 1 ≤ G.polXe b := by unfold Grid.polXe; split <;> omega
  have w2 : G.polXs b ≤ G.xstart := by unfold Grid.polXs; split <;> omega
  constructor
  · intro a c
    rw [polXLoop_apply (leftPart G m) _ _ _ _ _ k hj, polXLoop_apply G _ _ _ _ _ k hj, s1, e1]
    have q1 : (G.polXs b ≤ i ∧ i ≤ m) ↔ (G.polXs b ≤ i ∧ i ≤ G.polXe b) := by omega
    have q2 : (G.polXs b ≤ i - 1 ∧ i - 1 ≤ m) ↔ (G.polXs b ≤ i - 1 ∧ i - 1 ≤ G.polXe b) := by omega
    simp only [q1, q2]
    rfl
  · intro a c
    rw [polXLoop_apply (rightPart G m) _ _ _ _ _ k hj, polXLoop_apply G _ _ _ _ _ k hj, s2, e2]
    have q1 : (m ≤ i ∧ i ≤ G.polXe b) ↔ (G.polXs b ≤ i ∧ i ≤ G.polXe b) := by omega
    have q2 : (m ≤ i - 1 ∧ i - 1 ≤ G.polXe b) ↔ (G.polXs b ≤ i - 1 ∧ i - 1 ≤ G.polXe b) := by omega
    simp only [q1, q2]
    rfl

/-! ## Non-vacuity, and a cell that is emptied below zero -/

/-- `boxGrid` with a slanted field. -/
noncomputable def slantGrid : Grid := { boxGrid with g23 := fun _ _ => 1 }

theorem slantGrid_positive : Positive slantGrid := by
  constructor <;> intro _ _ <;> norm_num [slantGrid, boxGrid]

theorem slantGrid_separable : Separable slantGrid := by
  constructor <;> intros <;> rfl

/-- Central differences, no shift. -/
noncomputable def plainOps (nz : ℕ) : BoutOps nz where
  ddx f := fun i j k => (f (i + 1) j k - f (i - 1) j k) / 2
  ddy f := fun i j k => (f i (j + 1) k - f i (j - 1) k) / 2
  toFA f := f
  fromFA f := f
  communicate f := f
  periodicY _ := false

theorem plainOps_shifts (nz : ℕ) : Shifts (plainOps nz) := ⟨fun _ _ _ => rfl⟩

theorem slantGrid_one (nz : ℕ) : OneProcessorX slantGrid (plainOps nz) := ⟨rfl, rfl, fun _ _ _ _ _ => rfl⟩

/-- The result for a potential that increases radially, and a density that does not depend on `x` and `z`. -/
theorem slant_value (h : ℤ → ℝ) (pos : Bool) {j : ℤ} (hj : 2 ≤ j ∧ j ≤ 3) :
    slantGrid.exbXPPM (plainOps 3) (fun _ j _ => h j) (fun i _ _ => (i : ℝ)) false true pos 2 j 0 =
      (if j = 3 then 1 else -1) * limitPositive pos (h 3 - 0.25 * (h 4 - h 2)) := by
  have hc : ∀ c : ℝ, mc c c c = (c, c) := by intro c; simp [mc, minmod3]
  have e0 : slantGrid.exbXZ (nz := 3) (fun _ j _ => h j) (fun _ _ _ => 1) (fun i _ _ => (i : ℝ)) false 2 j 0 = 0 := by
    rw [Grid.exbXZ_apply _ _ _ _ _ _ (by simpa [slantGrid, boxGrid] using hj)]
    simp [slantGrid, boxGrid, Grid.exbFaceX, Grid.exbRight, Grid.exbLeft, Grid.exbFaceZ, Grid.exbUp, Grid.exbDown,
      Grid.vR, Grid.vL, Grid.vU, Grid.vD, cornerPP, cornerPM, cornerMP, cornerMM, hc]
    norm_num
  unfold Grid.exbXPPM
  simp only [if_true]
  rw [polXLoop_apply _ _ _ _ _ _ _ (by simpa [slantGrid, boxGrid] using hj)]
  simp only [plainOps]
  rw [e0, polYLoop_apply _ _ _ _ _ _ _ _ (by simp [slantGrid, boxGrid])]
  have pv : ∀ j, 2 ≤ j → j ≤ 2 → slantGrid.polVy (nz := 3) (fun _ => false) (fun _ _ _ => 1) 2 j 0 = -1 := by
    intro j h1 h2
    have : j = 2 := by omega
    subst this
    norm_num [Grid.polVy, slantGrid, boxGrid]
  have d : (fun (i : ℤ) (_ : ℤ) (_ : Fin 3) => (((i + 1 : ℤ) : ℝ) - ((i - 1 : ℤ) : ℝ)) / 2) = fun _ _ _ => 1 := by
    funext i _ _; push_cast; ring
  have v2 := pv 2 le_rfl le_rfl
  rw [d]
  have : j = 2 ∨ j = 3 := by omega
  rcases this with rfl | rfl
  · norm_num [Grid.polX, Grid.polY, v2, Grid.polYs, Grid.polYe]
    norm_num [slantGrid, boxGrid]
  · norm_num [Grid.polX, Grid.polY, v2, Grid.polYs, Grid.polYe]
    norm_num [slantGrid, boxGrid]

/-- The hypotheses of `xppm_conserves` are met by a case with a flow: one cell loses what the other receives. -/
example : Regular slantGrid ∧ Separable slantGrid ∧ Shifts (plainOps 3) ∧ OneProcessorX slantGrid (plainOps 3) ∧
    (∀ i, (plainOps 3).periodicY i = false ∧ slantGrid.firstY i = true ∧ slantGrid.lastY i = true) ∧
    slantGrid.exbXPPM (plainOps 3) (fun _ j _ => if j = 3 then 1 else 0) (fun i _ _ => (i : ℝ)) false true true 2 2 0 = -1 ∧
    slantGrid.exbXPPM (plainOps 3) (fun _ j _ => if j = 3 then 1 else 0) (fun i _ _ => (i : ℝ)) false true true 2 3 0 = 1 := by
  refine ⟨slantGrid_positive.regular (by norm_num [slantGrid, boxGrid]) (by norm_num [slantGrid, boxGrid]), slantGrid_separable,
    plainOps_shifts 3, slantGrid_one 3, fun _ => ⟨rfl, rfl, rfl⟩, ?_, ?_⟩
  · rw [slant_value (fun j => if j = 3 then 1 else 0) true (by omega)]
    norm_num [limitPositive]
  · rw [slant_value (fun j => if j = 3 then 1 else 0) true (by omega)]
    norm_num [limitPositive]

/-- C12 fails for the poloidal part, even with the option `positive`: the face value is extrapolated without a limiter, so that an
empty cell between non-negative neighbours can lose particles. -/
theorem poloidal_drains_empty_cell : ∃ (g : Grid) (B : BoutOps 3) (n f : F3 3), Positive g ∧ Separable g ∧ Shifts B ∧
    OneProcessorX g B ∧ (∀ i j k, 0 ≤ n i j k) ∧ n 2 3 0 = 0 ∧ 0 < g.exbXPPM B n f false true true 2 3 0 := by
  refine ⟨slantGrid, plainOps 3, fun _ j _ => if j = 2 then 4 else 0, fun i _ _ => (i : ℝ), slantGrid_positive, slantGrid_separable,
    plainOps_shifts 3, slantGrid_one 3, ?_, by norm_num, ?_⟩
  · intro i j k
    show (0 : ℝ) ≤ if j = 2 then 4 else 0
    split_ifs <;> norm_num
  · rw [slant_value (fun j => if j = 2 then 4 else 0) true (by omega)]
    norm_num [limitPositive]

/-- Velocity (times `J`) through the face between `i` and `i + 1`: the average over the two cells of `g^{xx} g_{yz} / B² ∂f/∂y`. -/
noncomputable def velocityX (g : Grid) (dfdy : F3 nz) (i j : ℤ) (k : Fin nz) : ℝ :=
  (g.J i j + g.J (i + 1) j) / 2 *
    ((g.g11 i j * g.g23 i j * dfdy i j k / g.Bxy i j ^ 2 + g.g11 (i + 1) j * g.g23 (i + 1) j * dfdy (i + 1) j k / g.Bxy (i + 1) j ^ 2) / 2)

theorem limitPositive_nonneg (x : ℝ) : 0 ≤ limitPositive true x := by
  unfold limitPositive
  split_ifs with h
  · exact le_rfl
  · exact not_lt.1 fun h' => h ⟨rfl, h'⟩

/-- **C17.**  With the option `positive` no face carries a negative density: the poloidal fluxes are the velocity of the face times
a density that is not negative, in both directions. -/
theorem poloidal_flux_carries_positive_density (g : Grid) (per : ℤ → Bool) (n dfdy dfdx : F3 nz) (i j : ℤ) (k : Fin nz) :
    (∃ edge, 0 ≤ edge ∧ g.polX n dfdy true i j k = velocityX g dfdy i j k * edge) ∧
    ∃ edge, 0 ≤ edge ∧ g.polY per n dfdx true i j k = g.polVy per dfdx i j k * edge := by
  have hv : 0.5 * (g.J (i + 1) j + g.J i j) * (0.5 * ((g.g11 (i + 1) j * g.g23 (i + 1) j / g.Bxy (i + 1) j ^ 2) * dfdy (i + 1) j k
    + (g.g11 i j * g.g23 i j / g.Bxy i j ^ 2) * dfdy i j k)) = velocityX g dfdy i j k := by
    unfold velocityX
    ring
  constructor
  · unfold Grid.polX
    simp only [hv]
    split_ifs <;> exact ⟨_, limitPositive_nonneg _, rfl⟩
  · unfold Grid.polY
    simp only
    split_ifs <;> exact ⟨_, limitPositive_nonneg _, rfl⟩

end Hermes.ExB
