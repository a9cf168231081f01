import Verif.Model.PerpOps
import Verif.Lemmas.ParOps
import Mathlib.Data.Fintype.BigOperators
import Mathlib.Algebra.BigOperators.Fin
import Mathlib.Data.List.ProdSigma
import Mathlib.Algebra.Ring.Fin
import Mathlib.Tactic.CongrExclamation

/-! Helpers for the perpendicular operators: the three nested scatter loops as sums. -/

namespace Hermes
open Finset

theorem foldl_observe' {α ι : Type} (step : α → ι → α) (obs : α → ℝ) (F : ι → ℝ)
    (h : ∀ a j, obs (step a j) = obs a + F j) (l : List ι) (a : α) :
    obs (l.foldl step a) = obs a + (l.map F).sum := by
  induction l generalizing a with
  | nil => simp
  | cons j l ih => rw [List.foldl_cons, ih, h, List.map_cons, List.sum_cons]; ring

variable {nz : ℕ}

/-- The cells visited by the loops, as a set. -/
noncomputable def box (nz : ℕ) (xs xe ys ye : ℤ) : Finset (ℤ × ℤ × Fin nz) := Icc xs xe ×ˢ (Icc ys ye ×ˢ univ)

theorem mem_box {xs xe ys ye : ℤ} {p : ℤ × ℤ × Fin nz} :
    p ∈ box nz xs xe ys ye ↔ (xs ≤ p.1 ∧ p.1 ≤ xe) ∧ (ys ≤ p.2.1 ∧ p.2.1 ≤ ye) := by
  simp [box, mem_product, mem_Icc]

theorem sum_loop3 (xs xe ys ye : ℤ) (F : ℤ × ℤ × Fin nz → ℝ) :
    ((loop3 nz xs xe ys ye).map F).sum = ∑ p ∈ box nz xs xe ys ye, F p := by
  have hn : (loop3 nz xs xe ys ye).Nodup :=
    (nodup_forRange _ _).product ((nodup_forRange _ _).product (List.nodup_finRange _))
  rw [← List.sum_toFinset F hn]
  congr 1
  ext p
  rw [List.mem_toFinset, mem_box]
  unfold loop3
  rw [List.mem_product, List.mem_product, mem_forRange, mem_forRange]
  simp

theorem addAt3_apply (r : F3 nz) (i j : ℤ) (k : Fin nz) (x : ℝ) (i' j' : ℤ) (k' : Fin nz) :
    addAt3 r i j k x i' j' k' = r i' j' k' + if (i', j', k') = (i, j, k) then x else 0 := by
  unfold addAt3; split <;> simp

theorem sum_pick3 (B : Finset (ℤ × ℤ × Fin nz)) (σ : (ℤ × ℤ × Fin nz) ≃ (ℤ × ℤ × Fin nz))
    (F : ℤ × ℤ × Fin nz → ℝ) (q : ℤ × ℤ × Fin nz) :
    ∑ p ∈ B, (if q = σ p then F p else 0) = if σ.symm q ∈ B then F (σ.symm q) else 0 := by
  have : ∀ p, (q = σ p) ↔ (σ.symm q = p) := fun p => (Equiv.symm_apply_eq σ).symm
  simp only [this]
  rw [Finset.sum_ite_eq]

/-- Shifts. -/
def shX (d : ℤ) : (ℤ × ℤ × Fin nz) ≃ (ℤ × ℤ × Fin nz) where
  toFun p := (p.1 + d, p.2.1, p.2.2)
  invFun p := (p.1 - d, p.2.1, p.2.2)
  left_inv p := by simp
  right_inv p := by simp

def shZ [NeZero nz] (d : Fin nz) : (ℤ × ℤ × Fin nz) ≃ (ℤ × ℤ × Fin nz) where
  toFun p := (p.1, p.2.1, p.2.2 + d)
  invFun p := (p.1, p.2.1, p.2.2 - d)
  left_inv p := by simp
  right_inv p := by simp

theorem sum_cyclic_succ [NeZero nz] (F : Fin nz → ℝ) : ∑ k, F (k - 1) = ∑ k, F k :=
  Equiv.sum_comp (Equiv.subRight (1 : Fin nz)) F

/-- x flux loop in gather form. -/
theorem Grid.xLoop_apply (g : Grid) (fout : F3 nz) (i j : ℤ) (k : Fin nz) :
    g.xLoop fout i j k =
      ((if (g.xstart - 1 ≤ i ∧ i ≤ g.xend) ∧ (g.ystart ≤ j ∧ j ≤ g.yend) then fout i j k else 0)
       - (if (g.xstart ≤ i ∧ i ≤ g.xend + 1) ∧ (g.ystart ≤ j ∧ j ≤ g.yend) then fout (i - 1) j k else 0))
        / (g.dx i j * g.J i j) := by
  unfold Grid.xLoop
  rw [foldl_observe' (g.xStep fout) (fun r => r i j k)
    (fun p => (if (i, j, k) = Equiv.refl _ p then fout p.1 p.2.1 p.2.2 / (g.dx p.1 p.2.1 * g.J p.1 p.2.1) else 0)
      + (if (i, j, k) = shX 1 p then
          -(fout p.1 p.2.1 p.2.2 / (g.dx (p.1 + 1) p.2.1 * g.J (p.1 + 1) p.2.1)) else 0))]
  · rw [sum_loop3, Finset.sum_add_distrib, sum_pick3, sum_pick3]
    simp only [Equiv.refl_symm, Equiv.refl_apply, mem_box, shX, Equiv.coe_fn_symm_mk, sub_add_cancel,
      zero_add]
    have e : (g.xstart - 1 ≤ i - 1 ∧ i - 1 ≤ g.xend) ↔ (g.xstart ≤ i ∧ i ≤ g.xend + 1) := by omega
    simp only [e]
    split_ifs <;> ring
  · rintro r ⟨i', j', k'⟩
    simp only [Grid.xStep, addAt3_apply, Equiv.refl_apply, shX, Equiv.coe_fn_mk]
    ring

/-- z flux loop in gather form. -/
theorem Grid.yzLoop_apply [NeZero nz] (g : Grid) (yUp yDown : F3 nz) (w : ℤ → ℤ → ℝ) (fz : F3 nz) (i j : ℤ)
    (k : Fin nz) :
    g.yzLoop yUp yDown w fz i j k =
      (yUp i j k - yDown i j k) / (g.dy i j * g.J i j)
      + (if (g.xstart ≤ i ∧ i ≤ g.xend) ∧ (g.ystart ≤ j ∧ j ≤ g.yend) then
          (fz i j k - fz i j (k - 1)) / (w i j * g.dz i j) else 0) := by
  unfold Grid.yzLoop
  rw [foldl_observe' (g.zStep w fz) (fun r => r i j k)
    (fun p => (if (i, j, k) = Equiv.refl _ p then fz p.1 p.2.1 p.2.2 / (w p.1 p.2.1 * g.dz p.1 p.2.1) else 0)
      + (if (i, j, k) = shZ 1 p then -(fz p.1 p.2.1 p.2.2 / (w p.1 p.2.1 * g.dz p.1 p.2.1)) else 0))]
  · rw [sum_loop3, Finset.sum_add_distrib, sum_pick3, sum_pick3]
    simp only [Equiv.refl_symm, Equiv.refl_apply, mem_box, shZ, Equiv.coe_fn_symm_mk]
    split_ifs <;> ring
  · rintro r ⟨i', j', k'⟩
    simp only [Grid.zStep, addAt3_apply, Equiv.refl_apply, shZ, Equiv.coe_fn_mk]
    ring

/-! ### ExB -/

theorem moveFlux_apply (r : F3 nz) (x : Option ℝ) (i j : ℤ) (k : Fin nz) (w : ℝ) (i' j' : ℤ)
    (k' : Fin nz) (w' : ℝ) (a b : ℤ) (c : Fin nz) :
    moveFlux r x i j k w i' j' k' w' a b c =
      r a b c + (if (a, b, c) = (i, j, k) then x.getD 0 / w else 0)
        + (if (a, b, c) = (i', j', k') then -(x.getD 0 / w') else 0) := by
  cases x with
  | none => simp [moveFlux]
  | some x => simp only [moveFlux, addAt3_apply, Option.getD_some]

theorem getD_neg (x : Option ℝ) : (x.map (-·)).getD 0 = -(x.getD 0) := by cases x <;> simp

/-- Total flux through the face between `i` and `i + 1`. -/
noncomputable def Grid.exbFaceX [NeZero nz] (g : Grid) (n q f : F3 nz) (b : Bool) (i j : ℤ) (k : Fin nz) : ℝ :=
  (if g.xstart ≤ i ∧ i ≤ g.xend then (g.exbRight n q f b i j k).getD 0 else 0)
    + (if g.xstart ≤ i + 1 ∧ i + 1 ≤ g.xend then (g.exbLeft n q f b (i + 1) j k).getD 0 else 0)

/-- Total flux through the face between `k` and `k + 1`. -/
noncomputable def Grid.exbFaceZ [NeZero nz] (g : Grid) (n q f : F3 nz) (i j : ℤ) (k : Fin nz) : ℝ :=
  (g.exbUp n q f i j k).getD 0 + (g.exbDown n q f i j (k + 1)).getD 0

theorem Grid.exbXZ_apply [NeZero nz] (g : Grid) (n q f : F3 nz) (b : Bool) {i j : ℤ} (k : Fin nz)
    (hj : g.ystart ≤ j ∧ j ≤ g.yend) :
    g.exbXZ n q f b i j k =
      (g.exbFaceX n q f b i j k - g.exbFaceX n q f b (i - 1) j k) / (g.dx i j * g.J i j)
      + (if g.xstart ≤ i ∧ i ≤ g.xend then g.exbFaceZ n q f i j k - g.exbFaceZ n q f i j (k - 1) else 0) := by
  unfold Grid.exbXZ
  rw [foldl_observe' (g.exbStep n q f b) (fun r => r i j k)
    (fun p =>
      (if (i, j, k) = Equiv.refl _ p then
        (g.exbRight n q f b p.1 p.2.1 p.2.2).getD 0 / (g.dx p.1 p.2.1 * g.J p.1 p.2.1) else 0)
      + (if (i, j, k) = shX 1 p then
        -((g.exbRight n q f b p.1 p.2.1 p.2.2).getD 0 / (g.dx (p.1 + 1) p.2.1 * g.J (p.1 + 1) p.2.1)) else 0)
      + (if (i, j, k) = Equiv.refl _ p then
        -(g.exbLeft n q f b p.1 p.2.1 p.2.2).getD 0 / (g.dx p.1 p.2.1 * g.J p.1 p.2.1) else 0)
      + (if (i, j, k) = shX (-1) p then
        -(-(g.exbLeft n q f b p.1 p.2.1 p.2.2).getD 0 / (g.dx (p.1 - 1) p.2.1 * g.J (p.1 - 1) p.2.1)) else 0)
      + (if (i, j, k) = Equiv.refl _ p then (g.exbUp n q f p.1 p.2.1 p.2.2).getD 0 else 0)
      + (if (i, j, k) = shZ 1 p then -(g.exbUp n q f p.1 p.2.1 p.2.2).getD 0 else 0)
      + (if (i, j, k) = Equiv.refl _ p then -(g.exbDown n q f p.1 p.2.1 p.2.2).getD 0 else 0)
      + (if (i, j, k) = shZ (-1) p then (g.exbDown n q f p.1 p.2.1 p.2.2).getD 0 else 0))]
  · rw [sum_loop3]
    simp only [Finset.sum_add_distrib, sum_pick3]
    simp only [Equiv.refl_symm, Equiv.refl_apply, mem_box, shX, shZ, Equiv.coe_fn_symm_mk, sub_add_cancel,
      zero_add, hj, and_true, sub_neg_eq_add, Grid.exbFaceX, Grid.exbFaceZ, add_sub_cancel_right, and_self]
    split_ifs <;> ring
  · rintro r ⟨i', j', k'⟩
    simp only [Grid.exbStep, moveFlux_apply, Equiv.refl_apply, shX, shZ, Equiv.coe_fn_mk, getD_neg, div_one,
      neg_neg, ← sub_eq_add_neg, add_assoc]
    congr!

end Hermes
