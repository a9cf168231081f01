import Verif.Model.Closures
import Mathlib.Tactic.Ring
import Mathlib.Tactic.Linarith
import Mathlib.Tactic.FieldSimp

/-!
# The radial boundary with the average over Z (C22)

`neumann_boundary_average_z`: on the edge of the domain a field has its average over Z, and on average it does not change across the edge.
-/

namespace Hermes.Closures

variable {nz : ℕ}

/-- Average over Z. -/
noncomputable def meanOverZ (f : ℤ × ℤ × Fin nz → ℝ) (x y : ℤ) : ℝ := (∑ k, f (x, y, k)) / nz

/-- `g` is a guard cell beyond the edge cell `e`. -/
def Beyond (xstart xend g e : ℤ) : Prop := (e = xstart ∧ (g = xstart - 1 ∨ g = xstart - 2)) ∨ (e = xend ∧ (g = xend + 1 ∨ g = xend + 2))

/-- **C22**, the edges: nothing changes inside; beyond both edges the value half-way between the edge cell and any of the guard cells is the average over
Z, and the average over Z is the same in the guard cells and in the edge cell. -/
theorem averageZ_edges {xstart xend ystart yend : ℤ} (hx : xstart ≤ xend) (P : ℤ × ℤ × Fin nz → ℝ) :
    (∀ x y k, xstart ≤ x → x ≤ xend → averageZ xstart xend ystart yend P (x, y, k) = P (x, y, k)) ∧
    (∀ x y k, y < ystart ∨ yend < y → averageZ xstart xend ystart yend P (x, y, k) = P (x, y, k)) ∧
    ∀ g e y, Beyond xstart xend g e → ystart ≤ y → y ≤ yend →
      (∀ k, (averageZ xstart xend ystart yend P (g, y, k) + P (e, y, k)) / 2 = meanOverZ P e y) ∧
      meanOverZ (averageZ xstart xend ystart yend P) g y = meanOverZ P e y := by
  refine ⟨fun x y k h1 h2 => ?_, fun x y k h => ?_, fun g e y hb h1 h2 => ?_⟩
  · unfold averageZ
    dsimp only
    rw [if_neg (show ¬ (x = xstart - 1 ∨ x = xstart - 2) by omega), if_neg (show ¬ (x = xend + 1 ∨ x = xend + 2) by omega), ite_self]
  · unfold averageZ
    dsimp only
    rw [if_neg (by omega)]
  · have key : ∀ k, averageZ xstart xend ystart yend P (g, y, k) = 2 * meanOverZ P e y - P (e, y, k) := by
      intro k
      unfold averageZ meanOverZ
      dsimp only
      rw [if_pos ⟨h1, h2⟩]
      rcases hb with ⟨rfl, h⟩ | ⟨rfl, h⟩
      · rw [if_pos h]
      · rw [if_neg (by omega), if_pos h]
    refine ⟨fun k => by rw [key]; ring, ?_⟩
    rcases Nat.eq_zero_or_pos nz with rfl | hz
    · simp [meanOverZ]
    · have hz' : (nz : ℝ) ≠ 0 := Nat.cast_ne_zero.2 hz.ne'
      have : meanOverZ (averageZ xstart xend ystart yend P) g y = (∑ k, (2 * meanOverZ P e y - P (e, y, k))) / nz := by
        unfold meanOverZ
        congr 1
        exact Finset.sum_congr rfl fun k _ => key k
      rw [this, Finset.sum_sub_distrib, Finset.sum_const, Finset.card_univ, Fintype.card_fin, nsmul_eq_mul]
      have e2 : ∑ k, P (e, y, k) = nz * meanOverZ P e y := by
        unfold meanOverZ
        field_simp
      rw [e2]
      field_simp
      ring

/-- A field with the values 1 and 3 in Z has 2 on the edge; in the guard cells 3 and 1. -/
example : averageZ 2 5 2 5 (fun c : ℤ × ℤ × Fin 2 => if c.2.2 = 0 then 1 else 3) (6, 3, 0) = 3 ∧
    averageZ 2 5 2 5 (fun c : ℤ × ℤ × Fin 2 => if c.2.2 = 0 then 1 else 3) (7, 3, 1) = 1 := by
  unfold averageZ
  simp [Fin.sum_univ_two]
  norm_num

end Hermes.Closures
