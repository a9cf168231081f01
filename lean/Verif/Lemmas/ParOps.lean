import Verif.Model.ParOps
import Mathlib.Algebra.BigOperators.Intervals
import Mathlib.Algebra.BigOperators.Ring.Finset
import Mathlib.Order.Interval.Finset.Basic
import Mathlib.Data.Int.Interval
import Mathlib.Tactic.Ring
import Mathlib.Tactic.Linarith
import Mathlib.Tactic.FieldSimp

/-! Helpers for the parallel operators: the scatter loops written as sums, and telescoping. -/

namespace Hermes
open Finset

theorem mem_forRange {a b j : ℤ} : j ∈ forRange a b ↔ a ≤ j ∧ j ≤ b := by
  unfold forRange
  rw [List.mem_map]
  constructor
  · rintro ⟨n, hn, rfl⟩
    rw [List.mem_range] at hn
    omega
  · rintro ⟨h1, h2⟩
    refine ⟨(j - a).toNat, List.mem_range.2 (by omega), by omega⟩

theorem nodup_forRange (a b : ℤ) : (forRange a b).Nodup := by
  unfold forRange
  refine List.Nodup.map (fun m n h => ?_) List.nodup_range
  omega

theorem sum_forRange (a b : ℤ) (F : ℤ → ℝ) : ((forRange a b).map F).sum = ∑ j ∈ Icc a b, F j := by
  rw [← List.sum_toFinset F (nodup_forRange a b)]
  congr 1
  ext j
  rw [List.mem_toFinset, mem_forRange, mem_Icc]

/-- A loop that adds `F j` to a quantity in iteration `j` adds the sum. -/
theorem foldl_observe {α : Type} (step : α → ℤ → α) (obs : α → ℝ) (F : ℤ → ℝ)
    (h : ∀ a j, obs (step a j) = obs a + F j) (l : List ℤ) (a : α) :
    obs (l.foldl step a) = obs a + (l.map F).sum := by
  induction l generalizing a with
  | nil => simp
  | cons j l ih => rw [List.foldl_cons, ih, h, List.map_cons, List.sum_cons]; ring

theorem addAt_apply (r : ℤ → ℝ) (j : ℤ) (x : ℝ) (i : ℤ) :
    addAt r j x i = r i + if i = j then x else 0 := by
  unfold addAt; split <;> simp

theorem sum_pick (a b i : ℤ) (F : ℤ → ℝ) :
    ∑ j ∈ Icc a b, (if i = j then F j else 0) = if a ≤ i ∧ i ≤ b then F i else 0 := by
  rw [Finset.sum_ite_eq]
  simp [mem_Icc]

theorem sum_pick_succ (a b i : ℤ) (F : ℤ → ℝ) :
    ∑ j ∈ Icc a b, (if i = j + 1 then F j else 0) = if a ≤ i - 1 ∧ i - 1 ≤ b then F (i - 1) else 0 := by
  rw [← sum_pick a b (i - 1) F]
  refine Finset.sum_congr rfl fun j _ => ?_
  by_cases h : i = j + 1
  · rw [if_pos h, if_pos (by omega)]
  · rw [if_neg h, if_neg (by omega)]

theorem sum_pick_pred (a b i : ℤ) (F : ℤ → ℝ) :
    ∑ j ∈ Icc a b, (if i = j - 1 then F j else 0) = if a ≤ i + 1 ∧ i + 1 ≤ b then F (i + 1) else 0 := by
  rw [← sum_pick a b (i + 1) F]
  refine Finset.sum_congr rfl fun j _ => ?_
  by_cases h : i = j - 1
  · rw [if_pos h, if_pos (by omega)]
  · rw [if_neg h, if_neg (by omega)]

theorem Line.faceL_eq (g : Line) (j : ℤ) : g.faceL j = g.faceR (j - 1) := by
  unfold Line.faceL Line.faceR
  rw [sub_add_cancel, add_comm (g.J j), add_comm (Real.sqrt (g.g22 j))]

/-- Total flux through the face between cells `i` and `i + 1`: the right flux of `i` plus the left flux
of `i + 1`, each counted if the loop visits the cell. -/
noncomputable def Line.total (g : Line) (fluxR fluxL : ℤ → ℝ) (i : ℤ) : ℝ :=
  (if g.ys ≤ i ∧ i ≤ g.ye then fluxR i else 0) +
    (if g.ys ≤ i + 1 ∧ i + 1 ≤ g.ye then fluxL (i + 1) else 0)

/-- The scatter loop in gather form. -/
theorem Line.fluxLoop_result (g : Line) (fluxR fluxL : ℤ → ℝ) (i : ℤ) :
    (g.fluxLoop fluxR fluxL).result i =
      (g.faceR i * g.total fluxR fluxL i - g.faceR (i - 1) * g.total fluxR fluxL (i - 1))
        / (g.dy i * g.J i) := by
  unfold Line.fluxLoop
  rw [foldl_observe (g.scatter fluxR fluxL) (fun a => a.result i)
    (fun j => (if i = j then fluxR j * (g.faceR j / (g.dy j * g.J j)) else 0)
      + (if i = j + 1 then -(fluxR j * (g.faceR j / (g.dy (j + 1) * g.J (j + 1)))) else 0)
      + (if i = j then -(fluxL j * (g.faceL j / (g.dy j * g.J j))) else 0)
      + (if i = j - 1 then fluxL j * (g.faceL j / (g.dy (j - 1) * g.J (j - 1))) else 0))]
  · rw [sum_forRange]
    simp only [Finset.sum_add_distrib]
    rw [sum_pick, sum_pick_succ, sum_pick, sum_pick_pred]
    simp only [zero_add, Line.total, sub_add_cancel, Line.faceL_eq, add_sub_cancel_right]
    split_ifs <;> ring
  · intro a j
    simp only [Line.scatter, addAt_apply]
    ring

/-- The flow diagnostic in gather form. -/
theorem Line.fluxLoop_flow (g : Line) (fluxR fluxL : ℤ → ℝ) (i : ℤ) :
    (g.fluxLoop fluxR fluxL).flow i =
      g.faceR (i - 1) * g.total fluxR fluxL (i - 1) * g.dx i * g.dz i := by
  unfold Line.fluxLoop
  rw [foldl_observe (g.scatter fluxR fluxL) (fun a => a.flow i)
    (fun j => (if i = j + 1 then fluxR j * (g.faceR j * g.dx (j + 1) * g.dz (j + 1)) else 0)
      + (if i = j then fluxL j * (g.faceL j * g.dx j * g.dz j) else 0))]
  · rw [sum_forRange]
    simp only [Finset.sum_add_distrib]
    rw [sum_pick, sum_pick_succ]
    simp only [zero_add, Line.total, sub_add_cancel, Line.faceL_eq]
    split_ifs <;> ring
  · intro a j
    simp only [Line.scatter, addAt_apply]
    ring

/-- Telescoping over an integer interval. -/
theorem sum_telescope (P : ℤ → ℝ) (a b : ℤ) (hab : a ≤ b + 1) :
    ∑ i ∈ Icc a b, (P i - P (i - 1)) = P b - P (a - 1) := by
  have key : ∀ n : ℕ, ∑ i ∈ Icc a (a - 1 + n), (P i - P (i - 1)) = P (a - 1 + n) - P (a - 1) := by
    intro n
    induction n with
    | zero => simp
    | succ n ih =>
      have : Icc a (a - 1 + ((n + 1 : ℕ) : ℤ)) = insert (a - 1 + ((n + 1 : ℕ) : ℤ)) (Icc a (a - 1 + (n : ℤ))) := by
        ext j
        simp only [mem_Icc, mem_insert]
        omega
      rw [this, Finset.sum_insert (by simp), ih]
      have e : a - 1 + ((n + 1 : ℕ) : ℤ) - 1 = a - 1 + (n : ℤ) := by push_cast; ring
      rw [e]; ring
  have := key (b + 1 - a).toNat
  have e : a - 1 + ((b + 1 - a).toNat : ℤ) = b := by omega
  rwa [e] at this

theorem Line.ys_le (g : Line) : g.ys ≤ g.ystart := by unfold Line.ys; split <;> omega
theorem Line.le_ye (g : Line) : g.yend ≤ g.ye := by unfold Line.ye; split <;> omega

end Hermes
