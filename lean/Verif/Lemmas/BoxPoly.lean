import Mathlib.Data.Real.Basic
import Mathlib.Tactic.Ring
import Mathlib.Tactic.Linarith
import Mathlib.Tactic.LinearCombination
import Mathlib.Tactic.FieldSimp
import Mathlib.Tactic.Positivity
import Mathlib.Algebra.Order.Ring.Int

/-!
# Positive polynomials on a rectangle

A polynomial in two variables with whole coefficients is positive on a rectangle if a tree of halvings shows it: on each piece, moved to the unit
square, the sum of the negative parts of the coefficients does not reach the rest (`lb2`).  The tree is checked by evaluation in the kernel.
-/

namespace Hermes.BoxPoly

/-- `c₀ + t (c₁ + t (c₂ + …))`. -/
noncomputable def ev : List ℤ → ℝ → ℝ
  | [], _ => 0
  | c :: l, t => c + t * ev l t

/-- Rows are the coefficients of the powers of the first variable. -/
noncomputable def ev2 : List (List ℤ) → ℝ → ℝ → ℝ
  | [], _, _ => 0
  | l :: p, s, t => ev l t + s * ev2 p s t

/-! ## Evaluation that does not leave sums behind -/

def seqZ {α : Type} (z : ℤ) (k : ℤ → α) : α :=
  match z with
  | .ofNat n => (match n with
    | 0 => k 0
    | m + 1 => k (.ofNat (m + 1)))
  | .negSucc n => (match n with
    | 0 => k (-1)
    | m + 1 => k (.negSucc (m + 1)))

def seqL {α : Type} (l : List ℤ) (k : List ℤ → α) : α :=
  match l with
  | [] => k []
  | c :: l => seqZ c fun c => seqL l fun l => k (c :: l)

def seqP {α : Type} (p : List (List ℤ)) (k : List (List ℤ) → α) : α :=
  match p with
  | [] => k []
  | l :: p => seqL l fun l => seqP p fun p => k (l :: p)

theorem seqZ_eq {α : Type} (z : ℤ) (k : ℤ → α) : seqZ z k = k z := by
  unfold seqZ
  split <;> split <;> rfl

theorem seqL_eq {α : Type} (l : List ℤ) (k : List ℤ → α) : seqL l k = k l := by
  induction l generalizing k with
  | nil => rfl
  | cons c l ih => rw [seqL, seqZ_eq, ih]

theorem seqP_eq {α : Type} (p : List (List ℤ)) (k : List (List ℤ) → α) : seqP p k = k p := by
  induction p generalizing k with
  | nil => rfl
  | cons c l ih => rw [seqP, seqL_eq, ih]

/-! ## Sums and multiples -/

def add : List ℤ → List ℤ → List ℤ
  | [], m => m
  | l, [] => l
  | c :: l, d :: m => (c + d) :: add l m

theorem ev_add (l m : List ℤ) (t : ℝ) : ev (add l m) t = ev l t + ev m t := by
  induction l generalizing m with
  | nil => simp [add, ev]
  | cons c l ih =>
    cases m with
    | nil => simp [add, ev]
    | cons d m => simp only [add, ev, ih]; push_cast; ring

def add2 : List (List ℤ) → List (List ℤ) → List (List ℤ)
  | [], m => m
  | l, [] => l
  | c :: l, d :: m => add c d :: add2 l m

theorem ev2_add (p q : List (List ℤ)) (s t : ℝ) : ev2 (add2 p q) s t = ev2 p s t + ev2 q s t := by
  induction p generalizing q with
  | nil => simp [add2, ev2]
  | cons c l ih =>
    cases q with
    | nil => simp [add2, ev2]
    | cons d m => simp only [add2, ev2, ih, ev_add]; ring

def mul (a : ℤ) : List ℤ → List ℤ
  | [] => []
  | c :: l => a * c :: mul a l

theorem ev_mul (a : ℤ) (l : List ℤ) (t : ℝ) : ev (mul a l) t = a * ev l t := by
  induction l with
  | nil => simp [mul, ev]
  | cons c l ih => simp only [mul, ev, ih]; push_cast; ring

def mul2 (a : ℤ) : List (List ℤ) → List (List ℤ)
  | [] => []
  | c :: l => mul a c :: mul2 a l

theorem ev2_mul (a : ℤ) (p : List (List ℤ)) (s t : ℝ) : ev2 (mul2 a p) s t = a * ev2 p s t := by
  induction p with
  | nil => simp [mul2, ev2]
  | cons c l ih => simp only [mul2, ev2, ih, ev_mul]; ring

/-! ## Change of variable: `(A + H t) / D` in place of `t` -/

def affine (A H D : ℤ) : List ℤ → List ℤ
  | [] => []
  | c :: l => seqL (affine A H D l) fun q => add (c * D ^ l.length :: mul H q) (mul A q)

theorem ev_affine (A H : ℤ) {D : ℤ} (hD : D ≠ 0) (l : List ℤ) (t : ℝ) :
    D * ev (affine A H D l) t = (D : ℝ) ^ l.length * ev l ((A + H * t) / D) := by
  have h : (D : ℝ) ≠ 0 := by exact_mod_cast hD
  induction l with
  | nil => simp [affine, ev]
  | cons c l ih =>
    rw [affine, seqL_eq, ev_add, ev, ev_mul, ev_mul, ev, List.length_cons, pow_succ]
    have e : (D : ℝ) * ((((c * D ^ l.length : ℤ) : ℝ) + t * (H * ev (affine A H D l) t)) + A * ev (affine A H D l) t)
        = D * c * D ^ l.length + (A + H * t) * (D * ev (affine A H D l) t) := by push_cast; ring
    rw [e, ih]
    field_simp

def affineY (A H D : ℤ) : List (List ℤ) → List (List ℤ)
  | [] => []
  | l :: p => affine A H D l :: affineY A H D p

theorem ev2_affineY (A H : ℤ) {D : ℤ} (hD : D ≠ 0) {n : ℕ} {p : List (List ℤ)} (hp : ∀ l ∈ p, l.length = n) (s t : ℝ) :
    D * ev2 (affineY A H D p) s t = (D : ℝ) ^ n * ev2 p s ((A + H * t) / D) := by
  induction p with
  | nil => simp [affineY, ev2]
  | cons l p ih =>
    have h1 := ev_affine A H hD l t
    rw [hp l (by simp)] at h1
    have h2 := ih fun l hl => hp l (by simp [hl])
    rw [affineY, ev2, ev2]
    linear_combination h1 + s * h2

def affineX (A H D : ℤ) : List (List ℤ) → List (List ℤ)
  | [] => []
  | l :: p => seqP (affineX A H D p) fun q => add2 (mul (D ^ p.length) l :: mul2 H q) (mul2 A q)

theorem ev2_affineX (A H : ℤ) {D : ℤ} (hD : D ≠ 0) (p : List (List ℤ)) (s t : ℝ) :
    D * ev2 (affineX A H D p) s t = (D : ℝ) ^ p.length * ev2 p ((A + H * s) / D) t := by
  have h : (D : ℝ) ≠ 0 := by exact_mod_cast hD
  induction p with
  | nil => simp [affineX, ev2]
  | cons c l ih =>
    rw [affineX, seqP_eq, ev2_add, ev2, ev2_mul, ev2_mul, ev_mul, ev2, List.length_cons, pow_succ]
    have e : (D : ℝ) * (((D ^ l.length : ℤ) : ℝ) * ev c t + s * (H * ev2 (affineX A H D l) s t) + A * ev2 (affineX A H D l) s t)
        = D * ev c t * D ^ l.length + (A + H * s) * (D * ev2 (affineX A H D l) s t) := by push_cast; ring
    rw [e, ih]
    field_simp

/-! ## Lower bound on the unit square -/

def lb : List ℤ → ℤ
  | [] => 0
  | c :: l => seqZ (lb l) fun r => c + min 0 r

def lbs : List (List ℤ) → List ℤ
  | [] => []
  | l :: p => seqZ (lb l) fun z => z :: lbs p

theorem mul_ge {t r : ℝ} {z : ℤ} (h0 : 0 ≤ t) (h1 : t ≤ 1) (hr : (z : ℝ) ≤ r) : ((min 0 z : ℤ) : ℝ) ≤ t * r := by
  rcases le_total 0 z with h | h
  · rw [min_eq_left h]
    have : (0 : ℝ) ≤ z := by exact_mod_cast h
    push_cast
    exact mul_nonneg h0 (this.trans hr)
  · rw [min_eq_right h]
    have : (z : ℝ) ≤ 0 := by exact_mod_cast h
    nlinarith

theorem lb_le (l : List ℤ) {t : ℝ} (h0 : 0 ≤ t) (h1 : t ≤ 1) : (lb l : ℝ) ≤ ev l t := by
  induction l with
  | nil => simp [lb, ev]
  | cons c l ih =>
    rw [lb, seqZ_eq, ev]
    have := mul_ge h0 h1 ih
    push_cast at this ⊢
    linarith

theorem lb2_le (p : List (List ℤ)) {s t : ℝ} (h0 : 0 ≤ t) (h1 : t ≤ 1) (k0 : 0 ≤ s) (k1 : s ≤ 1) : (lb (lbs p) : ℝ) ≤ ev2 p s t := by
  induction p with
  | nil => simp [lb, lbs, ev2]
  | cons l p ih =>
    rw [lbs, seqZ_eq, lb, seqZ_eq, ev2]
    have := mul_ge k0 k1 ih
    have a := lb_le l h0 h1
    push_cast at this ⊢
    linarith

/-! ## The tree -/

inductive Cert where
  | ok
  | x (low high : Cert)
  | y (low high : Cert)

/-- Half of the variable, up to a power of two. -/
def halfY : List ℤ → List ℤ
  | [] => []
  | c :: l => c * 2 ^ l.length :: halfY l

theorem ev_half (l : List ℤ) (t : ℝ) : 2 * ev (halfY l) (2 * t) = 2 ^ l.length * ev l t := by
  induction l with
  | nil => simp [halfY, ev]
  | cons c l ih =>
    rw [halfY, ev, ev, List.length_cons, pow_succ]
    push_cast
    linear_combination (2 * t) * ih

/-- The variable plus one. -/
def shift : List ℤ → List ℤ
  | [] => []
  | c :: l => seqL (shift l) fun q => add (c :: q) q

theorem ev_shift (l : List ℤ) (t : ℝ) : ev (shift l) t = ev l (t + 1) := by
  induction l with
  | nil => simp [shift, ev]
  | cons c l ih =>
    rw [shift, seqL_eq, ev_add, ev, ev, ih]
    ring

def lowY : List (List ℤ) → List (List ℤ)
  | [] => []
  | l :: p => halfY l :: lowY p

def nextY : List (List ℤ) → List (List ℤ)
  | [] => []
  | l :: p => shift l :: nextY p

theorem ev2_lowY {n : ℕ} {p : List (List ℤ)} (hp : ∀ l ∈ p, l.length = n) (s t : ℝ) : 2 * ev2 (lowY p) s (2 * t) = 2 ^ n * ev2 p s t := by
  induction p with
  | nil => simp [lowY, ev2]
  | cons l p ih =>
    have h1 := ev_half l t
    rw [hp l (by simp)] at h1
    have h2 := ih fun l hl => hp l (by simp [hl])
    rw [lowY, ev2, ev2]
    linear_combination h1 + s * h2

theorem ev2_nextY (p : List (List ℤ)) (s t : ℝ) : ev2 (nextY p) s t = ev2 p s (t + 1) := by
  induction p with
  | nil => simp [nextY, ev2]
  | cons l p ih => rw [nextY, ev2, ev2, ih, ev_shift]

def lowX : List (List ℤ) → List (List ℤ)
  | [] => []
  | l :: p => mul (2 ^ p.length) l :: lowX p

theorem ev2_lowX (p : List (List ℤ)) (s t : ℝ) : 2 * ev2 (lowX p) (2 * s) t = 2 ^ p.length * ev2 p s t := by
  induction p with
  | nil => simp [lowX, ev2]
  | cons c l ih =>
    rw [lowX, ev2, ev2, ev_mul, List.length_cons, pow_succ]
    push_cast
    linear_combination (2 * s) * ih

def nextX : List (List ℤ) → List (List ℤ)
  | [] => []
  | l :: p => seqP (nextX p) fun q => add2 (l :: q) q

theorem ev2_nextX (p : List (List ℤ)) (s t : ℝ) : ev2 (nextX p) s t = ev2 p (s + 1) t := by
  induction p with
  | nil => simp [nextX, ev2]
  | cons c l ih =>
    rw [nextX, seqP_eq, ev2_add, ev2, ev2, ih]
    ring

/-- All rows have length `n`. -/
def rowsOf (n : ℕ) : List (List ℤ) → Bool
  | [] => true
  | l :: p => l.length == n && rowsOf n p

theorem rowsOf_iff {n : ℕ} {p : List (List ℤ)} : rowsOf n p = true ↔ ∀ l ∈ p, l.length = n := by
  induction p with
  | nil => simp [rowsOf]
  | cons l p ih => simp [rowsOf, ih]

def check (n : ℕ) : Cert → List (List ℤ) → Bool
  | .ok, p => decide (0 < lb (lbs p))
  | .x a b, p => seqP (lowX p) fun q => check n a q && seqP (nextX q) (check n b)
  | .y a b, p => rowsOf n p && seqP (lowY p) fun q => check n a q && seqP (nextY q) (check n b)

theorem check_sound {n : ℕ} {c : Cert} {p : List (List ℤ)} (h : check n c p = true) {s t : ℝ} (hs : 0 ≤ s ∧ s ≤ 1) (ht : 0 ≤ t ∧ t ≤ 1) :
    0 < ev2 p s t := by
  induction c generalizing p s t with
  | ok =>
    have : 0 < lb (lbs p) := by simpa [check] using h
    exact lt_of_lt_of_le (by exact_mod_cast this) (lb2_le p ht.1 ht.2 hs.1 hs.2)
  | x a b iha ihb =>
    simp only [check, seqP_eq, Bool.and_eq_true] at h
    have e := ev2_lowX p s t
    have k : 0 < ev2 (lowX p) (2 * s) t := by
      rcases le_total s (1 / 2) with k | k
      · exact iha h.1 ⟨by linarith, by linarith⟩ ht
      · have := ihb h.2 (s := 2 * s - 1) (t := t) ⟨by linarith, by linarith [hs.2]⟩ ht
        rwa [ev2_nextX, sub_add_cancel] at this
    have : 0 < (2 : ℝ) ^ p.length * ev2 p s t := by rw [← e]; linarith
    exact pos_of_mul_pos_right this (by positivity)
  | y a b iha ihb =>
    simp only [check, seqP_eq, Bool.and_eq_true] at h
    have e := ev2_lowY (rowsOf_iff.1 h.1) s t
    have k : 0 < ev2 (lowY p) s (2 * t) := by
      rcases le_total t (1 / 2) with k | k
      · exact iha h.2.1 hs ⟨by linarith, by linarith⟩
      · have := ihb h.2.2 (s := s) (t := 2 * t - 1) hs ⟨by linarith, by linarith [ht.2]⟩
        rwa [ev2_nextY, sub_add_cancel] at this
    have : 0 < (2 : ℝ) ^ n * ev2 p s t := by rw [← e]; linarith
    exact pos_of_mul_pos_right this (by positivity)

/-- The rectangle `[A/1000, (A+H)/1000] × [B/1000, (B+L)/1000]`. -/
def checkOn (n : ℕ) (c : Cert) (A H B L : ℤ) (p : List (List ℤ)) : Bool :=
  rowsOf n p && (decide (0 < H) && (decide (0 < L) && seqP (affineY B L 1000 p) fun q => seqP (affineX A H 1000 q) (check n c)))

theorem checkOn_sound {n : ℕ} {c : Cert} {A H B L : ℤ} {p : List (List ℤ)} (h : checkOn n c A H B L p = true) {x y : ℝ}
    (hx : (A : ℝ) / 1000 ≤ x ∧ x ≤ (A + H) / 1000) (hy : (B : ℝ) / 1000 ≤ y ∧ y ≤ (B + L) / 1000) : 0 < ev2 p x y := by
  simp only [checkOn, seqP_eq, Bool.and_eq_true, decide_eq_true_eq] at h
  obtain ⟨h1, h2, h3, h4⟩ := h
  have hH : (0 : ℝ) < H := by exact_mod_cast h2
  have hL : (0 : ℝ) < L := by exact_mod_cast h3
  have hs : 0 ≤ (1000 * x - A) / H ∧ (1000 * x - A) / H ≤ 1 :=
    ⟨div_nonneg (by linarith [hx.1]) hH.le, (div_le_one hH).2 (by linarith [hx.2])⟩
  have ht : 0 ≤ (1000 * y - B) / L ∧ (1000 * y - B) / L ≤ 1 :=
    ⟨div_nonneg (by linarith [hy.1]) hL.le, (div_le_one hL).2 (by linarith [hy.2])⟩
  have a := check_sound h4 hs ht
  have ex := ev2_affineX A H (D := 1000) (by norm_num) (affineY B L 1000 p) ((1000 * x - A) / H) ((1000 * y - B) / L)
  have ey := ev2_affineY B L (D := 1000) (by norm_num) (rowsOf_iff.1 h1) x ((1000 * y - B) / L)
  have zx : (A + H * ((1000 * x - A) / H)) / ((1000 : ℤ) : ℝ) = x := by push_cast; field_simp; ring
  have zy : (B + L * ((1000 * y - B) / L)) / ((1000 : ℤ) : ℝ) = y := by push_cast; field_simp; ring
  rw [zx] at ex
  rw [zy] at ey
  have b : 0 < ((1000 : ℤ) : ℝ) ^ (affineY B L 1000 p).length * ev2 (affineY B L 1000 p) x ((1000 * y - B) / L) := by
    rw [← ex]; exact mul_pos (by norm_num) a
  have b' := pos_of_mul_pos_right b (by positivity)
  have c : 0 < ((1000 : ℤ) : ℝ) ^ n * ev2 p x y := by rw [← ey]; exact mul_pos (by norm_num) b'
  exact pos_of_mul_pos_right c (by positivity)

end Hermes.BoxPoly
