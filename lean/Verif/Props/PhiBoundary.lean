import Verif.Model.PhiBoundary
import Mathlib.Algebra.BigOperators.Group.List.Basic
import Mathlib.Algebra.BigOperators.Group.Finset.Basic
import Mathlib.Algebra.BigOperators.Fin
import Mathlib.Tactic.FieldSimp
import Mathlib.Tactic.Linarith
import Mathlib.Tactic.Positivity
import Mathlib.Tactic.NormNum

/-!
# Relaxation of the potential at the X boundaries (C51)
-/

set_option linter.unusedSectionVars false
set_option linter.unusedVariables false

namespace Hermes.PhiBoundary

/-! ## Specification -/

/-- The value on the boundary between the columns `g` and `x`. -/
noncomputable def edge (f : XYZ) (g x j k : ℕ) : ℝ := (f g j k + f x j k) / 2

/-- The average over Z. -/
noncomputable def meanZ (m : XMesh) (f : XYZ) (x j : ℕ) : ℝ := (∑ k ∈ Finset.range m.LocalNz, f x j k) / m.LocalNz

/-- The average over all cells of the core next to the boundary on this processor and on the others, which have the same number of cells. -/
noncomputable def meanCore (m : XMesh) (np : ℕ) (others : ℝ) (f : XYZ) : ℝ :=
  (∑ j ∈ Finset.Icc m.ystart m.yend, ∑ k ∈ Finset.range m.LocalNz, f m.xstart j k + others) / (np * (m.yend + 1 - m.ystart : ℕ) * m.LocalNz)

/-- At least two guard cells in X, at least one cell. -/
structure MeshOk (m : XMesh) : Prop where
  x0 : 2 ≤ m.xstart
  x1 : m.xstart ≤ m.xend
  x2 : m.xend + 2 < m.LocalNx
  z : 0 < m.LocalNz

/-- A boundary: guard cell, second guard cell, last cell. -/
structure Side where
  g : ℕ
  g2 : ℕ
  x : ℕ
deriving DecidableEq

def inner (m : XMesh) : Side := ⟨m.xstart - 1, m.xstart - 2, m.xstart⟩
def outer (m : XMesh) : Side := ⟨m.xend + 1, m.xend + 2, m.xend⟩

/-- The processor has this boundary. -/
def Has (m : XMesh) (s : Side) : Prop := (s = inner m ∧ m.firstX = true) ∨ (s = outer m ∧ m.lastX = true)

/-- The solver puts the value in the guard cell of the initial guess onto the boundary (`INVERT_SET`). -/
def SolverOk (m : XMesh) (solve : XYZ → XYZ) : Prop :=
  ∀ (x0 : XYZ) (s : Side), Has m s → ∀ j ∈ m.js, ∀ k, k < m.LocalNz → edge (solve x0) s.g s.x j k = x0 s.g j k

/-! ## Loops -/

theorem foldl_local {α : Type} (own : α → ℕ → ℕ → ℕ → Prop) (hown : ∀ a b x j k, own a x j k → own b x j k → a = b) (step : XYZ → α → XYZ)
    (h1 : ∀ f a x j k, ¬ own a x j k → step f a x j k = f x j k)
    (h2 : ∀ f g a, (∀ x j k, own a x j k → f x j k = g x j k) → ∀ x j k, own a x j k → step f a x j k = step g a x j k)
    (l : List α) (hn : l.Nodup) (f : XYZ) :
    (∀ a ∈ l, ∀ x j k, own a x j k → (l.foldl step f) x j k = step f a x j k) ∧
    ∀ x j k, (∀ a ∈ l, ¬ own a x j k) → (l.foldl step f) x j k = f x j k := by
  induction l generalizing f with
  | nil => exact ⟨by simp, fun _ _ _ _ => rfl⟩
  | cons b l ih =>
    rw [List.nodup_cons] at hn
    obtain ⟨i1, i2⟩ := ih hn.2 (step f b)
    rw [List.foldl_cons]
    refine ⟨fun a ha x j k hx => ?_, fun x j k hx => ?_⟩
    · rcases List.mem_cons.1 ha with rfl | ha
      · refine i2 x j k (fun c hc hcx => hn.1 ?_)
        rw [hown a c x j k hx hcx]
        exact hc
      · rw [i1 a ha x j k hx]
        refine h2 _ _ a (fun x' j' k' hx' => h1 f b x' j' k' (fun hb => hn.1 ?_)) x j k hx
        rw [hown b a x' j' k' hb hx']
        exact ha
    · rw [i2 x j k (fun a ha => hx a (List.mem_cons_of_mem _ ha)), h1 f b x j k (hx b List.mem_cons_self)]

theorem js_nodup (m : XMesh) : m.js.Nodup := List.nodup_range'
theorem ks_nodup (m : XMesh) : m.ks.Nodup := List.nodup_range
theorem mem_ks {m : XMesh} {k : ℕ} : k ∈ m.ks ↔ k < m.LocalNz := List.mem_range
theorem mem_js {m : XMesh} {j : ℕ} : j ∈ m.js ↔ m.ystart ≤ j ∧ j ≤ m.yend := by
  unfold XMesh.js
  rw [List.mem_range'_1]
  omega

theorem put_self (f : XYZ) (x j k : ℕ) (v : ℝ) : f.put x j k v x j k = v := by simp [XYZ.put]
theorem put_of_ne (f : XYZ) {x j k x' j' k' : ℕ} (v : ℝ) (h : ¬ (x' = x ∧ j' = j ∧ k' = k)) : f.put x j k v x' j' k' = f x' j' k' := by
  simp only [XYZ.put, if_neg h]

/-- A loop over all `j` and `k` which changes, for each, only cells with these indices. -/
theorem foldl_jk (m : XMesh) (step : XYZ → ℕ → ℕ → XYZ)
    (h1 : ∀ f j k x j' k', ¬ (j' = j ∧ k' = k) → step f j k x j' k' = f x j' k')
    (h2 : ∀ f g j k, (∀ x, f x j k = g x j k) → ∀ x, step f j k x j k = step g j k x j k) (f : XYZ) (x j k : ℕ) :
    (j ∈ m.js → k < m.LocalNz → (m.js.foldl (fun f j => m.ks.foldl (fun f k => step f j k) f) f) x j k = step f j k x j k) ∧
    (¬ (j ∈ m.js ∧ k < m.LocalNz) → (m.js.foldl (fun f j => m.ks.foldl (fun f k => step f j k) f) f) x j k = f x j k) := by
  have hk : ∀ (j : ℕ) (f : XYZ), (∀ k ∈ m.ks, ∀ x j' k', (j' = j ∧ k' = k) → (m.ks.foldl (fun f k => step f j k) f) x j' k' = step f j k x j' k') ∧
      ∀ x j' k', (∀ k ∈ m.ks, ¬ (j' = j ∧ k' = k)) → (m.ks.foldl (fun f k => step f j k) f) x j' k' = f x j' k' := by
    intro j f
    refine foldl_local (fun k _ j' k' => j' = j ∧ k' = k) ?_ (fun f k => step f j k) ?_ ?_ m.ks (ks_nodup m) f
    · rintro a b x j' k' ⟨_, h⟩ ⟨_, h'⟩; rw [← h, h']
    · intro f a x j' k' h; exact h1 f j a x j' k' h
    · rintro f g a h x j' k' ⟨rfl, rfl⟩; exact h2 f g _ _ (fun x => h x _ _ ⟨rfl, rfl⟩) x
  have hj := foldl_local (fun j _ j' _ => j' = j) (fun a b x j k ha hb => ha.symm.trans hb) (fun f j => m.ks.foldl (fun f k => step f j k) f)
    (fun f j x j' k' h => (hk j f).2 x j' k' (fun k _ hc => h hc.1)) (fun f g j h x j' k' hj => ?_) m.js (js_nodup m) f
  · refine ⟨fun h h' => ?_, fun h => ?_⟩
    · rw [hj.1 j h x j k rfl, (hk j f).1 k (mem_ks.2 h') x j k ⟨rfl, rfl⟩]
    · by_cases hjm : j ∈ m.js
      · rw [hj.1 j hjm x j k rfl, (hk j f).2 x j k]
        rintro k' hk' ⟨_, rfl⟩
        exact h ⟨hjm, mem_ks.1 hk'⟩
      · exact hj.2 x j k (fun a ha e => hjm (e ▸ ha))
  · subst hj
    by_cases hkm : k' ∈ m.ks
    · rw [(hk j' f).1 k' hkm x j' k' ⟨rfl, rfl⟩, (hk j' g).1 k' hkm x j' k' ⟨rfl, rfl⟩]
      exact h2 f g j' k' (fun x => h x j' k' rfl) x
    · rw [(hk j' f).2 x j' k' (fun k hk1 hc => hkm (hc.2 ▸ hk1)), (hk j' g).2 x j' k' (fun k hk1 hc => hkm (hc.2 ▸ hk1))]
      exact h x j' k' rfl

/-- Indices of a side are distinct. -/
structure SideOk (s : Side) : Prop where
  a : s.g ≠ s.x
  b : s.g2 ≠ s.x
  c : s.g2 ≠ s.g

theorem inner_ok {m : XMesh} (h : MeshOk m) : SideOk (inner m) := by
  have := h.x0
  refine ⟨?_, ?_, ?_⟩ <;> simp only [inner] <;> omega

theorem outer_ok (m : XMesh) : SideOk (outer m) := by
  refine ⟨?_, ?_, ?_⟩ <;> simp only [outer] <;> omega

theorem foldl_sum (l : List ℕ) (g : ℕ → ℝ) (a : ℝ) : l.foldl (fun s k => s + g k) a = a + (l.map g).sum := by
  induction l generalizing a with
  | nil => simp
  | cons x l ih => rw [List.foldl_cons, ih, List.map_cons, List.sum_cons, add_assoc]

theorem list_sum_range (n : ℕ) (g : ℕ → ℝ) : ((List.range n).map g).sum = ∑ k ∈ Finset.range n, g k := by
  induction n with
  | zero => simp
  | succ n ih => rw [List.range_succ, List.map_append, List.sum_append, ih, Finset.sum_range_succ]; simp

theorem averageZ_eq (m : XMesh) (f : XYZ) (x j : ℕ) : phiAverageZ m f x j = meanZ m f x j := by
  unfold phiAverageZ meanZ XMesh.ks
  rw [foldl_sum, zero_add, list_sum_range]

theorem meanZ_congr {m : XMesh} {f g : XYZ} {x j : ℕ} (h : ∀ k, f x j k = g x j k) : meanZ m f x j = meanZ m g x j := by
  unfold meanZ
  simp only [h]

theorem writeBoundary_ok (m : XMesh) {s : Side} (hs : SideOk s) (v : ℝ) (f : XYZ) (j : ℕ) :
    (∀ k, k < m.LocalNz → writeBoundary m s.g s.g2 s.x v f j s.g j k = 2 * v - f s.x j k) ∧
    (∀ k, k < m.LocalNz → writeBoundary m s.g s.g2 s.x v f j s.g2 j k = 2 * v - f s.x j k) ∧
    ∀ x j' k, ¬ ((x = s.g ∨ x = s.g2) ∧ j' = j ∧ k < m.LocalNz) → writeBoundary m s.g s.g2 s.x v f j x j' k = f x j' k := by
  have key := foldl_local (fun k _ j' k' => j' = j ∧ k' = k) (fun a b x j' k' ha hb => ha.2.symm.trans hb.2)
    (fun (f : XYZ) k => (f.put s.g j k (2 * v - f s.x j k)).put s.g2 j k ((f.put s.g j k (2 * v - f s.x j k)) s.g j k)) ?_ ?_ m.ks (ks_nodup m) f
  · unfold writeBoundary
    refine ⟨fun k hk => ?_, fun k hk => ?_, fun x j' k h => ?_⟩
    · rw [key.1 k (mem_ks.2 hk) _ j k ⟨rfl, rfl⟩, put_of_ne _ _ (fun hc => hs.c hc.1.symm), put_self]
    · rw [key.1 k (mem_ks.2 hk) _ j k ⟨rfl, rfl⟩, put_self, put_self]
    · by_cases hj : j' = j
      · subst hj
        by_cases hk : k < m.LocalNz
        · rw [key.1 k (mem_ks.2 hk) _ j' k ⟨rfl, rfl⟩, put_of_ne _ _ (fun hc => h ⟨Or.inr hc.1, rfl, hk⟩),
            put_of_ne _ _ (fun hc => h ⟨Or.inl hc.1, rfl, hk⟩)]
        · exact key.2 x j' k (fun a ha hc => hk (hc.2 ▸ mem_ks.1 ha))
      · exact key.2 x j' k (fun a ha hc => hj hc.1)
  · intro f a x j' k' h
    rw [put_of_ne _ _ (fun hc => h ⟨hc.2.1, hc.2.2⟩), put_of_ne _ _ (fun hc => h ⟨hc.2.1, hc.2.2⟩)]
  · rintro f g a h x j' k' ⟨rfl, rfl⟩
    simp only [XYZ.put, h x j' k' ⟨rfl, rfl⟩, h s.x j' k' ⟨rfl, rfl⟩, h s.g j' k' ⟨rfl, rfl⟩]

/-- A loop over `j` that puts values on a boundary. -/
theorem boundary_loop (m : XMesh) {s : Side} (hs : SideOk s) (value : XYZ → ℕ → ℝ)
    (hv : ∀ f g j, (∀ x k, f x j k = g x j k) → value f j = value g j) (f : XYZ) :
    (∀ j ∈ m.js, ∀ k, k < m.LocalNz → (m.js.foldl (fun f j => writeBoundary m s.g s.g2 s.x (value f j) f j) f) s.g j k = 2 * value f j - f s.x j k) ∧
    (∀ j ∈ m.js, ∀ k, k < m.LocalNz → (m.js.foldl (fun f j => writeBoundary m s.g s.g2 s.x (value f j) f j) f) s.g2 j k = 2 * value f j - f s.x j k) ∧
    ∀ x j k, ¬ ((x = s.g ∨ x = s.g2) ∧ j ∈ m.js ∧ k < m.LocalNz) →
      (m.js.foldl (fun f j => writeBoundary m s.g s.g2 s.x (value f j) f j) f) x j k = f x j k := by
  have key := foldl_local (fun j _ j' _ => j' = j) (fun a b x j k ha hb => ha.symm.trans hb)
    (fun (f : XYZ) j => writeBoundary m s.g s.g2 s.x (value f j) f j)
    (fun f j x j' k h => (writeBoundary_ok m hs _ f j).2.2 x j' k (fun hc => h hc.2.1)) ?_ m.js (js_nodup m) f
  · refine ⟨fun j hj k hk => ?_, fun j hj k hk => ?_, fun x j k h => ?_⟩
    · rw [key.1 j hj _ j k rfl]; exact (writeBoundary_ok m hs _ f j).1 k hk
    · rw [key.1 j hj _ j k rfl]; exact (writeBoundary_ok m hs _ f j).2.1 k hk
    · by_cases hj : j ∈ m.js
      · rw [key.1 j hj _ j k rfl]
        exact (writeBoundary_ok m hs _ f j).2.2 x j k (fun hc => h ⟨hc.1, hj, hc.2.2⟩)
      · exact key.2 x j k (fun a ha e => hj (e ▸ ha))
  · rintro f g j h x j' k rfl
    rw [hv f g j' (fun x k => h x j' k rfl)]
    by_cases hk : k < m.LocalNz
    · by_cases hx : x = s.g
      · rw [hx, (writeBoundary_ok m hs _ f j').1 k hk, (writeBoundary_ok m hs _ g j').1 k hk, h _ _ _ rfl]
      · by_cases hx2 : x = s.g2
        · rw [hx2, (writeBoundary_ok m hs _ f j').2.1 k hk, (writeBoundary_ok m hs _ g j').2.1 k hk, h _ _ _ rfl]
        · rw [(writeBoundary_ok m hs _ f j').2.2 x j' k (fun hc => hc.1.elim hx hx2), (writeBoundary_ok m hs _ g j').2.2 x j' k (fun hc => hc.1.elim hx hx2)]
          exact h _ _ _ rfl
    · rw [(writeBoundary_ok m hs _ f j').2.2 x j' k (fun hc => hk hc.2.2), (writeBoundary_ok m hs _ g j').2.2 x j' k (fun hc => hk hc.2.2)]
      exact h _ _ _ rfl

/-- Two loops, one for each side. -/
theorem both_sides {m : XMesh} (hm : MeshOk m) (vi vo : XYZ → ℕ → ℝ)
    (hvi : ∀ f g j, (∀ x k, f x j k = g x j k) → vi f j = vi g j)
    (hvo : ∀ f g j, (∀ k, f m.xend j k = g m.xend j k) → (∀ k, f (m.xend + 1) j k = g (m.xend + 1) j k) → vo f j = vo g j)
    (f f1 f2 : XYZ)
    (h1 : f1 = if m.firstX then m.js.foldl (fun f j => writeBoundary m (m.xstart - 1) (m.xstart - 2) m.xstart (vi f j) f j) f else f)
    (h2 : f2 = if m.lastX then m.js.foldl (fun f j => writeBoundary m (m.xend + 1) (m.xend + 2) m.xend (vo f j) f j) f1 else f1) :
    (m.firstX = true → ∀ j ∈ m.js, ∀ k, k < m.LocalNz → edge f2 (inner m).g (inner m).x j k = vi f j) ∧
    (m.lastX = true → ∀ j ∈ m.js, ∀ k, k < m.LocalNz → edge f2 (outer m).g (outer m).x j k = vo f j) ∧
    ∀ x, m.xstart ≤ x → x ≤ m.xend → f2 x = f x := by
  have hx0 := hm.x0
  have hx1 := hm.x1
  have a : ∀ x j k, m.xstart ≤ x → f1 x j k = f x j k := by
    intro x j k hx
    rw [h1]
    split
    · refine (boundary_loop m (inner_ok hm) vi hvi f).2.2 x j k (fun hc => ?_)
      rcases hc.1 with e | e <;> simp only [inner] at e <;> omega
    · rfl
  have b : ∀ x j k, x ≤ m.xend → f2 x j k = f1 x j k := by
    intro x j k hx
    rw [h2]
    split
    · refine (boundary_loop m (outer_ok m) vo (fun f g j h => hvo f g j (h _) (h _)) f1).2.2 x j k (fun hc => ?_)
      rcases hc.1 with e | e <;> simp only [outer] at e <;> omega
    · rfl
  refine ⟨fun hf j hj k hk => ?_, fun hl j hj k hk => ?_, fun x hx hx' => ?_⟩
  · unfold edge
    rw [b _ j k (by simp only [inner]; omega), b _ j k (by simp only [inner]; omega), a (inner m).x j k (by simp only [inner]; omega), h1, if_pos hf]
    have := (boundary_loop m (inner_ok hm) vi hvi f).1 j hj k hk
    simp only [inner] at this ⊢
    rw [this]
    ring
  · have e : vo f1 j = vo f j := hvo f1 f j (fun k => a _ j k hx1) (fun k => a _ j k (by omega))
    unfold edge
    rw [b (outer m).x j k (by simp only [outer]; omega), h2, if_pos hl]
    have := (boundary_loop m (outer_ok m) vo (fun f g j h => hvo f g j (h _) (h _)) f1).1 j hj k hk
    simp only [outer] at this ⊢
    rw [this, e]
    ring
  · funext j k
    rw [b x j k hx', a x j k hx]

/-- The target of the relaxation in the code. -/
noncomputable def target (m : XMesh) (o : PhiOpts) (np : ℕ) (others : ℝ) (s : Side) (f : XYZ) (j : ℕ) : ℝ :=
  if o.phi_core_averagey = true ∧ s = inner m then averageCore m np others f else meanZ m f s.x j

theorem inner_ne_outer {m : XMesh} (hm : MeshOk m) : outer m ≠ inner m := by
  intro e
  have := congrArg Side.g e
  simp only [inner, outer] at this
  have := hm.x1
  omega

theorem relax_ok {m : XMesh} (hm : MeshOk m) (o : PhiOpts) (np : ℕ) (others w : ℝ) (f : XYZ) :
    (∀ s, Has m s → ∀ j ∈ m.js, ∀ k, k < m.LocalNz →
      edge (relaxBoundaries m o np others w f) s.g s.x j k = w * edge f s.g s.x j 0 + (1 - w) * target m o np others s f j) ∧
    ∀ x, m.xstart ≤ x → x ≤ m.xend → relaxBoundaries m o np others w f x = f x := by
  have hx0 := hm.x0
  have hx1 := hm.x1
  obtain ⟨h1, h2, h3⟩ := both_sides hm
    (fun f' j => w * (0.5 * (f' (m.xstart - 1) j 0 + f' m.xstart j 0)) + (1 - w) *
      (if o.phi_core_averagey then averageCore m np others f else phiAverageZ m f' m.xstart j))
    (fun f' j => w * (0.5 * (f' (m.xend + 1) j 0 + f' m.xend j 0)) + (1 - w) * phiAverageZ m f' m.xend j)
    (fun f g j h => by rw [averageZ_eq, averageZ_eq, meanZ_congr (fun k => h m.xstart k), h, h])
    (fun f g j h h' => by rw [averageZ_eq, averageZ_eq, meanZ_congr (fun k => h k), h, h'])
    f _ (relaxBoundaries m o np others w f) rfl rfl
  refine ⟨fun s hs j hj k hk => ?_, h3⟩
  rcases hs with ⟨rfl, hf⟩ | ⟨rfl, hl⟩
  · rw [h1 hf j hj k hk]
    unfold target edge
    simp only [inner, and_true, averageZ_eq]
    ring
  · rw [h2 hl j hj k hk]
    unfold target edge
    rw [if_neg (fun hc => inner_ne_outer hm hc.2)]
    simp only [outer, averageZ_eq]
    ring

/-! ## The solution keeps the boundary value -/

theorem shift_ok (m : XMesh) {g x : ℕ} (hg : g ≠ x) (f : XYZ) :
    (∀ j ∈ m.js, ∀ k, k < m.LocalNz → shiftBoundary m g x f g j k = edge f g x j k) ∧ ∀ x', x' ≠ g → shiftBoundary m g x f x' = f x' := by
  have key := foldl_jk m (fun f j k => f.put g j k (0.5 * (f g j k + f x j k))) ?_ ?_ f
  · refine ⟨fun j hj k hk => ?_, fun x' hx => ?_⟩
    · unfold shiftBoundary
      rw [(key g j k).1 hj hk, put_self]
      unfold edge
      ring
    · funext j k
      unfold shiftBoundary
      by_cases h : j ∈ m.js ∧ k < m.LocalNz
      · rw [(key x' j k).1 h.1 h.2, put_of_ne _ _ (fun hc => hx hc.1)]
      · exact (key x' j k).2 h
  · intro f j k x' j' k' h
    exact put_of_ne _ _ (fun hc => h hc.2)
  · intro f g' j k h x'
    simp only [XYZ.put, h]

theorem copyColumn_other (m : XMesh) (dst src : ℕ) (f : XYZ) {x : ℕ} (hx : x ≠ dst) : copyColumn m dst src f x = f x := by
  have key := foldl_jk m (fun f j k => f.put dst j k (f src j k)) ?_ ?_ f
  · funext j k
    unfold copyColumn
    by_cases h : j ∈ m.js ∧ k < m.LocalNz
    · rw [(key x j k).1 h.1 h.2, put_of_ne _ _ (fun hc => hx hc.1)]
    · exact (key x j k).2 h
  · intro f j k x' j' k' h
    exact put_of_ne _ _ (fun hc => h hc.2)
  · intro f g' j k h x'
    simp only [XYZ.put, h]

theorem copies_other (m : XMesh) (src : ℕ → ℕ) (l : List ℕ) (f : XYZ) {x : ℕ} (hx : ∀ i ∈ l, x ≠ i) :
    (l.foldl (fun f i => copyColumn m i (src i) f) f) x = f x := by
  induction l generalizing f with
  | nil => rfl
  | cons a l ih =>
    rw [List.foldl_cons, ih _ (fun i hi => hx i (List.mem_cons_of_mem _ hi)), copyColumn_other m _ _ _ (hx a List.mem_cons_self)]

theorem outerGuards_other {m : XMesh} (hm : MeshOk m) (f : XYZ) {x : ℕ} (h1 : m.xstart ≤ x + 1) (h2 : x ≤ m.xend + 1) : outerGuards m f x = f x := by
  have hx0 := hm.x0
  have hx1 := hm.x1
  unfold outerGuards
  have a : ∀ f : XYZ, (if m.firstX then ((List.range (m.xstart - 1)).reverse).foldl (fun f i => copyColumn m i (i + 1) f) f else f) x = f x := by
    intro f
    split
    · refine copies_other m (fun i => i + 1) _ f (fun i hi => ?_)
      rw [List.mem_reverse, List.mem_range] at hi
      omega
    · rfl
  have b : ∀ f : XYZ, (if m.lastX then (List.range' (m.xend + 2) (m.LocalNx - (m.xend + 2))).foldl (fun f i => copyColumn m i (i - 1) f) f else f) x = f x := by
    intro f
    split
    · refine copies_other m (fun i => i - 1) _ f (fun i hi => ?_)
      rw [List.mem_range'_1] at hi
      omega
    · rfl
  exact (b _).trans (a f)

theorem shiftBoundaries_ok {m : XMesh} (hm : MeshOk m) (f : XYZ) {s : Side} (hs : Has m s) {j : ℕ} (hj : j ∈ m.js) {k : ℕ} (hk : k < m.LocalNz) :
    shiftBoundaries m f s.g j k = edge f s.g s.x j k := by
  have hx0 := hm.x0
  have hx1 := hm.x1
  unfold shiftBoundaries
  have hb : ∀ (f : XYZ) x, x ≠ m.xend + 1 → (if m.lastX then shiftBoundary m (m.xend + 1) m.xend f else f) x = f x := by
    intro f x hx
    split
    · exact (shift_ok m (by omega) f).2 x hx
    · rfl
  have ha : ∀ (f : XYZ) x, x ≠ m.xstart - 1 → (if m.firstX then shiftBoundary m (m.xstart - 1) m.xstart f else f) x = f x := by
    intro f x hx
    split
    · exact (shift_ok m (by omega) f).2 x hx
    · rfl
  rcases hs with ⟨rfl, hf⟩ | ⟨rfl, hl⟩
  · simp only [inner]
    rw [hb _ _ (by omega), if_pos hf]
    exact (shift_ok m (by omega) f).1 j hj k hk
  · simp only [outer]
    rw [if_pos hl, (shift_ok m (by omega) _).1 j hj k hk]
    unfold edge
    rw [ha _ _ (by omega), ha _ _ (by omega)]

/-- Solving for the potential keeps its value on the boundaries, whatever the vorticity and the ion pressure. -/
theorem solve_keeps_edge {m : XMesh} (hm : MeshOk m) {solve : XYZ → XYZ} (hsol : SolverOk m solve) (Pi phi : XYZ) {s : Side} (hs : Has m s)
    {j : ℕ} (hj : j ∈ m.js) {k : ℕ} (hk : k < m.LocalNz) :
    edge (solvePhi m solve Pi phi) s.g s.x j k = edge phi s.g s.x j k := by
  have hx0 := hm.x0
  have hx1 := hm.x1
  have hg : m.xstart ≤ s.g + 1 ∧ s.g ≤ m.xend + 1 ∧ m.xstart ≤ s.x + 1 ∧ s.x ≤ m.xend + 1 := by
    rcases hs with ⟨rfl, _⟩ | ⟨rfl, _⟩ <;> simp only [inner, outer] <;> omega
  have h1 := hsol (shiftBoundaries m (fun x j k => phi x j k + Pi x j k)) s hs j hj k hk
  rw [shiftBoundaries_ok hm _ hs hj hk] at h1
  unfold solvePhi
  unfold edge at h1 ⊢
  rw [outerGuards_other hm _ hg.1 hg.2.1, outerGuards_other hm _ hg.2.2.1 hg.2.2.2]
  linarith

/-! ## C51 -/

/-- What one evaluation of the right-hand side does to the boundary value. -/
theorem call_ok {m : XMesh} (hm : MeshOk m) (o : PhiOpts) (np : ℕ) (st : PhiState) {c : PhiCall} (hsol : SolverOk m c.solve) {s : Side} (hs : Has m s)
    {j : ℕ} (hj : j ∈ m.js) {k : ℕ} (hk : k < m.LocalNz) :
    (st.last < 0 → (phiCall m o np st c).last = c.time ∧ edge (phiCall m o np st c).phi s.g s.x j k = edge st.phi s.g s.x j k) ∧
    (0 ≤ st.last → c.time ≤ st.last → (phiCall m o np st c).last = st.last ∧ edge (phiCall m o np st c).phi s.g s.x j k = edge st.phi s.g s.x j k) ∧
    (0 ≤ st.last → st.last < c.time → (phiCall m o np st c).last = c.time ∧
      edge (phiCall m o np st c).phi s.g s.x j k = Real.exp (-(c.time - st.last) / o.phi_boundary_timescale) * edge st.phi s.g s.x j 0 +
        (1 - Real.exp (-(c.time - st.last) / o.phi_boundary_timescale)) * target m o np c.others s st.phi j) := by
  unfold phiCall relaxPhi
  dsimp only
  refine ⟨fun h => ?_, fun h h' => ?_, fun h h' => ?_⟩
  · rw [if_pos h]
    exact ⟨rfl, solve_keeps_edge hm hsol _ _ hs hj hk⟩
  · rw [if_neg (not_lt.2 h), if_neg (not_lt.2 h')]
    exact ⟨rfl, solve_keeps_edge hm hsol _ _ hs hj hk⟩
  · rw [if_neg (not_lt.2 h), if_pos h']
    refine ⟨rfl, ?_⟩
    rw [solve_keeps_edge hm hsol _ _ hs hj hk]
    exact (relax_ok hm o np c.others _ st.phi).1 s hs j hj k hk

/-- The state after a sequence of evaluations. -/
noncomputable def after (m : XMesh) (o : PhiOpts) (np : ℕ) (st : PhiState) (l : List PhiCall) : PhiState := l.foldl (phiCall m o np) st

/-- A property of the target of side `s` on line `j` at every evaluation. -/
def Targets (m : XMesh) (o : PhiOpts) (np : ℕ) (s : Side) (j : ℕ) (P : ℝ → Prop) : PhiState → List PhiCall → Prop
  | _, [] => True
  | st, c :: l => P (target m o np c.others s st.phi j) ∧ Targets m o np s j P (phiCall m o np st c) l

/-- The latest time seen. -/
noncomputable def latest (t : ℝ) (l : List PhiCall) : ℝ := l.foldl (fun t c => max t c.time) t

theorem latest_ge (t : ℝ) (l : List PhiCall) : t ≤ latest t l := by
  unfold latest
  induction l generalizing t with
  | nil => exact le_refl _
  | cons c l ih => exact le_trans (le_max_left _ _) (ih _)

/-- **C51.**  For every sequence of evaluation times (increasing, repeated or going back after a rejected step) the value on the boundary, with the
potential next to it fixed, depends on the latest time only. -/
theorem relaxation {m : XMesh} (hm : MeshOk m) (o : PhiOpts) (np : ℕ) {s : Side} (hs : Has m s) {j : ℕ} (hj : j ∈ m.js) {v : ℝ}
    (l : List PhiCall) (hsol : ∀ c ∈ l, SolverOk m c.solve) (st : PhiState) (h0 : 0 ≤ st.last) (hT : Targets m o np s j (· = v) st l) :
    (after m o np st l).last = latest st.last l ∧
    edge (after m o np st l).phi s.g s.x j 0 =
      v + (edge st.phi s.g s.x j 0 - v) * Real.exp (-(latest st.last l - st.last) / o.phi_boundary_timescale) := by
  unfold after latest
  induction l generalizing st with
  | nil => refine ⟨rfl, ?_⟩; simp
  | cons c l ih =>
    obtain ⟨hv, hT⟩ := hT
    have hc := call_ok hm o np st (hsol c List.mem_cons_self) hs hj hm.z
    rw [List.foldl_cons, List.foldl_cons]
    rcases le_or_gt c.time st.last with hle | hlt
    · obtain ⟨e1, e2⟩ := hc.2.1 h0 hle
      obtain ⟨i1, i2⟩ := ih (fun c hc => hsol c (List.mem_cons_of_mem _ hc)) (phiCall m o np st c) (by rw [e1]; exact h0) hT
      rw [e1] at i1 i2
      rw [e2] at i2
      rw [max_eq_left hle]
      exact ⟨i1, i2⟩
    · obtain ⟨e1, e2⟩ := hc.2.2 h0 hlt
      obtain ⟨i1, i2⟩ := ih (fun c hc => hsol c (List.mem_cons_of_mem _ hc)) (phiCall m o np st c) (by rw [e1]; linarith) hT
      rw [e1] at i1 i2
      rw [max_eq_right hlt.le]
      refine ⟨i1, ?_⟩
      rw [i2, e2, hv]
      generalize List.foldl (fun t c => max t c.time) c.time l = t
      have : Real.exp (-(t - st.last) / o.phi_boundary_timescale) =
          Real.exp (-(c.time - st.last) / o.phi_boundary_timescale) * Real.exp (-(t - c.time) / o.phi_boundary_timescale) := by
        rw [← Real.exp_add]
        congr 1
        ring
      rw [this]
      ring

/-- **C51.**  Any two ways of stepping to the same time give the same value. -/
theorem independent_of_steps {m : XMesh} (hm : MeshOk m) (o : PhiOpts) (np : ℕ) {s : Side} (hs : Has m s) {j : ℕ} (hj : j ∈ m.js) {v : ℝ}
    (l l' : List PhiCall) (hsol : ∀ c ∈ l, SolverOk m c.solve) (hsol' : ∀ c ∈ l', SolverOk m c.solve) (st : PhiState) (h0 : 0 ≤ st.last)
    (hT : Targets m o np s j (· = v) st l) (hT' : Targets m o np s j (· = v) st l') (ht : latest st.last l = latest st.last l') :
    edge (after m o np st l).phi s.g s.x j 0 = edge (after m o np st l').phi s.g s.x j 0 := by
  rw [(relaxation hm o np hs hj l hsol st h0 hT).2, (relaxation hm o np hs hj l' hsol' st h0 hT').2, ht]

/-- **C51.**  Whatever the potential does, the value stays in any interval that holds the old value and all targets, for every history. -/
theorem stays_between {m : XMesh} (hm : MeshOk m) {o : PhiOpts} (ho : 0 < o.phi_boundary_timescale) (np : ℕ) {s : Side} (hs : Has m s) {j : ℕ}
    (hj : j ∈ m.js) {a b : ℝ} (l : List PhiCall) (hsol : ∀ c ∈ l, SolverOk m c.solve) (st : PhiState)
    (hT : Targets m o np s j (fun v => a ≤ v ∧ v ≤ b) st l) (hold : a ≤ edge st.phi s.g s.x j 0 ∧ edge st.phi s.g s.x j 0 ≤ b) :
    a ≤ edge (after m o np st l).phi s.g s.x j 0 ∧ edge (after m o np st l).phi s.g s.x j 0 ≤ b := by
  unfold after
  induction l generalizing st with
  | nil => exact hold
  | cons c l ih =>
    obtain ⟨hv, hT⟩ := hT
    have hc := call_ok hm o np st (hsol c List.mem_cons_self) hs hj hm.z
    rw [List.foldl_cons]
    refine ih (fun c hc => hsol c (List.mem_cons_of_mem _ hc)) _ hT ?_
    rcases lt_or_ge st.last 0 with hneg | h0
    · rw [(hc.1 hneg).2]; exact hold
    · rcases le_or_gt c.time st.last with hle | hlt
      · rw [(hc.2.1 h0 hle).2]; exact hold
      · rw [(hc.2.2 h0 hlt).2]
        have hw0 := (Real.exp_pos (-(c.time - st.last) / o.phi_boundary_timescale)).le
        have hw1 : Real.exp (-(c.time - st.last) / o.phi_boundary_timescale) ≤ 1 := by
          rw [Real.exp_le_one_iff]
          exact div_nonpos_of_nonpos_of_nonneg (by linarith) ho.le
        generalize Real.exp (-(c.time - st.last) / o.phi_boundary_timescale) = w at *
        obtain ⟨ha, hb⟩ := hold
        obtain ⟨ta, tb⟩ := hv
        constructor
        · nlinarith [mul_le_mul_of_nonneg_left ha hw0, mul_le_mul_of_nonneg_left ta (sub_nonneg.2 hw1)]
        · nlinarith [mul_le_mul_of_nonneg_left hb hw0, mul_le_mul_of_nonneg_left tb (sub_nonneg.2 hw1)]

/-- **C51.**  Another evaluation at the same or at an earlier time changes nothing on the boundary, in any Z position. -/
theorem repeated_evaluation {m : XMesh} (hm : MeshOk m) (o : PhiOpts) (np : ℕ) (st : PhiState) (c c' : PhiCall) (hsol : SolverOk m c'.solve)
    (hc : 0 ≤ c.time) (ht : c'.time ≤ c.time) {s : Side} (hs : Has m s) {j : ℕ} (hj : j ∈ m.js) {k : ℕ} (hk : k < m.LocalNz) :
    edge (phiCall m o np (phiCall m o np st c) c').phi s.g s.x j k = edge (phiCall m o np st c).phi s.g s.x j k ∧
    (phiCall m o np (phiCall m o np st c) c').last = (phiCall m o np st c).last := by
  have hlast : 0 ≤ (phiCall m o np st c).last ∧ c.time ≤ (phiCall m o np st c).last := by
    unfold phiCall relaxPhi
    dsimp only
    split
    · exact ⟨hc, le_refl _⟩
    · rename_i h
      split
      · exact ⟨hc, le_refl _⟩
      · rename_i h'
        exact ⟨not_lt.1 h, not_lt.1 h'⟩
  have h := (call_ok hm o np (phiCall m o np st c) hsol hs hj hk).2.1 hlast.1 (ht.trans hlast.2)
  exact ⟨h.2, h.1⟩

/-- **C51.**  After an update the boundary value is the same in all Z positions. -/
theorem uniform_in_z {m : XMesh} (hm : MeshOk m) (o : PhiOpts) (np : ℕ) (st : PhiState) {c : PhiCall} (hsol : SolverOk m c.solve) (h0 : 0 ≤ st.last)
    (ht : st.last < c.time) {s : Side} (hs : Has m s) {j : ℕ} (hj : j ∈ m.js) {k k' : ℕ} (hk : k < m.LocalNz) (hk' : k' < m.LocalNz) :
    edge (phiCall m o np st c).phi s.g s.x j k = edge (phiCall m o np st c).phi s.g s.x j k' := by
  rw [((call_ok hm o np st hsol hs hj hk).2.2 h0 ht).2, ((call_ok hm o np st hsol hs hj hk').2.2 h0 ht).2]

/-- Without `phi_core_averagey`, and at the outer boundary, the target is the average over Z of the last cell. -/
theorem target_mean {m : XMesh} (hm : MeshOk m) {o : PhiOpts} (np : ℕ) (others : ℝ) (f : XYZ) (j : ℕ) :
    (o.phi_core_averagey = false → target m o np others (inner m) f j = meanZ m f m.xstart j) ∧
    target m o np others (outer m) f j = meanZ m f m.xend j := by
  unfold target
  refine ⟨fun h => ?_, ?_⟩
  · rw [if_neg (fun hc => by rw [h] at hc; cases hc.1)]; rfl
  · rw [if_neg (fun hc => inner_ne_outer hm hc.2)]; rfl

theorem list_sum_range' (a n : ℕ) (g : ℕ → ℝ) : ((List.range' a n).map g).sum = ∑ k ∈ Finset.Ico a (a + n), g k := by
  induction n with
  | zero => simp
  | succ n ih =>
    rw [List.range'_concat, List.map_append, List.sum_append, ih, ← Nat.add_assoc, Finset.sum_Ico_succ_top (Nat.le_add_right a n)]
    simp

/-- With `phi_core_averagey` the target is too small: the average over the core times the fraction of the cells in Y that are not guard cells. -/
theorem core_target_partial {m : XMesh} (hy : m.ystart ≤ m.yend) (hN : 0 < m.LocalNy) {o : PhiOpts} (ho : o.phi_core_averagey = true) (np : ℕ)
    (others : ℝ) (f : XYZ) (j : ℕ) :
    target m o np others (inner m) f j = meanCore m np others f * ((m.yend + 1 - m.ystart : ℕ) / m.LocalNy) := by
  unfold target
  rw [if_pos ⟨ho, rfl⟩]
  unfold averageCore meanCore
  have hsum : ∀ (l : List ℕ) (a : ℝ), l.foldl (fun s j => m.ks.foldl (fun s k => s + f m.xstart j k) s) a =
      a + (l.map (fun j => ∑ k ∈ Finset.range m.LocalNz, f m.xstart j k)).sum := by
    intro l
    induction l with
    | nil => intro a; simp
    | cons j l ih =>
      intro a
      rw [List.foldl_cons, ih, foldl_sum, List.map_cons, List.sum_cons]
      unfold XMesh.ks
      rw [list_sum_range, add_assoc]
  rw [hsum, zero_add]
  unfold XMesh.js
  rw [list_sum_range']
  have hset : Finset.Ico m.ystart (m.ystart + (m.yend + 1 - m.ystart)) = Finset.Icc m.ystart m.yend := by
    ext x
    rw [Finset.mem_Ico, Finset.mem_Icc]
    omega
  rw [hset]
  have hn : ((m.yend + 1 - m.ystart : ℕ) : ℝ) ≠ 0 := by
    rw [Nat.cast_ne_zero]; omega
  generalize ((m.yend + 1 - m.ystart : ℕ) : ℝ) = n at *
  have hN' : (m.LocalNy : ℝ) ≠ 0 := by
    rw [Nat.cast_ne_zero]; omega
  generalize (m.LocalNy : ℝ) = N at *
  generalize (m.LocalNz : ℝ) = z at *
  rw [div_mul_div_comm]
  by_cases hz : (np : ℝ) * z = 0
  · rw [hz, show (np : ℝ) * n * z * N = np * z * (n * N) by ring, hz, zero_mul, zero_mul, div_zero, div_zero]
  · rw [div_eq_div_iff (mul_ne_zero hz hN') (by
      rw [show (np : ℝ) * n * z * N = np * z * (n * N) by ring]; exact mul_ne_zero hz (mul_ne_zero hn hN'))]
    ring

/-- A processor with four cells in Y, two guard cells at each end. -/
def mesh : XMesh := { xstart := 2, xend := 5, ystart := 2, yend := 5, LocalNx := 8, LocalNy := 8, LocalNz := 3, firstX := true, lastX := true }

theorem mesh_ok : MeshOk mesh := ⟨by decide, by decide, by decide, by decide⟩

/-- **C51 fails for `phi_core_averagey`**: with the potential equal to 1 everywhere the core boundary relaxes towards 1/2. -/
theorem core_average_wrong : target mesh ⟨true, true, 1⟩ 1 0 (inner mesh) (fun _ _ _ => 1) 2 = 1 / 2 ∧ meanCore mesh 1 0 (fun _ _ _ => 1) = 1 := by
  have hm : meanCore mesh 1 0 (fun _ _ _ => 1) = 1 := by
    unfold meanCore mesh
    norm_num
  refine ⟨?_, hm⟩
  rw [core_target_partial (by decide) (by decide) rfl, hm]
  unfold mesh
  norm_num

/-- A negative starting time disables the relaxation: `-1` marks "not yet called". -/
theorem negative_time_not_relaxed {m : XMesh} (hm : MeshOk m) (o : PhiOpts) (np : ℕ) (l : List PhiCall) (hsol : ∀ c ∈ l, SolverOk m c.solve)
    (hneg : ∀ c ∈ l, c.time < 0) {st : PhiState} (h0 : st.last < 0) {s : Side} (hs : Has m s) {j : ℕ} (hj : j ∈ m.js) {k : ℕ} (hk : k < m.LocalNz) :
    edge (after m o np st l).phi s.g s.x j k = edge st.phi s.g s.x j k := by
  unfold after
  induction l generalizing st with
  | nil => rfl
  | cons c l ih =>
    obtain ⟨h1, h2⟩ := (call_ok hm o np st (hsol c List.mem_cons_self) hs hj hk).1 h0
    rw [List.foldl_cons, ih (fun c hc => hsol c (List.mem_cons_of_mem _ hc)) (fun c hc => hneg c (List.mem_cons_of_mem _ hc))
      (by rw [h1]; exact hneg c List.mem_cons_self), h2]

/-- The fixed boundary condition (no relaxation) puts the sheath potential of the average temperature on the boundary, and changes no cell of the
domain. -/
theorem fixed_ok {m : XMesh} (hm : MeshOk m) (sheath : Bool) (Me : ℝ) (Te f : XYZ) :
    (∀ s, Has m s → ∀ j ∈ m.js, ∀ k, k < m.LocalNz → edge (fixedPhi m sheath Me Te f) s.g s.x j k =
      (if sheath then Real.log (Real.sqrt (1 / (Me * Real.pi)) / 2) else 0) * meanZ m Te s.x j) ∧
    ∀ x, m.xstart ≤ x → x ≤ m.xend → fixedPhi m sheath Me Te f x = f x := by
  have hmult : (if sheath then Real.log (0.5 * Real.sqrt (1 / (Me * Real.pi))) else 0) = (if sheath then Real.log (Real.sqrt (1 / (Me * Real.pi)) / 2) else (0 : ℝ)) := by
    rw [show (0.5 : ℝ) * Real.sqrt (1 / (Me * Real.pi)) = Real.sqrt (1 / (Me * Real.pi)) / 2 by ring]
  obtain ⟨h1, h2, h3⟩ := both_sides hm
    (fun _ j => (if sheath then Real.log (0.5 * Real.sqrt (1 / (Me * Real.pi))) else 0) * phiAverageZ m Te m.xstart j)
    (fun _ j => (if sheath then Real.log (0.5 * Real.sqrt (1 / (Me * Real.pi))) else 0) * phiAverageZ m Te m.xend j)
    (fun _ _ _ _ => rfl) (fun _ _ _ _ _ => rfl) f _ (fixedPhi m sheath Me Te f) rfl rfl
  refine ⟨fun s hs j hj k hk => ?_, h3⟩
  rcases hs with ⟨rfl, hf⟩ | ⟨rfl, hl⟩
  · rw [h1 hf j hj k hk, hmult, averageZ_eq]; rfl
  · rw [h2 hl j hj k hk, hmult, averageZ_eq]; rfl

/-! ## The hypotheses can be met -/

/-- A solver for the mesh: the boundary value in all cells next to it. -/
def flatSolver (x0 : XYZ) : XYZ := fun x j k => if x ≤ 2 then x0 1 j k else x0 6 j k

theorem flatSolver_ok : SolverOk mesh flatSolver := by
  rintro x0 s (⟨rfl, _⟩ | ⟨rfl, _⟩) j hj k hk <;> simp [edge, inner, outer, mesh, flatSolver]

/-- Two evaluations: the boundary at `y = 2` is at 1, the cells next to it are at 0, and stay there. -/
example : ∃ (st : PhiState) (l : List PhiCall), 0 ≤ st.last ∧ l.length = 1 ∧ (∀ c ∈ l, SolverOk mesh c.solve) ∧
    Targets mesh ⟨true, false, 1⟩ 1 (inner mesh) 2 (· = 0) st l ∧ edge st.phi (inner mesh).g (inner mesh).x 2 0 = 1 := by
  refine ⟨⟨0, fun x _ _ => if x = 1 then 2 else 0⟩, [⟨1, fun _ _ _ => 0, flatSolver, 0⟩], le_refl _, rfl, ?_, ⟨?_, trivial⟩, ?_⟩
  · intro c hc
    rw [List.mem_singleton] at hc
    subst hc
    exact flatSolver_ok
  · rw [(target_mean mesh_ok 1 0 _ 2).1 rfl]
    simp [meanZ, mesh]
  · simp [edge, inner, mesh]

end Hermes.PhiBoundary
