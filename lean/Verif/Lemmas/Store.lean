import Verif.Model.Store
import Mathlib.Data.Real.Basic
import Mathlib.Algebra.BigOperators.Group.List.Basic
import Mathlib.Tactic.Ring

/-! # Helper lemmas about the store, and the two value types used -/

namespace Hermes

/-! ## Value types -/

/-- A field of finite numbers over cells `ι` (used for the physics components: every modelled
number is finite, so `hermesDataInvalid` is false). -/
abbrev Fld (ι : Type) := ι → ℝ

instance (ι : Type) : StoreVal (Fld ι) where
  invalid _ := false
  neg v := -v
  addTo v old := some (v + old)
  subFrom v old := some (old - v)

section
variable {K V : Type} [DecidableEq K]

@[simp] theorem update_ent_self (s : Store K V) (k : K) (e : Entry V) : (s.update k e).ent k = e := by
  simp [Store.update]
theorem update_ent (s : Store K V) (k k' : K) (e : Entry V) :
    (s.update k e).ent k' = if k' = k then e else s.ent k' := rfl
@[simp] theorem update_ent_ne (s : Store K V) {k k' : K} (e : Entry V) (h : k' ≠ k) :
    (s.update k e).ent k' = s.ent k' := by simp [Store.update, h]
@[simp] theorem update_check (s : Store K V) (k : K) (e : Entry V) : (s.update k e).check = s.check := rfl
@[simp] theorem force_check (s : Store K V) (k : K) (v : V) : (s.force k v).check = s.check := rfl
@[simp] theorem markFinal_check (s : Store K V) (k : K) : (s.markFinal k).check = s.check := by
  unfold Store.markFinal; split <;> rfl
@[simp] theorem markFinalDomain_check (s : Store K V) (k : K) :
    (s.markFinalDomain k).check = s.check := by
  unfold Store.markFinalDomain; split <;> rfl

theorem force_ent (s : Store K V) (k k' : K) (v : V) :
    (s.force k v).ent k' = if k' = k then { s.ent k with val := some v } else s.ent k' := rfl

theorem force_val (s : Store K V) (k k' : K) (v : V) :
    ((s.force k v).ent k').val = if k' = k then some v else (s.ent k').val := by
  rw [force_ent]; split <;> rfl

@[simp] theorem markFinal_val (s : Store K V) (k k' : K) :
    ((s.markFinal k).ent k').val = (s.ent k').val := by
  unfold Store.markFinal
  split
  · rw [update_ent]; split
    · subst_vars; rfl
    · rfl
  · rfl

@[simp] theorem markFinalDomain_val (s : Store K V) (k k' : K) :
    ((s.markFinalDomain k).ent k').val = (s.ent k').val := by
  unfold Store.markFinalDomain
  split
  · rw [update_ent]; split
    · subst_vars; rfl
    · rfl
  · rfl

end
end Hermes
