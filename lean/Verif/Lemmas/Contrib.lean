import Verif.Props.Closures
import Verif.Lemmas.Runs

/-!
# `add` and `subtract` of fields to variables of the tree
-/

set_option linter.unusedSectionVars false

namespace Hermes.Closures

variable {ι : Type}

/-- The field at `k`, zero if nothing is there. -/
def fieldAt (st : Store Key (Value ι)) (k : Key) : Fld ι := ((vals st k).bind asField).getD 0

theorem fieldAt_sp (st : Store Key (Value ι)) (s : String) (v : Var) : fieldAt st (.sp s v) = fieldOf st s v := by
  unfold fieldAt fieldOf
  cases vals st (.sp s v) <;> rfl

theorem fieldAt_congr {st st' : Store Key (Value ι)} {k : Key} (h : vals st' k = vals st k) : fieldAt st' k = fieldAt st k := by
  unfold fieldAt; rw [h]

theorem add_at_ok {k : Key} {f : Fld ι} {st st' : Store Key (Value ι)} {u : Unit}
    (h : add k (.field f) st = (.ok u, st')) :
    (∀ i, fieldAt st' k i = fieldAt st k i + f i) ∧ ∀ k', k' ≠ k → vals st' k' = vals st k' := by
  obtain ⟨h1, h2⟩ := add_ok h
  constructor
  · intro i
    have hv : vals st' k = addVal (.field f) (vals st k) := by rw [h2]; simp
    unfold fieldAt
    rw [hv]
    cases e : vals st k with
    | none => simp [addVal, asField]
    | some x =>
      cases x with
      | real y => simp [addVal, asField, StoreVal.addTo, add_comm]
      | field g => simp [addVal, asField, StoreVal.addTo, add_comm]
  · intro k' hk
    rw [h2]; simp [Function.update_apply, hk]

theorem sub_at_ok {k : Key} {f : Fld ι} {st st' : Store Key (Value ι)} {u : Unit}
    (h : subtract k (.field f) st = (.ok u, st')) :
    (∀ i, fieldAt st' k i = fieldAt st k i - f i) ∧ ∀ k', k' ≠ k → vals st' k' = vals st k' := by
  obtain ⟨h1, h2⟩ := subtract_ok h
  constructor
  · intro i
    have hv : vals st' k = subVal (.field f) (vals st k) := by rw [h2]; simp
    unfold fieldAt
    rw [hv]
    cases e : vals st k with
    | none => simp [subVal, asField, StoreVal.neg]
    | some x =>
      cases x with
      | real y => simp [subVal, asField, StoreVal.subFrom]
      | field g => simp [subVal, asField, StoreVal.subFrom]
  · intro k' hk
    rw [h2]; simp [Function.update_apply, hk]

theorem sub_field_ok {s : String} {v : Var} {f : Fld ι} {st st' : Store Key (Value ι)} {u : Unit}
    (h : subtractF s v f st = (.ok u, st')) :
    (∀ i, fieldOf st' s v i = fieldOf st s v i - f i) ∧ ∀ k, k ≠ .sp s v → vals st' k = vals st k := by
  obtain ⟨a, b⟩ := sub_at_ok h
  rw [fieldAt_sp, fieldAt_sp] at a
  exact ⟨a, b⟩

end Hermes.Closures

namespace Hermes.Runs
open Hermes.Closures

variable {ι : Type} {A : Access}

theorem runs_add {k : Key} {f : Fld ι} (h1 : A.own k) (hn : ¬A.num k) : Runs A (add k (.field f)) := by
  intro st h
  unfold add
  cases e : (st.ent k).val with
  | none => exact runs_set h1 hn st h
  | some old =>
    dsimp only
    cases old with
    | real y => exact runs_set h1 hn st h
    | field g => exact runs_set h1 hn st h

theorem runs_subtract {k : Key} {f : Fld ι} (h1 : A.own k) (hn : ¬A.num k) : Runs A (subtract k (.field f)) := by
  intro st h
  unfold subtract
  cases e : (st.ent k).val with
  | none => exact runs_set h1 hn st h
  | some old =>
    dsimp only
    cases old with
    | real y => exact runs_set h1 hn st h
    | field g => exact runs_set h1 hn st h

end Hermes.Runs
