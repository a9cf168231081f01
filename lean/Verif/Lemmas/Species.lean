import Verif.Props.State
import Mathlib.Algebra.BigOperators.Ring.Finset
import Mathlib.Algebra.BigOperators.Group.Finset.Piecewise
import Mathlib.Tactic.Linarith
import Mathlib.Tactic.FieldSimp

/-! # Helper lemmas: what a list of contributions does to each variable -/

namespace Hermes

section
variable {K ι : Type} [DecidableEq K]

/-- Signed sum of the contributions to `k` in one cell. -/
def signedSum (k : K) (i : ι) : List (Contrib K ι) → ℝ
  | [] => 0
  | c :: cs => (if c.1 = k then (if c.2.2 then c.2.1 i else -c.2.1 i) else 0) + signedSum k i cs

@[simp] theorem signedSum_nil (k : K) (i : ι) : signedSum k i ([] : List (Contrib K ι)) = 0 := rfl

@[simp] theorem signedSum_cons (k : K) (i : ι) (c : Contrib K ι) (cs : List (Contrib K ι)) :
    signedSum k i (c :: cs) =
      (if c.1 = k then (if c.2.2 then c.2.1 i else -c.2.1 i) else 0) + signedSum k i cs := rfl

@[simp] theorem signedSum_append (k : K) (i : ι) (cs ds : List (Contrib K ι)) :
    signedSum k i (cs ++ ds) = signedSum k i cs + signedSum k i ds := by
  induction cs with
  | nil => simp
  | cons c cs ih => simp [ih, add_assoc]

theorem signedTo_sum (k : K) (i : ι) (cs : List (Contrib K ι)) :
    (State.signedTo k cs).sum i = signedSum k i cs := by
  induction cs with
  | nil => simp [State.signedTo]
  | cons c cs ih =>
    unfold State.signedTo at *
    by_cases h : c.1 = k
    · rw [List.filter_cons_of_pos (by simpa using h)]
      simp only [List.map_cons, List.sum_cons, Pi.add_apply, ih, signedSum_cons, h, if_true]
      split <;> simp
    · rw [List.filter_cons_of_neg (by simpa using h)]
      simp [ih, h]

theorem signedTo_nil_iff (k : K) (cs : List (Contrib K ι)) :
    State.signedTo k cs = [] ↔ ∀ c ∈ cs, c.1 ≠ k := by
  simp [State.signedTo]

end

/-! ## Reading, exceptions -/

section
variable {ι : Type}

theorem field_ok {w : World ι} {s : String} {v : Var} {f : Fld ι} (h : w.field s v = .ok f) :
    (w.st.ent (.sp s v)).val = some f := by
  unfold World.field at h
  split at h
  · cases h
  · rename_i e; simp_all

theorem real_ok {w : World ι} {s : String} {v : Var} {x : ℝ} (h : w.real s v = .ok x) : w.num s v = some x := by
  unfold World.real at h
  split at h
  · cases h
  · rename_i e; simp_all

theorem bind_ok {α β : Type} {x : Except Err α} {f : α → Except Err β} {b : β}
    (h : (x >>= f) = .ok b) : ∃ a, x = .ok a ∧ f a = .ok b := by
  cases x with
  | error e => cases h
  | ok a => exact ⟨a, rfl, h⟩

theorem ok_bind {α β : Type} {x : Except Err α} {f : α → Except Err β} {a : α} {b : β}
    (h : x = .ok a) (h' : f a = .ok b) : (x >>= f) = .ok b := by
  rw [h]; exact h'

theorem assert1_of {p : Prop} [Decidable p] (h : p) : assert1 p = .ok () := if_pos h

theorem assert1_ok {p : Prop} [Decidable p] {u : Unit} (h : assert1 p = .ok u) : p := by
  unfold assert1 at h
  split at h
  · assumption
  · cases h

end

end Hermes
