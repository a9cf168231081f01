import Verif.Model.Sharing
import Mathlib.Tactic.Linarith
import Mathlib.Tactic.NormNum
import Mathlib.Tactic.Ring
import Mathlib.Data.Fin.VecNotation
import Mathlib.Algebra.BigOperators.Group.List.Basic

/-!
# C80: Sources are not changed behind the back of their owner

Components share the storage of the fields they put into the state.  What is published is still the sum of what was contributed and the source that
the user has set stays as it is, for every list of components and any number of evaluations.  What a component saves as its own contribution, however, is
not always what it contributed.
-/

namespace Hermes.Sharing
variable {ι : Type} [DecidableEq ι]

/-! ## Specification -/

/-- What a step adds to the source in cell `i`, if the source set by the user is `S`. -/
def contribution (S : ι → ℝ) (i : ι) : Step ι → ℝ
  | .source none => S i
  | .source (some p) => S i * p
  | .adds f => f i
  | .subtracts f => -f i
  | .recycles l => (l.map fun q => if q.1 = i then q.2 else 0).sum

/-- The field a step keeps to save it, as it should be. -/
def kept (S : ι → ℝ) (i : ι) : Step ι → ℝ
  | .source none => S i
  | .source (some p) => S i * p
  | .adds f => f i
  | .subtracts f => f i
  | .recycles _ => 0

def isRecycling : Step ι → Bool
  | .recycles _ => true
  | _ => false

/-- The step puts the field it keeps into the state if the state is empty. -/
def isAdding : Step ι → Bool
  | .source _ | .adds _ => true
  | _ => false

/-- References are to blocks in use. -/
structure Ok (src : ℕ) (m : Mem ι) : Prop where
  used : src < m.next
  slot : ∀ s, m.slot = some s → s < m.next
  apart : m.slot ≠ some src

/-! ## Blocks that are not in the state stay as they are -/

theorem increase_block (m : Mem ι) (r k : ℕ) (i j : ι) (a : ℝ) :
    (m.increase r i a).block k j = m.block k j + if k = r ∧ i = j then a else 0 := by
  unfold Mem.increase
  by_cases hk : k = r
  · subst hk
    by_cases hj : i = j
    · subst hj; simp
    · simp [Function.update_of_ne (Ne.symm hj), hj]
  · simp [Function.update_of_ne hk, hk]

theorem increases (l : List (ι × ℝ)) (m : Mem ι) (r k : ℕ) (j : ι) :
    (l.foldl (fun m q => m.increase r q.1 q.2) m).block k j
      = m.block k j + (if k = r then (l.map fun q => if q.1 = j then q.2 else 0).sum else 0)
    ∧ (l.foldl (fun m q => m.increase r q.1 q.2) m).next = m.next := by
  induction l generalizing m with
  | nil => simp
  | cons q l ih =>
      obtain ⟨h1, h2⟩ := ih (m.increase r q.1 q.2)
      refine ⟨?_, h2⟩
      rw [List.foldl_cons, h1, increase_block]
      by_cases hk : k = r
      · by_cases hq : q.1 = j <;> simp [hk, hq] <;> ring
      · simp [hk]

theorem alloc_old (m : Mem ι) (f : ι → ℝ) {k : ℕ} (hk : k < m.next) : (m.alloc f).1.block k = m.block k := by
  simp [Mem.alloc, Function.update_of_ne hk.ne]

theorem alloc_new (m : Mem ι) (f : ι → ℝ) : (m.alloc f).1.block (m.alloc f).2 = f := by
  simp [Mem.alloc]

/-- What a step does: blocks, the number of blocks, the entry. -/
theorem step_spec (src : ℕ) (m : Mem ι) (h : Ok src m) (s : Step ι) :
    let m' := (step src m s).1
    Ok src m' ∧ m.next ≤ m'.next ∧ (step src m s).2 < m'.next
    ∧ (∀ k < m.next, m.slot ≠ some k → m'.block k = m.block k ∧ m'.slot ≠ some k)
    ∧ (∃ t, m'.slot = some t ∧ ∀ i, m'.block t i
        = (match m.slot with | none => 0 | some u => m.block u i) + contribution (m.block src) i s) := by
  have a1 (f : ι → ℝ) : ∀ k < m.next, Function.update m.block m.next f k = m.block k := fun k hk =>
    Function.update_of_ne (Nat.ne_of_lt hk) _ _
  have hsrc := h.used
  have case1 (f : ι → ℝ) :
      let m' := ((m.alloc f).1.add (m.alloc f).2)
      Ok src m' ∧ m.next ≤ m'.next ∧ m.next < m'.next
      ∧ (∀ k < m.next, m.slot ≠ some k → m'.block k = m.block k ∧ m'.slot ≠ some k)
      ∧ (∃ t, m'.slot = some t ∧ ∀ i, m'.block t i = (match m.slot with | none => 0 | some u => m.block u i) + f i) := by
    rcases hs : m.slot with _ | u
    · simp only [Mem.alloc, Mem.add, Mem.put, hs]
      refine ⟨⟨by simp; omega, ?_, ?_⟩, by simp, by simp, ?_, m.next, rfl, fun i => by simp⟩
      · intro t ht; simp at ht; subst ht; simp
      · intro e; simp at e; omega
      · intro k hk _
        exact ⟨a1 f k hk, by simp; omega⟩
    · have hu := h.slot u hs
      have e1 := a1 f u hu
      simp only [Mem.alloc, Mem.add, Mem.put, hs]
      refine ⟨⟨by simp; omega, ?_, ?_⟩, by omega, by omega, ?_, m.next + 1, rfl, fun i => ?_⟩
      · intro t ht; simp at ht; subst ht; simp
      · intro e; simp at e; omega
      · intro k hk hne
        refine ⟨?_, by simp; omega⟩
        rw [Function.update_of_ne (by omega)]; exact a1 f k hk
      · simp only [Function.update_self, e1]; ring
  cases s with
  | source p =>
      cases p with
      | none => exact case1 (m.block src)
      | some p => exact case1 (fun i => m.block src i * p)
  | adds f => exact case1 f
  | subtracts f =>
      simp only [step]
      rcases hs : m.slot with _ | u
      · simp only [Mem.alloc, Mem.subtract, Mem.put, hs]
        refine ⟨⟨by simp; omega, ?_, ?_⟩, by omega, by omega, ?_, m.next + 1, rfl, fun i => by simp [contribution]⟩
        · intro t ht; simp at ht; subst ht; simp
        · intro e; simp at e; omega
        · intro k hk _
          refine ⟨?_, by simp; omega⟩
          rw [Function.update_of_ne (by omega)]; exact a1 f k hk
      · have hu := h.slot u hs
        have e1 := a1 f u hu
        simp only [Mem.alloc, Mem.subtract, Mem.put, hs]
        refine ⟨⟨by simp; omega, ?_, ?_⟩, by omega, by omega, ?_, m.next + 1, rfl, fun i => ?_⟩
        · intro t ht; simp at ht; subst ht; simp
        · intro e; simp at e; omega
        · intro k hk hne
          refine ⟨?_, by simp; omega⟩
          rw [Function.update_of_ne (by omega)]; exact a1 f k hk
        · simp only [Function.update_self, e1, contribution]; ring
  | recycles l =>
      simp only [step]
      rcases hs : m.slot with _ | u
      · simp only [Mem.alloc, Mem.put]
        set m1 : Mem ι := ⟨Function.update m.block m.next fun _ => 0, m.next + 1, m.slot⟩ with hm1
        have hi := fun k j => increases l m1 m.next k j
        have hnext : (l.foldl (fun m' q => m'.increase m.next q.1 q.2) m1).next = m.next + 1 := by
          have e := increases l m1 m.next 0
          rcases l with _ | ⟨q, l⟩
          · rfl
          · exact (e q.1).2
        refine ⟨⟨by simp only [hnext]; omega, ?_, ?_⟩, by simp only [hnext]; omega, by simp only [hnext]; omega, ?_, m.next, rfl, fun i => ?_⟩
        · intro t ht; simp at ht; subst ht; simp only [hnext]; omega
        · intro e; simp at e; omega
        · intro k hk _
          refine ⟨?_, by simp; omega⟩
          funext j
          rw [(hi k j).1, if_neg (by omega), add_zero, hm1]
          exact congrFun (a1 _ k hk) j
        · rw [(hi m.next i).1, if_pos rfl, hm1]
          simp [contribution]
      · have hu := h.slot u hs
        have hi := fun k j => increases l m u k j
        have hnext : (l.foldl (fun m' q => m'.increase u q.1 q.2) m).next = m.next := by
          have e := increases l m u 0
          rcases l with _ | ⟨q, l⟩
          · rfl
          · exact (e q.1).2
        simp only [Mem.put]
        refine ⟨⟨by simp only [hnext]; omega, ?_, ?_⟩, by simp only [hnext]; omega, by simp only [hnext]; omega, ?_, u, rfl, fun i => ?_⟩
        · intro t ht; simp at ht; subst ht; simp only [hnext]; omega
        · intro e; exact h.apart (hs.trans e)
        · intro k hk hne
          refine ⟨?_, fun e => hne e⟩
          funext j
          rw [(hi k j).1, if_neg (fun e => hne (by rw [e])), add_zero]
        · rw [(hi u i).1, if_pos rfl]
          simp [contribution]

theorem run_spec (src : ℕ) (l : List (Step ι)) (m : Mem ι) (h : Ok src m) :
    let m' := (run src m l).1
    Ok src m' ∧ m.next ≤ m'.next
    ∧ (∀ k < m.next, m.slot ≠ some k → m'.block k = m.block k ∧ m'.slot ≠ some k)
    ∧ (∀ u, m.slot = some u → ∃ t, m'.slot = some t ∧ ∀ i, m'.block t i = m.block u i + (l.map (contribution (m.block src) i)).sum)
    ∧ (m.slot = none → l ≠ [] → ∃ t, m'.slot = some t ∧ ∀ i, m'.block t i = (l.map (contribution (m.block src) i)).sum) := by
  induction l generalizing m with
  | nil =>
      refine ⟨h, le_refl _, fun k _ hk => ⟨rfl, hk⟩, fun u hu => ⟨u, hu, fun i => by simp [run]⟩, fun _ hne => absurd rfl hne⟩
  | cons s l ih =>
      obtain ⟨o1, n1, -, k1, t1, ht1, v1⟩ := step_spec src m h s
      have esrc : (step src m s).1.block src = m.block src := (k1 src h.used h.apart).1
      obtain ⟨o2, n2, k2, p2, -⟩ := ih (step src m s).1 o1
      obtain ⟨t2, ht2, v2⟩ := p2 t1 ht1
      refine ⟨o2, n1.trans n2, fun k hk hne => ?_, fun u hu => ⟨t2, ht2, fun i => ?_⟩, fun hn _ => ⟨t2, ht2, fun i => ?_⟩⟩
      · obtain ⟨e1, e2⟩ := k1 k hk hne
        obtain ⟨e3, e4⟩ := k2 k (hk.trans_le n1) e2
        exact ⟨e3.trans e1, e4⟩
      · rw [List.map_cons, List.sum_cons]
        refine (v2 i).trans ?_
        rw [v1 i, esrc, hu]; ring
      · rw [List.map_cons, List.sum_cons]
        refine (v2 i).trans ?_
        rw [v1 i, esrc, hn]; ring

/-! ## What is published -/

/-- The members at the start of an evaluation: the source refers to a block in use. -/
def Started (src : ℕ) (m : Mem ι) : Prop := src < m.next

theorem started_ok {src : ℕ} {m : Mem ι} (h : Started src m) : Ok src (⟨m.block, m.next, none⟩ : Mem ι) :=
  ⟨h, fun _ e => by simp at e, by simp⟩

/-- **The published source is the sum of the contributions**, in every cell and for every list of components, although they share storage. -/
theorem published_is_sum {src : ℕ} {m : Mem ι} (h : Started src m) {l : List (Step ι)} (hl : l ≠ []) :
    ∃ t, (evaluation src m l).1.slot = some t
      ∧ ∀ i, (evaluation src m l).1.block t i = (l.map (contribution (m.block src) i)).sum :=
  (run_spec src l _ (started_ok h)).2.2.2.2 rfl hl

/-- **The source that the user has set is never changed**, by any number of evaluations of any components. -/
theorem source_never_changes {src : ℕ} (ls : List (List (Step ι))) {m : Mem ι} (h : Started src m) :
    (evaluations src m ls).block src = m.block src ∧ Started src (evaluations src m ls) := by
  induction ls generalizing m with
  | nil => exact ⟨rfl, h⟩
  | cons l ls ih =>
      obtain ⟨-, n, k, -⟩ := run_spec src l _ (started_ok h)
      have h' : Started src (evaluation src m l).1 := lt_of_lt_of_le h n
      obtain ⟨e1, e2⟩ := ih h'
      exact ⟨e1.trans (k src h (by simp)).1, e2⟩

/-- Hence evaluations do not drift: after any history the same components publish the same source. -/
theorem no_drift {src : ℕ} (ls : List (List (Step ι))) {m : Mem ι} (h : Started src m) {l : List (Step ι)} (hl : l ≠ []) :
    ∃ t, (evaluation src (evaluations src m ls) l).1.slot = some t
      ∧ ∀ i, (evaluation src (evaluations src m ls) l).1.block t i = (l.map (contribution (m.block src) i)).sum := by
  obtain ⟨e, hs⟩ := source_never_changes ls h
  obtain ⟨t, ht, hv⟩ := published_is_sum hs hl
  exact ⟨t, ht, fun i => by rw [hv i, e]⟩

/-! ## What is saved -/

theorem step_keeps (src : ℕ) (m : Mem ι) (h : Ok src m) {s : Step ι} (hs : isRecycling s = false) :
    (∀ i, (step src m s).1.block (step src m s).2 i = kept (m.block src) i s) ∧ (step src m s).2 < (step src m s).1.next
    ∧ ((step src m s).1.slot = some (step src m s).2 ↔ m.slot = none ∧ isAdding s = true) := by
  have add_case (f : ι → ℝ) :
      (∀ i, ((m.alloc f).1.add (m.alloc f).2).block (m.alloc f).2 i = f i) ∧ (m.alloc f).2 < ((m.alloc f).1.add (m.alloc f).2).next
      ∧ (((m.alloc f).1.add (m.alloc f).2).slot = some (m.alloc f).2 ↔ m.slot = none) := by
    rcases hs : m.slot with _ | u
    · simp [Mem.alloc, Mem.add, Mem.put, hs]
    · simp only [Mem.alloc, Mem.add, Mem.put, hs]
      refine ⟨fun i => ?_, by omega, by simp⟩
      rw [Function.update_of_ne (by omega), Function.update_self]
  cases s with
  | source p =>
      cases p with
      | none => exact ⟨(add_case (m.block src)).1, (add_case (m.block src)).2.1, (add_case (m.block src)).2.2.trans (by simp [isAdding])⟩
      | some p =>
          obtain ⟨a, b, c⟩ := add_case (fun i => m.block src i * p)
          exact ⟨a, b, c.trans (by simp [isAdding])⟩
  | adds f => exact ⟨(add_case f).1, (add_case f).2.1, (add_case f).2.2.trans (by simp [isAdding])⟩
  | subtracts f =>
      simp only [step]
      rcases hs : m.slot with _ | u
      · simp only [Mem.alloc, Mem.subtract, Mem.put, hs]
        refine ⟨fun i => ?_, by omega, by simp [isAdding]⟩
        rw [Function.update_of_ne (by omega), Function.update_self]; rfl
      · simp only [Mem.alloc, Mem.subtract, Mem.put, hs]
        refine ⟨fun i => ?_, by omega, by simp [isAdding]⟩
        rw [Function.update_of_ne (by omega), Function.update_self]; rfl
  | recycles l => simp [isRecycling] at hs

theorem run_append (src : ℕ) (m : Mem ι) (a b : List (Step ι)) :
    run src m (a ++ b) = ((run src (run src m a).1 b).1, (run src m a).2 ++ (run src (run src m a).1 b).2) := by
  induction a generalizing m with
  | nil => simp [run]
  | cons s a ih => simp [run, ih]

theorem run_length (src : ℕ) (m : Mem ι) (a : List (Step ι)) : (run src m a).2.length = a.length := by
  induction a generalizing m with
  | nil => rfl
  | cons s a ih => simp [run, ih]

/-- The field a component keeps, at the end of the evaluation: the component `s` comes after `before` and before `after`. -/
def saved (src : ℕ) (m : Mem ι) (before : List (Step ι)) (s : Step ι) (after : List (Step ι)) : ι → ℝ :=
  let m1 := (run src (⟨m.block, m.next, none⟩ : Mem ι) before).1
  (evaluation src m (before ++ s :: after)).1.block (step src m1 s).2

/-- `saved` reads the field that stands in the list of kept fields at the place of the component. -/
theorem saved_is_kept_field (src : ℕ) (m : Mem ι) (before : List (Step ι)) (s : Step ι) (after : List (Step ι)) :
    ∃ r, (evaluation src m (before ++ s :: after)).2[before.length]? = some r
      ∧ saved src m before s after = (evaluation src m (before ++ s :: after)).1.block r := by
  refine ⟨_, ?_, rfl⟩
  have hl : before.length = (run src (⟨m.block, m.next, none⟩ : Mem ι) before).2.length := (run_length _ _ _).symm
  rw [evaluation, run_append]
  simp only
  rw [hl, List.getElem?_append_right (le_refl _), Nat.sub_self]
  rfl

theorem saved_later (src : ℕ) (m : Mem ι) (before : List (Step ι)) (s : Step ι) (after : List (Step ι)) :
    saved src m before s after
      = (run src (step src (run src (⟨m.block, m.next, none⟩ : Mem ι) before).1 s).1 after).1.block
          (step src (run src (⟨m.block, m.next, none⟩ : Mem ι) before).1 s).2 := by
  unfold saved evaluation
  rw [run_append]
  rfl

/-- **What a component saves is what it contributed, unless it was the first to contribute**; also if it subtracted. -/
theorem saved_exact_partial {src : ℕ} {m : Mem ι} (h : Started src m) (before : List (Step ι)) (s : Step ι) (after : List (Step ι))
    (hs : isRecycling s = false) (hb : before ≠ [] ∨ isAdding s = false) (i : ι) :
    saved src m before s after i = kept (m.block src) i s := by
  obtain ⟨o1, -, k1, -, p1⟩ := run_spec src before _ (started_ok h)
  rw [saved_later]
  set m1 := (run src (⟨m.block, m.next, none⟩ : Mem ι) before).1
  have esrc : m1.block src = m.block src := (k1 src h (by simp)).1
  obtain ⟨v, hlt, hsl⟩ := step_keeps src m1 o1 hs
  obtain ⟨o2, -⟩ := step_spec src m1 o1 s
  obtain ⟨-, -, k3, -⟩ := run_spec src after _ o2
  have hne : (step src m1 s).1.slot ≠ some (step src m1 s).2 := by
    rw [Ne, hsl]
    rintro ⟨e1, e2⟩
    rcases hb with hb | hb
    · obtain ⟨t, ht, -⟩ := p1 rfl hb
      exact absurd (e1.symm.trans ht) (by simp)
    · rw [hb] at e2; cases e2
  rw [(k3 _ hlt hne).1, v i, esrc]

/-- **The first component saves its contribution and, on top of it, all that is recycled before another component contributes.** -/
theorem first_saves_recycling {src : ℕ} {m : Mem ι} (h : Started src m) {s : Step ι} (hs : isAdding s = true)
    (rec rest : List (Step ι)) (hrec : ∀ r ∈ rec, isRecycling r = true) (hrest : ∀ r, rest.head? = some r → isRecycling r = false) (i : ι) :
    saved src m [] s (rec ++ rest) i = kept (m.block src) i s + (rec.map (contribution (m.block src) i)).sum := by
  have hnr : isRecycling s = false := by cases s <;> simp_all [isAdding, isRecycling]
  rw [saved_later]
  simp only [run]
  have o0 := started_ok h
  obtain ⟨v, hlt, hsl⟩ := step_keeps src _ o0 hnr
  obtain ⟨o1, -, -, k1, -⟩ := step_spec src _ o0 s
  have hslot := hsl.mpr ⟨rfl, hs⟩
  have esrc : (step src (⟨m.block, m.next, none⟩ : Mem ι) s).1.block src = m.block src := (k1 src h (by simp)).1
  generalize step src (⟨m.block, m.next, none⟩ : Mem ι) s = q at *
  obtain ⟨m1, r⟩ := q
  simp only at *
  rw [← esrc]
  suffices H : ∀ (rec : List (Step ι)) (m1 : Mem ι), Ok src m1 → m1.slot = some r → (∀ s ∈ rec, isRecycling s = true) →
      (run src m1 (rec ++ rest)).1.block r i = m1.block r i + (rec.map (contribution (m1.block src) i)).sum by
    rw [H rec m1 o1 hslot hrec, v i, esrc]
  intro rec
  induction rec with
  | nil =>
      intro m1 o1 hslot _
      rw [List.nil_append, List.map_nil, List.sum_nil, add_zero]
      rcases rest with _ | ⟨s, rest⟩
      · rfl
      · have hns : isRecycling s = false := hrest s rfl
        have hr1 := o1.slot r hslot
        obtain ⟨o2, n2, -, -, -⟩ := step_spec src m1 o1 s
        have hkeep : (step src m1 s).1.block r = m1.block r ∧ (step src m1 s).1.slot ≠ some r := by
          have add_case (f : ι → ℝ) : ((m1.alloc f).1.add (m1.alloc f).2).block r = m1.block r
              ∧ ((m1.alloc f).1.add (m1.alloc f).2).slot ≠ some r := by
            simp only [Mem.alloc, Mem.add, Mem.put, hslot]
            refine ⟨?_, by simp; omega⟩
            rw [Function.update_of_ne (by omega), Function.update_of_ne (by omega)]
          cases s with
          | source p =>
              cases p with
              | none => exact add_case _
              | some p => exact add_case _
          | adds f => exact add_case _
          | subtracts f =>
              simp only [step, Mem.alloc, Mem.subtract, Mem.put, hslot]
              refine ⟨?_, by simp; omega⟩
              rw [Function.update_of_ne (by omega), Function.update_of_ne (by omega)]
          | recycles l => simp [isRecycling] at hns
        obtain ⟨-, -, k3, -⟩ := run_spec src rest _ o2
        show (run src (step src m1 s).1 rest).1.block r i = _
        rw [(k3 r (hr1.trans_le n2) hkeep.2).1, hkeep.1]
  | cons s rec ih =>
      intro m1 o1 hslot hr
      obtain ⟨o2, -, -, k2, t, ht, hv⟩ := step_spec src m1 o1 s
      have hslot2 : (step src m1 s).1.slot = some r := by
        have : isRecycling s = true := hr s (by simp)
        cases s with
        | recycles l => simp only [step, hslot, Mem.put]
        | _ => simp [isRecycling] at this
      have e : (step src m1 s).1.block src = m1.block src := (k2 src o1.used o1.apart).1
      have := ih (step src m1 s).1 o2 hslot2 (fun q hq => hr q (by simp [hq]))
      show (run src (step src m1 s).1 (rec ++ rest)).1.block r i = _
      rw [this, e, List.map_cons, List.sum_cons]
      have ht' : t = r := by rw [hslot2] at ht; exact (Option.some.inj ht).symm
      subst ht'
      rw [hv i, hslot]
      ring

/-- **The saved source is not the source that was set**: `evolve_density`, then recycling, then reactions, the order of `examples/1D-recycling`.  The
source set is 0, 1 in two cells, recycling adds 5 next to the target: the saved source `S…_src` is 5, 1. -/
theorem saved_source_contaminated :
    ∃ (m : Mem (Fin 2)) (l : List (Fin 2 × ℝ)) (f : Fin 2 → ℝ), Started 0 m ∧ m.block 0 = ![0, 1]
      ∧ saved 0 m [] (.source none) [.recycles l, .adds f] 0 = 5 ∧ saved 0 m [] (.source none) [.recycles l, .adds f] 1 = 1 := by
  refine ⟨⟨fun _ => ![0, 1], 1, none⟩, [(0, 5)], fun _ => 7, by simp [Started], rfl, ?_, ?_⟩
  · have := first_saves_recycling (src := 0) (m := (⟨fun _ => ![0, 1], 1, none⟩ : Mem (Fin 2))) (by simp [Started]) (s := .source none) rfl
      [.recycles [(0, 5)]] [.adds fun _ => 7] (by simp [isRecycling]) (by simp [isRecycling]) 0
    refine this.trans ?_
    simp [kept, contribution]
  · have := first_saves_recycling (src := 0) (m := (⟨fun _ => ![0, 1], 1, none⟩ : Mem (Fin 2))) (by simp [Started]) (s := .source none) rfl
      [.recycles [(0, 5)]] [.adds fun _ => 7] (by simp [isRecycling]) (by simp [isRecycling]) 1
    refine this.trans ?_
    simp [kept, contribution]

/-- With the reactions before recycling the saved source is the one that was set. -/
example : saved 0 (⟨fun _ => ![0, 1], 1, none⟩ : Mem (Fin 2)) [] (.source none) [.adds fun _ => 7, .recycles [(0, 5)]] 0 = 0 := by
  have := first_saves_recycling (src := 0) (m := (⟨fun _ => ![0, 1], 1, none⟩ : Mem (Fin 2))) (by simp [Started]) (s := .source none) rfl
    [] [.adds fun _ => 7, .recycles [(0, 5)]] (by simp) (by simp [isRecycling]) 0
  refine this.trans ?_
  simp [kept]

end Hermes.Sharing
