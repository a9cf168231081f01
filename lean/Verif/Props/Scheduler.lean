import Verif.Model.Scheduler
import Verif.Lemmas.Text

/-!
# C01, C02 — the component scheduler
-/

namespace Hermes.Scheduler

/-! ## Specification of the component list -/

/-- Blanks, tabs, carriage returns and round brackets carry no meaning at the ends of a token. -/
def Layout (c : Char) : Prop := c = ' ' ∨ c = '\t' ∨ c = '\r' ∨ c = '(' ∨ c = ')'

instance (c : Char) : Decidable (Layout c) :=
  inferInstanceAs (Decidable (c = ' ' ∨ c = '\t' ∨ c = '\r' ∨ c = '(' ∨ c = ')'))

/-- A piece of text without leading and trailing layout characters. -/
def strip (s : List Char) : List Char :=
  (s.dropWhile (fun c => decide (Layout c))).rdropWhile (fun c => decide (Layout c))

/-- The tokens of a comma-separated list: all non-empty stripped pieces, in order. -/
def tokens (s : List Char) : List (List Char) := ((s.splitOn ',').map strip).filter (· ≠ [])

/-- The components the user asked for: each name token is expanded, in place, into the tokens of its
`type` setting (its own name when there is none). -/
def expected (names : List Char) (typeOpt : List Char → Option (List Char)) :
    List (List Char × List Char) :=
  (tokens names).flatMap fun n => (tokens ((typeOpt n).getD n)).map fun t => (t, n)

private theorem layout_eq (c : Char) : isTrimChar c = decide (Layout c) := by
  rw [Bool.eq_iff_iff, decide_eq_true_iff]
  simp [isTrimChar, Layout, or_assoc]

private theorem trim_eq_strip (s : Str) : trim s = strip s := by
  have : isTrimChar = fun c => decide (Layout c) := funext layout_eq
  rw [trim_eq, strip, this]

private theorem filter_strsplit (s : Str) :
    ((strsplit ',' s).map trim).filter (· ≠ []) = tokens s := by
  have hm : (fun t => trim t) = strip := funext trim_eq_strip
  show ((strsplit ',' s).map (fun t => trim t)).filter (· ≠ []) = tokens s
  rw [hm, tokens, strsplit_eq_splitOn]
  split
  · rename_i h
    obtain ⟨ps, hps⟩ : ∃ ps, s.splitOn ',' = ps ++ [[]] := by
      obtain ⟨ps, hps⟩ := List.getLast?_eq_some_iff.1 h
      exact ⟨ps, hps⟩
    rw [hps]
    simp [strip, List.filter_append]
  · rfl

private theorem addTypes_eq (n : Str) (ts : List Str) (acc : List Created) :
    addTypes n ts acc = acc ++ (((ts.map trim).filter (· ≠ [])).map fun t => (⟨t, n⟩ : Created)) := by
  induction ts generalizing acc with
  | nil => simp [addTypes]
  | cons t ts ih =>
    unfold addTypes
    by_cases h : trim t = []
    · simp [h, ih]
    · simp [h, ih]

private theorem addNames_eq (typeOpt : Str → Option Str) (ns : List Str) (acc : List Created) :
    addNames typeOpt ns acc = acc ++ ((ns.map trim).filter (· ≠ [])).flatMap fun n =>
      ((tokens ((typeOpt n).getD n)).map fun t => (⟨t, n⟩ : Created)) := by
  induction ns generalizing acc with
  | nil => simp [addNames]
  | cons n ns ih =>
    unfold addNames
    by_cases h : trim n = []
    · simp [h, ih]
    · simp only [h, if_false, addTypes_eq, ih, filter_strsplit]
      cases ht : typeOpt (trim n) <;> simp [h, ht]

/-! ## C01 -/

/-- C01.  For every component text and every assignment of `type` settings the scheduler creates
exactly the expected components, in the expected order. -/
theorem components_are_expected (names : List Char) (typeOpt : List Char → Option (List Char)) :
    (schedulerComponents names typeOpt).map (fun c => (c.type, c.name)) = expected names typeOpt := by
  unfold schedulerComponents expected
  rw [addNames_eq, filter_strsplit]
  simp [List.map_flatMap, Function.comp_def]

/-- One item of a list as a user may lay it out: layout characters, a (possibly empty) name,
layout characters. -/
structure Item where
  before : List Char
  name : List Char
  after : List Char

/-- A legal item: padding consists of layout characters; the name contains no comma and neither
starts nor ends with a layout character. -/
structure Item.Legal (i : Item) : Prop where
  before : ∀ c ∈ i.before, Layout c
  after : ∀ c ∈ i.after, Layout c
  comma : ',' ∉ i.name
  head : ∀ c, i.name.head? = some c → ¬ Layout c
  last : ∀ c, i.name.getLast? = some c → ¬ Layout c

/-- The text of a list of items. -/
def render (items : List Item) : List Char :=
  [','].intercalate (items.map fun i => i.before ++ i.name ++ i.after)

private theorem strip_item {i : Item} (h : i.Legal) : strip (i.before ++ i.name ++ i.after) = i.name := by
  let p : Char → Bool := fun c => decide (Layout c)
  have hb : ∀ c ∈ i.before, p c = true := fun c hc => by simp [p, h.before c hc]
  have ha : ∀ c ∈ i.after, p c = true := fun c hc => by simp [p, h.after c hc]
  unfold strip
  rw [show (fun c => decide (Layout c)) = p from rfl]
  have e1 : (i.before ++ i.name ++ i.after).dropWhile p = (i.name ++ i.after).dropWhile p := by
    rw [List.append_assoc, List.dropWhile_append_of_pos hb]
  have hra : ∀ l : List Char, (l ++ i.after).rdropWhile p = l.rdropWhile p := by
    intro l
    unfold List.rdropWhile
    rw [List.reverse_append, List.dropWhile_append_of_pos (by simpa using ha)]
  rw [e1]
  cases hn : i.name with
  | nil =>
    have : i.after.dropWhile p = [] := List.dropWhile_eq_nil_iff.2 ha
    simp [this]
  | cons c cs =>
    have hc : ¬ p c = true := by
      have := h.head c (by simp [hn]); simpa [p] using this
    rw [List.cons_append, List.dropWhile_cons_of_neg hc, ← List.cons_append, hra, ← hn]
    rw [List.rdropWhile_eq_self_iff]
    intro hne
    have := h.last (i.name.getLast hne) (List.getLast?_eq_getLast_of_ne_nil hne)
    simpa [p] using this

/-- C01.  Layout does not matter: however the items are padded with blanks, tabs, carriage returns
or brackets, and wherever empty items are inserted, the tokens are the non-empty names in order. -/
theorem layout_irrelevant (items : List Item) (hl : ∀ i ∈ items, i.Legal) :
    tokens (render items) = (items.map Item.name).filter (· ≠ []) := by
  by_cases hne : items = []
  · subst hne; simp [render, tokens, strip, List.intercalate]
  · unfold tokens render
    rw [List.splitOn_intercalate ',' (by
      intro l hlm
      obtain ⟨i, hi, rfl⟩ := List.mem_map.1 hlm
      have hL := hl i hi
      have hc : ¬ Layout ',' := by unfold Layout; decide
      simp only [List.mem_append, not_or]
      exact ⟨⟨fun hb => hc (hL.before _ hb), hL.comma⟩, fun ha => hc (hL.after _ ha)⟩)
      (by simpa using hne)]
    rw [List.map_map]
    congr 1
    apply List.map_congr_left
    intro i hi
    exact strip_item (hl i hi)

/-- C01.  Consequence: two component texts laid out differently but listing the same names give the
same components. -/
theorem same_names_same_components (items items' : List Item) (hl : ∀ i ∈ items, i.Legal)
    (hl' : ∀ i ∈ items', i.Legal)
    (h : (items.map Item.name).filter (· ≠ []) = (items'.map Item.name).filter (· ≠ []))
    (typeOpt : List Char → Option (List Char)) :
    schedulerComponents (render items) typeOpt = schedulerComponents (render items') typeOpt := by
  have hinj : Function.Injective (fun c : Created => (c.type, c.name)) := by
    rintro ⟨a, b⟩ ⟨c, d⟩ h; simpa using h
  apply (List.map_injective_iff.2 hinj)
  rw [components_are_expected, components_are_expected]
  unfold expected
  rw [layout_irrelevant items hl, layout_irrelevant items' hl', h]

/-- Non-vacuity: `(d+, \t e ,)` with `type(e) = "evolve_density, evolve_pressure"`. -/
example : (schedulerComponents "(d+, \t e ,)".toList
      (fun n => if n = ['e'] then some "evolve_density, evolve_pressure".toList else none)).map
        (fun c => (String.ofList c.type, String.ofList c.name))
    = [("d+", "d+"), ("evolve_density", "e"), ("evolve_pressure", "e")] := by decide

/-- Non-vacuity of the layout theorem. -/
example : ∀ i ∈ [(⟨['('], ['d', '+'], [' ']⟩ : Item), ⟨[], [], ['\t']⟩, ⟨[' '], ['e'], [')']⟩],
    i.Legal := by
  intro i hi
  simp only [List.mem_cons, List.not_mem_nil, or_false] at hi
  rcases hi with rfl | rfl | rfl <;> refine ⟨?_, ?_, ?_, ?_, ?_⟩ <;> simp [Layout]

/-! ## C02 -/

variable {σ : Type}

/-- What can be observed of a run: calls of component number `i`. -/
inductive Event where
  | transform (i : ℕ)
  | final (i : ℕ)
  | outputVars (i : ℕ)
  | restartVars (i : ℕ)
  | precon (i : ℕ)
deriving DecidableEq

/-- The same call with the event recorded in a log kept beside the world. -/
def record (e : Event) (f : σ → Outcome σ) : σ × List Event → Outcome (σ × List Event) := fun s =>
  match f s.1 with
  | .ok s' => .ok (s', s.2 ++ [e])
  | .throw s' => .throw (s', s.2 ++ [e])

/-- Component number `n` instrumented to record its calls. -/
def instrument1 (n : ℕ) (c : Comp σ) : Comp (σ × List Event) where
  transform := record (.transform n) c.transform
  final := record (.final n) c.final
  outputVars := record (.outputVars n) c.outputVars
  restartVars := record (.restartVars n) c.restartVars
  precon := record (.precon n) c.precon

/-- The components, numbered from `n`, instrumented. -/
def instrument : ℕ → List (Comp σ) → List (Comp (σ × List Event))
  | _, [] => []
  | n, c :: cs => instrument1 n c :: instrument (n + 1) cs

/-- The full sequence of calls: all transforms in order, then all finallys in order. -/
def fullTrace (n : ℕ) : List Event :=
  (List.range n).map Event.transform ++ (List.range n).map Event.final

private theorem loop_trace (sel : Comp σ → σ → Outcome σ)
    (sel' : Comp (σ × List Event) → σ × List Event → Outcome (σ × List Event)) (ev : ℕ → Event)
    (inst : ℕ → Comp σ → Comp (σ × List Event))
    (hsel : ∀ n c, sel' (inst n c) = record (ev n) (sel c)) :
    ∀ (cs : List (Comp σ)) (n : ℕ) (s : σ) (log : List Event),
      (∀ s', runLoop sel cs s = .ok s' →
        runLoop sel' ((cs.zipIdx n).map fun p => inst p.2 p.1) (s, log)
          = .ok (s', log ++ (List.range cs.length).map fun i => ev (n + i))) ∧
      (∀ s', runLoop sel cs s = .throw s' → ∃ m, m < cs.length ∧
        runLoop sel' ((cs.zipIdx n).map fun p => inst p.2 p.1) (s, log)
          = .throw (s', log ++ (List.range (m + 1)).map fun i => ev (n + i))) := by
  intro cs
  induction cs with
  | nil => intro n s log; simp [runLoop]
  | cons c cs ih =>
    intro n s log
    simp only [List.zipIdx_cons, List.map_cons, runLoop, hsel, record]
    cases hc : sel c s with
    | ok s₁ =>
      obtain ⟨ih1, ih2⟩ := ih (n + 1) s₁ (log ++ [ev n])
      refine ⟨fun s' h => ?_, fun s' h => ?_⟩
      · show runLoop sel' _ _ = _
        rw [ih1 s' h]
        simp only [List.length_cons, List.range_succ_eq_map, List.map_cons, List.map_map,
          List.append_assoc, List.singleton_append, Nat.add_zero]
        congr 4
        apply List.map_congr_left; intro i _
        simp only [Function.comp]; congr 1; omega
      · obtain ⟨m, hm, h2⟩ := ih2 s' h
        refine ⟨m + 1, by simpa using hm, ?_⟩
        show runLoop sel' _ _ = _
        rw [h2]
        simp only [List.range_succ_eq_map (n := m + 1), List.map_cons, List.map_map,
          List.append_assoc, List.singleton_append, Nat.add_zero]
        congr 4
        apply List.map_congr_left; intro i _
        simp only [Function.comp]; congr 1; omega
    | throw s₁ =>
      refine ⟨fun s' h => by simp at h, fun s' h => ⟨0, by simp, ?_⟩⟩
      simp only [Outcome.throw.injEq] at h
      simp [h]

private theorem instrument_eq (cs : List (Comp σ)) (n : ℕ) :
    instrument n cs = (cs.zipIdx n).map fun p => instrument1 p.2 p.1 := by
  induction cs generalizing n with
  | nil => rfl
  | cons c cs ih => simp [instrument, ih, List.zipIdx_cons]

/-- C02.  A successful call of the scheduler makes exactly the calls `transform 0, …, transform (n-1),
finally 0, …, finally (n-1)`, each once and in this order, and has the effect of running them. -/
theorem transform_trace_ok (cs : List (Comp σ)) (s s' : σ)
    (h : schedulerTransform cs s = .ok s') :
    schedulerTransform (instrument 0 cs) (s, []) = .ok (s', fullTrace cs.length) := by
  unfold schedulerTransform at h ⊢
  rw [instrument_eq]
  cases h1 : runLoop Comp.transform cs s with
  | throw s₁ => rw [h1] at h; simp at h
  | ok s₁ =>
    rw [h1] at h
    have e1 := (loop_trace Comp.transform Comp.transform Event.transform
      instrument1
      (fun n c => rfl) cs 0 s []).1 s₁ h1
    have e2 := (loop_trace Comp.final Comp.final Event.final
      instrument1
      (fun n c => rfl) cs 0 s₁ ((List.range cs.length).map fun i => Event.transform (0 + i))).1 s' h
    simp only [List.nil_append] at e1
    rw [e1]
    simp only
    rw [e2]
    simp [fullTrace]

/-- C02.  If a component throws, the calls made are a proper non-empty prefix of the full sequence: the throwing
call is the last one, no later component runs. -/
theorem transform_trace_throw (cs : List (Comp σ)) (s s' : σ)
    (h : schedulerTransform cs s = .throw s') :
    ∃ m, 0 < m ∧ m ≤ 2 * cs.length ∧
      schedulerTransform (instrument 0 cs) (s, []) = .throw (s', (fullTrace cs.length).take m) := by
  unfold schedulerTransform at h ⊢
  rw [instrument_eq]
  cases h1 : runLoop Comp.transform cs s with
  | throw s₁ =>
    rw [h1] at h
    simp only [Outcome.throw.injEq] at h
    subst h
    obtain ⟨m, hm, e1⟩ := (loop_trace Comp.transform Comp.transform Event.transform
      instrument1
      (fun n c => rfl) cs 0 s []).2 s₁ h1
    refine ⟨m + 1, by omega, by omega, ?_⟩
    rw [e1]
    simp only [List.nil_append]
    unfold fullTrace
    rw [List.take_append_of_le_length (by simp; omega), ← List.map_take, List.take_range,
      Nat.min_eq_left (by omega)]
    simp
  | ok s₁ =>
    rw [h1] at h
    have e1 := (loop_trace Comp.transform Comp.transform Event.transform
      instrument1
      (fun n c => rfl) cs 0 s []).1 s₁ h1
    obtain ⟨m, hm, e2⟩ := (loop_trace Comp.final Comp.final Event.final
      instrument1
      (fun n c => rfl) cs 0 s₁ ((List.range cs.length).map fun i => Event.transform (0 + i))).2 s' h
    refine ⟨cs.length + (m + 1), by omega, by omega, ?_⟩
    simp only [List.nil_append] at e1
    rw [e1]
    simp only
    rw [e2]
    unfold fullTrace
    have hl : ((List.range cs.length).map Event.transform).length = cs.length := by simp
    rw [List.take_append, hl, Nat.add_sub_cancel_left, List.take_of_length_le (by simp), ← List.map_take,
      List.take_range, Nat.min_eq_left (by omega)]
    simp

/-- C02.  The other loops of the scheduler: writing the output, writing the restart file and preconditioning call that function of every component,
each once and in the order of the components, and nothing else; an exception ends the loop. -/
theorem other_traces (cs : List (Comp σ)) (s s' : σ) :
    ((schedulerOutputVars cs s = .ok s' →
        schedulerOutputVars (instrument 0 cs) (s, []) = .ok (s', (List.range cs.length).map Event.outputVars)) ∧
      (schedulerRestartVars cs s = .ok s' →
        schedulerRestartVars (instrument 0 cs) (s, []) = .ok (s', (List.range cs.length).map Event.restartVars)) ∧
      (schedulerPrecon cs s = .ok s' →
        schedulerPrecon (instrument 0 cs) (s, []) = .ok (s', (List.range cs.length).map Event.precon))) ∧
    ((schedulerOutputVars cs s = .throw s' → ∃ m, m < cs.length ∧
        schedulerOutputVars (instrument 0 cs) (s, []) = .throw (s', (List.range (m + 1)).map Event.outputVars)) ∧
      (schedulerRestartVars cs s = .throw s' → ∃ m, m < cs.length ∧
        schedulerRestartVars (instrument 0 cs) (s, []) = .throw (s', (List.range (m + 1)).map Event.restartVars)) ∧
      (schedulerPrecon cs s = .throw s' → ∃ m, m < cs.length ∧
        schedulerPrecon (instrument 0 cs) (s, []) = .throw (s', (List.range (m + 1)).map Event.precon))) := by
  have a := loop_trace Comp.outputVars Comp.outputVars Event.outputVars instrument1 (fun n c => rfl) cs 0 s []
  have b := loop_trace Comp.restartVars Comp.restartVars Event.restartVars instrument1 (fun n c => rfl) cs 0 s []
  have c := loop_trace Comp.precon Comp.precon Event.precon instrument1 (fun n c => rfl) cs 0 s []
  simp only [← instrument_eq, List.nil_append, Nat.zero_add] at a b c
  exact ⟨⟨a.1 s', b.1 s', c.1 s'⟩, a.2 s', b.2 s', c.2 s'⟩

/-- The worlds in which the `finally` functions are called during a run of the second loop. -/
def finalInputs : List (Comp σ) → σ → List σ
  | [], _ => []
  | c :: cs, s => s :: match c.final s with
    | .ok s' => finalInputs cs s'
    | .throw _ => []

/-- C02.  `finally` takes the state by const reference.  If every `finally` leaves what can be read of
the state (`view`) alone, then every `finally` sees the state left by the last `transform`. -/
theorem finally_sees_final_state {ρ : Type} (view : σ → ρ) (cs : List (Comp σ)) (s s₁ s' : σ)
    (hconst : ∀ c ∈ cs, ∀ a b, (c.final a = .ok b ∨ c.final a = .throw b) → view b = view a)
    (h1 : runLoop Comp.transform cs s = .ok s₁) (h : schedulerTransform cs s = .ok s') :
    (finalInputs cs s₁).length = cs.length ∧ (∀ w ∈ finalInputs cs s₁, view w = view s₁) ∧
      view s' = view s₁ := by
  unfold schedulerTransform at h
  rw [h1] at h
  simp only at h
  clear h1
  induction cs generalizing s₁ with
  | nil => simp only [runLoop, Outcome.ok.injEq] at h; simp [finalInputs, h]
  | cons c cs ih =>
    simp only [runLoop] at h
    unfold finalInputs
    cases hc : c.final s₁ with
    | throw s₂ => rw [hc] at h; simp at h
    | ok s₂ =>
      rw [hc] at h
      have hv : view s₂ = view s₁ := hconst c (by simp) s₁ s₂ (Or.inl hc)
      obtain ⟨h1, h2, h3⟩ := ih s₂ (fun c' hc' => hconst c' (by simp [hc'])) h
      refine ⟨by simp [h1], ?_, h3.trans hv⟩
      intro w hw
      rcases List.mem_cons.1 hw with rfl | hw
      · rfl
      · exact (h2 w hw).trans hv

/-- Non-vacuity: three components, the second one throwing in `finally` when the counter is odd. -/
example : let c : Comp ℕ := ⟨fun n => .ok (n + 1), fun n => .ok n, .ok, .ok, .ok⟩
    let d : Comp ℕ := ⟨fun n => .ok (n + 1), fun n => if n % 2 = 1 then .throw n else .ok n, .ok, .ok, .ok⟩
    schedulerTransform [c, d, c] 0 = .throw 3 ∧ schedulerTransform [c, d, c] 1 = .ok 4 := by
  simp [schedulerTransform, runLoop]

end Hermes.Scheduler
