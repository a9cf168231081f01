import Verif.Lemmas.SheathSafe

/-!
# Programs that end normally

A more general form of `Safe`: `Access` says which variables a program finds set, may set, may set in the guard cells, and
which are numbers.
-/

set_option linter.unusedSectionVars false

namespace Hermes.Runs
open Hermes.Closures Hermes.Sheath

variable {ι : Type}

/-- `found`: set before; `own`: may be set; `edge`: guard cells may be set; `num`: a number if set. -/
structure Access where
  found : Key → Prop
  own : Key → Prop
  edge : Key → Prop
  num : Key → Prop

/-- The state allows this access. -/
structure Fit (A : Access) (st : Store Key (Value ι)) : Prop where
  typed : ∀ k, A.num k → ∀ x, vals st k = some x → ∃ r, x = .real r
  found : ∀ k, A.found k → (vals st k).isSome
  own : ∀ k, A.own k → (st.ent k).final = false ∧ (st.ent k).finalDomain = false
  edge : ∀ k, A.edge k → (st.ent k).final = false

/-- `m` ends normally in every state that fits. -/
def Runs {α : Type} (A : Access) (m : Prog ι α) : Prop := ∀ st, Fit A st → ∃ a st', m st = (.ok a, st') ∧ Fit A st'

/-- The same access with one more variable known to be set. -/
def Access.knowing (A : Access) (k : Key) : Access := { A with found := fun k' => A.found k' ∨ k' = k }

variable {A : Access} {α β γ : Type}

theorem Runs.pure (a : α) : Runs (ι := ι) A (pure a : Prog ι α) := fun st h => ⟨a, st, rfl, h⟩

theorem Runs.bind {m : Prog ι α} {f : α → Prog ι β} (hm : Runs A m) (hf : ∀ a, Runs A (f a)) : Runs A (m >>= f) := by
  intro st h
  obtain ⟨a, s1, h1, r1⟩ := hm st h
  obtain ⟨b, s2, h2, r2⟩ := hf a s1 r1
  exact ⟨b, s2, bind_intro h1 h2, r2⟩

theorem Runs.ite {p : Prop} {d : Decidable p} {m n : Prog ι α} (hm : p → Runs A m) (hn : ¬ p → Runs A n) :
    Runs A (if p then m else n) := by
  split
  · exact hm ‹_›
  · exact hn ‹_›

theorem Runs.foldlM {f : α → γ → Prog ι α} : ∀ (l : List γ), (∀ n ∈ l, ∀ a, Runs A (f a n)) → ∀ a, Runs A (l.foldlM f a)
  | [], _, a => Runs.pure a
  | n :: l, h, a => by
    rw [List.foldlM_cons]
    exact Runs.bind (h n List.mem_cons_self a) fun b => Runs.foldlM l (fun n' h' => h n' (List.mem_cons_of_mem _ h')) b

theorem Runs.forM {f : γ → Prog ι PUnit} : ∀ (l : List γ), (∀ n ∈ l, Runs A (f n)) → Runs A (l.forM f)
  | [], _ => Runs.pure _
  | n :: l, h => by
    show Runs A (f n >>= fun _ => l.forM f)
    exact Runs.bind (h n List.mem_cons_self) fun _ => Runs.forM l (fun n' h' => h n' (List.mem_cons_of_mem _ h'))

/-- `m` ends normally with a result that satisfies `Q`. -/
def RunsTo {α : Type} (A : Access) (m : Prog ι α) (Q : α → Prop) : Prop :=
  ∀ st, Fit A st → ∃ a st', m st = (.ok a, st') ∧ Fit A st' ∧ Q a

theorem RunsTo.pure {a : α} {Q : α → Prop} (h : Q a) : RunsTo (ι := ι) A (pure a : Prog ι α) Q := fun st hs => ⟨a, st, rfl, hs, h⟩

theorem RunsTo.bind {m : Prog ι α} {f : α → Prog ι β} {Q : α → Prop} (hm : RunsTo A m Q) (hf : ∀ a, Q a → Runs A (f a)) :
    Runs A (m >>= f) := by
  intro st h
  obtain ⟨a, s1, h1, r1, q⟩ := hm st h
  obtain ⟨b, s2, h2, r2⟩ := hf a q s1 r1
  exact ⟨b, s2, bind_intro h1 h2, r2⟩

theorem RunsTo.bindTo {m : Prog ι α} {f : α → Prog ι β} {Q : α → Prop} {Q' : β → Prop} (hm : RunsTo A m Q)
    (hf : ∀ a, Q a → RunsTo A (f a) Q') : RunsTo A (m >>= f) Q' := by
  intro st h
  obtain ⟨a, s1, h1, r1, q⟩ := hm st h
  obtain ⟨b, s2, h2, r2⟩ := hf a q s1 r1
  exact ⟨b, s2, bind_intro h1 h2, r2⟩

theorem Runs.bindTo {m : Prog ι α} {f : α → Prog ι β} {Q' : β → Prop} (hm : Runs A m) (hf : ∀ a, RunsTo A (f a) Q') :
    RunsTo A (m >>= f) Q' := by
  intro st h
  obtain ⟨a, s1, h1, r1⟩ := hm st h
  obtain ⟨b, s2, h2, r2⟩ := hf a s1 r1
  exact ⟨b, s2, bind_intro h1 h2, r2⟩

/-- The variable is set, so the test succeeds. -/
theorem RunsTo.ifFound {k : Key} (hk : A.found k) {B C : Prog ι α} {Q : α → Prop} (hB : RunsTo A B Q) :
    RunsTo A (isSet k >>= fun b => if b then B else C) Q := by
  intro st h
  obtain ⟨a, s1, h1, r1⟩ := hB st h
  refine ⟨a, s1, bind_intro (s' := st) (a := (vals st k).isSome) rfl ?_, r1⟩
  rw [h.found k hk]
  exact h1

/-! ## Marking and setting -/

theorem Fit.markFinal {st : Store Key (Value ι)} (h : Fit A st) {k : Key} (h1 : ¬A.own k) (h2 : ¬A.edge k) : Fit A (st.markFinal k) := by
  have hv := markFinal_vals st k
  have hent : ∀ k', k' ≠ k → (st.markFinal k).ent k' = st.ent k' := by
    intro k' hne
    unfold Store.markFinal
    split
    · show (if k' = _ then _ else _) = _
      rw [if_neg hne]
    · rfl
  refine ⟨by rw [hv]; exact h.typed, by rw [hv]; exact h.found, fun k' hk => ?_, fun k' hk => ?_⟩
  · rw [hent k' (by rintro rfl; exact h1 hk)]; exact h.own k' hk
  · rw [hent k' (by rintro rfl; exact h2 hk)]; exact h.edge k' hk

theorem Fit.markFinalDomain {st : Store Key (Value ι)} (h : Fit A st) {k : Key} (h1 : ¬A.own k) : Fit A (st.markFinalDomain k) := by
  have hv := markFinalDomain_vals st k
  have hfin : ∀ k', ((st.markFinalDomain k).ent k').final = (st.ent k').final := by
    intro k'
    unfold Store.markFinalDomain
    split
    · show (if k' = _ then _ else _ : Entry (Value ι)).final = _
      split
      · rename_i e; subst e; rfl
      · rfl
    · rfl
  have hent : ∀ k', k' ≠ k → (st.markFinalDomain k).ent k' = st.ent k' := by
    intro k' hne
    unfold Store.markFinalDomain
    split
    · show (if k' = _ then _ else _) = _
      rw [if_neg hne]
    · rfl
  refine ⟨by rw [hv]; exact h.typed, by rw [hv]; exact h.found, fun k' hk => ?_, fun k' hk => ?_⟩
  · rw [hent k' (by rintro rfl; exact h1 hk)]; exact h.own k' hk
  · rw [hfin]; exact h.edge k' hk

theorem Fit.force {st : Store Key (Value ι)} (h : Fit A st) {k : Key} {x : Value ι} (hk : A.num k → ∃ r, x = .real r) :
    Fit A (st.force k x) := by
  have hv : ∀ k', vals (st.force k x) k' = if k' = k then some x else vals st k' := fun k' => force_val st k k' _
  have hflag : ∀ k', ((st.force k x).ent k').final = (st.ent k').final ∧ ((st.force k x).ent k').finalDomain = (st.ent k').finalDomain := by
    intro k'
    unfold Store.force Store.update
    dsimp only
    split
    · rename_i e; subst e; exact ⟨rfl, rfl⟩
    · exact ⟨rfl, rfl⟩
  refine ⟨fun k' hk' y hy => ?_, fun k' hr => ?_, fun k' hk' => ?_, fun k' hk' => ?_⟩
  · rw [hv] at hy
    split at hy
    · rename_i e; subst e
      obtain rfl := Option.some.inj hy
      exact hk hk'
    · exact h.typed k' hk' y hy
  · rw [hv]; split
    · rfl
    · exact h.found k' hr
  · rw [(hflag _).1, (hflag _).2]; exact h.own k' hk'
  · rw [(hflag _).1]; exact h.edge k' hk'

/-! ## Access functions -/

theorem runs_isSet {k : Key} : Runs (ι := ι) A (isSet k) := fun _ h => ⟨_, _, rfl, h⟩
theorem runs_isSetFinal {k : Key} (h1 : ¬A.own k) (h2 : ¬A.edge k) : Runs (ι := ι) A (isSetFinal k) :=
  fun _ h => ⟨_, _, rfl, h.markFinal h1 h2⟩
theorem runs_isSetNB {k : Key} (h1 : ¬A.own k) : Runs (ι := ι) A (isSetFinalNoBoundary k) :=
  fun _ h => ⟨_, _, rfl, h.markFinalDomain h1⟩

/-- `if (isSet(k)) B else C`: in `B` the variable is set. -/
theorem Runs.ifSet {k : Key} {t : Prog ι Bool} {B C : Prog ι α}
    (ht : ∀ st, Fit A st → ∃ st', t st = (.ok (vals st k).isSome, st') ∧ vals st' = vals st ∧ Fit A st')
    (hB : Runs (A.knowing k) B) (hC : Runs A C) : Runs A (t >>= fun b => if b then B else C) := by
  intro st h
  obtain ⟨s1, h1, hv, r1⟩ := ht st h
  have hb : (t >>= fun b => if b then B else C) st = (if (vals st k).isSome then B else C) s1 := by
    show M.bind t _ st = _
    unfold M.bind
    rw [h1]
  rw [hb]
  split
  · rename_i hs
    obtain ⟨a, s2, h2, r2⟩ := hB s1 ⟨r1.typed, fun k' hk' => hk'.elim (r1.found k') (by rintro rfl; rw [hv]; exact hs), r1.own, r1.edge⟩
    exact ⟨a, s2, h2, ⟨r2.typed, fun k' hk' => r2.found k' (Or.inl hk'), r2.own, r2.edge⟩⟩
  · exact hC s1 r1

theorem tests_isSet {k : Key} (st : Store Key (Value ι)) (h : Fit A st) :
    ∃ st', isSet k st = (.ok (vals st k).isSome, st') ∧ vals st' = vals st ∧ Fit A st' := ⟨st, rfl, rfl, h⟩

theorem tests_isSetFinal {k : Key} (h1 : ¬A.own k) (h2 : ¬A.edge k) (st : Store Key (Value ι)) (h : Fit A st) :
    ∃ st', isSetFinal k st = (.ok (vals st k).isSome, st') ∧ vals st' = vals st ∧ Fit A st' := by
  refine ⟨_, ?_, markFinal_vals st k, h.markFinal h1 h2⟩
  show (Except.ok (vals (st.markFinal k) k).isSome, _) = _
  rw [markFinal_vals]

theorem tests_isSetNB {k : Key} (h1 : ¬A.own k) (st : Store Key (Value ι)) (h : Fit A st) :
    ∃ st', isSetFinalNoBoundary k st = (.ok (vals st k).isSome, st') ∧ vals st' = vals st ∧ Fit A st' := by
  refine ⟨_, ?_, markFinalDomain_vals st k, h.markFinalDomain h1⟩
  show (Except.ok (vals (st.markFinalDomain k) k).isSome, _) = _
  rw [markFinalDomain_vals]

theorem runs_getNonFinal {k : Key} (hr : A.found k) : Runs (ι := ι) A (getNonFinal asField k) := by
  intro st h
  obtain ⟨f, hf⟩ := getNonFinal_field (st := st) (k := k) (h.found k hr)
  exact ⟨f, _, hf, h⟩

theorem runs_get {k : Key} (hr : A.found k) (h1 : ¬A.own k) (h2 : ¬A.edge k) : Runs (ι := ι) A (get asField k) := by
  intro st h
  have h' := h.markFinal h1 h2
  obtain ⟨f, hf⟩ := getNonFinal_field (st := st.markFinal k) (k := k) (h'.found k hr)
  exact ⟨f, _, hf, h'⟩

theorem runs_getF {s : String} {v : Var} (hr : A.found (.sp s v)) (h1 : ¬A.own (.sp s v)) (h2 : ¬A.edge (.sp s v)) :
    Runs (ι := ι) A (getF s v) := runs_get hr h1 h2

theorem runs_getNB {k : Key} (hr : A.found k) (h1 : ¬A.own k) : Runs (ι := ι) A (getNoBoundary asField k) := by
  intro st h
  have h' := h.markFinalDomain h1
  obtain ⟨f, hf⟩ := getNonFinal_field (st := st.markFinalDomain k) (k := k) (h'.found k hr)
  exact ⟨f, _, hf, h'⟩

theorem runs_getReal {k : Key} (hr : A.found k) (hn : A.num k) (h1 : ¬A.own k) (h2 : ¬A.edge k) : Runs (ι := ι) A (get asReal k) := by
  intro st h
  have h' := h.markFinal h1 h2
  obtain ⟨x, hx⟩ := Option.isSome_iff_exists.1 (h'.found _ hr)
  obtain ⟨r, rfl⟩ := h'.typed k hn x hx
  exact ⟨r, _, getNonFinal_real hx, h'⟩

theorem runs_getR {s : String} {v : Var} (hr : A.found (.sp s v)) (hn : A.num (.sp s v)) (h1 : ¬A.own (.sp s v))
    (h2 : ¬A.edge (.sp s v)) : Runs (ι := ι) A (getR s v) := runs_getReal hr hn h1 h2

theorem runs_readSource {k : Key} : Runs (ι := ι) A (readSource k) :=
  Runs.ifSet tests_isSet (runs_getNonFinal (Or.inr rfl)) (Runs.pure _)

theorem runs_set {k : Key} {f : Fld ι} (h1 : A.own k) (hn : ¬A.num k) : Runs A (set k (.field f)) := by
  intro st h
  obtain ⟨a, b⟩ := h.own k h1
  refine ⟨(), st.force k (.field f), ?_, h.force fun hh => absurd hh hn⟩
  unfold set
  rw [a, b, Bool.and_false]
  show (if (st.check && false) = true then _ else _) = _
  rw [Bool.and_false]
  rfl

theorem runs_setBoundary {k : Key} {f : Fld ι} (h1 : A.edge k) (hn : ¬A.num k) : Runs A (setBoundary k (.field f)) := by
  intro st h
  refine ⟨(), st.force k (.field f), ?_, h.force fun hh => absurd hh hn⟩
  unfold setBoundary
  rw [h.edge k h1, Bool.and_false]
  rfl

end Hermes.Runs
