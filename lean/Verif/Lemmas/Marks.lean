import Verif.Lemmas.Access

/-!
# Programs that always use a variable, and programs that fail if it was used

A variable is marked as used in the interior (`final-domain`) or everywhere (`final`).
-/

namespace Hermes.Order

variable {ι α β : Type} {R S A : Key → Prop} {k : Key}

/-- Where a variable is used: `interior` or also in the boundary cells (`whole`). -/
inductive Part where
  | interior
  | whole

def Part.used : Part → Bool × Bool → Bool
  | .interior, m => m.2
  | .whole, m => m.1

/-- With checks, every run of the program that ends normally leaves `k` marked as used. -/
def Uses (p : Part) (k : Key) (m : Prog ι α) : Prop := ∀ st a st', st.check = true → m st = (.ok a, st') → p.used (marks st' k) = true

/-- With checks, the program fails if `k` is marked as used. -/
def Needs (p : Part) (k : Key) (m : Prog ι α) : Prop := ∀ st a st', st.check = true → m st = (.ok a, st') → p.used (marks st k) = false

/-- The program does not take marks away. -/
def Keeps (m : Prog ι α) : Prop := ∀ st a st', m st = (.ok a, st') →
  st'.check = st.check ∧ ∀ (p : Part) k, p.used (marks st k) = true → p.used (marks st' k) = true

theorem Access.keeps {m : Prog ι α} (h : Access R S A m) : Keeps m := by
  intro st a st' e
  obtain ⟨_, _, mv⟩ := h st st ⟨rfl, fun _ _ => rfl, fun _ _ => rfl⟩ a st' e
  refine ⟨mv.check1, fun p k hk => ?_⟩
  obtain ⟨x, -, e, -⟩ := mv.marks k
  rw [e]
  cases p <;> simp only [Part.used, mark] at * <;> simp [hk]

theorem bind_ok {m : Prog ι α} {f : α → Prog ι β} {st st' : Store Key (Value ι)} {b : β} (h : (m >>= f) st = (.ok b, st')) :
    ∃ a s, m st = (.ok a, s) ∧ f a s = (.ok b, st') := by
  change M.bind m f st = _ at h
  unfold M.bind at h
  rcases e : m st with ⟨r, s⟩
  rw [e] at h
  cases r with
  | error x => exact absurd (congrArg Prod.fst h) (by simp)
  | ok a => exact ⟨a, s, rfl, h⟩

theorem Keeps.bind {m : Prog ι α} {f : α → Prog ι β} (h : Keeps m) (hf : ∀ a, Keeps (f a)) : Keeps (m >>= f) := by
  intro st b st' e
  obtain ⟨a, s, e1, e2⟩ := bind_ok e
  obtain ⟨c1, k1⟩ := h st a s e1
  obtain ⟨c2, k2⟩ := hf a s b st' e2
  exact ⟨c2.trans c1, fun p k hk => k2 p k (k1 p k hk)⟩

theorem Keeps.ite {c : Prop} {_ : Decidable c} {m n : Prog ι α} (h1 : Keeps m) (h2 : Keeps n) : Keeps (if c then m else n) := by
  split
  · exact h1
  · exact h2

abbrev All : Key → Prop := fun _ => True
abbrev Nil : Key → Prop := fun _ => False

theorem Keeps.pure (a : α) : Keeps (ι := ι) (Pure.pure a : Prog ι α) := (Access.pure (R := Nil) (S := Nil) (A := Nil) a).keeps
theorem Keeps.throw (e : Err) : Keeps (ι := ι) (M.throw e : Prog ι α) := (Access.throw (R := Nil) (S := Nil) (A := Nil) e).keeps
theorem Keeps.throwIf (c : Prop) {_ : Decidable c} : Keeps (ι := ι) (Hermes.throwIf c) := (Access.throwIf (R := Nil) (S := Nil) (A := Nil) c).keeps
theorem Keeps.getNonFinal {T : Type} (cast : Value ι → Option T) (k : Key) : Keeps (Hermes.getNonFinal cast k : Prog ι T) :=
  (Access.getNonFinal (R := All) (S := Nil) (A := Nil) cast (Or.inl trivial)).keeps
theorem Keeps.get {T : Type} (cast : Value ι → Option T) (k : Key) : Keeps (Hermes.get cast k : Prog ι T) :=
  (Access.get (R := All) (S := Nil) (A := Nil) cast trivial).keeps
theorem Keeps.getNoBoundary {T : Type} (cast : Value ι → Option T) (k : Key) : Keeps (Hermes.getNoBoundary cast k : Prog ι T) :=
  (Access.getNoBoundary (R := All) (S := Nil) (A := Nil) cast trivial).keeps
theorem Keeps.isSetFinal (k : Key) : Keeps (Hermes.isSetFinal k : Prog ι Bool) := (Access.isSetFinal (R := All) (S := Nil) (A := Nil) trivial).keeps
theorem Keeps.isSetFinalNoBoundary (k : Key) : Keeps (Hermes.isSetFinalNoBoundary k : Prog ι Bool) :=
  (Access.isSetFinalNoBoundary (R := All) (S := Nil) (A := Nil) trivial).keeps
theorem Keeps.isSet (k : Key) : Keeps (Hermes.isSet k : Prog ι Bool) := (Access.isSet (R := All) (S := Nil) (A := Nil) (Or.inl trivial)).keeps
theorem Keeps.set (k : Key) (v : Value ι) : Keeps (Hermes.set k v : Prog ι Unit) := (Access.set (R := Nil) (S := All) (A := Nil) v trivial).keeps
theorem Keeps.setBoundary (k : Key) (v : Value ι) : Keeps (Hermes.setBoundary k v : Prog ι Unit) :=
  (Access.setBoundary (R := Nil) (S := All) (A := Nil) v trivial).keeps
theorem Keeps.add (k : Key) (f : Fld ι) : Keeps (Hermes.add k (.field f) : Prog ι Unit) :=
  (Access.add (R := Nil) (S := Nil) (A := All) f trivial not_false).keeps
theorem Keeps.subtract (k : Key) (f : Fld ι) : Keeps (Hermes.subtract k (.field f) : Prog ι Unit) :=
  (Access.subtract (R := Nil) (S := Nil) (A := All) f trivial not_false).keeps
theorem Keeps.foldlM {γ : Type} {f : β → γ → Prog ι β} {l : List γ} (h : ∀ b c, Keeps (f b c)) (b : β) : Keeps (l.foldlM f b) := by
  induction l generalizing b with
  | nil => exact Keeps.pure b
  | cons c l ih => exact Keeps.bind (h b c) ih
theorem Keeps.forM {γ : Type} {f : γ → Prog ι PUnit} {l : List γ} (h : ∀ c, Keeps (f c)) : Keeps (l.forM f) := by
  induction l with
  | nil => exact Keeps.pure _
  | cons c l ih => exact Keeps.bind (h c) fun _ => ih

theorem Uses.left {p : Part} {m : Prog ι α} {f : α → Prog ι β} (h : Uses p k m) (hf : ∀ a, Keeps (f a)) : Uses p k (m >>= f) := by
  intro st b st' hc e
  obtain ⟨a, s, e1, e2⟩ := bind_ok e
  exact (hf a _ _ _ e2).2 p k (h st a s hc e1)

theorem Uses.right {p : Part} {m : Prog ι α} {f : α → Prog ι β} (hm : Keeps m) (h : ∀ a, Uses p k (f a)) : Uses p k (m >>= f) := by
  intro st b st' hc e
  obtain ⟨a, s, e1, e2⟩ := bind_ok e
  exact h a s b st' ((hm _ _ _ e1).1.trans hc) e2

theorem Uses.ite {p : Part} {c : Prop} {_ : Decidable c} {m n : Prog ι α} (h1 : c → Uses p k m) (h2 : ¬ c → Uses p k n) : Uses p k (if c then m else n) := by
  split
  · exact h1 ‹_›
  · exact h2 ‹_›

theorem Needs.left {p : Part} {m : Prog ι α} {f : α → Prog ι β} (h : Needs p k m) : Needs p k (m >>= f) := by
  intro st b st' hc e
  obtain ⟨a, s, e1, -⟩ := bind_ok e
  exact h st a s hc e1

theorem Needs.right {p : Part} {m : Prog ι α} {f : α → Prog ι β} (hm : Keeps m) (h : ∀ a, Needs p k (f a)) : Needs p k (m >>= f) := by
  intro st b st' hc e
  obtain ⟨a, s, e1, e2⟩ := bind_ok e
  have hk := (hm _ _ _ e1)
  have := h a s b st' (hk.1.trans hc) e2
  cases hu : p.used (marks st k) with
  | false => rfl
  | true => rw [hk.2 p k hu] at this; exact this

theorem Needs.ite {p : Part} {c : Prop} {_ : Decidable c} {m n : Prog ι α} (h1 : c → Needs p k m) (h2 : ¬ c → Needs p k n) :
    Needs p k (if c then m else n) := by
  split
  · exact h1 ‹_›
  · exact h2 ‹_›

/-! ## Access functions -/

theorem uses_get {α : Type} (p : Part) (cast : Value ι → Option α) : Uses p k (get cast k) := by
  intro st a st' hc e
  unfold get getNonFinal at e
  have hm : p.used (marks (st.markFinal k) k) = true := by
    cases p <;> simp [Part.used, marks, Store.markFinal, Store.update, hc]
  rcases hv : ((st.markFinal k).ent k).val with _ | v
  · rw [hv] at e; exact absurd (congrArg Prod.fst e) (by simp)
  · rw [hv] at e
    rcases hx : cast v with _ | t
    · simp only [hx] at e; exact absurd (congrArg Prod.fst e) (by simp)
    · simp only [hx] at e
      rw [← (Prod.mk.inj e).2]; exact hm

theorem uses_getNoBoundary {α : Type} (cast : Value ι → Option α) : Uses .interior k (getNoBoundary cast k) := by
  intro st a st' hc e
  unfold getNoBoundary getNonFinal at e
  have hm : Part.interior.used (marks (st.markFinalDomain k) k) = true := by
    simp [Part.used, marks, Store.markFinalDomain, Store.update, hc]
  rcases hv : ((st.markFinalDomain k).ent k).val with _ | v
  · rw [hv] at e; exact absurd (congrArg Prod.fst e) (by simp)
  · rw [hv] at e
    rcases hx : cast v with _ | t
    · simp only [hx] at e; exact absurd (congrArg Prod.fst e) (by simp)
    · simp only [hx] at e
      rw [← (Prod.mk.inj e).2]; exact hm

theorem uses_isSetFinal (p : Part) : Uses p k (isSetFinal k : Prog ι Bool) := by
  intro st a st' hc e
  unfold isSetFinal at e
  rw [← (Prod.mk.inj e).2]
  cases p <;> simp [Part.used, marks, Store.markFinal, Store.update, hc]

theorem uses_isSetFinalNoBoundary : Uses .interior k (isSetFinalNoBoundary k : Prog ι Bool) := by
  intro st a st' hc e
  unfold isSetFinalNoBoundary at e
  rw [← (Prod.mk.inj e).2]
  simp [Part.used, marks, Store.markFinalDomain, Store.update, hc]

theorem needs_set (p : Part) (v : Value ι) : Needs p k (set k v) := by
  intro st a st' hc e
  unfold Hermes.set at e
  by_cases h1 : (st.check && (st.ent k).final) = true
  · rw [if_pos h1] at e; exact absurd (congrArg Prod.fst e) (by simp)
  · rw [if_neg h1] at e
    by_cases h2 : (st.check && (st.ent k).finalDomain) = true
    · rw [if_pos h2] at e; exact absurd (congrArg Prod.fst e) (by simp)
    · simp only [hc, Bool.true_and, Bool.not_eq_true] at h1 h2
      cases p
      · exact h2
      · exact h1

theorem needs_setBoundary (v : Value ι) : Needs .whole k (setBoundary k v) := by
  intro st a st' hc e
  unfold Hermes.setBoundary at e
  by_cases h1 : (st.check && (st.ent k).final) = true
  · rw [if_pos h1] at e; exact absurd (congrArg Prod.fst e) (by simp)
  · simp only [hc, Bool.true_and, Bool.not_eq_true] at h1
    exact h1

theorem needs_add (p : Part) (v : Value ι) : Needs p k (add k v) := by
  intro st a st' hc e
  unfold Hermes.add at e
  split at e
  · exact needs_set p _ st a st' hc e
  · split at e
    · exact absurd (congrArg Prod.fst e) (by simp)
    · exact needs_set p _ st a st' hc e

theorem needs_subtract (p : Part) (v : Value ι) : Needs p k (subtract k v) := by
  intro st a st' hc e
  unfold Hermes.subtract at e
  split at e
  · exact needs_set p _ st a st' hc e
  · split at e
    · exact absurd (congrArg Prod.fst e) (by simp)
    · exact needs_set p _ st a st' hc e

/-! ## Tactics -/

macro "keeps" : tactic => `(tactic| repeat' first
  | with_reducible exact Keeps.pure _
  | with_reducible exact Keeps.throw _
  | with_reducible apply Keeps.throwIf
  | with_reducible exact Keeps.set _ _
  | with_reducible exact Keeps.setBoundary _ _
  | with_reducible exact Keeps.add _ _
  | with_reducible exact Keeps.subtract _ _
  | with_reducible exact Keeps.get _ _
  | with_reducible exact Keeps.getNoBoundary _ _
  | with_reducible exact Keeps.getNonFinal _ _
  | with_reducible exact Keeps.isSetFinal _
  | with_reducible exact Keeps.isSetFinalNoBoundary _
  | with_reducible exact Keeps.isSet _
  | with_reducible refine Keeps.bind ?_ fun _ => ?_
  | with_reducible refine Keeps.foldlM (fun _ _ => ?_) _
  | with_reducible refine Keeps.forM (fun _ => ?_)
  | with_reducible apply Keeps.ite)

macro "uses1" : tactic => `(tactic| first
  | exact uses_get _ _
  | exact uses_getNoBoundary _
  | exact uses_isSetFinal _
  | exact uses_isSetFinalNoBoundary)

/-- The first statement that uses the variable. -/
macro "uses" : tactic => `(tactic| repeat first
  | with_reducible exact uses_get _ _
  | with_reducible exact uses_getNoBoundary _
  | with_reducible exact uses_isSetFinal _
  | with_reducible exact uses_isSetFinalNoBoundary
  | with_reducible exact Uses.left (by uses1) fun _ => (by keeps)
  | with_reducible refine Uses.right (by keeps) fun _ => ?_)

macro "needs1" : tactic => `(tactic| first
  | exact needs_set _ _
  | exact needs_setBoundary _
  | exact needs_add _ _
  | exact needs_subtract _ _)

/-- The first statement that writes the variable. -/
macro "needs" : tactic => `(tactic| repeat first
  | with_reducible exact needs_set _ _
  | with_reducible exact needs_setBoundary _
  | with_reducible exact needs_add _ _
  | with_reducible exact needs_subtract _ _
  | with_reducible exact Needs.left (by needs1)
  | with_reducible refine Needs.right (by keeps) fun _ => ?_)

end Hermes.Order
