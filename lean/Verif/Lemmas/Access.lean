import Verif.Model.Closures
import Mathlib.Tactic.Abel

/-!
# What a program reads, sets and adds to

`Access R S A p`: the result of program `p` depends on the state only through the values of the variables `R` and `S` (and the marks of those it writes); it
changes only the variables `S`, to values that do not depend on anything else, and the variables `A`, by adding fields that do not depend on anything else;
and it marks only variables `R` as used.  The rules follow the syntax of programs.
-/

namespace Hermes.Order

variable {ι α β : Type}

/-- The state of the variable `k` and its marks. -/
abbrev valOf (st : Store Key (Value ι)) (k : Key) : Option (Value ι) := (st.ent k).val
def marks (st : Store Key (Value ι)) (k : Key) : Bool × Bool := ((st.ent k).final, (st.ent k).finalDomain)
/-- Marks that are added to marks. -/
def mark (x m : Bool × Bool) : Bool × Bool := (x.1 || m.1, x.2 || m.2)

theorem mark_none (x : Bool × Bool) : mark x (false, false) = x := by simp [mark]
theorem mark_mark (x m m' : Bool × Bool) : mark (mark x m) m' = mark x (mark m m') := by simp [mark, Bool.or_assoc]
theorem mark_comm (x m m' : Bool × Bool) : mark (mark x m) m' = mark (mark x m') m := by
  rw [mark_mark, mark_mark]; congr 1; simp [mark, Bool.or_comm]

/-- The value after a field was added; `none` if nothing was added. -/
def gain (o : Option (Value ι)) : Option (Fld ι) → Option (Value ι)
  | none => o
  | some x => some (.field (x + ((o.bind asField).getD 0)))

theorem gain_gain (x y : Option (Fld ι)) : ∃ z, (z = none ↔ x = none ∧ y = none) ∧ ∀ o, gain (gain o x) y = gain (ι := ι) o z := by
  cases x with
  | none => exact ⟨y, by simp, fun o => rfl⟩
  | some x =>
    cases y with
    | none => exact ⟨some x, by simp, fun o => rfl⟩
    | some y =>
      refine ⟨some (y + x), by simp, fun o => ?_⟩
      simp [gain, asField, add_assoc]

theorem gain_comm (o : Option (Value ι)) (x y : Option (Fld ι)) : gain (gain o x) y = gain (gain o y) x := by
  cases x <;> cases y <;> simp [gain, asField, add_left_comm]

/-- Two states that `p` cannot tell apart. -/
structure Alike (R S A : Key → Prop) (st1 st2 : Store Key (Value ι)) : Prop where
  check : st1.check = st2.check
  read : ∀ k, R k ∨ S k → valOf st1 k = valOf st2 k
  marks : ∀ k, S k ∨ A k → marks st1 k = marks st2 k

/-- The same happened on the way from `st1` to `st1'` and from `st2` to `st2'`. -/
structure Moved (R S A : Key → Prop) (st1 st1' st2 st2' : Store Key (Value ι)) : Prop where
  check1 : st1'.check = st1.check
  check2 : st2'.check = st2.check
  marks : ∀ k, ∃ m, (R k ∨ m = (false, false)) ∧ marks st1' k = mark (marks st1 k) m ∧ Order.marks st2' k = mark (Order.marks st2 k) m
  sets : ∀ k, S k → valOf st1' k = valOf st2' k
  adds : ∀ k, ¬ S k → ∃ x, (A k ∨ x = none) ∧ valOf st1' k = gain (valOf st1 k) x ∧ valOf st2' k = gain (valOf st2 k) x

def Access (R S A : Key → Prop) (p : Prog ι α) : Prop :=
  ∀ st1 st2, Alike R S A st1 st2 → ∀ a st1', p st1 = (.ok a, st1') → ∃ st2', p st2 = (.ok a, st2') ∧ Moved R S A st1 st1' st2 st2'

variable {R S A : Key → Prop} {st1 st1' st1'' st2 st2' st2'' : Store Key (Value ι)}

theorem Moved.refl (st1 st2 : Store Key (Value ι)) (h : ∀ k, S k → valOf st1 k = valOf st2 k) : Moved R S A st1 st1 st2 st2 :=
  ⟨rfl, rfl, fun _ => ⟨(false, false), Or.inr rfl, (mark_none _).symm, (mark_none _).symm⟩, h, fun _ _ => ⟨none, Or.inr rfl, rfl, rfl⟩⟩

theorem Moved.trans (h : Moved R S A st1 st1' st2 st2') (h' : Moved R S A st1' st1'' st2' st2'') : Moved R S A st1 st1'' st2 st2'' := by
  refine ⟨h'.check1.trans h.check1, h'.check2.trans h.check2, fun k => ?_, h'.sets, fun k hk => ?_⟩
  · obtain ⟨m, hm, e1, e2⟩ := h.marks k
    obtain ⟨m', hm', e1', e2'⟩ := h'.marks k
    refine ⟨mark m m', ?_, by rw [e1', e1, mark_mark], by rw [e2', e2, mark_mark]⟩
    rcases hm with hm | rfl
    · exact Or.inl hm
    · rcases hm' with hm' | rfl
      · exact Or.inl hm'
      · exact Or.inr rfl
  · obtain ⟨x, hx, e1, e2⟩ := h.adds k hk
    obtain ⟨y, hy, e1', e2'⟩ := h'.adds k hk
    obtain ⟨z, hz, ez⟩ := gain_gain (ι := ι) x y
    refine ⟨z, ?_, by rw [e1', e1, ez], by rw [e2', e2, ez]⟩
    rcases hx with hx | hx
    · exact Or.inl hx
    · rcases hy with hy | hy
      · exact Or.inl hy
      · exact Or.inr (hz.2 ⟨hx, hy⟩)

theorem Alike.moved (h : Alike R S A st1 st2) (h' : Moved R S A st1 st1' st2 st2') : Alike R S A st1' st2' := by
  refine ⟨h'.check1.trans (h.check.trans h'.check2.symm), fun k hk => ?_, fun k hk => ?_⟩
  · by_cases hs : S k
    · exact h'.sets k hs
    · obtain ⟨x, -, e1, e2⟩ := h'.adds k hs
      rw [e1, e2, h.read k hk]
  · obtain ⟨m, -, e1, e2⟩ := h'.marks k
    rw [e1, e2, h.marks k hk]

/-! ## The rules -/

theorem Access.pure (a : α) : Access (ι := ι) R S A (Pure.pure a : Prog ι α) := by
  intro st1 st2 h b st1' e
  obtain ⟨rfl, rfl⟩ : a = b ∧ st1 = st1' := by
    simpa [Pure.pure, M.pure] using e
  exact ⟨st2, rfl, Moved.refl _ _ fun k hk => h.read k (Or.inr hk)⟩

theorem Access.throw (e : Err) : Access (ι := ι) R S A (M.throw e : Prog ι α) := by
  intro st1 st2 h b st1' h1
  exact absurd (congrArg Prod.fst h1) (by simp [M.throw])

theorem Access.bind {p : Prog ι α} {f : α → Prog ι β} (hp : Access R S A p) (hf : ∀ a, Access R S A (f a)) : Access R S A (p >>= f) := by
  intro st1 st2 h b st1'' e
  change M.bind p f st1 = _ at e
  unfold M.bind at e
  rcases hr : p st1 with ⟨r, st1'⟩
  rw [hr] at e
  cases r with
  | error x => exact absurd (congrArg Prod.fst e) (by simp)
  | ok a =>
    obtain ⟨st2', e2, mv⟩ := hp st1 st2 h a st1' hr
    obtain ⟨st2'', e3, mv'⟩ := hf a st1' st2' (h.moved mv) b st1'' e
    refine ⟨st2'', ?_, mv.trans mv'⟩
    show M.bind p f st2 = _
    unfold M.bind
    rw [e2]
    exact e3

theorem Access.ite {c : Prop} [Decidable c] {p q : Prog ι α} (hp : c → Access R S A p) (hq : ¬ c → Access R S A q) : Access R S A (if c then p else q) := by
  split
  · exact hp ‹_›
  · exact hq ‹_›

theorem Access.mono {R' S' A' : Key → Prop} {p : Prog ι α} (h : Access R S A p) (hR : ∀ k, R k → R' k) (hS : ∀ k, S k ↔ S' k) (hA : ∀ k, A k → A' k) :
    Access R' S' A' p := by
  intro st1 st2 hl a st1' e
  obtain ⟨st2', e2, mv⟩ := h st1 st2 ⟨hl.check, fun k hk => hl.read k (hk.imp (hR k) (hS k).1), fun k hk => hl.marks k (hk.imp (hS k).1 (hA k))⟩ a st1' e
  refine ⟨st2', e2, mv.check1, mv.check2, fun k => ?_, fun k hk => mv.sets k ((hS k).2 hk), fun k hk => ?_⟩
  · obtain ⟨m, hm, e⟩ := mv.marks k
    exact ⟨m, hm.imp (hR k) id, e⟩
  · obtain ⟨x, hx, e⟩ := mv.adds k fun h => hk ((hS k).1 h)
    exact ⟨x, hx.imp (hA k) id, e⟩

theorem Access.foldlM {γ : Type} {f : β → γ → Prog ι β} {l : List γ} (h : ∀ b, ∀ c ∈ l, Access R S A (f b c)) (b : β) : Access R S A (l.foldlM f b) := by
  induction l generalizing b with
  | nil => exact Access.pure b
  | cons c l ih => exact Access.bind (h b c (by simp)) fun b' => ih (fun b c hc => h b c (by simp [hc])) b'

theorem Access.forM {γ : Type} {f : γ → Prog ι PUnit} {l : List γ} (h : ∀ c ∈ l, Access R S A (f c)) : Access R S A (l.forM f) := by
  induction l with
  | nil => exact Access.pure _
  | cons c l ih => exact Access.bind (h c (by simp)) fun _ => ih fun c hc => h c (by simp [hc])

theorem Access.throwIf (c : Prop) {_ : Decidable c} : Access (ι := ι) R S A (Hermes.throwIf c) := by
  unfold Hermes.throwIf
  exact Access.ite (fun _ => Access.throw _) fun _ => Access.pure _

/-- Reading with a mark `m`. -/
theorem moved_mark {k : Key} (hk : R k) {m : Bool × Bool} (hl : Alike R S A st1 st2)
    (h1 : st1'.check = st1.check) (h2 : st2'.check = st2.check)
    (v1 : ∀ j, valOf st1' j = valOf st1 j) (v2 : ∀ j, valOf st2' j = valOf st2 j)
    (m1 : ∀ j, marks st1' j = if j = k then mark (marks st1 j) m else marks st1 j)
    (m2 : ∀ j, marks st2' j = if j = k then mark (marks st2 j) m else marks st2 j) : Moved R S A st1 st1' st2 st2' := by
  refine ⟨h1, h2, fun j => ?_, fun j hj => ?_, fun j _ => ⟨none, Or.inr rfl, v1 j, v2 j⟩⟩
  · by_cases e : j = k
    · subst e
      exact ⟨m, Or.inl hk, by rw [m1, if_pos rfl], by rw [m2, if_pos rfl]⟩
    · exact ⟨(false, false), Or.inr rfl, by rw [m1, if_neg e, mark_none], by rw [m2, if_neg e, mark_none]⟩
  · rw [v1, v2]; exact hl.read j (Or.inr hj)

theorem markFinal_spec (st : Store Key (Value ι)) (k : Key) : (st.markFinal k).check = st.check ∧ (∀ j, valOf (st.markFinal k) j = valOf st j) ∧
    ∀ j, marks (st.markFinal k) j = if j = k then mark (marks st j) (st.check, st.check) else marks st j := by
  unfold Store.markFinal
  by_cases h : st.check
  · rw [if_pos h]
    refine ⟨rfl, fun j => ?_, fun j => ?_⟩
    · unfold valOf Store.update
      dsimp only
      split
      · subst_vars; rfl
      · rfl
    · unfold marks Store.update mark
      dsimp only
      split
      · simp [h]
      · rfl
  · rw [if_neg h]
    refine ⟨rfl, fun _ => rfl, fun j => ?_⟩
    have : st.check = false := by simpa using h
    rw [this, mark_none, ite_self]

theorem markFinalDomain_spec (st : Store Key (Value ι)) (k : Key) : (st.markFinalDomain k).check = st.check ∧
    (∀ j, valOf (st.markFinalDomain k) j = valOf st j) ∧
    ∀ j, marks (st.markFinalDomain k) j = if j = k then mark (marks st j) (false, st.check) else marks st j := by
  unfold Store.markFinalDomain
  by_cases h : st.check
  · rw [if_pos h]
    refine ⟨rfl, fun j => ?_, fun j => ?_⟩
    · unfold valOf Store.update
      dsimp only
      split
      · subst_vars; rfl
      · rfl
    · unfold marks Store.update mark
      dsimp only
      split
      · subst_vars; simp [h]
      · rfl
  · rw [if_neg h]
    refine ⟨rfl, fun _ => rfl, fun j => ?_⟩
    have : st.check = false := by simpa using h
    rw [this, mark_none, ite_self]

theorem getNonFinal_ok {T : Type} {cast : Value ι → Option T} {k : Key} {st st' : Store Key (Value ι)} {t : T}
    (h : getNonFinal cast k st = (.ok t, st')) : st' = st ∧ (valOf st k).bind cast = some t := by
  unfold getNonFinal at h
  unfold valOf
  cases hv : (st.ent k).val with
  | none => rw [hv] at h; exact absurd (congrArg Prod.fst h) (by simp)
  | some v =>
    rw [hv] at h
    dsimp only at h
    cases hc : cast v with
    | none => rw [hc] at h; exact absurd (congrArg Prod.fst h) (by simp)
    | some t' =>
      rw [hc] at h
      simp only [Prod.mk.injEq, Except.ok.injEq] at h
      exact ⟨h.2.symm, by rw [Option.bind_some, hc, h.1]⟩

theorem getNonFinal_run {T : Type} {cast : Value ι → Option T} {k : Key} {st : Store Key (Value ι)} {t : T}
    (h : (valOf st k).bind cast = some t) : getNonFinal cast k st = (.ok t, st) := by
  unfold getNonFinal
  unfold valOf at h
  cases hv : (st.ent k).val with
  | none => rw [hv] at h; exact absurd h (by simp)
  | some v =>
    rw [hv, Option.bind_some] at h
    simp [h]

theorem Access.getNonFinal {T : Type} (cast : Value ι → Option T) {k : Key} (hk : R k ∨ S k) : Access R S A (Hermes.getNonFinal cast k : Prog ι T) := by
  intro st1 st2 h t st1' e
  obtain ⟨rfl, e2⟩ := getNonFinal_ok e
  exact ⟨st2, getNonFinal_run (by rw [← h.read k hk]; exact e2), Moved.refl _ _ fun k hk => h.read k (Or.inr hk)⟩

theorem Access.get {T : Type} (cast : Value ι → Option T) {k : Key} (hk : R k) : Access R S A (Hermes.get cast k : Prog ι T) := by
  intro st1 st2 h t st1' e
  unfold Hermes.get at e
  obtain ⟨rfl, e2⟩ := getNonFinal_ok e
  obtain ⟨c1, v1, m1⟩ := markFinal_spec st1 k
  obtain ⟨c2, v2, m2⟩ := markFinal_spec st2 k
  refine ⟨st2.markFinal k, ?_, moved_mark hk h c1 c2 v1 v2 m1 (by rw [h.check]; exact m2)⟩
  unfold Hermes.get
  apply getNonFinal_run
  rw [v2, ← h.read k (Or.inl hk), ← v1]
  exact e2

theorem Access.getNoBoundary {T : Type} (cast : Value ι → Option T) {k : Key} (hk : R k) : Access R S A (Hermes.getNoBoundary cast k : Prog ι T) := by
  intro st1 st2 h t st1' e
  unfold Hermes.getNoBoundary at e
  obtain ⟨rfl, e2⟩ := getNonFinal_ok e
  obtain ⟨c1, v1, m1⟩ := markFinalDomain_spec st1 k
  obtain ⟨c2, v2, m2⟩ := markFinalDomain_spec st2 k
  refine ⟨st2.markFinalDomain k, ?_, moved_mark hk h c1 c2 v1 v2 m1 (by rw [h.check]; exact m2)⟩
  unfold Hermes.getNoBoundary
  apply getNonFinal_run
  rw [v2, ← h.read k (Or.inl hk), ← v1]
  exact e2

theorem Access.isSetFinal {k : Key} (hk : R k) : Access (ι := ι) R S A (Hermes.isSetFinal k : Prog ι Bool) := by
  intro st1 st2 h t st1' e
  unfold Hermes.isSetFinal at e
  obtain ⟨c1, v1, m1⟩ := markFinal_spec st1 k
  obtain ⟨c2, v2, m2⟩ := markFinal_spec st2 k
  simp only [Prod.mk.injEq, Except.ok.injEq] at e
  obtain ⟨e1, rfl⟩ := e
  refine ⟨st2.markFinal k, ?_, moved_mark hk h c1 c2 v1 v2 m1 (by rw [h.check]; exact m2)⟩
  unfold Hermes.isSetFinal
  have : valOf (st2.markFinal k) k = valOf (st1.markFinal k) k := by rw [v2, v1, h.read k (Or.inl hk)]
  dsimp only
  rw [← e1]
  exact congrArg (fun x => (Except.ok (Option.isSome x), st2.markFinal k)) this

theorem Access.isSetFinalNoBoundary {k : Key} (hk : R k) : Access (ι := ι) R S A (Hermes.isSetFinalNoBoundary k : Prog ι Bool) := by
  intro st1 st2 h t st1' e
  unfold Hermes.isSetFinalNoBoundary at e
  obtain ⟨c1, v1, m1⟩ := markFinalDomain_spec st1 k
  obtain ⟨c2, v2, m2⟩ := markFinalDomain_spec st2 k
  simp only [Prod.mk.injEq, Except.ok.injEq] at e
  obtain ⟨e1, rfl⟩ := e
  refine ⟨st2.markFinalDomain k, ?_, moved_mark hk h c1 c2 v1 v2 m1 (by rw [h.check]; exact m2)⟩
  unfold Hermes.isSetFinalNoBoundary
  have : valOf (st2.markFinalDomain k) k = valOf (st1.markFinalDomain k) k := by rw [v2, v1, h.read k (Or.inl hk)]
  dsimp only
  rw [← e1]
  exact congrArg (fun x => (Except.ok (Option.isSome x), st2.markFinalDomain k)) this

theorem Access.isSet {k : Key} (hk : R k ∨ S k) : Access (ι := ι) R S A (Hermes.isSet k : Prog ι Bool) := by
  intro st1 st2 h t st1' e
  unfold Hermes.isSet at e
  simp only [Prod.mk.injEq, Except.ok.injEq] at e
  obtain ⟨e1, rfl⟩ := e
  refine ⟨st2, ?_, Moved.refl _ _ fun k hk => h.read k (Or.inr hk)⟩
  unfold Hermes.isSet
  have : valOf st2 k = valOf st1 k := (h.read k hk).symm
  rw [← e1]
  exact congrArg (fun x => (Except.ok (Option.isSome x), st2)) this

theorem force_spec (st : Store Key (Value ι)) (k : Key) (v : Value ι) : (st.force k v).check = st.check ∧
    (∀ j, valOf (st.force k v) j = if j = k then some v else valOf st j) ∧ ∀ j, marks (st.force k v) j = marks st j := by
  refine ⟨rfl, fun j => ?_, fun j => ?_⟩
  · unfold valOf Store.force Store.update
    dsimp only
    split <;> rfl
  · unfold marks Store.force Store.update
    dsimp only
    split
    · subst_vars; rfl
    · rfl

theorem set_ok' {k : Key} {v : Value ι} {st st' : Store Key (Value ι)} {u : Unit} (h : set k v st = (.ok u, st')) :
    st' = st.force k v ∧ (st.check = true → marks st k = (false, false)) := by
  unfold set at h
  split at h
  · exact absurd (congrArg Prod.fst h) (by simp)
  · rename_i h1
    split at h
    · exact absurd (congrArg Prod.fst h) (by simp)
    · rename_i h2
      split at h
      · exact absurd (congrArg Prod.fst h) (by simp)
      · simp only [Prod.mk.injEq, true_and] at h
        refine ⟨h.symm, fun hc => ?_⟩
        rw [hc] at h1 h2
        simp only [Bool.true_and, Bool.not_eq_true] at h1 h2
        simp [marks, h1, h2]

theorem set_run {k : Key} {v : Value ι} {st : Store Key (Value ι)} (h : st.check = true → marks st k = (false, false)) :
    set k v st = (.ok (), st.force k v) := by
  unfold set
  have hm : (st.check && (st.ent k).final) = false ∧ (st.check && (st.ent k).finalDomain) = false := by
    cases hc : st.check with
    | false => simp
    | true =>
      have := h hc
      unfold marks at this
      rw [Prod.mk.injEq] at this
      simp [this.1, this.2]
  rw [hm.1, hm.2]
  simp [StoreVal.invalid]

theorem Access.set {k : Key} (v : Value ι) (hk : S k) : Access R S A (Hermes.set k v : Prog ι Unit) := by
  intro st1 st2 h t st1' e
  obtain ⟨rfl, hm⟩ := set_ok' e
  obtain ⟨c1, v1, m1⟩ := force_spec st1 k v
  obtain ⟨c2, v2, m2⟩ := force_spec st2 k v
  refine ⟨st2.force k v, set_run fun hc => ?_, c1, c2, fun j => ?_, fun j hj => ?_, fun j hj => ?_⟩
  · rw [← h.marks k (Or.inl hk)]
    exact hm (h.check.trans hc)
  · exact ⟨(false, false), Or.inr rfl, by rw [m1, mark_none], by rw [m2, mark_none]⟩
  · rw [v1, v2]
    split
    · rfl
    · exact h.read j (Or.inr hj)
  · have : j ≠ k := fun e => hj (e ▸ hk)
    exact ⟨none, Or.inr rfl, by rw [v1, if_neg this]; rfl, by rw [v2, if_neg this]; rfl⟩

theorem Access.setBoundary {k : Key} (v : Value ι) (hk : S k) : Access R S A (Hermes.setBoundary k v : Prog ι Unit) := by
  intro st1 st2 h t st1' e
  unfold Hermes.setBoundary at e
  split at e
  · exact absurd (congrArg Prod.fst e) (by simp)
  · rename_i hc
    simp only [Prod.mk.injEq, true_and] at e
    subst e
    obtain ⟨c1, v1, m1⟩ := force_spec st1 k v
    obtain ⟨c2, v2, m2⟩ := force_spec st2 k v
    have hm := h.marks k (Or.inl hk)
    unfold Order.marks at hm
    rw [Prod.mk.injEq] at hm
    refine ⟨st2.force k v, ?_, c1, c2, fun j => ?_, fun j hj => ?_, fun j hj => ?_⟩
    · unfold Hermes.setBoundary
      rw [← hm.1, ← h.check, if_neg hc]
    · exact ⟨(false, false), Or.inr rfl, by rw [m1, mark_none], by rw [m2, mark_none]⟩
    · rw [v1, v2]
      split
      · rfl
      · exact h.read j (Or.inr hj)
    · have : j ≠ k := fun e => hj (e ▸ hk)
      exact ⟨none, Or.inr rfl, by rw [v1, if_neg this]; rfl, by rw [v2, if_neg this]; rfl⟩

theorem add_eq (k : Key) (f : Fld ι) (st : Store Key (Value ι)) :
    Hermes.add k (.field f) st = Hermes.set k (.field (f + (((valOf st k).bind asField).getD 0))) st := by
  unfold Hermes.add valOf
  cases hv : (st.ent k).val with
  | none => simp
  | some v => cases v <;> rfl

theorem subtract_eq (k : Key) (f : Fld ι) (st : Store Key (Value ι)) :
    Hermes.subtract k (.field f) st = Hermes.set k (.field (-f + (((valOf st k).bind asField).getD 0))) st := by
  unfold Hermes.subtract valOf
  cases hv : (st.ent k).val with
  | none => simp [StoreVal.neg]
  | some v =>
    cases v with
    | real x =>
      show Hermes.set k (.field ((fun _ => x) - f)) st = Hermes.set k (.field (-f + fun _ => x)) st
      rw [neg_add_eq_sub]
    | field g =>
      show Hermes.set k (.field (g - f)) st = Hermes.set k (.field (-f + g)) st
      rw [neg_add_eq_sub]

theorem access_gain {k : Key} {p : Prog ι Unit} (f : Fld ι) (hp : ∀ st, p st = Hermes.set k (.field (f + (((valOf st k).bind asField).getD 0))) st)
    (hk : A k) (hs : ¬ S k) : Access R S A p := by
  intro st1 st2 h t st1' e
  rw [hp] at e
  obtain ⟨rfl, hm⟩ := set_ok' e
  obtain ⟨c1, v1, m1⟩ := force_spec st1 k (.field (f + (((valOf st1 k).bind asField).getD 0)))
  obtain ⟨c2, v2, m2⟩ := force_spec st2 k (.field (f + (((valOf st2 k).bind asField).getD 0)))
  refine ⟨_, (hp st2).trans (set_run fun hc => ?_), c1, c2, fun j => ?_, fun j hj => ?_, fun j hj => ?_⟩
  · rw [← h.marks k (Or.inr hk)]
    exact hm (h.check.trans hc)
  · exact ⟨(false, false), Or.inr rfl, by rw [m1, mark_none], by rw [m2, mark_none]⟩
  · have : j ≠ k := fun e => hs (e ▸ hj)
    rw [v1, v2, if_neg this, if_neg this]
    exact h.read j (Or.inr hj)
  · by_cases ej : j = k
    · subst ej
      exact ⟨some f, Or.inl hk, by rw [v1, if_pos rfl]; rfl, by rw [v2, if_pos rfl]; rfl⟩
    · exact ⟨none, Or.inr rfl, by rw [v1, if_neg ej]; rfl, by rw [v2, if_neg ej]; rfl⟩

theorem Access.add {k : Key} (f : Fld ι) (hk : A k) (hs : ¬ S k) : Access R S A (Hermes.add k (.field f) : Prog ι Unit) :=
  access_gain f (add_eq k f) hk hs

theorem Access.subtract {k : Key} (f : Fld ι) (hk : A k) (hs : ¬ S k) : Access R S A (Hermes.subtract k (.field f) : Prog ι Unit) :=
  access_gain (-f) (subtract_eq k f) hk hs

/-! ## Two programs -/

/-- Neither writes what the other reads or sets. -/
structure Indep (R S A R' S' A' : Key → Prop) : Prop where
  left : ∀ k, S k → ¬ R' k ∧ ¬ S' k ∧ ¬ A' k
  right : ∀ k, S' k → ¬ R k ∧ ¬ S k ∧ ¬ A k
  addLeft : ∀ k, A k → ¬ R' k
  addRight : ∀ k, A' k → ¬ R k

theorem Indep.symm {R S A R' S' A' : Key → Prop} (h : Indep R S A R' S' A') : Indep R' S' A' R S A := ⟨h.right, h.left, h.addRight, h.addLeft⟩

theorem Moved.alike {R S A R' S' A' : Key → Prop} (h : Moved R S A st1 st1' st2 st2') (hi : Indep R S A R' S' A') : Alike R' S' A' st1' st1 := by
  have key : ∀ k, R' k ∨ S' k → valOf st1' k = valOf st1 k := by
    intro k hk
    have hs : ¬ S k := fun e => hk.elim (hi.left k e).1 (hi.left k e).2.1
    obtain ⟨x, hx, e, -⟩ := h.adds k hs
    rcases hx with hx | rfl
    · exact (hk.elim (hi.addLeft k hx) fun e => (hi.right k e).2.2 hx).elim
    · exact e
  refine ⟨h.check1, key, fun k hk => ?_⟩
  obtain ⟨m, hm, e, -⟩ := h.marks k
  rcases hm with hm | rfl
  · exact (hk.elim (fun e => (hi.right k e).1 hm) fun e => hi.addRight k e hm).elim
  · rw [e, mark_none]

theorem store_ext {s t : Store Key (Value ι)} (hc : s.check = t.check) (hv : ∀ k, valOf s k = valOf t k) (hm : ∀ k, marks s k = marks t k) : s = t := by
  cases s with
  | mk c e =>
    cases t with
    | mk c' e' =>
      simp only at hc
      subst hc
      congr 1
      funext k
      have h1 := hv k
      have h2 := hm k
      unfold valOf at h1
      unfold marks at h2
      rw [Prod.mk.injEq] at h2
      dsimp only at h1 h2
      cases he : e k
      cases he' : e' k
      rw [he, he'] at h1 h2
      simp only at h1 h2
      rw [h1, h2.1, h2.2]

/-- Programs that do not write what the other reads or sets can be exchanged. -/
theorem exchange {R S A R' S' A' : Key → Prop} (hi : Indep R S A R' S' A') {p : Prog ι α} {q : Prog ι β} (hp : Access R S A p) (hq : Access R' S' A' q)
    {st s1 s2 : Store Key (Value ι)} {a : α} {b : β} (h1 : p st = (.ok a, s1)) (h2 : q s1 = (.ok b, s2)) :
    ∃ t1, q st = (.ok b, t1) ∧ p t1 = (.ok a, s2) := by
  obtain ⟨s1', e, mv0⟩ := hp st st ⟨rfl, fun _ _ => rfl, fun _ _ => rfl⟩ a s1 h1
  obtain ⟨t1, e1, mv1⟩ := hq s1 st (mv0.alike hi) b s2 h2
  obtain ⟨t1', e1', mv1'⟩ := hq st st ⟨rfl, fun _ _ => rfl, fun _ _ => rfl⟩ b t1 e1
  have al := mv1'.alike hi.symm
  obtain ⟨t2, e2, mv2⟩ := hp st t1 ⟨al.check.symm, fun k hk => (al.read k hk).symm, fun k hk => (al.marks k hk).symm⟩ a s1 h1
  refine ⟨t1, e1, ?_⟩
  rw [e2]
  congr 1
  refine store_ext ?_ (fun k => ?_) (fun k => ?_)
  · rw [mv2.check2, mv1.check2, mv1.check1, mv2.check1]
  · by_cases hs : S k
    · obtain ⟨x, hx, ex, -⟩ := mv1.adds k (hi.left k hs).2.1
      rcases hx with hx | rfl
      · exact absurd hx (hi.left k hs).2.2
      · rw [← mv2.sets k hs]; exact ex.symm
    · obtain ⟨x, hx, ex1, ex2⟩ := mv2.adds k hs
      by_cases hs' : S' k
      · rcases hx with hx | rfl
        · exact absurd hx (hi.right k hs').2.2
        · rw [mv1.sets k hs', ex2]; rfl
      · obtain ⟨y, -, ey1, ey2⟩ := mv1.adds k hs'
        rw [ex2, ey2, ey1, ex1, gain_comm]
  · obtain ⟨m, -, em1, em2⟩ := mv2.marks k
    obtain ⟨m', -, en1, en2⟩ := mv1.marks k
    rw [em2, en2, en1, em1, mark_comm]

end Hermes.Order
