import Verif.Lemmas.Marks
import Verif.Model.Scheduler
import Verif.Props.Closures

/-!
# The order of the components (C82)

A component declares which variables it reads, sets and adds to.  Two components are in conflict if one of them writes what the other reads or sets.
-/

namespace Hermes.Order

variable {ι I : Type}

/-! ## The specification -/

/-- The `transform` of a component and what it says about itself. -/
structure Component (ι : Type) where
  transform : Prog ι Unit
  reads : Key → Prop
  sets : Key → Prop
  adds : Key → Prop

/-- What the component says about itself is true: see `Access`. -/
def Component.Declared (c : Component ι) : Prop := Access c.reads c.sets c.adds c.transform

/-- One of them writes what the other reads or sets.  (Two components that add to the same variable are not in conflict.) -/
def Conflict (c d : Component ι) : Prop := ∃ k,
  (c.sets k ∧ (d.reads k ∨ d.sets k ∨ d.adds k)) ∨ (d.sets k ∧ (c.reads k ∨ c.sets k ∨ c.adds k)) ∨ (c.adds k ∧ d.reads k) ∨ (d.adds k ∧ c.reads k)

/-- `i` comes before `j` in the list. -/
def Before (l : List I) (i j : I) : Prop := [i, j].Sublist l

/-- The components for the scheduler of C02, with empty `finally`. -/
def Component.scheduled (c : Component ι) : Comp (Store Key (Value ι)) where
  transform s := match c.transform s with
    | (.ok _, s') => .ok s'
    | (.error _, s') => .throw s'
  final s := .ok s
  outputVars s := .ok s
  restartVars s := .ok s
  precon s := .ok s

/-- Running the components in the order of the list, from the state `st` to the state `st'`. -/
def Runs (comp : I → Component ι) (l : List I) (st st' : Store Key (Value ι)) : Prop :=
  schedulerTransform (l.map fun i => (comp i).scheduled) st = .ok st'

/-! ## Proofs -/

theorem runs_iff (comp : I → Component ι) (l : List I) (st st' : Store Key (Value ι)) :
    Runs comp l st st' ↔ runLoop Comp.transform (l.map fun i => (comp i).scheduled) st = .ok st' := by
  unfold Runs schedulerTransform
  have hf : ∀ (l : List I) (s : Store Key (Value ι)), runLoop Comp.final (l.map fun i => (comp i).scheduled) s = .ok s := by
    intro l
    induction l with
    | nil => intro s; rfl
    | cons i l ih => intro s; exact ih s
  cases h : runLoop Comp.transform (l.map fun i => (comp i).scheduled) st with
  | ok s => simp only [hf]
  | throw s => simp

theorem runs_nil (comp : I → Component ι) (st st' : Store Key (Value ι)) : Runs comp [] st st' ↔ st = st' := by
  rw [runs_iff]
  constructor
  · intro h; exact (Outcome.ok.inj h)
  · rintro rfl; rfl

theorem runs_cons (comp : I → Component ι) (i : I) (l : List I) (st st' : Store Key (Value ι)) :
    Runs comp (i :: l) st st' ↔ ∃ s, (comp i).transform st = (.ok (), s) ∧ Runs comp l s st' := by
  simp only [runs_iff, List.map_cons]
  rw [runLoop]
  have hc : (comp i).scheduled.transform st = match (comp i).transform st with
    | (.ok _, s') => Outcome.ok s'
    | (.error _, s') => Outcome.throw s' := rfl
  rw [hc]
  rcases h : (comp i).transform st with ⟨r, s⟩
  cases r with
  | ok u =>
    constructor
    · intro hr; exact ⟨s, rfl, hr⟩
    · rintro ⟨s', e, hr⟩
      simp only [Prod.mk.injEq, true_and] at e
      subst e; exact hr
  | error e =>
    constructor
    · intro hr; exact absurd hr (by simp)
    · rintro ⟨s', e, hr⟩
      exact absurd (congrArg Prod.fst e) (by simp)

theorem indep_of_not_conflict {c d : Component ι} (h : ¬ Conflict c d) : Indep c.reads c.sets c.adds d.reads d.sets d.adds := by
  have key : ∀ k, _ := fun k hk => h ⟨k, hk⟩
  constructor <;> intro k hk
  · exact ⟨fun e => key k (Or.inl ⟨hk, Or.inl e⟩), fun e => key k (Or.inl ⟨hk, Or.inr (Or.inl e)⟩), fun e => key k (Or.inl ⟨hk, Or.inr (Or.inr e)⟩)⟩
  · exact ⟨fun e => key k (Or.inr (Or.inl ⟨hk, Or.inl e⟩)), fun e => key k (Or.inr (Or.inl ⟨hk, Or.inr (Or.inl e)⟩)),
      fun e => key k (Or.inr (Or.inl ⟨hk, Or.inr (Or.inr e)⟩))⟩
  · exact fun e => key k (Or.inr (Or.inr (Or.inl ⟨hk, e⟩)))
  · exact fun e => key k (Or.inr (Or.inr (Or.inr ⟨hk, e⟩)))

/-- A component that is in conflict with none of those before it can be moved to the front. -/
theorem move_front {comp : I → Component ι} (hd : ∀ i, (comp i).Declared) {i : I} {a b : List I} (h : ∀ j ∈ a, ¬ Conflict (comp i) (comp j))
    {st st' : Store Key (Value ι)} (hr : Runs comp (i :: a ++ b) st st') : Runs comp (a ++ i :: b) st st' := by
  induction a generalizing st with
  | nil => exact hr
  | cons j a ih =>
    rw [List.cons_append, List.cons_append, runs_cons] at hr
    obtain ⟨s1, h1, hr⟩ := hr
    rw [runs_cons] at hr
    obtain ⟨s2, h2, hr⟩ := hr
    obtain ⟨t1, e1, e2⟩ := exchange (indep_of_not_conflict (h j (by simp))) (hd i) (hd j) h1 h2
    rw [List.cons_append, runs_cons]
    exact ⟨t1, e1, ih (fun j hj => h j (by simp [hj])) (by rw [List.cons_append, runs_cons]; exact ⟨s2, e2, hr⟩)⟩

/-- **C82**: an order of the components that keeps the order of every two components in conflict runs if the other runs, and gives the same state. -/
theorem order_irrelevant {comp : I → Component ι} (hd : ∀ i, (comp i).Declared) {l l' : List I} (hn : l.Nodup) (hp : l'.Perm l)
    (hb : ∀ i j, Conflict (comp i) (comp j) → Before l i j → Before l' i j) {st st' : Store Key (Value ι)} (hr : Runs comp l st st') :
    Runs comp l' st st' := by
  induction l generalizing l' st with
  | nil =>
    rw [List.perm_nil.1 hp]; exact hr
  | cons i l ih =>
    obtain ⟨a, b, rfl⟩ := List.append_of_mem (hp.symm.subset (List.mem_cons_self (a := i) (l := l)))
    have hp' : (a ++ b).Perm l := (List.perm_cons i).1 (List.perm_middle.symm.trans hp)
    have hn' : (a ++ i :: b).Nodup := hp.nodup_iff.2 hn
    have hia : i ∉ a := fun h => (List.nodup_append.1 hn').2.2 i h i (by simp) rfl
    have hib : i ∉ b := (List.nodup_cons.1 (List.nodup_append.1 hn').2.1).1
    refine move_front hd (fun j hj hc => ?_) ?_
    · -- `j` comes before `i` in `l'` and after it in `l`
      have h1 : Before (i :: l) i j := by
        have : j ∈ l := hp'.subset (by simp [hj])
        exact (List.singleton_sublist.2 this).cons_cons i
      have h2 : Before (a ++ i :: b) i j := hb i j hc h1
      have hji : [j, i].Sublist (a ++ i :: b) := (List.singleton_sublist.2 hj).append (List.singleton_sublist.2 (by simp))
      have hne : i ≠ j := fun e => hia (e ▸ hj)
      -- both orders in a list without repetition
      have : [i, j].Sublist b ∨ j ∈ b := by
        unfold Before at h2
        obtain ⟨x, y, hxy, hx, hy⟩ := List.sublist_append_iff.1 h2
        cases x with
        | nil =>
          rw [List.nil_append] at hxy
          subst hxy
          right
          rcases List.sublist_cons_iff.1 hy with h | ⟨r, hr, h⟩
          · exact absurd (h.subset (by simp)) hib
          · obtain ⟨-, rfl⟩ := List.cons.inj hr
            exact h.subset (by simp)
        | cons z x =>
          obtain ⟨rfl, -⟩ := List.cons.inj hxy
          exact absurd (hx.subset (by simp)) hia
      rcases this with h | h
      · exact hib (h.subset (by simp))
      · exact (List.nodup_append.1 hn').2.2 j hj j (by simp [h]) rfl
    · rw [List.cons_append, runs_cons]
      rw [runs_cons] at hr
      obtain ⟨s, h1, hr⟩ := hr
      refine ⟨s, h1, ih (List.nodup_cons.1 hn).2 hp' (fun j k hc hjk => ?_) hr⟩
      have h2 : Before (a ++ i :: b) j k := hb j k hc (hjk.cons i)
      have hj : j ≠ i := fun e => (List.nodup_cons.1 hn).1 (e ▸ hjk.subset (by simp))
      have hk : k ≠ i := fun e => (List.nodup_cons.1 hn).1 (e ▸ hjk.subset (by simp))
      unfold Before at h2 ⊢
      obtain ⟨x, y, hxy, hx, hy⟩ := List.sublist_append_iff.1 h2
      rw [hxy]
      refine hx.append ?_
      rcases List.sublist_cons_iff.1 hy with h | ⟨r, hr, h⟩
      · exact h
      · exfalso
        have hi : i ∈ [j, k] := by rw [hxy, hr]; simp
        rcases List.mem_cons.1 hi with h | h
        · exact hj h.symm
        · exact hk (List.mem_singleton.1 h).symm

/-! ## Wrong orders that are reported -/

/-- With checks, every run of `c` that ends normally marks `k` as used. -/
def Component.Uses (c : Component ι) (p : Part) (k : Key) : Prop := Order.Uses p k c.transform

/-- With checks, `c` fails if `k` has been used. -/
def Component.Needs (c : Component ι) (p : Part) (k : Key) : Prop := Order.Needs p k c.transform

theorem Declared.mono {c : Component ι} (hd : c.Declared) {st st' : Store Key (Value ι)} (h : c.transform st = (.ok (), st')) :
    st'.check = st.check ∧ ∀ (p : Part) k, p.used (marks st k) = true → p.used (marks st' k) = true := Access.keeps hd st () st' h

theorem runs_mono {comp : I → Component ι} (hd : ∀ i, (comp i).Declared) {l : List I} {st st' : Store Key (Value ι)} (h : Runs comp l st st') :
    st'.check = st.check ∧ ∀ (p : Part) k, p.used (marks st k) = true → p.used (marks st' k) = true := by
  induction l generalizing st with
  | nil => rw [(runs_nil _ _ _).1 h]; exact ⟨rfl, fun _ _ => id⟩
  | cons i l ih =>
    obtain ⟨s, h1, h2⟩ := (runs_cons _ _ _ _ _).1 h
    obtain ⟨c1, m1⟩ := Declared.mono (hd i) h1
    obtain ⟨c2, m2⟩ := ih h2
    exact ⟨c2.trans c1, fun p k hk => m2 p k (m1 p k hk)⟩

/-- **C82**, errors: with checks, a component that writes a variable cannot come after a component that always uses it. -/
theorem used_before_written_fails {comp : I → Component ι} (hd : ∀ i, (comp i).Declared) {l : List I} {i j : I} (hb : Before l i j) {p : Part} {k : Key}
    (hu : (comp i).Uses p k) (hw : (comp j).Needs p k) {st st' : Store Key (Value ι)} (hc : st.check = true) : ¬ Runs comp l st st' := by
  intro h
  have key : ∀ (l : List I), [j].Sublist l → ∀ st : Store Key (Value ι), st.check = true → p.used (marks st k) = true → ¬ Runs comp l st st' := by
    intro l
    induction l with
    | nil => intro hs; exact absurd (hs.subset (by simp : j ∈ [j])) (by simp)
    | cons x l ih =>
      intro hs st hc hm h
      obtain ⟨s, h1, h2⟩ := (runs_cons _ _ _ _ _).1 h
      obtain ⟨c1, m1⟩ := Declared.mono (hd x) h1
      rcases List.mem_cons.1 (List.singleton_sublist.1 hs) with e | hj
      · subst e
        have := hw st () s hc h1
        rw [hm] at this
        exact absurd this (by simp)
      · exact ih (List.singleton_sublist.2 hj) s (c1.trans hc) (m1 p k hm) h2
  induction l generalizing st with
  | nil => exact absurd (hb.subset (by simp : i ∈ [i, j])) (by simp)
  | cons x l ih =>
    obtain ⟨s, h1, h2⟩ := (runs_cons _ _ _ _ _).1 h
    obtain ⟨c1, m1⟩ := Declared.mono (hd x) h1
    rcases List.sublist_cons_iff.1 hb with hb | ⟨r, hr, hs⟩
    · exact ih hb (c1.trans hc) h2
    · obtain ⟨rfl, rfl⟩ := List.cons.inj hr
      exact key l hs s (c1.trans hc) (hu st () s hc h1) h2

/-- The wrong order of the two components is reported: one of them always uses a variable that the other writes. -/
def Reported (c d : Component ι) : Prop := ∃ p k, (c.Uses p k ∧ d.Needs p k) ∨ (d.Uses p k ∧ c.Needs p k)

/-- **C82** with checks: if the wrong order of every two components in conflict is reported, then all orders that run give the same state. -/
theorem order_reported_partial {comp : I → Component ι} (hd : ∀ i, (comp i).Declared) {l l' : List I} (hn : l.Nodup) (hp : l'.Perm l)
    (hb : ∀ i ∈ l, ∀ j ∈ l, i ≠ j → Conflict (comp i) (comp j) → Reported (comp i) (comp j)) {st s s' : Store Key (Value ι)} (hc : st.check = true)
    (h : Runs comp l st s) (h' : Runs comp l' st s') : s = s' := by
  have hpair : ∀ {l : List I} {i j : I}, l.Nodup → i ∈ l → j ∈ l → i ≠ j → Before l i j ∨ Before l j i := by
    intro l i j hn hi hj hne
    induction l with
    | nil => exact absurd hi (by simp)
    | cons x l ih =>
      rcases List.mem_cons.1 hi with rfl | hi
      · rcases List.mem_cons.1 hj with rfl | hj
        · exact absurd rfl hne
        · exact Or.inl ((List.singleton_sublist.2 hj).cons_cons i)
      · rcases List.mem_cons.1 hj with e | hj
        · rw [e]; exact Or.inr ((List.singleton_sublist.2 hi).cons_cons x)
        · exact (ih (List.nodup_cons.1 hn).2 hi hj).imp (fun h => h.cons x) fun h => h.cons x
  have hr := order_irrelevant hd hn hp (fun i j hcf hij => by
    have hi : i ∈ l := hij.subset (by simp)
    have hj : j ∈ l := hij.subset (by simp)
    have hne : i ≠ j := by
      rintro rfl
      have := hn.sublist hij
      simp at this
    obtain ⟨p, k, ⟨hu, hw⟩ | ⟨hu, hw⟩⟩ := hb i hi j hj hne hcf
    · exact absurd h (used_before_written_fails hd hij hu hw hc)
    · rcases hpair (hp.nodup_iff.2 hn) (hp.symm.subset hi) (hp.symm.subset hj) hne with h1 | h1
      · exact h1
      · exact absurd h' (used_before_written_fails hd h1 hu hw hc)) h
  rw [runs_iff] at hr h'
  rw [hr] at h'
  exact Outcome.ok.inj h'

end Hermes.Order
