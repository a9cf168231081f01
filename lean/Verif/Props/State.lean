import Verif.Model.Species

/-!
# C03, C04, C05 — the access protocol of the simulation state
-/

set_option linter.unusedSectionVars false

namespace Hermes.State

variable {K V : Type} [DecidableEq K] [StoreVal V]

/-! ## Specification vocabulary -/

/-- The calls a component can make on the state through the API of `component.hxx`
(result of reads discarded: the effect on the state does not depend on it). -/
inductive Op (K V : Type) where
  | set (k : K) (v : V)
  | setBoundary (k : K) (v : V)
  | add (k : K) (v : V)
  | subtract (k : K) (v : V)
  | get (k : K)
  | getNoBoundary (k : K)
  | getNonFinal (k : K)
  | isSetFinal (k : K)
  | isSetFinalNoBoundary (k : K)
  | isSet (k : K)

/-- The state after one call.  If the call throws, the exception may have been caught: the
history goes on with whatever state the call left behind. -/
def Op.after (o : Op K V) (s : Store K V) : Store K V :=
  match o with
  | .set k v => (Hermes.set k v s).2
  | .setBoundary k v => (Hermes.setBoundary k v s).2
  | .add k v => (Hermes.add k v s).2
  | .subtract k v => (Hermes.subtract k v s).2
  | .get k => (Hermes.get (some : V → Option V) k s).2
  | .getNoBoundary k => (Hermes.getNoBoundary (some : V → Option V) k s).2
  | .getNonFinal k => (Hermes.getNonFinal (some : V → Option V) k s).2
  | .isSetFinal k => (Hermes.isSetFinal k s).2
  | .isSetFinalNoBoundary k => (Hermes.isSetFinalNoBoundary k s).2
  | .isSet k => (Hermes.isSet k s).2

/-- The state after a history of calls. -/
def afterAll (h : List (Op K V)) (s : Store K V) : Store K V := h.foldl (fun s o => o.after s) s

/-- What a read of `k` gives. -/
def valueOf (s : Store K V) (k : K) : Option V := (s.ent k).val

/-! ## Helper facts -/

private theorem set_frozen {s : Store K V} {k : K} {v : V} (hc : s.check = true)
    (h : (s.ent k).final = true ∨ (s.ent k).finalDomain = true) :
    Hermes.set k v s = (.error .used, s) := by
  unfold Hermes.set
  rcases h with h | h <;> simp [hc, h]

private theorem set_other {s : Store K V} {k k' : K} {v : V} (h : k' ≠ k) :
    ((Hermes.set k v s).2).ent k' = s.ent k' := by
  unfold Hermes.set
  repeat' split
  all_goals first | rfl | simp [force_ent, h]

private theorem set_check {s : Store K V} {k : K} {v : V} :
    ((Hermes.set k v s).2).check = s.check := by
  unfold Hermes.set
  repeat' split
  all_goals rfl

private theorem check_after (o : Op K V) (s : Store K V) : (o.after s).check = s.check := by
  cases o <;> simp only [Op.after]
  · exact set_check
  · unfold Hermes.setBoundary; split <;> rfl
  · unfold Hermes.add; split
    · exact set_check
    · split
      · rfl
      · exact set_check
  · unfold Hermes.subtract; split
    · exact set_check
    · split
      · rfl
      · exact set_check
  · unfold Hermes.get Hermes.getNonFinal; repeat' split
    all_goals simp
  · unfold Hermes.getNoBoundary Hermes.getNonFinal; repeat' split
    all_goals simp
  · unfold Hermes.getNonFinal; repeat' split
    all_goals simp
  · simp [Hermes.isSetFinal]
  · simp [Hermes.isSetFinalNoBoundary]
  · rfl

private theorem get_state (k : K) (s : Store K V) :
    (Hermes.get (some : V → Option V) k s).2 = s.markFinal k := by
  unfold Hermes.get Hermes.getNonFinal; repeat' split
  all_goals simp_all

private theorem getNB_state (k : K) (s : Store K V) :
    (Hermes.getNoBoundary (some : V → Option V) k s).2 = s.markFinalDomain k := by
  unfold Hermes.getNoBoundary Hermes.getNonFinal; repeat' split
  all_goals simp_all

private theorem getNF_state (k : K) (s : Store K V) :
    (Hermes.getNonFinal (some : V → Option V) k s).2 = s := by
  unfold Hermes.getNonFinal; repeat' split
  all_goals simp_all

private theorem markFinal_flags (s : Store K V) (k k' : K) :
    ((s.ent k').final = true → ((s.markFinal k).ent k').final = true) ∧
    ((s.ent k').finalDomain = true → ((s.markFinal k).ent k').finalDomain = true) := by
  unfold Store.markFinal
  split
  · rw [update_ent]; split <;> simp
  · simp

private theorem markFinalDomain_flags (s : Store K V) (k k' : K) :
    ((s.ent k').final = true → ((s.markFinalDomain k).ent k').final = true) ∧
    ((s.ent k').finalDomain = true → ((s.markFinalDomain k).ent k').finalDomain = true) := by
  unfold Store.markFinalDomain
  split
  · rw [update_ent]; split
    · subst_vars; simp
    · simp
  · simp

/-- Frozen entries stay as they are under every single call. -/
private theorem after_frozen (o : Op K V) {s : Store K V} {k : K} (hc : s.check = true)
    (hf : (s.ent k).final = true) :
    valueOf (o.after s) k = valueOf s k ∧ ((o.after s).ent k).final = true := by
  have hset : ∀ (k' : K) (v : V), ((Hermes.set k' v s).2).ent k = s.ent k := by
    intro k' v
    by_cases h : k = k'
    · subst h; rw [set_frozen hc (Or.inl hf)]
    · exact set_other h
  cases o with
  | set k' v => simp only [Op.after, valueOf, hset]; exact ⟨trivial, hf⟩
  | setBoundary k' v =>
    simp only [Op.after, valueOf, Hermes.setBoundary]
    by_cases h : k = k'
    · subst h; simp [hc, hf]
    · split
      · exact ⟨rfl, hf⟩
      · simp [force_ent, h, hf]
  | add k' v =>
    simp only [Op.after, valueOf, Hermes.add]
    split
    · rw [hset]; exact ⟨rfl, hf⟩
    · split
      · exact ⟨rfl, hf⟩
      · rw [hset]; exact ⟨rfl, hf⟩
  | subtract k' v =>
    simp only [Op.after, valueOf, Hermes.subtract]
    split
    · rw [hset]; exact ⟨rfl, hf⟩
    · split
      · exact ⟨rfl, hf⟩
      · rw [hset]; exact ⟨rfl, hf⟩
  | get k' =>
    simp only [Op.after, valueOf, get_state, markFinal_val]
    exact ⟨trivial, (markFinal_flags s k' k).1 hf⟩
  | getNoBoundary k' =>
    simp only [Op.after, valueOf, getNB_state, markFinalDomain_val]
    exact ⟨trivial, (markFinalDomain_flags s k' k).1 hf⟩
  | getNonFinal k' => simp only [Op.after, valueOf, getNF_state]; exact ⟨trivial, hf⟩
  | isSetFinal k' =>
    simp only [Op.after, valueOf, Hermes.isSetFinal, markFinal_val]
    exact ⟨trivial, (markFinal_flags s k' k).1 hf⟩
  | isSetFinalNoBoundary k' =>
    simp only [Op.after, valueOf, Hermes.isSetFinalNoBoundary, markFinalDomain_val]
    exact ⟨trivial, (markFinalDomain_flags s k' k).1 hf⟩
  | isSet k' => exact ⟨rfl, hf⟩

private theorem afterAll_frozen (h : List (Op K V)) {s : Store K V} {k : K} (hc : s.check = true)
    (hf : (s.ent k).final = true) :
    valueOf (afterAll h s) k = valueOf s k ∧ ((afterAll h s).ent k).final = true ∧
      (afterAll h s).check = true := by
  induction h generalizing s with
  | nil => exact ⟨rfl, hf, hc⟩
  | cons o h ih =>
    have h1 := after_frozen o hc hf
    have h2 := ih (s := o.after s) (by rw [check_after]; exact hc) h1.2
    exact ⟨h2.1.trans h1.1, h2.2⟩

private theorem markFinal_final (s : Store K V) (k : K) (hc : s.check = true) :
    ((s.markFinal k).ent k).final = true := by
  simp [Store.markFinal, hc]

/-! ## C03 -/

/-- C03.  With checks on, once `get<T>(k)` has returned, the value of `k` is what it was when
read, after every further history of API calls on any variables (caught exceptions included). -/
theorem value_stable_after_get {T : Type} (cast : V → Option T) (s s₁ : Store K V) (k : K) (t : T)
    (hc : s.check = true) (hget : Hermes.get cast k s = (.ok t, s₁)) (h : List (Op K V)) :
    valueOf (afterAll h s₁) k = valueOf s k ∧
    ∃ v, valueOf s k = some v ∧ cast v = some t := by
  have hs₁ : s₁ = s.markFinal k ∧ ∃ v, valueOf s k = some v ∧ cast v = some t := by
    unfold Hermes.get Hermes.getNonFinal at hget
    rw [markFinal_val] at hget
    unfold valueOf
    cases hv : (s.ent k).val with
    | none => rw [hv] at hget; simp at hget
    | some v =>
      rw [hv] at hget
      cases ht' : cast v with
      | none => simp [ht'] at hget
      | some t' =>
        simp only [ht', Prod.mk.injEq, Except.ok.injEq] at hget
        exact ⟨hget.2.symm, v, rfl, by rw [ht', hget.1]⟩
  obtain ⟨rfl, hv⟩ := hs₁
  refine ⟨?_, hv⟩
  rw [(afterAll_frozen h (by simp [hc]) (markFinal_final s k hc)).1]
  simp [valueOf]

/-- C03.  All readers agree: whatever happens between two successful `get<T>` of the same variable,
they return the same value. -/
theorem readers_agree {T : Type} (cast : V → Option T) (s s₁ s₂ : Store K V) (k : K) (t t' : T)
    (hc : s.check = true) (h₁ : Hermes.get cast k s = (.ok t, s₁)) (h : List (Op K V))
    (h₂ : Hermes.get cast k (afterAll h s₁) = (.ok t', s₂)) : t' = t := by
  obtain ⟨hval, v, hv, hcast⟩ := value_stable_after_get cast s s₁ k t hc h₁ h
  unfold Hermes.get Hermes.getNonFinal at h₂
  rw [markFinal_val] at h₂
  unfold valueOf at hval hv
  rw [hval, hv] at h₂
  simp only [hcast, Prod.mk.injEq, Except.ok.injEq] at h₂
  exact h₂.1.symm

/-- C03.  After `get(k)` (successful or not) or `isSetFinal(k)`, after any further history, every
attempt to write `k` throws and leaves the state as it was. -/
theorem writes_after_get_throw (s : Store K V) (k : K) (v : V) (hc : s.check = true)
    (r : Op K V) (hr : r = .get k ∨ r = .isSetFinal k) (h : List (Op K V)) :
    let s' := afterAll (r :: h) s
    (∃ e, Hermes.set k v s' = (.error e, s')) ∧ (∃ e, Hermes.setBoundary k v s' = (.error e, s')) ∧
    (∃ e, Hermes.add k v s' = (.error e, s')) ∧ (∃ e, Hermes.subtract k v s' = (.error e, s')) := by
  intro s'
  have hf : (s'.ent k).final = true ∧ s'.check = true := by
    have h0 : ((r.after s).ent k).final = true ∧ (r.after s).check = true := by
      refine ⟨?_, by rw [check_after]; exact hc⟩
      rcases hr with rfl | rfl
      · simp only [Op.after, get_state]; exact markFinal_final s k hc
      · simp only [Op.after, Hermes.isSetFinal]; exact markFinal_final s k hc
    exact (afterAll_frozen h h0.2 h0.1).2
  have hset : ∀ w : V, Hermes.set k w s' = (.error .used, s') :=
    fun w => set_frozen hf.2 (Or.inl hf.1)
  refine ⟨⟨_, hset v⟩, ⟨.used, ?_⟩, ?_, ?_⟩
  · simp [Hermes.setBoundary, hf.1, hf.2]
  · unfold Hermes.add; split
    · exact ⟨_, hset _⟩
    · split
      · exact ⟨_, rfl⟩
      · exact ⟨_, hset _⟩
  · unfold Hermes.subtract; split
    · exact ⟨_, hset _⟩
    · split
      · exact ⟨_, rfl⟩
      · exact ⟨_, hset _⟩

/-! ### `getNoBoundary`: the interior -/

private theorem after_domain (o : Op K V) {s : Store K V} {k : K}
    (hf : (s.ent k).finalDomain = true) : ((o.after s).ent k).finalDomain = true := by
  have hset : ∀ (k' : K) (v : V), (((Hermes.set k' v s).2).ent k).finalDomain = true := by
    intro k' v
    unfold Hermes.set
    repeat' split
    all_goals first | exact hf | (simp only [force_ent]; split <;> simp_all)
  cases o with
  | set k' v => exact hset k' v
  | setBoundary k' v =>
    simp only [Op.after, Hermes.setBoundary]
    split
    · exact hf
    · simp only [force_ent]; split <;> simp_all
  | add k' v =>
    simp only [Op.after, Hermes.add]
    split
    · exact hset _ _
    · split
      · exact hf
      · exact hset _ _
  | subtract k' v =>
    simp only [Op.after, Hermes.subtract]
    split
    · exact hset _ _
    · split
      · exact hf
      · exact hset _ _
  | get k' => simp only [Op.after, get_state]; exact (markFinal_flags s k' k).2 hf
  | getNoBoundary k' => simp only [Op.after, getNB_state]; exact (markFinalDomain_flags s k' k).2 hf
  | getNonFinal k' => simp only [Op.after, getNF_state]; exact hf
  | isSetFinal k' => exact (markFinal_flags s k' k).2 hf
  | isSetFinalNoBoundary k' => exact (markFinalDomain_flags s k' k).2 hf
  | isSet k' => exact hf

private theorem afterAll_domain (h : List (Op K V)) {s : Store K V} {k : K} (hc : s.check = true)
    (hf : (s.ent k).finalDomain = true) :
    ((afterAll h s).ent k).finalDomain = true ∧ (afterAll h s).check = true := by
  induction h generalizing s with
  | nil => exact ⟨hf, hc⟩
  | cons o h ih => exact ih (s := o.after s) (by rw [check_after]; exact hc) (after_domain o hf)

/-- C03.  After `getNoBoundary(k)` and any further history, `set`, `add` and `subtract` on `k`
throw and leave the state as it was. -/
theorem writes_after_getNoBoundary_throw (s : Store K V) (k : K) (v : V) (hc : s.check = true)
    (r : Op K V) (hr : r = .getNoBoundary k ∨ r = .isSetFinalNoBoundary k) (h : List (Op K V)) :
    let s' := afterAll (r :: h) s
    (∃ e, Hermes.set k v s' = (.error e, s')) ∧
    (∃ e, Hermes.add k v s' = (.error e, s')) ∧ (∃ e, Hermes.subtract k v s' = (.error e, s')) := by
  intro s'
  have hmark : ((s.markFinalDomain k).ent k).finalDomain = true := by
    simp [Store.markFinalDomain, hc]
  have hf : (s'.ent k).finalDomain = true ∧ s'.check = true := by
    have h0 : ((r.after s).ent k).finalDomain = true ∧ (r.after s).check = true := by
      refine ⟨?_, by rw [check_after]; exact hc⟩
      rcases hr with rfl | rfl
      · simp only [Op.after, getNB_state]; exact hmark
      · simp only [Op.after, Hermes.isSetFinalNoBoundary]; exact hmark
    exact afterAll_domain h h0.2 h0.1
  have hset : ∀ w : V, Hermes.set k w s' = (.error .used, s') :=
    fun w => set_frozen hf.2 (Or.inr hf.1)
  refine ⟨⟨_, hset v⟩, ?_, ?_⟩
  · unfold Hermes.add; split
    · exact ⟨_, hset _⟩
    · split
      · exact ⟨_, rfl⟩
      · exact ⟨_, hset _⟩
  · unfold Hermes.subtract; split
    · exact ⟨_, hset _⟩
    · split
      · exact ⟨_, rfl⟩
      · exact ⟨_, hset _⟩

/-- A `setBoundary` call respects the interior of `k` in state `s` if the value it writes has the
same interior (`interior v`) as the stored one. -/
def RespectsInterior {I : Type} (interior : V → I) (k : K) (s : Store K V) : Op K V → Prop
  | .setBoundary k' v => k' = k → ∀ old, valueOf s k = some old → interior v = interior old
  | _ => True

/-- Every call of the history respects the interior of `k` in the state where it is made. -/
def AllRespect {I : Type} (interior : V → I) (k : K) : List (Op K V) → Store K V → Prop
  | [], _ => True
  | o :: h, s => RespectsInterior interior k s o ∧ AllRespect interior k h (o.after s)

/-- C03, partial: after `getNoBoundary(k)` the *interior* of `k` never changes, provided that
`setBoundary` calls pass values with an unchanged interior.  The code does not check this
proviso (see `setBoundary_can_change_interior`). -/
theorem interior_stable_after_getNoBoundary_partial {I : Type} (interior : V → I)
    (s : Store K V) (k : K) (hc : s.check = true) (h : List (Op K V))
    (hresp : AllRespect interior k h ((Op.getNoBoundary k : Op K V).after s)) :
    (valueOf (afterAll (.getNoBoundary k :: h) s) k).map interior = (valueOf s k).map interior
      ∨ valueOf s k = none := by
  have key : ∀ (h : List (Op K V)) (s : Store K V), s.check = true →
      (s.ent k).finalDomain = true → AllRespect interior k h s → (valueOf s k).isSome →
      (valueOf (afterAll h s) k).map interior = (valueOf s k).map interior := by
    intro h
    induction h with
    | nil => intro s _ _ _ _; rfl
    | cons o h ih =>
      intro s hc hf hr hsome
      have hset : ∀ (k' : K) (v : V), valueOf ((Hermes.set k' v s).2) k = valueOf s k := by
        intro k' v
        by_cases hk : k = k'
        · subst hk; rw [set_frozen hc (Or.inr hf)]
        · unfold valueOf; rw [set_other hk]
      have step : (valueOf (o.after s) k).map interior = (valueOf s k).map interior := by
        cases o with
        | set k' v => simp only [Op.after, hset]
        | setBoundary k' v =>
          simp only [Op.after, Hermes.setBoundary]
          split
          · rfl
          · unfold valueOf
            simp only [force_val]
            split
            · rename_i hk
              obtain ⟨old, hold⟩ := Option.isSome_iff_exists.1 hsome
              have := hr.1 hk.symm old hold
              unfold valueOf at hold
              simp [hold, this]
            · rfl
        | add k' v =>
          simp only [Op.after, Hermes.add]
          split
          · rw [hset]
          · split
            · rfl
            · rw [hset]
        | subtract k' v =>
          simp only [Op.after, Hermes.subtract]
          split
          · rw [hset]
          · split
            · rfl
            · rw [hset]
        | get k' => simp only [Op.after, get_state, valueOf, markFinal_val]
        | getNoBoundary k' => simp only [Op.after, getNB_state, valueOf, markFinalDomain_val]
        | getNonFinal k' => simp only [Op.after, getNF_state]
        | isSetFinal k' => simp only [Op.after, Hermes.isSetFinal, valueOf, markFinal_val]
        | isSetFinalNoBoundary k' =>
          simp only [Op.after, Hermes.isSetFinalNoBoundary, valueOf, markFinalDomain_val]
        | isSet k' => rfl
      have hsome' : (valueOf (o.after s) k).isSome := by
        have := congrArg Option.isSome step
        simp only [Option.isSome_map] at this
        rw [this]; exact hsome
      calc _ = (valueOf (o.after s) k).map interior :=
              ih (o.after s) (by rw [check_after]; exact hc) (after_domain o hf) hr.2 hsome'
        _ = _ := step
  by_cases hnone : valueOf s k = none
  · exact Or.inr hnone
  · left
    have hsame : valueOf ((Op.getNoBoundary k : Op K V).after s) k = valueOf s k := by
      simp only [Op.after, getNB_state, valueOf, markFinalDomain_val]
    have := key h ((Op.getNoBoundary k : Op K V).after s) (by rw [check_after]; exact hc)
      (by simp only [Op.after, getNB_state]; simp [Store.markFinalDomain, hc]) hresp
      (by rw [hsame]; exact Option.isSome_iff_ne_none.2 hnone)
    rw [hsame] at this
    exact this

/-- A store over a line of three cells (0 and 2 are boundary cells), with `k = 0` set. -/
private def demo (check : Bool) : Store ℕ (Fld (Fin 3)) :=
  { check := check, ent := fun k => if k = 0 then { val := some (fun _ => 1) } else {} }

/-- C03, negation for the interior: nothing stops `setBoundary` from changing interior cells after
they were read with `getNoBoundary`. -/
theorem setBoundary_can_change_interior :
    ∃ (s : Store ℕ (Fld (Fin 3))) (k : ℕ) (h : List (Op ℕ (Fld (Fin 3)))), s.check = true ∧
      (valueOf s k).map (· 1) ≠ (valueOf (afterAll (.getNoBoundary k :: h) s) k).map (· 1) := by
  refine ⟨demo true, 0, [.setBoundary 0 (fun _ => 2)], rfl, ?_⟩
  simp [afterAll, Op.after, Hermes.setBoundary, Hermes.getNoBoundary, Hermes.getNonFinal, demo,
    Store.markFinalDomain, Store.update, Store.force, valueOf]

/-- C03, negation without run-time checks: with `CHECKLEVEL = 0` a value that was read can be
changed afterwards. -/
theorem value_not_stable_without_checks :
    ∃ (s : Store ℕ (Fld (Fin 3))) (k : ℕ) (h : List (Op ℕ (Fld (Fin 3)))), s.check = false ∧
      (valueOf s k).isSome ∧ valueOf (afterAll (.get k :: h) s) k ≠ valueOf s k := by
  refine ⟨demo false, 0, [.set 0 (fun _ => 2)], rfl, by simp [demo, valueOf], ?_⟩
  simp [afterAll, Op.after, Hermes.set, Hermes.get, Hermes.getNonFinal, demo,
    Store.markFinal, Store.force, Store.update, valueOf, StoreVal.invalid, funext_iff]

/-- C03, negation for the `transform` component (`src/transform.cxx:30`): it changes a variable that
was already read, even with checks on. -/
theorem transform_component_bypasses_final :
    ∃ (s : Store ℕ (Fld (Fin 3))) (k : ℕ), s.check = true ∧ (valueOf s k).isSome ∧
      ∃ s₂, Hermes.copyEntry k 1 ((Op.get k : Op ℕ (Fld (Fin 3))).after s) = (.ok (), s₂) ∧
        valueOf s₂ k ≠ valueOf s k := by
  refine ⟨demo true, 0, rfl, by simp [demo, valueOf], _, rfl, ?_⟩
  simp [Op.after, Hermes.get, Hermes.getNonFinal, demo, Store.markFinal, Store.update, valueOf]

/-- Non-vacuity for C03: reading variable 0 succeeds with checks on, then a history with an attempted
write, a read of another variable and a boundary write runs. -/
example : ∃ s₁, Hermes.get (some : Fld (Fin 3) → Option _) 0 (demo true) = (.ok (fun _ => 1), s₁) ∧
    valueOf (afterAll [.set 0 (fun _ => 5), .get 1, .setBoundary 0 (fun _ => 7), .add 2 (fun _ => 3)] s₁) 0
      = some (fun _ => 1) := by
  refine ⟨_, rfl, ?_⟩
  have := (value_stable_after_get (some : Fld (Fin 3) → Option _) (demo true) _ 0 _ rfl rfl
    [.set 0 (fun _ => 5), .get 1, .setBoundary 0 (fun _ => 7), .add 2 (fun _ => 3)]).1
  exact this

/-! ## C04 -/

/-- The contributions made to variable `k`, with their sign. -/
def signedTo {ι : Type} (k : K) (cs : List (K × Fld ι × Bool)) : List (Fld ι) :=
  (cs.filter (fun c => c.1 = k)).map (fun c => if c.2.2 then c.2.1 else -c.2.1)

/-- Expected value of `k`: unset if it was unset and nothing was contributed, otherwise the previous
value (zero if unset) plus the signed sum. -/
def accumulated {ι : Type} (old : Option (Fld ι)) (vs : List (Fld ι)) : Option (Fld ι) :=
  if vs = [] then old else some (old.getD 0 + vs.sum)

/-- C04.  Any sequence of `add`/`subtract` on variables nobody has read succeeds, gives every
variable its previous value (zero if unset) plus the signed sum of its contributions, and changes
nothing else (attributes included). -/
theorem sources_accumulate {ι : Type} (cs : List (K × Fld ι × Bool)) (s : Store K (Fld ι))
    (hunread : ∀ c ∈ cs, (s.ent c.1).final = false ∧ (s.ent c.1).finalDomain = false) :
    ∃ s', contributeAll cs s = (.ok (), s') ∧ s'.check = s.check ∧
      ∀ k, valueOf s' k = accumulated (valueOf s k) (signedTo k cs) ∧
        (s'.ent k).final = (s.ent k).final ∧ (s'.ent k).finalDomain = (s.ent k).finalDomain := by
  induction cs generalizing s with
  | nil =>
    refine ⟨s, rfl, rfl, fun k => ⟨?_, rfl, rfl⟩⟩
    simp [signedTo, accumulated]
  | cons c cs ih =>
    obtain ⟨k₀, v, b⟩ := c
    obtain ⟨hf, hd⟩ := hunread (k₀, v, b) (by simp)
    have step : contribute (k₀, v, b) s =
        (.ok (), s.force k₀ ((valueOf s k₀).getD 0 + if b then v else -v)) := by
      unfold contribute valueOf
      cases b <;> simp only [Bool.false_eq_true, ↓reduceIte, Hermes.add, Hermes.subtract]
      · cases hv : (s.ent k₀).val with
        | none => simp [Hermes.set, hf, hd, StoreVal.invalid, StoreVal.neg]
        | some old =>
          simp only [StoreVal.subFrom, Hermes.set, hf, hd, StoreVal.invalid]
          simp [sub_eq_add_neg]
      · cases hv : (s.ent k₀).val with
        | none => simp [Hermes.set, hf, hd, StoreVal.invalid]
        | some old =>
          simp only [StoreVal.addTo, Hermes.set, hf, hd, StoreVal.invalid]
          simp [add_comm]
    obtain ⟨s', hrun, hcheck, hall⟩ := ih
      (s.force k₀ ((valueOf s k₀).getD 0 + if b then v else -v)) (by
        intro c hc
        have := hunread c (by simp [hc])
        rw [force_ent]; split
        · rename_i h; rw [← h]; exact this
        · exact this)
    refine ⟨s', ?_, by simpa using hcheck, fun k => ?_⟩
    · show M.bind _ _ s = _
      unfold M.bind; rw [step]; exact hrun
    · obtain ⟨h1, h2, h3⟩ := hall k
      refine ⟨?_, ?_, ?_⟩
      · rw [h1]
        unfold valueOf signedTo accumulated
        rw [force_val]
        by_cases hk : k = k₀
        · subst hk
          simp only [↓reduceIte, decide_true, List.filter_cons_of_pos, List.map_cons,
            List.sum_cons, reduceCtorEq, Option.getD_some]
          split
          · rename_i hnil; simp [hnil]
          · simp [add_assoc]
        · have hk' : ¬ (k₀ = k) := fun h => hk h.symm
          have hfil : (cs.filter (fun c => c.1 = k)) = (((k₀, v, b) :: cs).filter (fun c => c.1 = k)) := by
            simp [hk']
          rw [if_neg hk, hfil]
      · rw [h2, force_ent]; split
        · rename_i h; rw [h]
        · rfl
      · rw [h3, force_ent]; split
        · rename_i h; rw [h]
        · rfl

/-- C04.  The order of the contributions is irrelevant: any two orderings of the same contributions
give the same value for every variable. -/
theorem sources_order_irrelevant {ι : Type} (cs cs' : List (K × Fld ι × Bool)) (hp : cs.Perm cs')
    (s s₁ s₂ : Store K (Fld ι))
    (hunread : ∀ c ∈ cs, (s.ent c.1).final = false ∧ (s.ent c.1).finalDomain = false)
    (h₁ : contributeAll cs s = (.ok (), s₁)) (h₂ : contributeAll cs' s = (.ok (), s₂)) (k : K) :
    valueOf s₁ k = valueOf s₂ k := by
  obtain ⟨a, ha, -, hva⟩ := sources_accumulate cs s hunread
  obtain ⟨b, hb, -, hvb⟩ := sources_accumulate cs' s (fun c hc => hunread c (hp.mem_iff.2 hc))
  rw [h₁] at ha; rw [h₂] at hb
  simp only [Prod.mk.injEq, true_and] at ha hb
  subst ha; subst hb
  rw [(hva k).1, (hvb k).1]
  have hp' : (signedTo k cs).Perm (signedTo k cs') := (hp.filter _).map _
  unfold accumulated
  rw [hp'.sum_eq]
  have : signedTo k cs = [] ↔ signedTo k cs' = [] := by
    rw [← List.length_eq_zero_iff, ← List.length_eq_zero_iff, hp'.length_eq]
  simp [this]

example : ∀ c ∈ ([(0, (fun _ => 3), true), (1, (fun _ => 2), false)] : List (ℕ × Fld (Fin 3) × Bool)),
    ((demo true).ent c.1).final = false ∧ ((demo true).ent c.1).finalDomain = false := by
  simp [demo]

/-! ## C05 -/

/-- A number which may be non-finite (`inf` or `nan`). -/
inductive Num where
  | fin (x : ℝ)
  | nonfinite

noncomputable instance : DecidableEq Num := Classical.decEq _

/-- Values: a `BoutReal` or a `Field3D` over cells `ι`. -/
inductive Val (ι : Type) where
  | real (x : Num)
  | field (f : ι → Num)

def Num.map2 (op : ℝ → ℝ → ℝ) : Num → Num → Num
  | .fin a, .fin b => .fin (op a b)
  | _, _ => .nonfinite
def Num.neg : Num → Num
  | .fin a => .fin (-a)
  | .nonfinite => .nonfinite

/-- `hermesDataInvalid` (`include/component.hxx:205-220`): only `Field3D` is checked, and only in the
cells of `RGN_NOBNDRY` (`interior`). -/
noncomputable def Val.invalid {ι : Type} (interior : ι → Prop) : Val ι → Bool
  | .real _ => false
  | .field f => open Classical in decide (∃ i, interior i ∧ f i = .nonfinite)

/-- The value operations on mixed values: a stored `BoutReal` converts to `Field3D`, not conversely. -/
@[instance_reducible] noncomputable def valOps {ι : Type} (interior : ι → Prop) : StoreVal (Val ι) where
  invalid := Val.invalid interior
  neg
    | .real x => .real x.neg
    | .field f => .field fun i => (f i).neg
  addTo
    | .real x, .real y => some (.real (x.map2 (· + ·) y))
    | .field f, .field g => some (.field fun i => (f i).map2 (· + ·) (g i))
    | .field f, .real y => some (.field fun i => (f i).map2 (· + ·) y)
    | .real _, .field _ => none
  subFrom
    | .real x, .real y => some (.real (y.map2 (· - ·) x))
    | .field f, .field g => some (.field fun i => (g i).map2 (· - ·) (f i))
    | .field f, .real y => some (.field fun i => y.map2 (· - ·) (f i))
    | .real _, .field _ => none

/-- C05.  `set` of a 3D field with checks on: it succeeds exactly when the variable was not read, its
interior was not read and all interior cells are finite; then exactly this value changed.  Otherwise
it throws and the state is unchanged. -/
theorem set_field_spec {K ι : Type} [DecidableEq K] (interior : ι → Prop) (s : Store K (Val ι)) (k : K)
    (f : ι → Num) (hc : s.check = true) :
    let r := @Hermes.set K (Val ι) _ (valOps interior) k (.field f) s
    let ok := (s.ent k).final = false ∧ (s.ent k).finalDomain = false ∧
      ∀ i, interior i → ∃ x, f i = .fin x
    (ok → r.1 = .ok () ∧ valueOf r.2 k = some (.field f) ∧
        (∀ k', k' ≠ k → r.2.ent k' = s.ent k')) ∧
    (¬ ok → (∃ e, r.1 = .error e) ∧ r.2 = s) := by
  let _ := valOps interior
  intro r ok
  have hinv : StoreVal.invalid (Val.field f) = false ↔ ∀ i, interior i → ∃ x, f i = .fin x := by
    show Val.invalid interior _ = _ ↔ _
    unfold Val.invalid
    simp only [decide_eq_false_iff_not, not_exists, not_and]
    refine forall_congr' fun i => imp_congr_right fun _ => ?_
    cases h : f i <;> simp
  constructor
  · rintro ⟨h1, h2, h3⟩
    have h4 := hinv.2 h3
    have hr : r = (.ok (), s.force k (.field f)) := by
      show Hermes.set k _ s = _
      unfold Hermes.set
      simp [h1, h2, h4]
    rw [hr]
    refine ⟨rfl, by simp [valueOf, force_val], fun k' hk' => by simp [force_ent, hk']⟩
  · intro hnot
    have hr : r = Hermes.set k (.field f) s := rfl
    unfold Hermes.set at hr
    by_cases h1 : (s.ent k).final = true
    · simp only [hc, h1] at hr; rw [hr]; exact ⟨⟨_, rfl⟩, rfl⟩
    · by_cases h2 : (s.ent k).finalDomain = true
      · simp only [hc, h1, h2] at hr; rw [hr]; exact ⟨⟨_, rfl⟩, rfl⟩
      · have h3 : StoreVal.invalid (Val.field f) = true := by
          by_contra h3
          simp only [Bool.not_eq_true] at h1 h2 h3
          exact hnot ⟨h1, h2, hinv.1 h3⟩
        simp only [hc, h1, h2, h3] at hr; rw [hr]; exact ⟨⟨_, rfl⟩, rfl⟩

/-- C05.  Whatever the values and flags, an exception from `set`, `setBoundary`, `add` or `subtract`
leaves the whole state as it was, and success changes at most the one variable. -/
theorem write_atomic (s : Store K V) (k : K) (v : V) (w : M K V Unit)
    (hw : w = Hermes.set k v ∨ w = Hermes.setBoundary k v ∨ w = Hermes.add k v ∨
      w = Hermes.subtract k v) :
    ((∃ e, (w s).1 = .error e) → (w s).2 = s) ∧ ∀ k', k' ≠ k → (w s).2.ent k' = s.ent k' := by
  have hset : ∀ v : V, ((∃ e, (Hermes.set k v s).1 = .error e) → (Hermes.set k v s).2 = s) := by
    intro v
    unfold Hermes.set
    repeat' split
    all_goals simp
  rcases hw with rfl | rfl | rfl | rfl
  · exact ⟨hset v, fun k' h => set_other h⟩
  · unfold Hermes.setBoundary
    split
    · simp
    · refine ⟨by simp, fun k' h => by simp [force_ent, h]⟩
  · unfold Hermes.add
    split
    · exact ⟨hset _, fun k' h => set_other h⟩
    · split
      · simp
      · exact ⟨hset _, fun k' h => set_other h⟩
  · unfold Hermes.subtract
    split
    · exact ⟨hset _, fun k' h => set_other h⟩
    · split
      · simp
      · exact ⟨hset _, fun k' h => set_other h⟩

/-- Non-vacuity for C05: a field with a non-finite boundary cell but finite interior is accepted. -/
example : let interior : Fin 3 → Prop := fun i => i = 1
    let f : Fin 3 → Num := fun i => if i = 1 then .fin 2 else .nonfinite
    ∀ i, interior i → ∃ x, f i = .fin x := by
  intro interior f i hi; exact ⟨2, by simp [f, interior] at *; exact hi⟩

end Hermes.State
