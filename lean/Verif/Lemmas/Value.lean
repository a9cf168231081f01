import Verif.Model.Value

/-! # Helper lemmas: read-only programs and programs that set values -/

namespace Hermes

section
variable {K V : Type} [DecidableEq K] {α β : Type}

/-- The values of the tree without the attributes. -/
def vals (s : Store K V) : K → Option V := fun k => (s.ent k).val

/-- `m` reads the state only, and its result is `d` of the values. -/
def Denotes (m : M K V α) (d : (K → Option V) → Except Err α) : Prop :=
  ∀ s, (m s).1 = d (vals s) ∧ vals (m s).2 = vals s

theorem den_pure (a : α) : Denotes (pure a : M K V α) (fun _ => .ok a) := fun _ => ⟨rfl, rfl⟩

theorem den_throw (e : Err) : Denotes (M.throw e : M K V α) (fun _ => .error e) := fun _ => ⟨rfl, rfl⟩

theorem den_bind {m : M K V α} {f : α → M K V β} {d : (K → Option V) → Except Err α}
    {e : α → (K → Option V) → Except Err β} (hm : Denotes m d) (hf : ∀ a, Denotes (f a) (e a)) :
    Denotes (m >>= f) (fun v => d v >>= fun a => e a v) := by
  intro s
  obtain ⟨h1, h2⟩ := hm s
  have hb : (m >>= f) s = M.bind m f s := rfl
  rw [hb]
  unfold M.bind
  cases h : m s with
  | mk r s' =>
    rw [h] at h1 h2
    simp only at h1 h2
    cases r with
    | error e' => simp only [← h1]; exact ⟨rfl, h2⟩
    | ok a =>
      simp only [← h1]
      obtain ⟨h3, h4⟩ := hf a s'
      rw [h2] at h3 h4
      exact ⟨h3, h4⟩

theorem den_ite {p : Prop} [Decidable p] {m n : M K V α} {d e : (K → Option V) → Except Err α}
    (hm : p → Denotes m d) (hn : ¬ p → Denotes n e) : Denotes (if p then m else n) (fun v => if p then d v else e v) := by
  split
  · exact hm ‹_›
  · exact hn ‹_›

theorem markFinal_vals (s : Store K V) (k : K) : vals (s.markFinal k) = vals s := by
  funext k'; exact markFinal_val s k k'

theorem markFinalDomain_vals (s : Store K V) (k : K) : vals (s.markFinalDomain k) = vals s := by
  funext k'; exact markFinalDomain_val s k k'

/-- The result of reading `k` with conversion `c`. -/
def readVal {T : Type} (c : V → Option T) (k : K) (v : K → Option V) : Except Err T :=
  match v k with
  | none => .error .noValue
  | some x => match c x with
    | none => .error .badCast
    | some t => .ok t

theorem den_getNonFinal {T : Type} (c : V → Option T) (k : K) : Denotes (getNonFinal c k) (readVal c k) := by
  intro s
  unfold getNonFinal readVal vals
  cases (s.ent k).val with
  | none => exact ⟨rfl, rfl⟩
  | some x =>
    dsimp only
    cases c x with
    | none => exact ⟨rfl, rfl⟩
    | some t => exact ⟨rfl, rfl⟩

theorem den_get {T : Type} (c : V → Option T) (k : K) : Denotes (get c k) (readVal c k) := by
  intro s
  obtain ⟨h1, h2⟩ := den_getNonFinal c k (s.markFinal k)
  rw [markFinal_vals] at h1 h2
  exact ⟨h1, h2⟩

theorem den_getNoBoundary {T : Type} (c : V → Option T) (k : K) : Denotes (getNoBoundary c k) (readVal c k) := by
  intro s
  obtain ⟨h1, h2⟩ := den_getNonFinal c k (s.markFinalDomain k)
  rw [markFinalDomain_vals] at h1 h2
  exact ⟨h1, h2⟩

theorem den_isSet (k : K) : Denotes (isSet k : M K V Bool) (fun v => .ok (v k).isSome) := fun _ => ⟨rfl, rfl⟩

theorem den_isSetFinal (k : K) : Denotes (isSetFinal k : M K V Bool) (fun v => .ok (v k).isSome) := by
  intro s
  refine ⟨?_, markFinal_vals s k⟩
  show Except.ok (vals (s.markFinal k) k).isSome = _
  rw [markFinal_vals]

theorem den_isSetFinalNoBoundary (k : K) :
    Denotes (isSetFinalNoBoundary k : M K V Bool) (fun v => .ok (v k).isSome) := by
  intro s
  refine ⟨?_, markFinalDomain_vals s k⟩
  show Except.ok (vals (s.markFinalDomain k) k).isSome = _
  rw [markFinalDomain_vals]

theorem den_foldlM {σ : Type} {f : σ → α → M K V σ} {d : σ → α → (K → Option V) → Except Err σ}
    (hf : ∀ x a, Denotes (f x a) (d x a)) :
    ∀ (l : List α) (x : σ), Denotes (l.foldlM f x) (fun v => l.foldlM (fun x a => d x a v) x)
  | [], x => den_pure x
  | a :: l, x => by
    simp only [List.foldlM_cons]
    exact den_bind (hf x a) fun y => den_foldlM hf l y

/-- Inversion of a sequence which succeeds. -/
theorem M_bind_ok {m : M K V α} {f : α → M K V β} {s s'' : Store K V} {b : β} (h : (m >>= f) s = (.ok b, s'')) :
    ∃ a s', m s = (.ok a, s') ∧ f a s' = (.ok b, s'') := by
  have hb : (m >>= f) s = M.bind m f s := rfl
  rw [hb] at h
  unfold M.bind at h
  cases hm : m s with
  | mk r s' =>
    rw [hm] at h
    cases r with
    | error e => simp only [Prod.mk.injEq, reduceCtorEq, false_and] at h
    | ok a => exact ⟨a, s', rfl, h⟩

theorem Denotes.ok {m : M K V α} {d : (K → Option V) → Except Err α} (hd : Denotes m d) {s s' : Store K V} {a : α}
    (h : m s = (.ok a, s')) : d (vals s) = .ok a ∧ vals s' = vals s := by
  obtain ⟨h1, h2⟩ := hd s
  rw [h] at h1 h2
  exact ⟨h1.symm, h2⟩

/-- Inversion of a read followed by something. -/
theorem Denotes.bind_ok {m : M K V α} {d : (K → Option V) → Except Err α} (hd : Denotes m d) {f : α → M K V β}
    {s s'' : Store K V} {b : β} (h : (m >>= f) s = (.ok b, s'')) :
    ∃ a s', d (vals s) = .ok a ∧ vals s' = vals s ∧ f a s' = (.ok b, s'') := by
  obtain ⟨a, s', h1, h2⟩ := M_bind_ok h
  obtain ⟨h3, h4⟩ := hd.ok h1
  exact ⟨a, s', h3, h4, h2⟩

variable [StoreVal V]

theorem set_ok {k : K} {v : V} {s s' : Store K V} {u : Unit} (h : set k v s = (.ok u, s')) :
    vals s' = Function.update (vals s) k (some v) := by
  unfold set at h
  split at h
  · cases h
  split at h
  · cases h
  split at h
  · cases h
  · cases h
    funext k'
    unfold vals
    rw [force_val, Function.update_apply]

theorem setBoundary_ok {k : K} {v : V} {s s' : Store K V} {u : Unit} (h : setBoundary k v s = (.ok u, s')) :
    vals s' = Function.update (vals s) k (some v) := by
  unfold setBoundary at h
  split at h
  · cases h
  · cases h
    funext k'
    unfold vals
    rw [force_val, Function.update_apply]

theorem set_bind_ok {k : K} {v : V} {f : Unit → M K V β} {s s'' : Store K V} {b : β}
    (h : (set k v >>= f) s = (.ok b, s'')) :
    ∃ s', vals s' = Function.update (vals s) k (some v) ∧ f () s' = (.ok b, s'') := by
  obtain ⟨_, s', h1, h2⟩ := M_bind_ok h
  exact ⟨s', set_ok h1, h2⟩

theorem setBoundary_bind_ok {k : K} {v : V} {f : Unit → M K V β} {s s'' : Store K V} {b : β}
    (h : (setBoundary k v >>= f) s = (.ok b, s'')) :
    ∃ s', vals s' = Function.update (vals s) k (some v) ∧ f () s' = (.ok b, s'') := by
  obtain ⟨_, s', h1, h2⟩ := M_bind_ok h
  exact ⟨s', setBoundary_ok h1, h2⟩

/-- What `add` puts into the tree. -/
def addVal (v : V) : Option V → Option V
  | none => some v
  | some old => StoreVal.addTo v old

theorem add_ok {k : K} {v : V} {s s' : Store K V} {u : Unit} (h : add k v s = (.ok u, s')) :
    (addVal v (vals s k)).isSome ∧ vals s' = Function.update (vals s) k (addVal v (vals s k)) := by
  unfold add at h
  unfold addVal vals
  cases e : (s.ent k).val with
  | none => rw [e] at h; exact ⟨rfl, set_ok h⟩
  | some old =>
    rw [e] at h
    dsimp only at h ⊢
    cases e' : StoreVal.addTo v old with
    | none => rw [e'] at h; cases h
    | some w => rw [e'] at h; exact ⟨rfl, set_ok h⟩

/-- What `subtract` puts into the tree. -/
def subVal (v : V) : Option V → Option V
  | none => some (StoreVal.neg v)
  | some old => StoreVal.subFrom v old

theorem subtract_ok {k : K} {v : V} {s s' : Store K V} {u : Unit} (h : subtract k v s = (.ok u, s')) :
    (subVal v (vals s k)).isSome ∧ vals s' = Function.update (vals s) k (subVal v (vals s k)) := by
  unfold subtract at h
  unfold subVal vals
  cases e : (s.ent k).val with
  | none => rw [e] at h; exact ⟨rfl, set_ok h⟩
  | some old =>
    rw [e] at h
    dsimp only at h ⊢
    cases e' : StoreVal.subFrom v old with
    | none => rw [e'] at h; cases h
    | some w => rw [e'] at h; exact ⟨rfl, set_ok h⟩

end

section
variable {ι : Type}

theorem readVal_asField {k : Key} {v : Key → Option (Value ι)} {f : Fld ι} (h : readVal asField k v = .ok f) :
    ∃ x, v k = some x ∧ asField x = some f := by
  unfold readVal at h
  cases e : v k with
  | none => rw [e] at h; cases h
  | some x =>
    rw [e] at h
    dsimp only at h
    cases e' : asField x with
    | none => rw [e'] at h; cases h
    | some g => rw [e'] at h; cases h; exact ⟨x, rfl, e'⟩

theorem readVal_asReal {k : Key} {v : Key → Option (Value ι)} {f : ℝ} (h : readVal asReal k v = .ok f) :
    v k = some (.real f) := by
  unfold readVal at h
  cases e : v k with
  | none => rw [e] at h; cases h
  | some x =>
    rw [e] at h
    cases x with
    | field g => cases h
    | real y => cases h; rfl

end
end Hermes
