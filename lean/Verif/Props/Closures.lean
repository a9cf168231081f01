import Verif.Model.Closures
import Verif.Lemmas.Value
import Verif.Lemmas.Text
import Mathlib.Tactic.Linarith
import Mathlib.Tactic.FieldSimp
import Mathlib.Data.Fin.VecNotation
import Mathlib.Algebra.BigOperators.Fin

/-!
# Closures and prescriptions (C19–C25)

Every theorem is about a run that ends without exception.  Beside it is an `example` of such a run.
-/

set_option linter.unusedSimpArgs false

namespace Hermes.Closures

variable {ι : Type}

/-! ## Specification: the values published in a state -/

/-- Field published by species `s` (zero if nothing is published). -/
def fieldOf (st : Store Key (Value ι)) (s : String) (v : Var) : Fld ι := ((vals st (.sp s v)).bind asField).getD 0
/-- Number published by species `s` (zero if nothing is published). -/
def realOf (st : Store Key (Value ι)) (s : String) (v : Var) : ℝ := ((vals st (.sp s v)).bind asReal).getD 0

/-- Charge density of species `s` in cell `i`, and its parallel current. -/
def chargeDensity (st : Store Key (Value ι)) (s : String) (i : ι) : ℝ :=
  realOf st s Var.charge * fieldOf st s Var.density i
def currentDensity (st : Store Key (Value ι)) (s : String) (i : ι) : ℝ :=
  realOf st s Var.charge * fieldOf st s Var.density i * fieldOf st s Var.velocity i

/-- Only the variables in `keys` have changed. -/
def OnlyChanges (before after : Store Key (Value ι)) (keys : List Key) : Prop :=
  ∀ k, k ∉ keys → vals after k = vals before k

/-! ## Helper lemmas -/

theorem fieldOf_read {st : Store Key (Value ι)} {s : String} {v : Var} {f : Fld ι}
    (h : readVal asField (.sp s v) (vals st) = .ok f) : fieldOf st s v = f := by
  obtain ⟨x, h1, h2⟩ := readVal_asField h
  unfold fieldOf; rw [h1]; simp [h2]

theorem realOf_read {st : Store Key (Value ι)} {s : String} {v : Var} {x : ℝ}
    (h : readVal asReal (.sp s v) (vals st) = .ok x) : realOf st s v = x := by
  unfold realOf; rw [readVal_asReal h]; rfl

theorem fieldOf_unset {st : Store Key (Value ι)} {s : String} {v : Var} (h : (vals st (.sp s v)).isSome = false) :
    fieldOf st s v = 0 := by
  unfold fieldOf
  cases e : vals st (.sp s v) with
  | none => rfl
  | some x => rw [e] at h; cases h

theorem realOf_unset {st : Store Key (Value ι)} {s : String} {v : Var} (h : (vals st (.sp s v)).isSome = false) :
    realOf st s v = 0 := by
  unfold realOf
  cases e : vals st (.sp s v) with
  | none => rfl
  | some x => rw [e] at h; cases h

theorem fieldOf_congr {st st' : Store Key (Value ι)} {s : String} {v : Var}
    (h : vals st' (.sp s v) = vals st (.sp s v)) : fieldOf st' s v = fieldOf st s v := by
  unfold fieldOf; rw [h]

theorem realOf_congr {st st' : Store Key (Value ι)} {s : String} {v : Var}
    (h : vals st' (.sp s v) = vals st (.sp s v)) : realOf st' s v = realOf st s v := by
  unfold realOf; rw [h]

theorem fieldOf_some {st : Store Key (Value ι)} {s : String} {v : Var} {f : Fld ι}
    (h : vals st (.sp s v) = some (.field f)) : fieldOf st s v = f := by
  unfold fieldOf; rw [h]; rfl

theorem realOf_some {st : Store Key (Value ι)} {s : String} {v : Var} {x : ℝ}
    (h : vals st (.sp s v) = some (.real x)) : realOf st s v = x := by
  unfold realOf; rw [h]; rfl

/-- A loop whose body only reads. -/
theorem foldlM_reads {σ α : Type} {f : σ → α → Prog ι σ} {g : (Key → Option (Value ι)) → σ → α → σ}
    (hf : ∀ x a s y s', f x a s = (.ok y, s') → y = g (vals s) x a ∧ vals s' = vals s) :
    ∀ {l : List α} {x y : σ} {s s' : Store Key (Value ι)}, l.foldlM f x s = (.ok y, s') →
      y = l.foldl (g (vals s)) x ∧ vals s' = vals s
  | [], x, y, s, s', h => by cases h; exact ⟨rfl, rfl⟩
  | a :: l, x, y, s, s', h => by
    rw [List.foldlM_cons] at h
    obtain ⟨z, s1, h1, h2⟩ := M_bind_ok h
    obtain ⟨e1, e2⟩ := hf _ _ _ _ _ h1
    obtain ⟨e3, e4⟩ := foldlM_reads hf h2
    rw [List.foldl_cons, ← e1]
    rw [e2] at e3 e4
    exact ⟨e3, e4⟩

/-- Inversion of a `do` block that starts with a read. -/
theorem getF_bind {β : Type} {s : String} {v : Var} {f : Fld ι → Prog ι β} {st st'' : Store Key (Value ι)} {b : β}
    (h : (getF s v >>= f) st = (.ok b, st'')) : ∃ st', vals st' = vals st ∧ f (fieldOf st s v) st' = (.ok b, st'') := by
  obtain ⟨a, s', h1, h2, h3⟩ := (den_get asField _).bind_ok h
  exact ⟨s', h2, by rw [fieldOf_read h1]; exact h3⟩

theorem getNoBndryF_bind {β : Type} {s : String} {v : Var} {f : Fld ι → Prog ι β} {st st'' : Store Key (Value ι)} {b : β}
    (h : (getNoBndryF s v >>= f) st = (.ok b, st'')) :
    ∃ st', vals st' = vals st ∧ f (fieldOf st s v) st' = (.ok b, st'') := by
  obtain ⟨a, s', h1, h2, h3⟩ := (den_getNoBoundary asField _).bind_ok h
  exact ⟨s', h2, by rw [fieldOf_read h1]; exact h3⟩

theorem getR_bind {β : Type} {s : String} {v : Var} {f : ℝ → Prog ι β} {st st'' : Store Key (Value ι)} {b : β}
    (h : (getR s v >>= f) st = (.ok b, st'')) : ∃ st', vals st' = vals st ∧ f (realOf st s v) st' = (.ok b, st'') := by
  obtain ⟨a, s', h1, h2, h3⟩ := (den_get asReal _).bind_ok h
  exact ⟨s', h2, by rw [realOf_read h1]; exact h3⟩

theorem isSet_bind {β : Type} {k : Key} {f : Bool → Prog ι β} {st st'' : Store Key (Value ι)} {b : β}
    (h : ((isSet k : Prog ι Bool) >>= f) st = (.ok b, st'')) : f (vals st k).isSome st = (.ok b, st'') := h

theorem isSetFinal_bind {β : Type} {k : Key} {f : Bool → Prog ι β} {st st'' : Store Key (Value ι)} {b : β}
    (h : ((isSetFinal k : Prog ι Bool) >>= f) st = (.ok b, st'')) :
    ∃ st', vals st' = vals st ∧ f (vals st k).isSome st' = (.ok b, st'') := by
  obtain ⟨a, s', h1, h2, h3⟩ := (den_isSetFinal k).bind_ok h
  cases h1
  exact ⟨s', h2, h3⟩

theorem isSetFinalNB_bind {β : Type} {k : Key} {f : Bool → Prog ι β} {st st'' : Store Key (Value ι)} {b : β}
    (h : ((isSetFinalNoBoundary k : Prog ι Bool) >>= f) st = (.ok b, st'')) :
    ∃ st', vals st' = vals st ∧ f (vals st k).isSome st' = (.ok b, st'') := by
  obtain ⟨a, s', h1, h2, h3⟩ := (den_isSetFinalNoBoundary k).bind_ok h
  cases h1
  exact ⟨s', h2, h3⟩

theorem throwIf_bind {β : Type} {p : Prop} {_ : Decidable p} {f : Unit → Prog ι β} {st st'' : Store Key (Value ι)} {b : β}
    (h : (throwIf p >>= f) st = (.ok b, st'')) : ¬ p ∧ f () st = (.ok b, st'') := by
  obtain ⟨a, s', h1, h2⟩ := M_bind_ok h
  unfold throwIf at h1
  split at h1
  · cases h1
  · cases h1; exact ⟨‹_›, h2⟩

theorem vals_fieldOf {st st' : Store Key (Value ι)} (h : vals st' = vals st) : fieldOf st' = fieldOf st := by
  funext s v; exact fieldOf_congr (by rw [h])

theorem vals_realOf {st st' : Store Key (Value ι)} (h : vals st' = vals st) : realOf st' = realOf st := by
  funext s v; exact realOf_congr (by rw [h])

theorem pure_ok {α : Type} {a b : α} {st st' : Store Key (Value ι)} (h : (pure a : Prog ι α) st = (.ok b, st')) :
    b = a ∧ st' = st := by
  cases h; exact ⟨rfl, rfl⟩

/-! ## Quasineutral (C19) -/

theorem quasineutralTerm_ok {name n : String} {value y : Fld ι} {s s' : Store Key (Value ι)}
    (h : quasineutralTerm name value n s = (.ok y, s')) :
    y = (if n = name then value else fun i => value i + chargeDensity s n i) ∧ vals s' = vals s := by
  unfold quasineutralTerm at h
  split at h <;> rename_i hn
  · obtain ⟨rfl, rfl⟩ := pure_ok h; exact ⟨by rw [if_pos hn], rfl⟩
  · have h := isSet_bind h
    have h := isSet_bind h
    rw [if_neg hn]
    unfold chargeDensity
    split at h <;> rename_i hc
    · obtain ⟨s1, e1, h⟩ := getNoBndryF_bind h
      obtain ⟨s2, e2, h⟩ := getR_bind h
      obtain ⟨rfl, rfl⟩ := pure_ok h
      refine ⟨?_, e2.trans e1⟩
      rw [vals_realOf e1]
      funext i; ring
    · obtain ⟨rfl, rfl⟩ := pure_ok h
      refine ⟨?_, rfl⟩
      funext i
      rw [Bool.not_eq_true, Bool.and_eq_false_iff] at hc
      rcases hc with hc | hc
      · rw [realOf_unset hc]; ring
      · rw [fieldOf_unset hc]; simp

theorem foldl_charge (st : Store Key (Value ι)) (name : String) (i : ι) :
    ∀ (l : List String) (x : Fld ι),
      (l.foldl (fun value n => if n = name then value else fun i => value i + chargeDensity st n i) x) i =
        x i + ((l.filter (· ≠ name)).map fun n => chargeDensity st n i).sum
  | [], x => by simp
  | n :: l, x => by
    rw [List.foldl_cons, foldl_charge st name i l]
    by_cases h : n = name
    · simp [h]
    · simp [h, add_assoc]

theorem floorTo_nonneg (x : ℝ) : 0 ≤ floorTo x 0 := by
  unfold floorTo; split <;> linarith

theorem floorTo_of_le {x lo : ℝ} (h : lo ≤ x) : floorTo x lo = x := by
  unfold floorTo; rw [if_neg (not_lt.2 h)]

theorem floorTo_ge (x lo : ℝ) : lo ≤ floorTo x lo := by
  unfold floorTo; split <;> linarith

/-- **C19.**  After `quasineutral` the density is non-negative, and the total charge density is zero in every cell
where the net charge of the other species is zero or opposite in sign to `charge`.  Nothing but density, charge and
mass of its species changes. -/
theorem quasineutral_neutral (name : String) (charge AA : ℝ) (hc : charge ≠ 0) (names : List String)
    (st st' : Store Key (Value ι)) (h : quasineutral name charge AA names st = (.ok (), st'))
    (all : List String) (hall : all.Perm (name :: names.filter (· ≠ name))) (i : ι) :
    0 ≤ fieldOf st' name Var.density i ∧
    (((names.filter (· ≠ name)).map fun n => chargeDensity st n i).sum * charge ≤ 0 →
      (all.map fun n => chargeDensity st' n i).sum = 0) ∧
    realOf st' name Var.charge = charge ∧ realOf st' name Var.AA = AA ∧
    OnlyChanges st st' [.sp name .density, .sp name .charge, .sp name .AA] := by
  unfold quasineutral at h
  obtain ⟨rho, s1, h1, h⟩ := M_bind_ok h
  obtain ⟨er, e1⟩ := foldlM_reads (g := fun v value n => if n = name then value else fun i => value i + chargeDensity
    (⟨true, fun k => ⟨v k, false, false⟩⟩ : Store Key (Value ι)) n i) (fun x a s y s' hy => quasineutralTerm_ok hy) h1
  have er : ∀ i, rho i = ((names.filter (· ≠ name)).map fun n => chargeDensity st n i).sum := by
    intro i
    rw [er, foldl_charge, zero_add]
    rfl
  obtain ⟨s2, e2, h⟩ := set_bind_ok h
  obtain ⟨s3, e3, h⟩ := set_bind_ok h
  have e4 := set_ok h
  rw [e3, e2, e1] at e4
  have vd : vals st' (.sp name .density) = some (.field (floorF (fun i => rho i / (-charge)) 0)) := by
    rw [e4]; simp [Function.update_apply]
  have vc : vals st' (.sp name .charge) = some (.real charge) := by rw [e4]; simp [Function.update_apply]
  have va : vals st' (.sp name .AA) = some (.real AA) := by rw [e4]; simp [Function.update_apply]
  have hother : ∀ n, n ≠ name → ∀ v, vals st' (.sp n v) = vals st (.sp n v) := by
    intro n hn v; rw [e4]; simp [Function.update_apply, hn]
  refine ⟨?_, ?_, realOf_some vc, realOf_some va, ?_⟩
  · rw [fieldOf_some vd]; exact floorTo_nonneg _
  · intro hsign
    rw [(hall.map _).sum_eq, List.map_cons, List.sum_cons]
    have e : (List.map (fun n => chargeDensity st' n i) (names.filter (· ≠ name))).sum =
        ((names.filter (· ≠ name)).map fun n => chargeDensity st n i).sum := by
      congr 1
      apply List.map_congr_left
      intro n hn
      have hn' : n ≠ name := by simpa using (List.mem_filter.1 hn).2
      unfold chargeDensity
      rw [fieldOf_congr (hother n hn' _), realOf_congr (hother n hn' _)]
    rw [e, chargeDensity, realOf_some vc, fieldOf_some vd]
    unfold floorF
    beta_reduce
    rw [er]
    set ρ := ((names.filter (· ≠ name)).map fun n => chargeDensity st n i).sum
    have : 0 ≤ ρ / (-charge) := by
      have : ρ / (-charge) = -(ρ * charge) / charge ^ 2 := by field_simp
      rw [this]; exact div_nonneg (by linarith) (sq_nonneg _)
    rw [floorTo_of_le this]
    field_simp
    ring
  · intro k hk
    simp only [List.mem_cons, List.not_mem_nil, or_false, not_or] at hk
    rw [e4]
    simp [Function.update_apply, hk.1, hk.2.1, hk.2.2]

/-! ## Zero current (C20) -/

/-- Does species `n` carry a current? -/
def carries (st : Store Key (Value ι)) (n : String) : Bool :=
  (vals st (.sp n .density)).isSome && (vals st (.sp n .charge)).isSome && (vals st (.sp n .velocity)).isSome

theorem zeroCurrentTerm_ok {name n : String} {value y : Option (Fld ι)} {s s' : Store Key (Value ι)}
    (h : zeroCurrentTerm name value n s = (.ok y, s')) :
    y = (if n = name then value else if carries s n then
      some (fun i => (value.getD 0) i + currentDensity s n i) else value) ∧ vals s' = vals s := by
  unfold zeroCurrentTerm at h
  split at h <;> rename_i hn
  · obtain ⟨rfl, rfl⟩ := pure_ok h; exact ⟨by rw [if_pos hn], rfl⟩
  · have h := isSet_bind h
    have h := isSet_bind h
    rw [if_neg hn]
    unfold carries
    split at h <;> rename_i hc
    · obtain ⟨rfl, rfl⟩ := pure_ok h
      rw [Bool.not_eq_true'] at hc
      rw [hc]
      exact ⟨rfl, rfl⟩
    · rw [Bool.not_eq_true, Bool.not_eq_false'] at hc
      rw [hc]
      obtain ⟨s1, e1, h⟩ := isSetFinalNB_bind h
      split at h <;> rename_i hv
      · obtain ⟨s2, e2, h⟩ := getNoBndryF_bind h
        obtain ⟨s3, e3, h⟩ := getR_bind h
        obtain ⟨s4, e4, h⟩ := getNoBndryF_bind h
        obtain ⟨rfl, rfl⟩ := pure_ok h
        rw [hv]
        refine ⟨?_, by rw [e4, e3, e2, e1]⟩
        rw [vals_fieldOf (e3.trans (e2.trans e1)), vals_realOf (e2.trans e1), vals_fieldOf e1]
        unfold currentDensity
        cases value with
        | none => simp
        | some J => simp
      · obtain ⟨rfl, rfl⟩ := pure_ok h
        rw [Bool.not_eq_true] at hv
        rw [hv]
        exact ⟨rfl, e1⟩

theorem currentDensity_not_carries {st : Store Key (Value ι)} {n : String} (h : carries st n = false) (i : ι) :
    currentDensity st n i = 0 := by
  unfold carries at h
  unfold currentDensity
  rw [Bool.and_eq_false_iff, Bool.and_eq_false_iff] at h
  rcases h with (h | h) | h
  · rw [fieldOf_unset h]; simp
  · rw [realOf_unset h]; simp
  · rw [fieldOf_unset h]; simp

theorem foldl_current (st : Store Key (Value ι)) (name : String) (i : ι) :
    ∀ (l : List String) (x : Option (Fld ι)),
      ((l.foldl (fun value n => if n = name then value else if carries st n then
        some (fun i => (value.getD 0) i + currentDensity st n i) else value) x).getD 0) i =
        (x.getD 0) i + ((l.filter (· ≠ name)).map fun n => currentDensity st n i).sum
  | [], x => by simp
  | n :: l, x => by
    rw [List.foldl_cons, foldl_current st name i l]
    by_cases h : n = name
    · simp [h]
    · by_cases hc : carries st n = true
      · simp [h, hc, add_assoc]
      · rw [Bool.not_eq_true] at hc
        simp [h, hc, currentDensity_not_carries hc]

/-- **C20.**  After `zero_current` the total parallel current of all species is zero in every cell where the density of
its species is at least the floor `1e-5`.  Only the velocity of its species changes, and it was not set before. -/
theorem zeroCurrent_no_current (name : String) (charge : ℝ) (hc : charge ≠ 0) (names : List String)
    (st st' : Store Key (Value ι)) (hst : realOf st name Var.charge = charge)
    (h : zeroCurrent name charge names st = (.ok (), st'))
    (all : List String) (hall : all.Perm (name :: names.filter (· ≠ name))) :
    (∀ i, 1e-5 ≤ fieldOf st name Var.density i → (all.map fun n => currentDensity st' n i).sum = 0) ∧
    vals st (.sp name .velocity) = none ∧ OnlyChanges st st' [.sp name .velocity] := by
  unfold zeroCurrent at h
  obtain ⟨current, s1, h1, h⟩ := M_bind_ok h
  obtain ⟨er, e1⟩ := foldlM_reads (g := fun v value n => if n = name then value else if carries
    (⟨true, fun k => ⟨v k, false, false⟩⟩ : Store Key (Value ι)) n then
      some (fun i => (value.getD 0) i + currentDensity (⟨true, fun k => ⟨v k, false, false⟩⟩ : Store Key (Value ι)) n i)
    else value) (fun x a s y s' hy => zeroCurrentTerm_ok hy) h1
  have er : ∀ i, (current.getD 0) i = ((names.filter (· ≠ name)).map fun n => currentDensity st n i).sum := by
    intro i
    rw [er, foldl_current]
    simp only [Option.getD_none, Pi.zero_apply, zero_add]
    rfl
  cases current with
  | none => cases h
  | some J =>
    unfold zeroCurrentSet at h
    have h := isSet_bind h
    split at h <;> rename_i hv
    · cases h
    · obtain ⟨s2, e2, h⟩ := getNoBndryF_bind h
      have e3 := set_ok h
      rw [e2, e1] at e3
      rw [vals_fieldOf e1] at e3
      have vv : vals st' (.sp name .velocity) =
          some (.field fun i => J i / (-charge * floorTo (fieldOf st name Var.density i) 1e-5)) := by rw [e3]; simp
      have hother : ∀ k, k ≠ .sp name .velocity → vals st' k = vals st k := by
        intro k hk; rw [e3]; simp [Function.update_apply, hk]
      refine ⟨fun i hi => ?_, ?_, fun k hk => hother k (by simpa using hk)⟩
      · rw [(hall.map _).sum_eq, List.map_cons, List.sum_cons]
        have e : (List.map (fun n => currentDensity st' n i) (names.filter (· ≠ name))).sum =
            ((names.filter (· ≠ name)).map fun n => currentDensity st n i).sum := by
          congr 1
          apply List.map_congr_left
          intro n hn
          have hn' : n ≠ name := by simpa using (List.mem_filter.1 hn).2
          unfold currentDensity
          rw [fieldOf_congr (hother (.sp n .density) (by simp)), realOf_congr (hother (.sp n .charge) (by simp)),
            fieldOf_congr (hother (.sp n .velocity) (by simp [hn']))]
        have hN : fieldOf st' name Var.density i = fieldOf st name Var.density i := by
          rw [fieldOf_congr (hother (.sp name .density) (by simp))]
        have hZ : realOf st' name Var.charge = charge := by
          rw [realOf_congr (hother (.sp name .charge) (by simp)), hst]
        rw [e, currentDensity, hN, hZ, fieldOf_some vv, ← er]
        beta_reduce
        rw [floorTo_of_le hi]
        have hpos : fieldOf st name Var.density i ≠ 0 := by
          have : (0 : ℝ) < 1e-5 := by norm_num
          linarith
        simp only [Option.getD_some]
        field_simp
        ring
      · rw [e1, Bool.not_eq_true] at hv
        cases e : vals st (.sp name .velocity) with
        | none => rfl
        | some x => rw [e] at hv; cases hv

/-- Setting the velocity twice is an error. -/
theorem zeroCurrent_rejects_second_velocity (name : String) (charge : ℝ) (names : List String)
    (st : Store Key (Value ι)) (hv : vals st (.sp name .velocity) ≠ none) :
    ∀ st', zeroCurrent name charge names st ≠ (.ok (), st') := by
  intro st' h
  unfold zeroCurrent at h
  obtain ⟨current, s1, h1, h⟩ := M_bind_ok h
  obtain ⟨-, e1⟩ := foldlM_reads (g := fun v value n => if n = name then value else if carries
    (⟨true, fun k => ⟨v k, false, false⟩⟩ : Store Key (Value ι)) n then
      some (fun i => (value.getD 0) i + currentDensity (⟨true, fun k => ⟨v k, false, false⟩⟩ : Store Key (Value ι)) n i)
    else value) (fun x a s y s' hy => zeroCurrentTerm_ok hy) h1
  cases current with
  | none => cases h
  | some J =>
    unfold zeroCurrentSet at h
    have h := isSet_bind h
    rw [e1] at h
    cases e : vals st (.sp name .velocity) with
    | none => exact hv e
    | some x => rw [e] at h; cases h

/-! ## Electron force balance (C21) -/

/-- What a run adds to a field of species `s`. -/
def added (st st' : Store Key (Value ι)) (s : String) (v : Var) (i : ι) : ℝ := fieldOf st' s v i - fieldOf st s v i

theorem add_field_ok {s : String} {v : Var} {f : Fld ι} {st st' : Store Key (Value ι)} {u : Unit}
    (h : addF s v f st = (.ok u, st')) :
    (∀ i, fieldOf st' s v i = fieldOf st s v i + f i) ∧ ∀ k, k ≠ .sp s v → vals st' k = vals st k := by
  obtain ⟨h1, h2⟩ := add_ok h
  constructor
  · intro i
    have hv : vals st' (.sp s v) = addVal (.field f) (vals st (.sp s v)) := by rw [h2]; simp
    unfold fieldOf
    rw [hv]
    cases e : vals st (.sp s v) with
    | none => simp [addVal, asField]
    | some x =>
      cases x with
      | real y => simp [addVal, asField, StoreVal.addTo, add_comm]
      | field g => simp [addVal, asField, StoreVal.addTo, add_comm]
  · intro k hk
    rw [h2]; simp [Function.update_apply, hk]

/-- Charge density of a species to which the electric field is applied. -/
theorem forceOn_ok {Epar : Fld ι} {n : String} {st st' : Store Key (Value ι)} {u : Unit}
    (h : forceOn Epar n st = (.ok u, st')) :
    (∀ i, fieldOf st' n Var.momentum_source i =
      fieldOf st n Var.momentum_source i + if n = "e" then 0 else chargeDensity st n i * Epar i) ∧
    (∀ k, k ≠ .sp n .momentum_source → vals st' k = vals st k) ∧
    (n = "e" → vals st' = vals st) := by
  unfold forceOn at h
  split at h <;> rename_i hn
  · obtain ⟨-, rfl⟩ := pure_ok h
    exact ⟨fun i => by rw [if_pos hn, add_zero], fun _ _ => rfl, fun _ => rfl⟩
  · obtain ⟨s1, e1, h⟩ := isSetFinal_bind h
    split at h <;> rename_i hd
    · obtain ⟨-, rfl⟩ := pure_ok h
      refine ⟨fun i => ?_, fun k _ => by rw [e1], fun e => absurd e hn⟩
      rw [Bool.not_eq_true'] at hd
      rw [if_neg hn, chargeDensity, fieldOf_unset hd, fieldOf_congr (st := st) (by rw [e1])]
      simp
    · obtain ⟨s2, e2, h⟩ := isSetFinal_bind h
      split at h <;> rename_i hc
      · obtain ⟨-, rfl⟩ := pure_ok h
        refine ⟨fun i => ?_, fun k _ => by rw [e2, e1], fun e => absurd e hn⟩
        rw [Bool.not_eq_true', e1] at hc
        rw [if_neg hn, chargeDensity, realOf_unset hc, fieldOf_congr (st := st) (by rw [e2, e1])]
        simp
      · obtain ⟨s3, e3, h⟩ := getNoBndryF_bind h
        obtain ⟨s4, e4, h⟩ := getR_bind h
        obtain ⟨h1, h2⟩ := add_field_ok h
        have e : vals s4 = vals st := by rw [e4, e3, e2, e1]
        refine ⟨fun i => ?_, fun k hk => by rw [h2 k hk, e], fun e => absurd e hn⟩
        rw [h1, vals_fieldOf e, vals_realOf (e3.trans (e2.trans e1)), vals_fieldOf (e2.trans e1), if_neg hn]
        rfl

theorem forM_force {Epar : Fld ι} :
    ∀ {names : List String} (_ : names.Nodup) {st st' : Store Key (Value ι)} {u : Unit},
      names.forM (forceOn Epar) st = (.ok u, st') →
      (∀ n ∈ names, ∀ i, fieldOf st' n Var.momentum_source i =
        fieldOf st n Var.momentum_source i + if n = "e" then 0 else chargeDensity st n i * Epar i) ∧
      (∀ k, (∀ n ∈ names, n ≠ "e" → k ≠ .sp n .momentum_source) → vals st' k = vals st k)
  | [], _, st, st', u, h => by
    obtain ⟨-, rfl⟩ := pure_ok h
    exact ⟨fun n hn => by simp at hn, fun _ _ => rfl⟩
  | n :: l, hnd, st, st', u, h => by
    have h : (forceOn Epar n >>= fun _ => l.forM (forceOn Epar)) st = (.ok u, st') := h
    obtain ⟨_, s1, h1, h2⟩ := M_bind_ok h
    obtain ⟨a1, a2, a3⟩ := forceOn_ok h1
    obtain ⟨b1, b2⟩ := forM_force (List.nodup_cons.1 hnd).2 h2
    have hnl := (List.nodup_cons.1 hnd).1
    constructor
    · intro m hm i
      rcases List.mem_cons.1 hm with rfl | hm
      · rw [fieldOf_congr (st := s1) (b2 _ fun k hk _ e => hnl (by cases e; exact hk)), a1]
      · have hne : m ≠ n := fun e => hnl (e ▸ hm)
        rw [b1 m hm, fieldOf_congr (st := st) (a2 _ (by simp [hne]))]
        unfold chargeDensity
        rw [fieldOf_congr (st := st) (v := Var.density) (a2 _ (by simp)),
          realOf_congr (st := st) (v := Var.charge) (a2 _ (by simp))]
    · intro k hk
      rw [b2 k fun m hm => hk m (List.mem_cons_of_mem _ hm)]
      by_cases he : n = "e"
      · rw [a3 he]
      · exact a2 k (hk n List.mem_cons_self he)

theorem otherForces_ok {force y : Fld ι} {st st' : Store Key (Value ι)} (h : otherForces force st = (.ok y, st')) :
    (∀ i, y i = force i + fieldOf st "e" Var.momentum_source i) ∧ vals st' = vals st := by
  unfold otherForces at h
  obtain ⟨s1, e1, h⟩ := isSetFinal_bind h
  split at h <;> rename_i hm
  · obtain ⟨s2, e2, h⟩ := getF_bind h
    obtain ⟨rfl, rfl⟩ := pure_ok h
    exact ⟨fun i => by rw [vals_fieldOf e1], e2.trans e1⟩
  · obtain ⟨rfl, rfl⟩ := pure_ok h
    rw [Bool.not_eq_true] at hm
    exact ⟨fun i => by rw [fieldOf_unset hm]; simp, e1⟩

/-- **C21.**  A run of `electron_force_balance` finds an electric field `Epar` such that

* the net force on the electrons (electric field, pressure gradient and momentum sources) is zero in every cell where
  their density is at least `1e-5`;
* every other species gets the force `charge × density × Epar`;
* in a quasineutral cell the momentum of all other species together changes by the force on the electrons;
* nothing but the momentum sources of the other species changes. -/
theorem electron_force_balance (gradPar : Fld ι → Fld ι) (names : List String) (hnd : names.Nodup)
    (st st' : Store Key (Value ι)) (Epar : Fld ι)
    (h : electronForceBalance gradPar names st = (.ok Epar, st')) :
    let Pe := fieldOf st "e" Var.pressure
    let Fe := fieldOf st "e" Var.momentum_source
    let others := names.filter (· ≠ "e")
    (∀ i, 1e-5 ≤ fieldOf st "e" Var.density i →
      chargeDensity st "e" i * Epar i - gradPar Pe i + Fe i = 0) ∧
    (∀ n ∈ others, ∀ i, added st st' n Var.momentum_source i = chargeDensity st n i * Epar i) ∧
    (∀ i, 1e-5 ≤ fieldOf st "e" Var.density i →
      chargeDensity st "e" i + (others.map fun n => chargeDensity st n i).sum = 0 →
      (others.map fun n => added st st' n Var.momentum_source i).sum = - gradPar Pe i + Fe i) ∧
    OnlyChanges st st' (others.map fun n => .sp n .momentum_source) := by
  intro Pe Fe others
  unfold electronForceBalance at h
  obtain ⟨s1, e1, h⟩ := isSetFinal_bind h
  obtain ⟨-, h⟩ := throwIf_bind h
  obtain ⟨s2, e2, h⟩ := getF_bind h
  obtain ⟨s3, e3, h⟩ := getNoBndryF_bind h
  obtain ⟨s4, e4, h⟩ := getR_bind h
  obtain ⟨hZ, h⟩ := throwIf_bind h
  obtain ⟨force, s5, h5, h⟩ := M_bind_ok h
  obtain ⟨hf, e5⟩ := otherForces_ok h5
  obtain ⟨_, s6, h6, h⟩ := M_bind_ok h
  obtain ⟨hE, hs⟩ := pure_ok h
  subst hs
  have e41 : vals s4 = vals st := by rw [e4, e3, e2, e1]
  have e51 : vals s5 = vals st := by rw [e5, e41]
  obtain ⟨hg, hu⟩ := forM_force hnd h6
  have hg : ∀ n ∈ names, ∀ i, fieldOf st' n Var.momentum_source i =
      fieldOf s5 n Var.momentum_source i + if n = "e" then 0 else chargeDensity s5 n i * Epar i := by
    rw [hE]; exact hg
  rw [vals_realOf (e3.trans (e2.trans e1)), not_not] at hZ
  have hbal : ∀ i, 1e-5 ≤ fieldOf st "e" Var.density i → chargeDensity st "e" i * Epar i - gradPar Pe i + Fe i = 0 := by
    intro i hi
    have hpos : fieldOf st "e" Var.density i ≠ 0 := by
      have : (0 : ℝ) < 1e-5 := by norm_num
      linarith
    rw [hE]
    beta_reduce
    rw [vals_fieldOf (e2.trans e1), floorTo_of_le hi, hf, vals_fieldOf e41, vals_fieldOf e1]
    unfold chargeDensity
    rw [hZ]
    field_simp
    ring
  have hadd : ∀ n ∈ others, ∀ i, added st st' n Var.momentum_source i = chargeDensity st n i * Epar i := by
    intro n hn i
    obtain ⟨hn1, hn2⟩ := List.mem_filter.1 hn
    have hn2 : n ≠ "e" := by simpa using hn2
    unfold added
    rw [hg n hn1 i, if_neg hn2, vals_fieldOf e51]
    unfold chargeDensity
    rw [vals_fieldOf e51, vals_realOf e51]
    ring
  refine ⟨hbal, hadd, fun i hi hq => ?_, fun k hk => ?_⟩
  · have : (others.map fun n => added st st' n Var.momentum_source i) =
        others.map fun n => chargeDensity st n i * Epar i := List.map_congr_left fun n hn => hadd n hn i
    rw [this, List.sum_map_mul_right]
    have := hbal i hi
    have hq' : (others.map fun n => chargeDensity st n i).sum = - chargeDensity st "e" i := by linarith
    rw [hq']
    linarith
  · rw [hu k ?_, e51]
    intro n hn he e
    exact hk (List.mem_map.2 ⟨n, List.mem_filter.2 ⟨hn, by simpa using he⟩, e.symm⟩)

/-! ## Sound speed (C24) -/

/-- Is species `n` part of the mass density and of the thermal speeds?  (Electrons can be excluded; a species without
mass is not.) -/
def moves (electron_dynamics : Bool) (st : Store Key (Value ι)) (n : String) : Prop :=
  ¬ (n = "e" ∧ electron_dynamics = false) ∧ (vals st (.sp n .AA)).isSome

open Classical in
/-- Total pressure, total mass density. -/
noncomputable def totalPressure (st : Store Key (Value ι)) (names : List String) (i : ι) : ℝ :=
  (names.map fun n => fieldOf st n Var.pressure i).sum
open Classical in
noncomputable def massDensity (electron_dynamics : Bool) (st : Store Key (Value ι)) (names : List String) (i : ι) : ℝ :=
  (names.map fun n => if moves electron_dynamics st n then realOf st n Var.AA * fieldOf st n Var.density i else 0).sum

/-- Thermal speed of a species, with the floor of the temperature. -/
noncomputable def thermalSpeed (temperature_floor : ℝ) (st : Store Key (Value ι)) (n : String) (i : ι) : ℝ :=
  Real.sqrt (floorTo (fieldOf st n Var.temperature i) temperature_floor / realOf st n Var.AA)

/-- Does species `n` contribute a thermal speed? -/
def thermal (electron_dynamics : Bool) (st : Store Key (Value ι)) (n : String) : Prop :=
  moves electron_dynamics st n ∧ (vals st (.sp n .temperature)).isSome

open Classical in
/-- One step of the loop as a function of the values. -/
noncomputable def waveStep (electron_dynamics : Bool) (temperature_floor : ℝ) (st : Store Key (Value ι)) (a : Waves ι)
    (n : String) : Waves ι :=
  { P := fun i => a.P i + fieldOf st n Var.pressure i
    rho := fun i => a.rho i + if moves electron_dynamics st n then
      realOf st n Var.AA * fieldOf st n Var.density i else 0
    fastest := fun i => if thermal electron_dynamics st n then
      max (a.fastest i) (thermalSpeed temperature_floor st n i) else a.fastest i }

theorem addPressure_ok {n : String} {a y : Waves ι} {s s' : Store Key (Value ι)} (h : addPressure n a s = (.ok y, s')) :
    y = { a with P := fun i => a.P i + fieldOf s n Var.pressure i } ∧ vals s' = vals s := by
  unfold addPressure at h
  have h := isSet_bind h
  split at h <;> rename_i hp
  · obtain ⟨s1, e1, h⟩ := getNoBndryF_bind h
    obtain ⟨rfl, rfl⟩ := pure_ok h
    exact ⟨rfl, e1⟩
  · obtain ⟨rfl, rfl⟩ := pure_ok h
    rw [Bool.not_eq_true] at hp
    rw [fieldOf_unset hp]
    exact ⟨by simp, rfl⟩

theorem addMass_ok {n : String} {a y : Waves ι} {s s' : Store Key (Value ι)} (h : addMass n a s = (.ok y, s')) :
    y = { a with rho := fun i => a.rho i + realOf s n Var.AA * fieldOf s n Var.density i } ∧ vals s' = vals s := by
  unfold addMass at h
  have h := isSet_bind h
  split at h <;> rename_i hp
  · obtain ⟨s1, e1, h⟩ := getNoBndryF_bind h
    obtain ⟨s2, e2, h⟩ := getR_bind h
    obtain ⟨rfl, rfl⟩ := pure_ok h
    rw [vals_realOf e1]
    exact ⟨by simp only [mul_comm], e2.trans e1⟩
  · obtain ⟨rfl, rfl⟩ := pure_ok h
    rw [Bool.not_eq_true] at hp
    rw [fieldOf_unset hp]
    exact ⟨by simp, rfl⟩

open Classical in
theorem addSpeed_ok {tf : ℝ} {n : String} {a y : Waves ι} {s s' : Store Key (Value ι)}
    (h : addSpeed tf n a s = (.ok y, s')) :
    y = { a with
      rho := fun i => a.rho i + if (vals s (.sp n .AA)).isSome then realOf s n Var.AA * fieldOf s n Var.density i else 0
      fastest := fun i => if (vals s (.sp n .AA)).isSome ∧ (vals s (.sp n .temperature)).isSome then
        max (a.fastest i) (thermalSpeed tf s n i) else a.fastest i } ∧ vals s' = vals s := by
  unfold addSpeed at h
  have h := isSet_bind h
  split at h <;> rename_i hp
  · obtain ⟨s1, e1, h⟩ := getR_bind h
    obtain ⟨b, s2, h2, h⟩ := M_bind_ok h
    obtain ⟨rfl, e2⟩ := addMass_ok h2
    unfold addWave at h
    have h := isSet_bind h
    rw [e2, e1] at h
    split at h <;> rename_i ht
    · obtain ⟨s3, e3, h⟩ := getNoBndryF_bind h
      obtain ⟨rfl, rfl⟩ := pure_ok h
      refine ⟨?_, by rw [e3, e2, e1]⟩
      rw [vals_fieldOf (e2.trans e1), vals_fieldOf e1, vals_realOf e1]
      simp [hp, ht, thermalSpeed]
    · obtain ⟨rfl, rfl⟩ := pure_ok h
      refine ⟨?_, by rw [e2, e1]⟩
      rw [vals_fieldOf e1, vals_realOf e1]
      simp [hp, ht]
  · obtain ⟨rfl, rfl⟩ := pure_ok h
    refine ⟨?_, rfl⟩
    simp [hp]

theorem soundSpeedTerm_ok {ed : Bool} {tf : ℝ} {n : String} {a y : Waves ι} {s s' : Store Key (Value ι)}
    (h : soundSpeedTerm ed tf a n s = (.ok y, s')) : y = waveStep ed tf s a n ∧ vals s' = vals s := by
  unfold soundSpeedTerm at h
  obtain ⟨b, s1, h1, h⟩ := M_bind_ok h
  obtain ⟨rfl, e1⟩ := addPressure_ok h1
  unfold waveStep thermal moves
  split at h <;> rename_i he
  · obtain ⟨rfl, rfl⟩ := pure_ok h
    refine ⟨?_, e1⟩
    simp [he]
  · obtain ⟨rfl, e2⟩ := addSpeed_ok h
    refine ⟨?_, e2.trans e1⟩
    rw [e1, vals_fieldOf e1, vals_realOf e1]
    have : thermalSpeed tf s1 n = thermalSpeed tf s n := by
      unfold thermalSpeed; rw [vals_fieldOf e1, vals_realOf e1]
    rw [this]
    simp only [he, not_false_eq_true, true_and]

theorem foldl_waves (ed : Bool) (tf : ℝ) (st : Store Key (Value ι)) (i : ι) : ∀ (l : List String) (a : Waves ι),
    let r := l.foldl (waveStep ed tf st) a
    r.P i = a.P i + totalPressure st l i ∧ r.rho i = a.rho i + massDensity ed st l i ∧
    a.fastest i ≤ r.fastest i ∧ (∀ n ∈ l, thermal ed st n → thermalSpeed tf st n i ≤ r.fastest i) ∧
    (∀ B, a.fastest i ≤ B → (∀ n ∈ l, thermal ed st n → thermalSpeed tf st n i ≤ B) → r.fastest i ≤ B)
  | [], a => by simp [totalPressure, massDensity]
  | n :: l, a => by
    intro r
    obtain ⟨h1, h2, h3, h4, h5⟩ := foldl_waves ed tf st i l (waveStep ed tf st a n)
    have hr : r = l.foldl (waveStep ed tf st) (waveStep ed tf st a n) := rfl
    rw [← hr] at h1 h2 h3 h4 h5
    have ha : a.fastest i ≤ (waveStep ed tf st a n).fastest i := by
      unfold waveStep; dsimp only; split
      · exact le_max_left _ _
      · exact le_refl _
    refine ⟨?_, ?_, ha.trans h3, ?_, ?_⟩
    · rw [h1]; simp [waveStep, totalPressure, add_assoc]
    · rw [h2]; simp [waveStep, massDensity, add_assoc]
    · intro m hm ht
      rcases List.mem_cons.1 hm with rfl | hm
      · refine le_trans ?_ h3
        unfold waveStep; dsimp only
        rw [if_pos ht]; exact le_max_right _ _
      · exact h4 m hm ht
    · intro B hB hall
      refine h5 B ?_ fun m hm => hall m (List.mem_cons_of_mem _ hm)
      unfold waveStep; dsimp only
      split
      · exact max_le hB (hall n List.mem_cons_self ‹_›)
      · exact hB

/-- The field published at the top of the tree. -/
def topField (st : Store Key (Value ι)) (k : String) : Fld ι := ((vals st (.top k)).bind asField).getD 0

/-- **C24, the values.**  `sound_speed` is the bulk speed `sqrt(pressure / mass density)`; `fastest_wave` is the factor
times the largest of the bulk speed, the thermal speeds of the species and the Alfven speed: it is at least each of
them, and at most any bound of them. -/
theorem sound_speed_bounds (ed : Bool) (tf factor : ℝ) (hf : 0 ≤ factor) (alfven : Option (Fld ι)) (names : List String)
    (st st' : Store Key (Value ι)) (h : soundSpeed ed tf factor alfven names st = (.ok (), st')) (i : ι) :
    let rho := max (massDensity ed st names i) 1e-10
    topField st' "sound_speed" i = Real.sqrt (totalPressure st names i / rho) ∧
    0 ≤ totalPressure st names i ∧
    (∀ n ∈ names, thermal ed st n → factor * thermalSpeed tf st n i ≤ topField st' "fastest_wave" i) ∧
    factor * topField st' "sound_speed" i ≤ topField st' "fastest_wave" i ∧
    (∀ b, alfven = some b → factor * (b i / Real.sqrt rho) ≤ topField st' "fastest_wave" i) ∧
    (∀ B, 0 ≤ B → (∀ n ∈ names, thermal ed st n → thermalSpeed tf st n i ≤ B) → topField st' "sound_speed" i ≤ B →
      (∀ b, alfven = some b → b i / Real.sqrt rho ≤ B) → topField st' "fastest_wave" i ≤ factor * B) ∧
    OnlyChanges st st' [.top "sound_speed", .top "fastest_wave"] := by
  intro rho
  unfold soundSpeed at h
  obtain ⟨a, s1, h1, h⟩ := M_bind_ok h
  obtain ⟨ea, e1⟩ := foldlM_reads (f := soundSpeedTerm ed tf)
    (g := fun v => waveStep ed tf (⟨true, fun k => ⟨v k, false, false⟩⟩ : Store Key (Value ι)))
    (fun x a s y s' hy => by have := soundSpeedTerm_ok hy; exact this) h1
  obtain ⟨a1, a2, a3, a4, a5⟩ := foldl_waves ed tf st i names ⟨fun _ => 0, fun _ => 0, fun _ => 0⟩
  have ea : a = names.foldl (waveStep ed tf st) ⟨fun _ => 0, fun _ => 0, fun _ => 0⟩ := ea
  rw [← ea] at a1 a2 a3 a4 a5
  rw [zero_add] at a1 a2
  obtain ⟨hpos, h⟩ := throwIf_bind h
  rw [not_not] at hpos
  obtain ⟨s2, e2, h⟩ := set_bind_ok h
  have e3 := set_ok h
  rw [e2, e1] at e3
  have hrho : floorTo (a.rho i) 1e-10 = rho := by
    rw [a2]; unfold floorTo
    split
    · exact (max_eq_right (le_of_lt ‹_›)).symm
    · exact (max_eq_left (not_lt.1 ‹_›)).symm
  have hrpos : 0 < rho := lt_of_lt_of_le (by norm_num) (le_max_right _ _)
  have hcs : topField st' "sound_speed" i = Real.sqrt (totalPressure st names i / rho) := by
    unfold topField
    rw [e3, Function.update_of_ne (by simp), Function.update_self]
    simp only [Option.bind_some, asField, Option.getD_some, floorF]
    rw [hrho, a1]
  have hw : topField st' "fastest_wave" i =
      alfven.elim (max (a.fastest i) (Real.sqrt (totalPressure st names i / rho)))
        (fun b => max (max (a.fastest i) (Real.sqrt (totalPressure st names i / rho))) (b i / Real.sqrt rho)) * factor := by
    unfold topField
    rw [e3, Function.update_self]
    cases alfven <;> simp [asField, floorF, hrho, a1]
  have hge : max (a.fastest i) (Real.sqrt (totalPressure st names i / rho)) * factor ≤ topField st' "fastest_wave" i := by
    rw [hw]
    refine mul_le_mul_of_nonneg_right ?_ hf
    cases alfven with
    | none => exact le_refl _
    | some b => exact le_max_left _ _
  refine ⟨hcs, ?_, ?_, ?_, ?_, ?_, ?_⟩
  · have := hpos i
    simp only [floorF] at this
    rw [hrho, a1] at this
    have h2 := mul_nonneg this hrpos.le
    rwa [div_mul_cancel₀ _ hrpos.ne'] at h2
  · intro n hn ht
    refine le_trans ?_ hge
    rw [mul_comm]
    exact mul_le_mul_of_nonneg_right ((a4 n hn ht).trans (le_max_left _ _)) hf
  · refine le_trans ?_ hge
    rw [mul_comm, hcs]
    exact mul_le_mul_of_nonneg_right (le_max_right _ _) hf
  · rintro b rfl
    rw [hw, mul_comm]
    exact mul_le_mul_of_nonneg_right (le_max_right _ _) hf
  · intro B hB hall hb hal
    rw [hw, mul_comm]
    refine mul_le_mul_of_nonneg_left ?_ hf
    have h0 := max_le (a5 B hB hall) (hcs ▸ hb)
    cases alfven with
    | none => exact h0
    | some b => exact max_le h0 (hal b rfl)
  · intro k hk
    simp only [List.mem_cons, List.not_mem_nil, or_false, not_or] at hk
    rw [e3]; simp [Function.update_apply, hk.1, hk.2]

/-- Species with consistent mass, density, pressure and temperature in cell `i`. -/
def Consistent (ed : Bool) (st : Store Key (Value ι)) (n : String) (i : ι) : Prop :=
  thermal ed st n ∧ 0 < realOf st n Var.AA ∧ 0 ≤ fieldOf st n Var.density i ∧
  fieldOf st n Var.pressure i = fieldOf st n Var.density i * fieldOf st n Var.temperature i

/-- The bulk sound speed is at most the largest thermal speed, if all species have a mass and `P = N T`. -/
theorem bulk_le_thermal (ed : Bool) (tf : ℝ) (st : Store Key (Value ι)) (names : List String) (i : ι)
    (hc : ∀ n ∈ names, Consistent ed st n i) (B : ℝ) (hB : 0 ≤ B) (hall : ∀ n ∈ names, thermalSpeed tf st n i ≤ B) :
    totalPressure st names i ≤ B ^ 2 * massDensity ed st names i ∧ 0 ≤ massDensity ed st names i := by
  induction names with
  | nil => simp [totalPressure, massDensity]
  | cons n l ih =>
    obtain ⟨h1, h0⟩ := ih (fun m hm => hc m (List.mem_cons_of_mem _ hm)) (fun m hm => hall m (List.mem_cons_of_mem _ hm))
    obtain ⟨c1, c2, c3, c4⟩ := hc n List.mem_cons_self
    have e1 : totalPressure st (n :: l) i = fieldOf st n Var.pressure i + totalPressure st l i := by
      simp [totalPressure]
    have e2 : massDensity ed st (n :: l) i = realOf st n Var.AA * fieldOf st n Var.density i + massDensity ed st l i := by
      simp [massDensity, c1.1]
    rw [e1, e2, c4]
    have ht := hall n List.mem_cons_self
    unfold thermalSpeed at ht
    have hT : fieldOf st n Var.temperature i ≤ B ^ 2 * realOf st n Var.AA := by
      have h2 : floorTo (fieldOf st n Var.temperature i) tf / realOf st n Var.AA ≤ B ^ 2 := by
        rw [Real.sqrt_le_left hB] at ht; exact ht
      have h3 : fieldOf st n Var.temperature i ≤ floorTo (fieldOf st n Var.temperature i) tf := by
        unfold floorTo; split <;> linarith
      rw [div_le_iff₀ c2] at h2
      linarith
    have := mul_le_mul_of_nonneg_left hT c3
    constructor
    · linarith [mul_add (B ^ 2) (realOf st n Var.AA * fieldOf st n Var.density i) (massDensity ed st l i)]
    · have := mul_nonneg c2.le c3; linarith

/-- **C24, monotonicity, the part that holds.**  If every species has a mass, a temperature, a non-negative density and
`P = N T`, and electrons are included (or absent), then adding species never decreases `fastest_wave`.
Missing from C24: species with a pressure but without a thermal speed (see
`fastest_wave_decreases`), and the Alfven wave. -/
theorem fastest_wave_monotone_partial (ed : Bool) (tf factor : ℝ) (hf : 0 ≤ factor) (names names' : List String)
    (hsub : names ⊆ names') (st s1 s2 : Store Key (Value ι)) (i : ι) (hc : ∀ n ∈ names, Consistent ed st n i)
    (h1 : soundSpeed ed tf factor none names st = (.ok (), s1))
    (h2 : soundSpeed ed tf factor none names' st = (.ok (), s2)) :
    topField s1 "fastest_wave" i ≤ topField s2 "fastest_wave" i := by
  obtain ⟨a1, a2, a3, a4, a5, a6, a7⟩ := sound_speed_bounds ed tf factor hf none names st s1 h1 i
  obtain ⟨b1, b2, b3, b4, b5, b6, b7⟩ := sound_speed_bounds ed tf factor hf none names' st s2 h2 i
  rcases eq_or_lt_of_le hf with rfl | hf
  · have : topField s1 "fastest_wave" i ≤ 0 := by
      obtain ⟨B, hB⟩ : ∃ B, 0 ≤ B ∧ (∀ n ∈ names, thermal ed st n → thermalSpeed tf st n i ≤ B) ∧
          topField s1 "sound_speed" i ≤ B := by
        refine ⟨topField s1 "sound_speed" i + (names.map fun n => thermalSpeed tf st n i).sum, ?_, ?_, ?_⟩
        · rw [a1]
          exact add_nonneg (Real.sqrt_nonneg _) (List.sum_nonneg (by simp [thermalSpeed, Real.sqrt_nonneg]))
        · intro n hn _
          have := List.single_le_sum (l := names.map fun n => thermalSpeed tf st n i)
            (by simp [thermalSpeed, Real.sqrt_nonneg]) _ (List.mem_map.2 ⟨n, hn, rfl⟩)
          have h0 : 0 ≤ topField s1 "sound_speed" i := by rw [a1]; exact Real.sqrt_nonneg _
          linarith
        · have := List.sum_nonneg (l := names.map fun n => thermalSpeed tf st n i)
            (by simp [thermalSpeed, Real.sqrt_nonneg])
          linarith
      have := a6 B hB.1 hB.2.1 hB.2.2 (by simp)
      simpa using this
    refine this.trans ?_
    simpa using b4
  · set B := topField s2 "fastest_wave" i / factor with hBdef
    have hBn : 0 ≤ B := by
      refine div_nonneg ?_ hf.le
      refine le_trans (mul_nonneg hf.le ?_) b4
      rw [b1]; exact Real.sqrt_nonneg _
    have hBe : factor * B = topField s2 "fastest_wave" i := by rw [hBdef]; field_simp
    have hth : ∀ n ∈ names, thermal ed st n → thermalSpeed tf st n i ≤ B := by
      intro n hn ht
      rw [hBdef, le_div_iff₀ hf, mul_comm]
      exact b3 n (hsub hn) ht
    rw [← hBe]
    refine a6 B hBn hth ?_ (by simp)
    obtain ⟨c1, c2⟩ := bulk_le_thermal ed tf st names i hc B hBn fun n hn => hth n hn (hc n hn).1
    rw [a1, Real.sqrt_le_left hBn, div_le_iff₀ (lt_of_lt_of_le (by norm_num) (le_max_right _ _))]
    exact c1.trans (mul_le_mul_of_nonneg_left (le_max_left _ _) (sq_nonneg _))

/-! ### Concrete states -/

/-- A fresh state with the given values. -/
def stateOf (f : String → Var → Option (Value ι)) : Store Key (Value ι) :=
  ⟨true, fun k => match k with
    | .sp n v => ⟨f n v, false, false⟩
    | .top _ => ⟨none, false, false⟩⟩

theorem bind_intro {α β : Type} {m : Prog ι α} {f : α → Prog ι β} {s s' : Store Key (Value ι)} {a : α}
    {r : Except Err β × Store Key (Value ι)} (h1 : m s = (.ok a, s')) (h2 : f a s' = r) : (m >>= f) s = r := by
  show M.bind m f s = r
  unfold M.bind
  rw [h1]
  exact h2

theorem throwIf_intro {p : Prop} {_ : Decidable p} (h : ¬ p) (s : Store Key (Value ι)) : throwIf p s = (.ok (), s) := by
  unfold throwIf; rw [if_neg h]; rfl

/-- Electrons and deuterium at unit density and temperature, and a cold heavy species "w". -/
noncomputable def coldHeavy : Store Key (Value Unit) := stateOf fun n v =>
  if n = "e" then
    match v with
    | .pressure => some (.field fun _ => 1)
    | _ => none
  else if n = "d" then
    match v with
    | .AA => some (.real 1)
    | .density | .temperature | .pressure => some (.field fun _ => 1)
    | _ => none
  else
    match v with
    | .AA => some (.real 99)
    | .density => some (.field fun _ => 1)
    | .temperature | .pressure => some (.field fun _ => 0)
    | _ => none

theorem coldHeavy_run : ∃ s, soundSpeed false 0 1 none ["d", "e"] coldHeavy = (.ok (), s) := by
  refine ⟨_, bind_intro rfl (bind_intro (throwIf_intro ?_ _) rfl)⟩
  rw [not_not]
  intro i
  refine div_nonneg ?_ ((by norm_num : (0 : ℝ) ≤ 1e-10).trans (floorTo_ge _ _))
  show (0 : ℝ) ≤ 0 + 1 + 1
  norm_num

theorem coldHeavy_run' : ∃ s, soundSpeed false 0 1 none ["d", "e", "w"] coldHeavy = (.ok (), s) := by
  refine ⟨_, bind_intro rfl (bind_intro (throwIf_intro ?_ _) rfl)⟩
  rw [not_not]
  intro i
  refine div_nonneg ?_ ((by norm_num : (0 : ℝ) ≤ 1e-10).trans (floorTo_ge _ _))
  show (0 : ℝ) ≤ 0 + 1 + 1 + 0
  norm_num

/-- **C24 fails for the code** when electrons are excluded from the thermal speeds: adding a cold heavy species lowers
the bulk speed, and with it `fastest_wave`. -/
theorem fastest_wave_decreases : ∃ (st s1 s2 : Store Key (Value Unit)),
    soundSpeed false 0 1 none ["d", "e"] st = (.ok (), s1) ∧
    soundSpeed false 0 1 none ["d", "e", "w"] st = (.ok (), s2) ∧
    topField s2 "fastest_wave" () < topField s1 "fastest_wave" () := by
  obtain ⟨s1, h1⟩ := coldHeavy_run
  obtain ⟨s2, h2⟩ := coldHeavy_run'
  refine ⟨coldHeavy, s1, s2, h1, h2, ?_⟩
  obtain ⟨a1, -, -, a4, -⟩ := sound_speed_bounds false 0 1 zero_le_one none _ _ _ h1 ()
  obtain ⟨b1, -, -, -, -, b6, -⟩ := sound_speed_bounds false 0 1 zero_le_one none _ _ _ h2 ()
  have pd : fieldOf coldHeavy "d" Var.pressure () = 1 := rfl
  have pe : fieldOf coldHeavy "e" Var.pressure () = 1 := rfl
  have pw : fieldOf coldHeavy "w" Var.pressure () = 0 := rfl
  have nd : fieldOf coldHeavy "d" Var.density () = 1 := rfl
  have nw : fieldOf coldHeavy "w" Var.density () = 1 := rfl
  have td : fieldOf coldHeavy "d" Var.temperature () = 1 := rfl
  have tw : fieldOf coldHeavy "w" Var.temperature () = 0 := rfl
  have ad : realOf coldHeavy "d" Var.AA = 1 := rfl
  have aw : realOf coldHeavy "w" Var.AA = 99 := rfl
  have md : moves false coldHeavy "d" := ⟨by decide, rfl⟩
  have mw : moves false coldHeavy "w" := ⟨by decide, rfl⟩
  have me : ¬ moves false coldHeavy "e" := fun h => h.1 ⟨rfl, rfl⟩
  have m1 : massDensity false coldHeavy ["d", "e"] () = 1 := by
    simp [massDensity, md, me, ad, nd]
  have m2 : massDensity false coldHeavy ["d", "e", "w"] () = 100 := by
    simp [massDensity, md, me, mw, ad, nd, aw, nw]; norm_num
  have p1 : totalPressure coldHeavy ["d", "e"] () = 2 := by simp [totalPressure, pd, pe]; norm_num
  have p2 : totalPressure coldHeavy ["d", "e", "w"] () = 2 := by simp [totalPressure, pd, pe, pw]; norm_num
  have r1 : max (1 : ℝ) 1e-10 = 1 := max_eq_left (by norm_num)
  have r2 : max (100 : ℝ) 1e-10 = 100 := max_eq_left (by norm_num)
  rw [m1, p1, r1] at a1
  rw [m2, p2, r2] at b1
  have hsqrt : (1 : ℝ) < Real.sqrt (2 / 1) := by
    rw [Real.lt_sqrt (by norm_num)]; norm_num
  have := b6 1 zero_le_one ?_ ?_ (by simp)
  · rw [a1] at a4; linarith
  · intro n hn _
    simp only [List.mem_cons, List.not_mem_nil, or_false] at hn
    unfold thermalSpeed
    rw [Real.sqrt_le_left zero_le_one]
    rcases hn with rfl | rfl | rfl
    · rw [td, ad]; norm_num [floorTo]
    · have : realOf coldHeavy "e" Var.AA = 0 := rfl
      rw [this]; norm_num
    · rw [tw, aw]; norm_num [floorTo]
  · rw [b1, Real.sqrt_le_left zero_le_one]; norm_num

/-! ## Evolving variables (C22, C23) -/

theorem setChargeIf_bind {β : Type} {name : String} {charge : ℝ} {f : Unit → Prog ι β} {st st'' : Store Key (Value ι)} {b : β}
    (h : (setChargeIf name charge >>= f) st = (.ok b, st'')) :
    ∃ st', vals st' = (if charge = 0 then vals st else
      Function.update (vals st) (.sp name .charge) (some (.real charge))) ∧ f () st' = (.ok b, st'') := by
  obtain ⟨_, s', h1, h2⟩ := M_bind_ok h
  refine ⟨s', ?_, h2⟩
  unfold setChargeIf at h1
  split at h1 <;> rename_i hc
  · rw [if_neg hc]; exact set_ok h1
  · rw [not_not] at hc
    obtain ⟨-, rfl⟩ := pure_ok h1
    rw [if_pos hc]

/-- **C22, density.**  Whatever the solver supplies, the published density is non-negative, and it is the solver's
value where that is non-negative.  The source is added once to the density source; mass and charge are published. -/
theorem evolveDensity_publishes (name : String) (charge AA : ℝ) (N source : Fld ι) (st st' : Store Key (Value ι))
    (h : evolveDensity name charge AA N source st = (.ok (), st')) (i : ι) :
    0 ≤ fieldOf st' name Var.density i ∧ (0 ≤ N i → fieldOf st' name Var.density i = N i) ∧
    (N i < 0 → fieldOf st' name Var.density i = 0) ∧
    realOf st' name Var.AA = AA ∧ (charge ≠ 0 → realOf st' name Var.charge = charge) ∧
    added st st' name Var.density_source i = source i ∧
    OnlyChanges st st' ([.sp name .density, .sp name .AA, .sp name .density_source] ++
      if charge = 0 then [] else [.sp name .charge]) := by
  unfold evolveDensity at h
  obtain ⟨s1, e1, h⟩ := set_bind_ok h
  obtain ⟨s2, e2, h⟩ := set_bind_ok h
  obtain ⟨s3, e3, h⟩ := setChargeIf_bind h
  obtain ⟨h4, h5⟩ := add_field_ok h
  have hd : vals st' (.sp name .density) = some (.field (floorF N 0)) := by
    rw [h5 _ (by simp), e3]
    split <;> simp [e2, e1, Function.update_apply]
  have ha : vals st' (.sp name .AA) = some (.real AA) := by
    rw [h5 _ (by simp), e3]
    split <;> simp [e2, e1, Function.update_apply]
  refine ⟨?_, ?_, ?_, realOf_some ha, ?_, ?_, ?_⟩
  · rw [fieldOf_some hd]; exact floorTo_nonneg _
  · intro hN; rw [fieldOf_some hd]; exact floorTo_of_le hN
  · intro hN; rw [fieldOf_some hd]; show floorTo (N i) 0 = 0; unfold floorTo; rw [if_pos hN]
  · intro hc
    refine realOf_some ?_
    rw [h5 _ (by simp), e3, if_neg hc]; simp
  · unfold added
    rw [h4, fieldOf_congr (st := st) (st' := s3)]
    · ring
    · rw [e3]; split <;> simp [e2, e1, Function.update_apply]
  · intro k hk
    simp only [List.mem_append, List.mem_cons, List.not_mem_nil, or_false, not_or] at hk
    rw [h5 k hk.1.2.2, e3]
    split
    · simp [e2, e1, Function.update_apply, hk.1.1, hk.1.2.1]
    · rename_i hc
      rw [if_neg hc] at hk
      have : k ≠ .sp name .charge := by simpa using hk.2
      simp [e2, e1, Function.update_apply, hk.1.1, hk.1.2.1, this]

/-- **C22, pressure.**  If the published density is non-negative, `evolve_pressure` publishes a non-negative pressure
and temperature with `P = N T`, whatever the solver supplies; the pressure is the solver's value where that is
non-negative and the density is above the floor. -/
theorem evolvePressure_publishes (name : String) (density_floor : ℝ) (hfl : 0 < density_floor) (P : Fld ι)
    (st st' : Store Key (Value ι)) (h : evolvePressure name density_floor P st = (.ok (), st')) (i : ι)
    (hN : 0 ≤ fieldOf st name Var.density i) :
    0 ≤ fieldOf st' name Var.pressure i ∧ 0 ≤ fieldOf st' name Var.temperature i ∧
    fieldOf st' name Var.pressure i = fieldOf st' name Var.density i * fieldOf st' name Var.temperature i ∧
    (density_floor ≤ fieldOf st name Var.density i → 0 ≤ P i → fieldOf st' name Var.pressure i = P i) ∧
    OnlyChanges st st' [.sp name .pressure, .sp name .temperature] := by
  unfold evolvePressure at h
  obtain ⟨s1, e1, h⟩ := getNoBndryF_bind h
  obtain ⟨s2, e2, h⟩ := set_bind_ok h
  have e3 := set_ok h
  rw [e2, e1] at e3
  have hT := fieldOf_some (st := st') (s := name) (v := Var.temperature) (by rw [e3, Function.update_self])
  have hP := fieldOf_some (st := st') (s := name) (v := Var.pressure)
    (by rw [e3, Function.update_of_ne (by simp), Function.update_self])
  have hD : fieldOf st' name Var.density = fieldOf st name Var.density := by
    apply fieldOf_congr; rw [e3]; simp [Function.update_apply]
  have hfl' : 0 < floorTo (fieldOf st name Var.density i) density_floor := lt_of_lt_of_le hfl (floorTo_ge _ _)
  have hT0 : 0 ≤ fieldOf st' name Var.temperature i := by
    rw [hT]; exact div_nonneg (floorTo_nonneg _) hfl'.le
  have hPe : fieldOf st' name Var.pressure i = fieldOf st' name Var.density i * fieldOf st' name Var.temperature i := by
    rw [hP, hT, hD]
  refine ⟨?_, hT0, hPe, ?_, ?_⟩
  · rw [hPe, hD]; exact mul_nonneg hN hT0
  · intro h1 h2
    rw [hP]
    beta_reduce
    have hne : fieldOf st name Var.density i ≠ 0 := by linarith
    unfold floorF
    rw [floorTo_of_le h1, floorTo_of_le h2]
    field_simp
  · intro k hk
    simp only [List.mem_cons, List.not_mem_nil, or_false, not_or] at hk
    rw [e3]; simp [Function.update_apply, hk.1, hk.2]

/-- **C22, energy (partial).**  As for the pressure, if the boundary step keeps a non-negative pressure non-negative
(a Neumann boundary does: guard cells are copies).  The energy is recovered where the density is above the floor.
Missing: `neumann_boundary_average_z`, for which the claim is false, see `evolveEnergy_negative_guard`. -/
theorem evolveEnergy_publishes_partial (name : String) (density_floor Cv : ℝ) (hfl : 0 < density_floor) (hCv : Cv ≠ 0)
    (bndry : Fld ι → Fld ι) (hb : ∀ f, (∀ i, 0 ≤ f i) → ∀ i, 0 ≤ bndry f i) (E : Fld ι)
    (st st' : Store Key (Value ι)) (h : evolveEnergy name density_floor Cv bndry E st = (.ok (), st')) (i : ι)
    (hN : 0 ≤ fieldOf st name Var.density i) :
    0 ≤ fieldOf st' name Var.pressure i ∧ 0 ≤ fieldOf st' name Var.temperature i ∧
    fieldOf st' name Var.pressure i = fieldOf st' name Var.density i * fieldOf st' name Var.temperature i ∧
    (let kinetic := 1 / 2 * realOf st name Var.AA * fieldOf st name Var.density i * fieldOf st name Var.velocity i ^ 2
     density_floor ≤ fieldOf st name Var.density i → (∀ f, bndry f i = f i) → 0 ≤ (E i - kinetic) / Cv →
      Cv * fieldOf st' name Var.pressure i + kinetic = E i) ∧
    OnlyChanges st st' [.sp name .pressure, .sp name .temperature] := by
  unfold evolveEnergy at h
  obtain ⟨s1, e1, h⟩ := getNoBndryF_bind h
  obtain ⟨s2, e2, h⟩ := getNoBndryF_bind h
  obtain ⟨s3, e3, h⟩ := getR_bind h
  obtain ⟨s4, e4, h⟩ := set_bind_ok h
  have e5 := set_ok h
  rw [e4, e3, e2, e1] at e5
  rw [vals_fieldOf e1, vals_realOf (e2.trans e1)] at e5
  have hT := fieldOf_some (st := st') (s := name) (v := Var.temperature) (by rw [e5, Function.update_self])
  have hP := fieldOf_some (st := st') (s := name) (v := Var.pressure)
    (by rw [e5, Function.update_of_ne (by simp), Function.update_self])
  have hD : fieldOf st' name Var.density = fieldOf st name Var.density := by
    apply fieldOf_congr; rw [e5]; simp [Function.update_apply]
  have hfl' : 0 < floorTo (fieldOf st name Var.density i) density_floor := lt_of_lt_of_le hfl (floorTo_ge _ _)
  have hT0 : 0 ≤ fieldOf st' name Var.temperature i := by
    rw [hT]
    refine div_nonneg (hb _ (fun j => ?_) i) hfl'.le
    dsimp only
    split
    · exact le_refl _
    · exact not_lt.1 ‹_›
  have hPe : fieldOf st' name Var.pressure i = fieldOf st' name Var.density i * fieldOf st' name Var.temperature i := by
    rw [hP, hT, hD]
  refine ⟨?_, hT0, hPe, ?_, ?_⟩
  · rw [hPe, hD]; exact mul_nonneg hN hT0
  · intro kinetic h1 h2 h3
    rw [hP]
    beta_reduce
    have hne : fieldOf st name Var.density i ≠ 0 := by linarith
    rw [h2, floorTo_of_le h1]
    have hk : 0.5 * realOf st name Var.AA * fieldOf st name Var.density i * fieldOf st name Var.velocity i ^ 2 = kinetic := by
      show _ = 1 / 2 * _ * _ * _; norm_num
    dsimp only
    rw [hk, if_neg (not_lt.2 h3)]
    field_simp
    ring
  · intro k hk
    simp only [List.mem_cons, List.not_mem_nil, or_false, not_or] at hk
    rw [e5]; simp [Function.update_apply, hk.1, hk.2]

/-- A species "d" at rest with unit density. -/
noncomputable def restGas : Store Key (Value (ℤ × ℤ × Fin 4)) := stateOf fun n v =>
  if n = "d" then
    match v with
    | .AA => some (.real 1)
    | .density => some (.field fun _ => 1)
    | .velocity => some (.field fun _ => 0)
    | _ => none
  else none

/-- **C22 fails for the code** with `neumann_boundary_average_z` in `evolve_energy`: the average is applied after the
pressure is made non-negative, so the pressure and temperature of a guard cell can be negative. -/
theorem evolveEnergy_negative_guard :
    let E : Fld (ℤ × ℤ × Fin 4) := fun c => if c.2.2 = 0 then 6 else 0
    ∃ st', evolveEnergy "d" 1e-5 (3 / 2) (averageZ 2 5 2 5) E restGas = (.ok (), st') ∧
      fieldOf st' "d" Var.pressure (1, 2, 0) = -2 ∧ fieldOf st' "d" Var.temperature (1, 2, 0) = -2 := by
  intro E
  obtain ⟨st', h⟩ : ∃ st', evolveEnergy "d" 1e-5 (3 / 2) (averageZ 2 5 2 5) E restGas = (.ok (), st') := ⟨_, rfl⟩
  refine ⟨st', h, ?_⟩
  unfold evolveEnergy at h
  obtain ⟨s1, e1, h⟩ := getNoBndryF_bind h
  obtain ⟨s2, e2, h⟩ := getNoBndryF_bind h
  obtain ⟨s3, e3, h⟩ := getR_bind h
  obtain ⟨s4, e4, h⟩ := set_bind_ok h
  have e5 := set_ok h
  rw [e4, e3, e2, e1] at e5
  rw [vals_fieldOf e1, vals_realOf (e2.trans e1)] at e5
  have hT := fieldOf_some (st := st') (s := "d") (v := Var.temperature) (by rw [e5, Function.update_self])
  have hP := fieldOf_some (st := st') (s := "d") (v := Var.pressure)
    (by rw [e5, Function.update_of_ne (by simp), Function.update_self])
  have hd : fieldOf restGas "d" Var.density = fun _ => 1 := rfl
  have hv : fieldOf restGas "d" Var.velocity = fun _ => 0 := rfl
  rw [hT, hP, hd, hv]
  have hav : averageZ 2 5 2 5 (fun i : ℤ × ℤ × Fin 4 =>
      let p := (E i - 0.5 * realOf restGas "d" Var.AA * 1 * (0 : ℝ) ^ 2) / (3 / 2); if p < 0 then 0 else p) (1, 2, 0) = -2 := by
    unfold averageZ
    simp [Fin.sum_univ_four, E]
    norm_num
  dsimp only at hav ⊢
  rw [hav]
  norm_num [floorTo]

/-- **C23, publishing.**  `evolve_momentum` publishes a velocity and a momentum with `NV = A N V`.  Where the boundary
step does not act and the density is above the floor, the momentum is the solver's. -/
theorem evolveMomentum_publishes (name : String) (density_floor : ℝ) (hfl : 0 < density_floor) (bndry : Fld ι → Fld ι)
    (m m' : MomentumMembers ι) (st st' : Store Key (Value ι))
    (h : evolveMomentum name density_floor bndry m st = (.ok m', st')) (i : ι) :
    fieldOf st' name Var.momentum i =
      realOf st' name Var.AA * fieldOf st' name Var.density i * fieldOf st' name Var.velocity i ∧
    ((∀ f, bndry f i = f i) → realOf st name Var.AA ≠ 0 → density_floor ≤ fieldOf st name Var.density i →
      fieldOf st' name Var.momentum i = m.NV i) ∧
    m'.NV_solver = m.NV ∧ m'.NV = fieldOf st' name Var.momentum ∧ m'.V = fieldOf st' name Var.velocity ∧
    (m'.NV_err i = fieldOf st' name Var.momentum i - m.NV i) ∧
    OnlyChanges st st' [.sp name .velocity, .sp name .momentum] := by
  unfold evolveMomentum at h
  obtain ⟨s1, e1, h⟩ := getNoBndryF_bind h
  obtain ⟨s2, e2, h⟩ := getR_bind h
  obtain ⟨s3, e3, h⟩ := set_bind_ok h
  obtain ⟨s4, e4, h⟩ := set_bind_ok h
  obtain ⟨hm, hs⟩ := pure_ok h
  subst hs
  rw [e3, e2, e1] at e4
  rw [vals_realOf e1] at e4 hm
  have hM := fieldOf_some (st := st') (s := name) (v := Var.momentum) (by rw [e4, Function.update_self])
  have hV := fieldOf_some (st := st') (s := name) (v := Var.velocity)
    (by rw [e4, Function.update_of_ne (by simp), Function.update_self])
  have hD : fieldOf st' name Var.density = fieldOf st name Var.density := by
    apply fieldOf_congr; rw [e4]; simp [Function.update_apply]
  have hA : realOf st' name Var.AA = realOf st name Var.AA := by
    apply realOf_congr; rw [e4]; simp [Function.update_apply]
  refine ⟨?_, ?_, ?_, ?_, ?_, ?_, ?_⟩
  · rw [hM, hV, hD, hA]
  · intro h1 h2 h3
    rw [hM]
    beta_reduce
    have hne : fieldOf st name Var.density i ≠ 0 := by linarith
    rw [h1, floorTo_of_le h3]
    field_simp
  · rw [hm]
  · rw [hm, hM]
  · rw [hm, hV]
  · rw [hm, hM]
  · intro k hk
    simp only [List.mem_cons, List.not_mem_nil, or_false, not_or] at hk
    rw [e4]; simp [Function.update_apply, hk.1, hk.2]

/-- **C23, a whole step.**  Let `transform` run, then any other components (`mid` is the state they leave), then
`finally`.  The solver's variable is restored in every cell that is not a boundary cell, whatever the other
components have done to the momentum in the state. -/
theorem evolveMomentum_restores (name : String) (density_floor : ℝ) (bndry : Fld ι → Fld ι) (isBndry : ι → Prop)
    (m m1 m2 : MomentumMembers ι) (st s1 mid s2 : Store Key (Value ι))
    (h1 : evolveMomentum name density_floor bndry m st = (.ok m1, s1))
    (h2 : evolveMomentumFinally name isBndry m1 mid = (.ok m2, s2)) (i : ι) :
    (¬ isBndry i → m2.NV i = m.NV i) ∧ (isBndry i → m2.NV i = fieldOf mid name Var.momentum i) ∧
    vals s2 = vals mid := by
  have hm1 : m1.NV_solver = m.NV := by
    unfold evolveMomentum at h1
    obtain ⟨_, _, h1⟩ := getNoBndryF_bind h1
    obtain ⟨_, _, h1⟩ := getR_bind h1
    obtain ⟨_, _, h1⟩ := set_bind_ok h1
    obtain ⟨_, _, h1⟩ := set_bind_ok h1
    rw [(pure_ok h1).1]
  unfold evolveMomentumFinally at h2
  obtain ⟨t1, e1, h2⟩ := getF_bind h2
  obtain ⟨t2, e2, h2⟩ := getF_bind h2
  obtain ⟨rfl, rfl⟩ := pure_ok h2
  refine ⟨fun hb => ?_, fun hb => ?_, e2.trans e1⟩
  · dsimp only; rw [if_neg hb, hm1]
  · dsimp only; rw [if_pos hb]

/-! ## Simple prescriptions (C25) -/

theorem forM_fractions {f : Fld ι} : ∀ {l : List (String × ℝ)} (_ : (l.map Prod.fst).Nodup) {st st' : Store Key (Value ι)} {u : Unit},
    (l.forM fun p => setF p.1 Var.density (fun i => f i * p.2)) st = (.ok u, st') →
    (∀ p ∈ l, ∀ i, fieldOf st' p.1 Var.density i = f i * p.2) ∧
    (∀ k, (∀ p ∈ l, k ≠ .sp p.1 .density) → vals st' k = vals st k)
  | [], _, st, st', u, h => by
    obtain ⟨-, rfl⟩ := pure_ok h
    exact ⟨fun n hn => by simp at hn, fun _ _ => rfl⟩
  | p :: l, hnd, st, st', u, h => by
    have h : (setF p.1 Var.density (fun i => f i * p.2) >>= fun _ =>
      l.forM fun p => setF p.1 Var.density (fun i => f i * p.2)) st = (.ok u, st') := h
    obtain ⟨s1, e1, h⟩ := set_bind_ok h
    rw [List.map_cons, List.nodup_cons] at hnd
    obtain ⟨b1, b2⟩ := forM_fractions hnd.2 h
    refine ⟨fun q hq i => ?_, fun k hk => ?_⟩
    · rcases List.mem_cons.1 hq with rfl | hq
      · rw [fieldOf_some (st := st') (f := fun i => f i * q.2)]
        rw [b2 _ fun r hr e => hnd.1 (List.mem_map.2 ⟨r, hr, (Key.sp.inj e).1.symm⟩), e1, Function.update_self]
      · exact b1 q hq i
    · rw [b2 k fun r hr => hk r (List.mem_cons_of_mem _ hr), e1, Function.update_of_ne (hk p List.mem_cons_self)]

/-- **C25, `fixed_fraction_ions`**: every listed species gets its fraction of the electron density. -/
theorem fixedFractionIons_publishes (fractions : List (String × ℝ)) (hnd : (fractions.map Prod.fst).Nodup)
    (he : ∀ p ∈ fractions, p.1 ≠ "e") (st st' : Store Key (Value ι))
    (h : fixedFractionIons fractions st = (.ok (), st')) :
    (∀ p ∈ fractions, ∀ i, fieldOf st' p.1 Var.density i = p.2 * fieldOf st' "e" Var.density i) ∧
    OnlyChanges st st' (fractions.map fun p => .sp p.1 .density) := by
  unfold fixedFractionIons at h
  obtain ⟨s1, e1, h⟩ := getF_bind h
  obtain ⟨h1, h2⟩ := forM_fractions hnd h
  refine ⟨fun p hp i => ?_, fun k hk => ?_⟩
  · rw [h1 p hp, mul_comm, fieldOf_congr (st := st) (st' := st')]
    rw [h2 _ fun q hq e => he q hq (Key.sp.inj e).1.symm, e1]
  · rw [h2 k fun q hq e => hk (List.mem_map.2 ⟨q, hq, e.symm⟩), e1]

/-- The option text is a comma-separated list of `species @ fraction`; anything else is rejected. -/
theorem fixedFraction_options (toReal : Str → ℝ) (text : Str) :
    (∀ l, fixedFractionOptions toReal text = some l →
      l ≠ [] ∧ List.Forall₂ (fun (p : Str) (r : String × ℝ) =>
        ∃ s f, strsplit '@' p = [s, f] ∧ r = (String.ofList (trim s), toReal (trim f))) (strsplit ',' text) l) ∧
    ((∃ p ∈ strsplit ',' text, (strsplit '@' p).length ≠ 2) → fixedFractionOptions toReal text = none) := by
  have key : ∀ (ps : List Str) (l : List (String × ℝ)), parseFractions toReal ps = some l →
      List.Forall₂ (fun (p : Str) (r : String × ℝ) =>
        ∃ s f, strsplit '@' p = [s, f] ∧ r = (String.ofList (trim s), toReal (trim f))) ps l := by
    intro ps
    induction ps with
    | nil => intro l h; cases h; exact .nil
    | cons p ps ih =>
      intro l h
      unfold parseFractions at h
      split at h
      · rename_i s f hs
        cases hr : parseFractions toReal ps with
        | none => rw [hr] at h; cases h
        | some r => rw [hr] at h; cases h; exact .cons ⟨s, f, hs, rfl⟩ (ih r hr)
      · cases h
  have key2 : ∀ l, fixedFractionOptions toReal text = some l → l ≠ [] ∧ parseFractions toReal (strsplit ',' text) = some l := by
    intro l h
    unfold fixedFractionOptions at h
    split at h
    · cases h
    · rename_i hne
      exact ⟨fun e => hne (by rw [h, e]), h⟩
  refine ⟨fun l h => ⟨(key2 l h).1, key _ l (key2 l h).2⟩, ?_⟩
  rintro ⟨p, hp, hlen⟩
  cases h : fixedFractionOptions toReal text with
  | none => rfl
  | some l =>
    exfalso
    have hf := key _ l (key2 l h).2
    clear h
    generalize strsplit ',' text = ps at hf hp
    induction hf with
    | nil => simp at hp
    | cons h1 _ ih =>
      rcases List.mem_cons.1 hp with rfl | hp
      · obtain ⟨s, f, e, -⟩ := h1
        rw [e] at hlen; exact hlen rfl
      · exact ih hp

theorem setPressureFrom_ok {name : String} {T : Fld ι} {st st' : Store Key (Value ι)} {u : Unit}
    (h : setPressureFrom name T st = (.ok u, st')) :
    (vals st (.sp name .density) ≠ none → ∀ i, fieldOf st' name Var.pressure i = fieldOf st' name Var.density i * T i) ∧
    ∀ k, k ≠ .sp name .pressure → vals st' k = vals st k := by
  unfold setPressureFrom at h
  obtain ⟨s1, e1, h⟩ := isSetFinalNB_bind h
  split at h <;> rename_i hd
  · obtain ⟨s2, e2, h⟩ := getNoBndryF_bind h
    have e3 := set_ok h
    rw [e2, e1, vals_fieldOf e1] at e3
    refine ⟨fun _ i => ?_, fun k hk => by rw [e3, Function.update_of_ne hk]⟩
    rw [fieldOf_some (st := st') (v := Var.pressure) (by rw [e3, Function.update_self]),
      fieldOf_congr (st := st) (st' := st') (v := Var.density) (by rw [e3, Function.update_of_ne (by simp)])]
  · obtain ⟨-, rfl⟩ := pure_ok h
    rw [Bool.not_eq_true] at hd
    refine ⟨fun hne => ?_, fun k _ => by rw [e1]⟩
    cases e : vals st (.sp name .density) with
    | none => exact absurd e hne
    | some x => rw [e] at hd; cases hd

/-- What `isothermal`, `fixed_temperature` and `set_temperature` must do: publish the temperature `T` and, if the
density is known, the pressure `N T`. -/
def PublishesTemperature (name : String) (T : Fld ι) (st st' : Store Key (Value ι)) : Prop :=
  (∀ i, fieldOf st' name Var.temperature i = T i) ∧
  (vals st (.sp name .density) ≠ none →
    ∀ i, fieldOf st' name Var.pressure i = fieldOf st' name Var.density i * fieldOf st' name Var.temperature i) ∧
  OnlyChanges st st' [.sp name .temperature, .sp name .pressure]

theorem publishes_of {name : String} {T : Fld ι} {x : Value ι} (hx : asField x = some T) {st s1 st' : Store Key (Value ι)} {u : Unit}
    (e1 : vals s1 = Function.update (vals st) (.sp name .temperature) (some x))
    (h : setPressureFrom name T s1 = (.ok u, st')) : PublishesTemperature name T st st' := by
  obtain ⟨h1, h2⟩ := setPressureFrom_ok h
  have hT : fieldOf st' name Var.temperature = T := by
    unfold fieldOf; rw [h2 _ (by simp), e1, Function.update_self]; simp [hx]
  refine ⟨fun i => by rw [hT], fun hne i => ?_, fun k hk => ?_⟩
  · rw [hT]
    exact h1 (by rw [e1, Function.update_of_ne (by simp)]; exact hne) i
  · simp only [List.mem_cons, List.not_mem_nil, or_false, not_or] at hk
    rw [h2 k hk.2, e1, Function.update_of_ne hk.1]

/-- **C25, `isothermal`.** -/
theorem isothermal_publishes (name : String) (T : ℝ) (st st' : Store Key (Value ι))
    (h : isothermal name T st = (.ok (), st')) : PublishesTemperature name (fun _ => T) st st' := by
  unfold isothermal at h
  obtain ⟨s1, e1, h⟩ := set_bind_ok h
  exact publishes_of rfl e1 h

/-- **C25, `fixed_temperature`.** -/
theorem fixedTemperature_publishes (name : String) (T : Fld ι) (st st' : Store Key (Value ι))
    (h : fixedTemperature name T st = (.ok (), st')) : PublishesTemperature name T st st' := by
  unfold fixedTemperature at h
  obtain ⟨s1, e1, h⟩ := set_bind_ok h
  exact publishes_of rfl e1 h

/-- **C25, `set_temperature`**: the temperature is that of the other species. -/
theorem setTemperature_publishes (name other : String) (st st' : Store Key (Value ι))
    (h : setTemperature name other st = (.ok (), st')) :
    PublishesTemperature name (fieldOf st other Var.temperature) st st' ∧
    (name ≠ other → ∀ i, fieldOf st' name Var.temperature i = fieldOf st' other Var.temperature i) := by
  unfold setTemperature at h
  obtain ⟨s1, e1, h⟩ := getNoBndryF_bind h
  obtain ⟨s2, e2, h⟩ := set_bind_ok h
  rw [e1] at e2
  have hp := publishes_of rfl e2 h
  refine ⟨hp, fun hne i => ?_⟩
  rw [hp.1, fieldOf_congr (st := st) (st' := st') (hp.2.2 _ (by simp [hne.symm]))]

/-- **C25, `fixed_density`.** -/
theorem fixedDensity_publishes (name : String) (charge AA : ℝ) (N : Fld ι) (st st' : Store Key (Value ι))
    (h : fixedDensity name charge AA N st = (.ok (), st')) :
    fieldOf st' name Var.density = N ∧ realOf st' name Var.AA = AA ∧ (charge ≠ 0 → realOf st' name Var.charge = charge) ∧
    (charge = 0 → vals st' (.sp name .charge) = vals st (.sp name .charge)) := by
  unfold fixedDensity at h
  obtain ⟨s1, e1, h⟩ := setChargeIf_bind h
  obtain ⟨s2, e2, h⟩ := set_bind_ok h
  have e3 := set_ok h
  refine ⟨fieldOf_some (by rw [e3, Function.update_self]),
    realOf_some (by rw [e3, Function.update_of_ne (by simp), e2, Function.update_self]), fun hc => ?_, fun hc => ?_⟩
  · refine realOf_some ?_
    rw [e3, Function.update_of_ne (by simp), e2, Function.update_of_ne (by simp), e1, if_neg hc, Function.update_self]
  · rw [e3, Function.update_of_ne (by simp), e2, Function.update_of_ne (by simp), e1, if_pos hc]

/-- **C25, `fixed_velocity`**: the velocity, and the momentum `A N V` if the density is known. -/
theorem fixedVelocity_publishes (name : String) (V : Fld ι) (st st' : Store Key (Value ι))
    (h : fixedVelocity name V st = (.ok (), st')) :
    fieldOf st' name Var.velocity = V ∧
    (vals st (.sp name .density) ≠ none → ∀ i, fieldOf st' name Var.momentum i =
      realOf st' name Var.AA * fieldOf st' name Var.density i * fieldOf st' name Var.velocity i) ∧
    OnlyChanges st st' [.sp name .velocity, .sp name .momentum] := by
  unfold fixedVelocity at h
  obtain ⟨s1, e1, h⟩ := set_bind_ok h
  obtain ⟨s2, e2, h⟩ := isSetFinalNB_bind h
  rw [e1, Function.update_of_ne (by simp)] at h
  split at h <;> rename_i hd
  · obtain ⟨s3, e3, h⟩ := getNoBndryF_bind h
    obtain ⟨s4, e4, h⟩ := getR_bind h
    have e5 := set_ok h
    rw [e4, e3, vals_realOf e3] at e5
    have hV : fieldOf st' name Var.velocity = V :=
      fieldOf_some (by rw [e5, Function.update_of_ne (by simp), e2, e1, Function.update_self])
    refine ⟨hV, fun _ i => ?_, fun k hk => ?_⟩
    · rw [fieldOf_some (st := st') (v := Var.momentum) (by rw [e5, Function.update_self]), hV,
        fieldOf_congr (st := s2) (st' := st') (v := Var.density) (by rw [e5, Function.update_of_ne (by simp)]),
        realOf_congr (st := s2) (st' := st') (v := Var.AA) (by rw [e5, Function.update_of_ne (by simp)])]
    · simp only [List.mem_cons, List.not_mem_nil, or_false, not_or] at hk
      rw [e5, Function.update_of_ne hk.2, e2, e1, Function.update_of_ne hk.1]
  · obtain ⟨-, rfl⟩ := pure_ok h
    rw [Bool.not_eq_true] at hd
    refine ⟨fieldOf_some (by rw [e2, e1, Function.update_self]), fun hne => ?_, fun k hk => ?_⟩
    · cases e : vals st (.sp name .density) with
      | none => exact absurd e hne
      | some x => rw [e] at hd; cases hd
    · simp only [List.mem_cons, List.not_mem_nil, or_false, not_or] at hk
      rw [e2, e1, Function.update_of_ne hk.1]

/-- **C25, `simple_pump`**: the sink is proportional to the density, and it never adds particles where the shape and
the density are non-negative. -/
theorem simplePump_sink (name : String) (shape : Fld ι) (tau : ℝ) (htau : 0 < tau) (st st' : Store Key (Value ι))
    (h : simplePump name shape tau st = (.ok (), st')) (i : ι) :
    added st st' name Var.density_source i = - (shape i / tau) * fieldOf st name Var.density i ∧
    (0 ≤ shape i → 0 ≤ fieldOf st name Var.density i → added st st' name Var.density_source i ≤ 0) ∧
    OnlyChanges st st' [.sp name .density_source] := by
  unfold simplePump at h
  obtain ⟨s1, e1, h⟩ := getNoBndryF_bind h
  obtain ⟨h1, h2⟩ := add_field_ok h
  have ha : added st st' name Var.density_source i = - (shape i / tau) * fieldOf st name Var.density i := by
    unfold added
    rw [h1, vals_fieldOf e1]
    field_simp
    ring
  refine ⟨ha, fun hs hn => ?_, fun k hk => ?_⟩
  · rw [ha, neg_mul]
    exact neg_nonpos.2 (mul_nonneg (div_nonneg hs htau.le) hn)
  · rw [h2 k (by simpa using hk), e1]

/-! ## Runs that meet the hypotheses -/

/-- A plasma of electrons, deuterium (density 2, charge 1) and helium (density 1, charge 2). -/
noncomputable def mixture : Store Key (Value Unit) := stateOf fun n v =>
  if n = "e" then
    match v with
    | .charge => some (.real (-1))
    | .density => some (.field fun _ => 4)
    | .pressure => some (.field fun _ => 8)
    | _ => none
  else if n = "d" then
    match v with
    | .AA => some (.real 2)
    | .charge => some (.real 1)
    | .density => some (.field fun _ => 2)
    | .velocity => some (.field fun _ => 3)
    | _ => none
  else if n = "he" then
    match v with
    | .AA => some (.real 4)
    | .charge => some (.real 2)
    | .density => some (.field fun _ => 1)
    | _ => none
  else none

/-- `quasineutral` for the electrons: the ions have the charge density 4. -/
example : ∃ s, quasineutral "e" (-1) (1 / 1836) ["d", "e", "he"] mixture = (.ok (), s) ∧
    (["d", "e", "he"].filter (· ≠ "e")).map (fun n => chargeDensity mixture n ()) = [2, 2] ∧
    (["e", "d", "he"].map fun n => chargeDensity s n ()).sum = 0 := by
  obtain ⟨s, h⟩ : ∃ s, quasineutral "e" (-1) (1 / 1836) ["d", "e", "he"] mixture = (.ok (), s) := ⟨_, rfl⟩
  have c1 : chargeDensity mixture "d" () = 1 * 2 := rfl
  have c2 : chargeDensity mixture "he" () = 2 * 1 := rfl
  have hl : (["d", "e", "he"].filter (· ≠ "e")) = ["d", "he"] := by decide
  have hc : (["d", "e", "he"].filter (· ≠ "e")).map (fun n => chargeDensity mixture n ()) = [2, 2] := by
    rw [hl, List.map_cons, List.map_cons, c1, c2]; norm_num
  refine ⟨s, h, hc, (quasineutral_neutral "e" (-1) (1 / 1836) (by norm_num) _ _ _ h _ ?_ ()).2.1 ?_⟩
  · rw [hl]
  · rw [hc]; norm_num

/-- `zero_current` for the electrons: the deuterium flows. -/
example : ∃ s, zeroCurrent "e" (-1) ["d", "e", "he"] mixture = (.ok (), s) ∧
    currentDensity mixture "d" () = 6 ∧ (["e", "d", "he"].map fun n => currentDensity s n ()).sum = 0 := by
  obtain ⟨s, h⟩ : ∃ s, zeroCurrent "e" (-1) ["d", "e", "he"] mixture = (.ok (), s) := ⟨_, rfl⟩
  have c1 : currentDensity mixture "d" () = 1 * 2 * 3 := rfl
  have hl : (["d", "e", "he"].filter (· ≠ "e")) = ["d", "he"] := by decide
  have hne : fieldOf mixture "e" Var.density () = 4 := rfl
  exact ⟨s, h, by rw [c1]; norm_num, (zeroCurrent_no_current "e" (-1) (by norm_num) _ _ _ rfl h _ (by rw [hl])).1 ()
    (by rw [hne]; norm_num)⟩

/-- `electron_force_balance` in the same (quasineutral) plasma, with a pressure gradient 8. -/
example : ∃ s E, electronForceBalance id ["d", "e", "he"] mixture = (.ok E, s) ∧
    chargeDensity mixture "e" () + ((["d", "e", "he"].filter (· ≠ "e")).map fun n => chargeDensity mixture n ()).sum = 0 ∧
    1e-5 ≤ fieldOf mixture "e" Var.density () := by
  have c0 : chargeDensity mixture "e" () = -1 * 4 := rfl
  have c1 : chargeDensity mixture "d" () = 1 * 2 := rfl
  have c2 : chargeDensity mixture "he" () = 2 * 1 := rfl
  have hl : (["d", "e", "he"].filter (· ≠ "e")) = ["d", "he"] := by decide
  have hne : fieldOf mixture "e" Var.density () = 4 := rfl
  refine ⟨_, _, bind_intro rfl (bind_intro (throwIf_intro (by decide) _) (bind_intro rfl (bind_intro rfl (bind_intro rfl
    (bind_intro (throwIf_intro ?_ _) rfl))))), ?_, ?_⟩
  · rw [not_not]
  · rw [hl, List.map_cons, List.map_cons, c0, c1, c2]; norm_num
  · rw [hne]; norm_num

/-- The consistent species of `fastest_wave_monotone_partial`. -/
example : Consistent false coldHeavy "d" () ∧ Consistent false coldHeavy "w" () ∧
    (∃ s, soundSpeed false 0 1 none ["d"] coldHeavy = (.ok (), s)) := by
  refine ⟨⟨⟨⟨by decide, rfl⟩, rfl⟩, ?_, ?_, ?_⟩, ⟨⟨⟨by decide, rfl⟩, rfl⟩, ?_, ?_, ?_⟩, ?_⟩
  · show (0 : ℝ) < 1; norm_num
  · show (0 : ℝ) ≤ 1; norm_num
  · show (1 : ℝ) = 1 * 1; norm_num
  · show (0 : ℝ) < 99; norm_num
  · show (0 : ℝ) ≤ 1; norm_num
  · show (0 : ℝ) = 1 * 0; norm_num
  · refine ⟨_, bind_intro rfl (bind_intro (throwIf_intro ?_ _) rfl)⟩
    rw [not_not]
    intro i
    refine div_nonneg ?_ ((by norm_num : (0 : ℝ) ≤ 1e-10).trans (floorTo_ge _ _))
    show (0 : ℝ) ≤ 0 + 1
    norm_num

/-- Runs of the other components. -/
example : ∃ s, evolveDensity "n" 1 2 (fun _ => -1) (fun _ => 5) mixture = (.ok (), s) := by
  unfold evolveDensity setChargeIf
  rw [if_pos one_ne_zero]
  exact ⟨_, rfl⟩
example : ∃ s, evolvePressure "d" 1e-5 (fun _ => -1) mixture = (.ok (), s) := ⟨_, rfl⟩
example : ∃ s, evolveEnergy "d" 1e-5 (3 / 2) id (fun _ => 20) mixture = (.ok (), s) := ⟨_, rfl⟩
example : ∃ m s, evolveMomentum "he" 1e-5 id ⟨fun _ => 7, 0, 0, 0⟩ mixture = (.ok m, s) := ⟨_, _, rfl⟩
example : ∃ s, fixedFractionIons [("c", 0.01), ("ne", 0.02)] mixture = (.ok (), s) := ⟨_, rfl⟩
example : ∃ s, isothermal "d" 3 mixture = (.ok (), s) := ⟨_, rfl⟩
example : ∃ s, fixedTemperature "d" (fun _ => 3) mixture = (.ok (), s) := ⟨_, rfl⟩
example : ∃ s, setTemperature "d" "w" coldHeavy = (.ok (), s) := ⟨_, rfl⟩
example : ∃ s, fixedDensity "x" 1 2 (fun _ => 3) mixture = (.ok (), s) := by
  unfold fixedDensity setChargeIf
  rw [if_pos one_ne_zero]
  exact ⟨_, rfl⟩
example : ∃ s, fixedVelocity "he" (fun _ => 3) mixture = (.ok (), s) := ⟨_, rfl⟩
example : ∃ s, simplePump "he" (fun _ => 1) 3 mixture = (.ok (), s) := ⟨_, rfl⟩

end Hermes.Closures
