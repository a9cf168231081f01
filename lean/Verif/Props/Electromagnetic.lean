import Verif.Model.Transport
import Verif.Lemmas.SpeciesLoop
import Verif.Props.SheathClosure

/-!
# Electromagnetic correction of momentum and velocity (C54)
-/

set_option linter.unusedSectionVars false
set_option linter.unusedVariables false

namespace Hermes.Electromagnetics
open Hermes.Closures Hermes.Sheath Hermes.SheathClosure

variable {ι : Type} [DecidableEq ι]

/-! ## Specification -/

/-- The species is charged and has a momentum. -/
def Coupled (st : Store Key (Value ι)) (s : String) : Prop :=
  (vals st (.sp s .charge)).isSome ∧ (vals st (.sp s .momentum)).isSome ∧ 1e-5 ≤ |realOf st s .charge|

/-- Parallel current of species `s`: charge times momentum over mass. -/
noncomputable def current (st : Store Key (Value ι)) (s : String) (i : ι) : ℝ :=
  realOf st s .charge / realOf st s .AA * fieldOf st s .momentum i

open Classical in
/-- Total parallel current. -/
noncomputable def totalCurrent (names : List String) (st : Store Key (Value ι)) (i : ι) : ℝ :=
  (names.map fun s => if Coupled st s then current st s i else 0).sum

open Classical in
/-- Coefficient of `Apar`: sum of `Z² N / A`, with the density at least 1e-5. -/
noncomputable def alpha (names : List String) (st : Store Key (Value ι)) (i : ι) : ℝ :=
  (names.map fun s => if Coupled st s then max (fieldOf st s .density i) 1e-5 * (realOf st s .charge ^ 2 / realOf st s .AA) else 0).sum

/-- The potential calculated from the state. -/
noncomputable def potential (o : EMOpts ι) (names : List String) (st : Store Key (Value ι)) : Fld ι :=
  o.solve (fun i => -o.beta_em * alpha names st i) (fun i => -o.beta_em * totalCurrent names st i)

/-! ## What the component does -/

theorem floorTo_eq (x lo : ℝ) : floorTo x lo = max x lo := by
  unfold floorTo
  split
  · rename_i h; rw [max_eq_right h.le]
  · rename_i h; rw [max_eq_left (not_lt.1 h)]

theorem getNonFinal_bind {β : Type} {s : String} {v : Var} {f : Fld ι → Prog ι β} {st st'' : Store Key (Value ι)} {b : β}
    (h : (getNonFinal asField (.sp s v) >>= f) st = (.ok b, st'')) : f (fieldOf st s v) st = (.ok b, st'') := by
  obtain ⟨a, s', h1, h2⟩ := M_bind_ok h
  unfold getNonFinal at h1
  cases e : vals st (.sp s v) with
  | none => rw [show (st.ent (.sp s v)).val = none from e] at h1; cases h1
  | some x =>
    rw [show (st.ent (.sp s v)).val = some x from e] at h1
    cases e2 : asField x with
    | none => simp only [e2] at h1; cases h1
    | some y =>
      simp only [e2] at h1
      cases h1
      have : fieldOf st s v = a := by unfold fieldOf; rw [e]; simp [e2]
      rw [this]; exact h2

open Classical in
theorem term_ok {a b : Fld ι × Fld ι} {n : String} {st st' : Store Key (Value ι)} (h : emTerm a n st = (.ok b, st')) :
    vals st' = vals st ∧
    (∀ i, b.1 i = a.1 i + if Coupled st n then max (fieldOf st n .density i) 1e-5 * (realOf st n .charge ^ 2 / realOf st n .AA) else 0) ∧
    ∀ i, b.2 i = a.2 i + if Coupled st n then current st n i else 0 := by
  unfold emTerm at h
  obtain ⟨s1, e1, h⟩ := isSetFinal_bind h
  have h := isSet_bind h
  rw [e1] at h
  split at h <;> rename_i hset
  · obtain ⟨s2, e2, h⟩ := getR_bind h
    rw [e1] at e2
    rw [vals_realOf e1] at h
    rw [Bool.and_eq_true] at hset
    split at h <;> rename_i hz
    · obtain ⟨rfl, rfl⟩ := pure_ok h
      have hc : ¬ Coupled st n := fun hh => absurd hh.2.2 (not_le.2 hz)
      exact ⟨e2, fun i => by rw [if_neg hc, add_zero], fun i => by rw [if_neg hc, add_zero]⟩
    · obtain ⟨s3, e3, h⟩ := getNoBndryF_bind h
      rw [e2] at e3
      have h := getNonFinal_bind h
      obtain ⟨s4, e4, h⟩ := getR_bind h
      rw [e3] at e4
      obtain ⟨rfl, rfl⟩ := pure_ok h
      have hc : Coupled st n := ⟨hset.1, hset.2, not_lt.1 hz⟩
      refine ⟨e4, fun i => ?_, fun i => ?_⟩
      · dsimp only
        rw [if_pos hc, vals_fieldOf e2, vals_realOf e3, floorTo_eq]
      · rw [if_pos hc, vals_fieldOf e3, vals_realOf e3]
        unfold current
        ring
  · obtain ⟨rfl, rfl⟩ := pure_ok h
    have hc : ¬ Coupled st n := fun hh => hset (by rw [Bool.and_eq_true]; exact ⟨hh.1, hh.2.1⟩)
    exact ⟨e1, fun i => by rw [if_neg hc, add_zero], fun i => by rw [if_neg hc, add_zero]⟩

theorem terms_ok {names : List String} {a b : Fld ι × Fld ι} {st st' : Store Key (Value ι)} (h : names.foldlM emTerm a st = (.ok b, st')) :
    vals st' = vals st ∧ (∀ i, b.1 i = a.1 i + alpha names st i) ∧ ∀ i, b.2 i = a.2 i + totalCurrent names st i := by
  induction names generalizing a st with
  | nil => cases h; exact ⟨rfl, fun i => by simp [alpha], fun i => by simp [totalCurrent]⟩
  | cons n l ih =>
    rw [List.foldlM_cons] at h
    obtain ⟨c, s1, h1, h2⟩ := M_bind_ok h
    obtain ⟨e1, ha, hj⟩ := term_ok h1
    obtain ⟨e2, ha', hj'⟩ := ih h2
    have hco : Coupled s1 = Coupled st := by unfold Coupled; rw [e1, vals_realOf e1]
    refine ⟨by rw [e2, e1], fun i => ?_, fun i => ?_⟩
    · rw [ha', ha]
      unfold alpha
      rw [List.map_cons, List.sum_cons, vals_fieldOf e1, vals_realOf e1]
      rw [hco]
      ring
    · rw [hj', hj]
      unfold totalCurrent current
      rw [List.map_cons, List.sum_cons, vals_fieldOf e1, vals_realOf e1]
      rw [hco]
      ring

theorem update_ok {o : EMOpts ι} {Apar : Fld ι} {Z : ℝ} {n : String} {st st' : Store Key (Value ι)} {u : Unit}
    (h : emUpdate o Apar Z n st = (.ok u, st')) :
    fieldOf st' n .momentum = o.bndry (fun i => fieldOf st n .momentum i - Z * fieldOf st n .density i * Apar i) ∧
    fieldOf st' n .velocity = o.bndry (fun i => fieldOf st n .velocity i -
      Z / realOf st n .AA * fieldOf st n .density i * Apar i / max (fieldOf st n .density i) 1e-5) ∧
    ∀ k, k ≠ .sp n .momentum → k ≠ .sp n .velocity → vals st' k = vals st k := by
  unfold emUpdate at h
  obtain ⟨s1, e1, h⟩ := getR_bind h
  obtain ⟨s2, e2, h⟩ := getNoBndryF_bind h
  rw [e1] at e2
  have h := getNonFinal_bind h
  have h := getNonFinal_bind h
  rw [vals_fieldOf e1, vals_fieldOf e2] at h
  obtain ⟨s3, e3, h⟩ := set_bind_ok h
  have e4 := set_ok h
  rw [e3, e2] at e4
  simp only [floorTo_eq] at e4
  refine ⟨fieldOf_some (by rw [e4]; simp [Function.update_apply]), fieldOf_some (by rw [e4]; simp [Function.update_apply]), fun k h1 h2 => ?_⟩
  rw [e4]
  simp [Function.update_apply, h1, h2]

theorem species_ok {o : EMOpts ι} {Apar : Fld ι} {n : String} {st st' : Store Key (Value ι)} {u : Unit}
    (h : emSpecies o Apar n st = (.ok u, st')) :
    (¬ Coupled st n → vals st' = vals st) ∧
    (Coupled st n → ∃ t, vals t = vals st ∧ emUpdate o Apar (realOf st n .charge) n t = (.ok u, st')) := by
  unfold emSpecies at h
  have h := isSet_bind h
  have h := isSet_bind h
  split at h <;> rename_i hset
  · rw [Bool.and_eq_true] at hset
    obtain ⟨s2, e2, h⟩ := getR_bind h
    split at h <;> rename_i hz
    · obtain ⟨-, rfl⟩ := pure_ok h
      exact ⟨fun _ => e2, fun hh => absurd hh.2.2 (not_le.2 hz)⟩
    · exact ⟨fun hc => absurd ⟨hset.1, hset.2, not_lt.1 hz⟩ hc, fun _ => ⟨s2, e2, h⟩⟩
  · obtain ⟨-, rfl⟩ := pure_ok h
    exact ⟨fun _ => rfl, fun hh => absurd (by rw [Bool.and_eq_true]; exact ⟨hh.1, hh.2.1⟩) hset⟩

/-- **C54.**  What the component does: it publishes `Apar` and subtracts its contribution from momentum and velocity of the charged species.  Nothing
else changes. -/
theorem em_ok {o : EMOpts ι} {names : List String} (hn : names.Nodup) {st st' : Store Key (Value ι)} (h : electromagnetic o names st = (.ok (), st')) :
    topField st' "fields:Apar" = potential o names st ∧
    (∀ s ∈ names, Coupled st s →
      fieldOf st' s .momentum = o.bndry (fun i => fieldOf st s .momentum i -
        realOf st s .charge * fieldOf st s .density i * potential o names st i) ∧
      fieldOf st' s .velocity = o.bndry (fun i => fieldOf st s .velocity i -
        realOf st s .charge / realOf st s .AA * fieldOf st s .density i * potential o names st i / max (fieldOf st s .density i) 1e-5)) ∧
    ∀ k, k ≠ .top "fields:Apar" → (∀ s ∈ names, Coupled st s → k ≠ .sp s .momentum ∧ k ≠ .sp s .velocity) → vals st' k = vals st k := by
  unfold electromagnetic at h
  obtain ⟨a, s1, h1, h⟩ := M_bind_ok h
  obtain ⟨e1, ha, hj⟩ := terms_ok h1
  have hA : o.solve (fun i => -o.beta_em * a.1 i) (fun i => -o.beta_em * a.2 i) = potential o names st := by
    unfold potential
    simp only [ha, hj, zero_add]
  simp only [hA] at h
  obtain ⟨s2, e2, h⟩ := set_bind_ok h
  rw [e1] at e2
  have e2s : ∀ s v, vals s2 (.sp s v) = vals st (.sp s v) := fun s v => by rw [e2]; simp [Function.update_apply]
  have hbody : ∀ n s u s', emSpecies o (potential o names st) n s = (.ok u, s') → ∀ k, (∀ v, k ≠ .sp n v) → vals s' k = vals s k := by
    intro n s u s' hb k hk
    by_cases hd : Coupled s n
    · obtain ⟨t, et, ht⟩ := (species_ok hb).2 hd
      rw [(update_ok ht).2.2 k (hk _) (hk _), et]
    · rw [(species_ok hb).1 hd]
  obtain ⟨l1, l2⟩ := forM_bodies hbody hn h
  have hone : ∀ s ∈ names, (¬ Coupled st s → ∀ v, vals st' (.sp s v) = vals st (.sp s v)) ∧
      (Coupled st s → ∃ t t' u, emUpdate o (potential o names st) (realOf st s .charge) s t = (.ok u, t') ∧
        (∀ v, vals t (.sp s v) = vals st (.sp s v)) ∧ ∀ v, vals t' (.sp s v) = vals st' (.sp s v)) := by
    intro s hs
    obtain ⟨t, t', u, hb, ht, ht'⟩ := l1 s hs
    have hr : realOf t s .charge = realOf st s .charge := realOf_congr (by rw [ht, e2s])
    have hiff : Coupled t s ↔ Coupled st s := by
      unfold Coupled
      rw [ht, ht, e2s, e2s, hr]
    refine ⟨fun hd v => ?_, fun hd => ?_⟩
    · rw [← ht', (species_ok hb).1 (fun hh => hd (hiff.1 hh)), ht, e2s]
    · obtain ⟨t2, et, ht2⟩ := (species_ok hb).2 (hiff.2 hd)
      rw [hr] at ht2
      exact ⟨t2, t', u, ht2, fun v => by rw [et, ht, e2s], ht'⟩
  refine ⟨?_, fun s hs hc => ?_, fun k hk1 hk2 => ?_⟩
  · have : vals st' (.top "fields:Apar") = some (.field (potential o names st)) := by
      rw [l2 _ (fun n _ v e => by cases e), e2]
      simp [Function.update_apply]
    unfold topField
    rw [this]
    rfl
  · obtain ⟨t, t', u, hb, ht, ht'⟩ := (hone s hs).2 hc
    obtain ⟨m1, m2, -⟩ := update_ok hb
    rw [← fieldOf_congr (st' := t') (ht' .momentum), ← fieldOf_congr (st' := t') (ht' .velocity), m1, m2, fieldOf_congr (ht .momentum),
      fieldOf_congr (ht .velocity), fieldOf_congr (ht .density), realOf_congr (ht .AA)]
    exact ⟨rfl, rfl⟩
  · by_cases hx : ∃ n ∈ names, ∃ v, k = .sp n v
    · obtain ⟨n, hmem, v, rfl⟩ := hx
      by_cases hd : Coupled st n
      · obtain ⟨t, t', u, hb, ht, ht'⟩ := (hone n hmem).2 hd
        rw [← ht', (update_ok hb).2.2 _ (hk2 n hmem hd).1 (hk2 n hmem hd).2, ht]
      · exact (hone n hmem).1 hd v
    · push Not at hx
      rw [l2 k (fun n hmem v => hx n hmem v), e2]
      simp [Function.update_apply, hk1]

/-! ## C54 -/

/-- **C54.**  Momentum and velocity stay consistent, in every cell of the domain where the density is above the floor. -/
theorem momentum_consistent {o : EMOpts ι} {dom : ι → Prop} (hb : ∀ f i, dom i → o.bndry f i = f i) {names : List String} (hn : names.Nodup)
    {st st' : Store Key (Value ι)} (h : electromagnetic o names st = (.ok (), st')) {s : String} (hs : s ∈ names) (hc : Coupled st s)
    (hA : realOf st s .AA ≠ 0) {i : ι} (hi : dom i) (hN : 1e-5 ≤ fieldOf st s .density i)
    (hmom : fieldOf st s .momentum i = realOf st s .AA * fieldOf st s .density i * fieldOf st s .velocity i) :
    fieldOf st' s .momentum i = realOf st' s .AA * fieldOf st' s .density i * fieldOf st' s .velocity i := by
  obtain ⟨-, h1, h2⟩ := em_ok hn h
  obtain ⟨m, v⟩ := h1 s hs hc
  have hd : fieldOf st' s .density = fieldOf st s .density := fieldOf_congr (h2 _ (by simp) (fun _ _ _ => ⟨by simp, by simp⟩))
  have ha : realOf st' s .AA = realOf st s .AA := realOf_congr (h2 _ (by simp) (fun _ _ _ => ⟨by simp, by simp⟩))
  have hN0 : fieldOf st s .density i ≠ 0 := by
    intro e; rw [e] at hN; norm_num at hN
  rw [m, v, hb _ i hi, hb _ i hi, hd, ha, hmom, max_eq_left hN]
  field_simp

/-- **C54.**  Species without charge (and species that are not in the list) keep all their variables. -/
theorem neutrals_untouched {o : EMOpts ι} {names : List String} (hn : names.Nodup) {st st' : Store Key (Value ι)}
    (h : electromagnetic o names st = (.ok (), st')) {s : String} (hc : |realOf st s .charge| < 1e-5) (v : Var) :
    vals st' (.sp s v) = vals st (.sp s v) := by
  refine (em_ok hn h).2.2 _ (by simp) (fun n _ hco => ⟨?_, ?_⟩) <;>
  · intro e
    have := (Key.sp.inj e).1
    subst this
    exact absurd hco.2.2 (not_le.2 hc)

/-- Coupled species are the same before and after. -/
theorem coupled_same {o : EMOpts ι} {names : List String} (hn : names.Nodup) {st st' : Store Key (Value ι)}
    (h : electromagnetic o names st = (.ok (), st')) (hm : ∀ s ∈ names, Coupled st s → (vals st' (.sp s .momentum)).isSome) {s : String} (hs : s ∈ names) :
    Coupled st' s ↔ Coupled st s := by
  obtain ⟨-, -, h2⟩ := em_ok hn h
  have hc : vals st' (.sp s .charge) = vals st (.sp s .charge) := h2 _ (by simp) (fun _ _ _ => ⟨by simp, by simp⟩)
  unfold Coupled
  rw [hc, realOf_congr hc]
  constructor
  · rintro ⟨a, b, c⟩
    refine ⟨a, ?_, c⟩
    by_contra hn'
    rw [h2 (.sp s .momentum) (by simp) (fun n hn'' hco => ⟨fun e => ?_, by simp⟩)] at b
    · exact hn' b
    · have := (Key.sp.inj e).1
      subst this
      exact hn' hco.2.1
  · rintro ⟨a, b, c⟩
    exact ⟨a, hm s hs ⟨a, b, c⟩, c⟩

open Classical in
/-- **C54.**  The total parallel current changes by `-alpha Apar`, in every cell of the domain where all densities are above the floor. -/
theorem current_change {o : EMOpts ι} {dom : ι → Prop} (hb : ∀ f i, dom i → o.bndry f i = f i) {names : List String} (hn : names.Nodup)
    {st st' : Store Key (Value ι)} (h : electromagnetic o names st = (.ok (), st')) {i : ι} (hi : dom i)
    (hN : ∀ s ∈ names, Coupled st s → 1e-5 ≤ fieldOf st s .density i) :
    (names.map fun s => if Coupled st s then current st' s i else 0).sum =
      totalCurrent names st i - alpha names st i * topField st' "fields:Apar" i := by
  obtain ⟨h0, h1, h2⟩ := em_ok hn h
  rw [h0]
  generalize hA : potential o names st = A at *
  unfold totalCurrent alpha
  suffices hsuf : ∀ l : List String, (∀ s ∈ l, s ∈ names) →
      (l.map fun s => if Coupled st s then current st' s i else 0).sum =
        (l.map fun s => if Coupled st s then current st s i else 0).sum -
        (l.map fun s => if Coupled st s then max (fieldOf st s .density i) 1e-5 * (realOf st s .charge ^ 2 / realOf st s .AA) else 0).sum * A i from
    hsuf names (fun _ hs => hs)
  intro l
  induction l with
  | nil => simp
  | cons s l ih =>
    intro hl
    rw [List.map_cons, List.map_cons, List.map_cons, List.sum_cons, List.sum_cons, List.sum_cons, ih (fun s hs => hl s (List.mem_cons_of_mem _ hs))]
    have hs := hl s List.mem_cons_self
    by_cases hc : Coupled st s
    · obtain ⟨m, -⟩ := h1 s hs hc
      have hq : realOf st' s .charge = realOf st s .charge := realOf_congr (h2 _ (by simp) (fun _ _ _ => ⟨by simp, by simp⟩))
      have ha : realOf st' s .AA = realOf st s .AA := realOf_congr (h2 _ (by simp) (fun _ _ _ => ⟨by simp, by simp⟩))
      simp only [if_pos hc]
      unfold current
      rw [hq, ha, m, hb _ i hi, max_eq_left (hN s hs hc)]
      ring
    · simp only [if_neg hc]
      ring

open Classical in
/-- **C54.**  If the solver solves its equation, then `Apar` and the corrected current satisfy Ampère's law
`Laplace(Apar) = -beta_em J` in every cell where all densities are above the floor. -/
theorem ampere {o : EMOpts ι} {dom : ι → Prop} (hb : ∀ f i, dom i → o.bndry f i = f i) {lap : Fld ι → Fld ι}
    (hsol : ∀ a r i, dom i → lap (o.solve a r) i + a i * o.solve a r i = r i) {names : List String} (hn : names.Nodup)
    {st st' : Store Key (Value ι)} (h : electromagnetic o names st = (.ok (), st')) {i : ι} (hi : dom i)
    (hN : ∀ s ∈ names, Coupled st s → 1e-5 ≤ fieldOf st s .density i) :
    lap (topField st' "fields:Apar") i = -o.beta_em * (names.map fun s => if Coupled st s then current st' s i else 0).sum := by
  rw [current_change hb hn h hi hN]
  have h0 := (em_ok hn h).1
  rw [h0]
  have := hsol (fun i => -o.beta_em * alpha names st i) (fun i => -o.beta_em * totalCurrent names st i) i hi
  unfold potential
  linarith

/-! ## The hypotheses can be met -/

section
open Hermes.Runs

/-- What the component reads and sets. -/
def access (names : List String) : Access where
  found k := ∃ s ∈ names, k = .sp s .AA ∨ k = .sp s .density ∨ k = .sp s .velocity
  own k := k = .top "fields:Apar" ∨ (∃ s, k = .sp s .momentum) ∨ ∃ s, k = .sp s .velocity
  edge _ := False
  num k := (∃ s, k = .sp s .AA) ∨ ∃ s, k = .sp s .charge

/-- `if (isSet(k1) && isSet(k2)) B else C`: in `B` both variables are set. -/
theorem runs_ifBoth {α : Type} {A : Access} {k1 k2 : Key} {t1 t2 : Prog ι Bool} {B C : Prog ι α}
    (h1 : ∀ A' st, A'.own = A.own → A'.edge = A.edge → Fit A' st → ∃ st', t1 st = (.ok (vals st k1).isSome, st') ∧ vals st' = vals st ∧ Fit A' st')
    (h2 : ∀ A' st, A'.own = A.own → A'.edge = A.edge → Fit A' st → ∃ st', t2 st = (.ok (vals st k2).isSome, st') ∧ vals st' = vals st ∧ Fit A' st')
    (hB : Runs ((A.knowing k1).knowing k2) B) (hC : Runs A C) : Runs A (t1 >>= fun b => t2 >>= fun c => if (b && c) = true then B else C) := by
  intro st h
  obtain ⟨s1, e1, v1, f1⟩ := h1 A st rfl rfl h
  obtain ⟨s2, e2, v2, f2⟩ := h2 A s1 rfl rfl f1
  by_cases hb : (vals st k1).isSome ∧ (vals s1 k2).isSome
  · have f3 : Fit ((A.knowing k1).knowing k2) s2 := by
      refine ⟨f2.typed, ?_, f2.own, f2.edge⟩
      rintro k ((hk | rfl) | rfl)
      · exact f2.found k hk
      · rw [v2, v1]; exact hb.1
      · rw [v2]; exact hb.2
    obtain ⟨a, s3, e3, f4⟩ := hB s2 f3
    refine ⟨a, s3, bind_intro e1 (bind_intro e2 ?_), f4.typed, fun k hk => f4.found k (Or.inl (Or.inl hk)), f4.own, f4.edge⟩
    rw [if_pos (by rw [hb.1, hb.2]; rfl)]
    exact e3
  · obtain ⟨a, s3, e3, f4⟩ := hC s2 f2
    refine ⟨a, s3, bind_intro e1 (bind_intro e2 ?_), f4⟩
    rw [if_neg (by rw [Bool.and_eq_true]; exact hb)]
    exact e3

theorem em_runs (o : EMOpts ι) (names : List String) : Runs (ι := ι) (access names) (electromagnetic o names) := by
  have no : ∀ s v, v ≠ .momentum → v ≠ .velocity → ¬(access names).own (.sp s v) := by
    rintro s v h1 h2 (e | ⟨_, e⟩ | ⟨_, e⟩)
    · cases e
    · exact h1 (Key.sp.inj e).2
    · exact h2 (Key.sp.inj e).2
  have nn : ∀ s v, v ≠ .AA → v ≠ .charge → ¬(access names).num (.sp s v) := by
    rintro s v h1 h2 (⟨_, e⟩ | ⟨_, e⟩)
    · exact h1 (Key.sp.inj e).2
    · exact h2 (Key.sp.inj e).2
  unfold electromagnetic
  refine Runs.bind (Runs.foldlM names (fun s hs a => ?_) _) fun a => Runs.bind (runs_set (Or.inl rfl) ?_) fun _ => Runs.forM names fun s hs => ?_
  · unfold emTerm
    refine runs_ifBoth (k1 := .sp s .charge) (k2 := .sp s .momentum)
      (fun A' st h1 h2 => tests_isSetFinal (by rw [h1]; exact no _ _ (by decide) (by decide)) (by rw [h2]; exact id) st)
      (fun A' st h1 h2 => tests_isSet st) ?_ (Runs.pure _)
    refine Runs.bind (runs_getR (Or.inl (Or.inr rfl)) (Or.inr ⟨_, rfl⟩) (no _ _ (by decide) (by decide)) id) fun Z => ?_
    refine Runs.ite (fun _ => Runs.pure _) fun _ => ?_
    refine Runs.bind (runs_getNB (Or.inl (Or.inl ⟨s, hs, Or.inr (Or.inl rfl)⟩)) (no _ _ (by decide) (by decide))) fun N => ?_
    refine Runs.bind (runs_getNonFinal (Or.inr rfl)) fun mom => ?_
    exact Runs.bind (runs_getR (Or.inl (Or.inl ⟨s, hs, Or.inl rfl⟩)) (Or.inl ⟨_, rfl⟩) (no _ _ (by decide) (by decide)) id) fun A => Runs.pure _
  · rintro (⟨_, e⟩ | ⟨_, e⟩) <;> cases e
  · unfold emSpecies
    refine runs_ifBoth (k1 := .sp s .charge) (k2 := .sp s .momentum) (fun A' st h1 h2 => tests_isSet st)
      (fun A' st h1 h2 => tests_isSet st) ?_ (Runs.pure _)
    refine Runs.bind (runs_getR (Or.inl (Or.inr rfl)) (Or.inr ⟨_, rfl⟩) (no _ _ (by decide) (by decide)) id) fun Z => ?_
    refine Runs.ite (fun _ => Runs.pure _) fun _ => ?_
    unfold emUpdate
    refine Runs.bind (runs_getR (Or.inl (Or.inl ⟨s, hs, Or.inl rfl⟩)) (Or.inl ⟨_, rfl⟩) (no _ _ (by decide) (by decide)) id) fun A => ?_
    refine Runs.bind (runs_getNB (Or.inl (Or.inl ⟨s, hs, Or.inr (Or.inl rfl)⟩)) (no _ _ (by decide) (by decide))) fun N => ?_
    refine Runs.bind (runs_getNonFinal (Or.inr rfl)) fun mom => ?_
    refine Runs.bind (runs_getNonFinal (Or.inl (Or.inl ⟨s, hs, Or.inr (Or.inr rfl)⟩))) fun v => ?_
    refine Runs.bind (runs_set (Or.inr (Or.inl ⟨_, rfl⟩)) (nn _ _ (by decide) (by decide))) fun _ => ?_
    exact runs_set (Or.inr (Or.inr ⟨_, rfl⟩)) (nn _ _ (by decide) (by decide))

/-- Electrons with a flow, deuterium at rest, and gas. -/
noncomputable def plasma (N : ℝ) : Store Key (Value Unit) where
  ent
    | .sp s .density => { val := some (.field fun _ => N), final := false, finalDomain := false }
    | .sp s .charge => { val := some (.real (if s = "e" then -1 else if s = "d+" then 1 else 0)), final := false, finalDomain := false }
    | .sp s .velocity => { val := some (.field fun _ => if s = "e" then 3 else 0), final := false, finalDomain := false }
    | .sp s .momentum => { val := some (.field fun _ => if s = "e" then 1 / 1836 * N * 3 else 0), final := false, finalDomain := false }
    | .sp s .AA => { val := some (.real (if s = "e" then 1 / 1836 else 2)), final := false, finalDomain := false }
    | _ => { val := none, final := false, finalDomain := false }
  check := true

/-- A solver for one cell with `Laplace(A) = 0`. -/
noncomputable def oneCell : EMOpts Unit := ⟨1, fun a r i => r i / a i, fun f => f⟩

theorem plasma_run (N : ℝ) : ∃ st', electromagnetic oneCell ["d", "d+", "e"] (plasma N) = (.ok (), st') := by
  obtain ⟨_, st', h, -⟩ := em_runs oneCell ["d", "d+", "e"] (plasma N)
    ⟨by
      rintro k (⟨s, rfl⟩ | ⟨s, rfl⟩) x hx <;> exact ⟨_, (Option.some.inj hx).symm⟩, by
      rintro k ⟨s, -, rfl | rfl | rfl⟩ <;> rfl, by
      rintro k (rfl | ⟨s, rfl⟩ | ⟨s, rfl⟩) <;> exact ⟨rfl, rfl⟩, fun k hk => hk.elim⟩
  exact ⟨st', h⟩

theorem plasma_charged {N : ℝ} {s : String} : Coupled (plasma N) s ↔ s = "e" ∨ s = "d+" := by
  have hc : realOf (plasma N) s .charge = if s = "e" then -1 else if s = "d+" then 1 else 0 := rfl
  unfold Coupled
  rw [hc]
  constructor
  · rintro ⟨-, -, h⟩
    by_contra hn
    push Not at hn
    rw [if_neg hn.1, if_neg hn.2] at h
    norm_num at h
  · rintro (rfl | rfl)
    · exact ⟨rfl, rfl, by norm_num⟩
    · exact ⟨rfl, rfl, by rw [if_neg (by decide), if_pos rfl]; norm_num⟩

theorem plasma_momentum (N : ℝ) (s : String) :
    fieldOf (plasma N) s .momentum () = realOf (plasma N) s .AA * fieldOf (plasma N) s .density () * fieldOf (plasma N) s .velocity () := by
  show (if s = "e" then 1 / 1836 * N * 3 else 0) = (if s = "e" then 1 / 1836 else 2) * N * (if s = "e" then 3 else 0)
  split_ifs <;> ring

/-- The hypotheses of the theorems above are met. -/
example : ∃ st', electromagnetic oneCell ["d", "d+", "e"] (plasma 2) = (.ok (), st') ∧ Coupled (plasma 2) "e" ∧
    (∀ s ∈ ["d", "d+", "e"], Coupled (plasma 2) s → 1e-5 ≤ fieldOf (plasma 2) s .density ()) ∧
    (∀ s, fieldOf (plasma 2) s .momentum () = realOf (plasma 2) s .AA * fieldOf (plasma 2) s .density () * fieldOf (plasma 2) s .velocity ()) ∧
    |realOf (plasma 2) "d" .charge| < 1e-5 ∧ (∀ f i, oneCell.bndry f i = f i) := by
  obtain ⟨st', h⟩ := plasma_run 2
  refine ⟨st', h, plasma_charged.2 (Or.inl rfl), fun s _ _ => ?_, plasma_momentum 2, ?_, fun f i => rfl⟩
  · show (1e-5 : ℝ) ≤ 2
    norm_num
  · have : realOf (plasma 2) "d" .charge = 0 := by
      show (if "d" = "e" then (-1 : ℝ) else if "d" = "d+" then 1 else 0) = 0
      rw [if_neg (by decide), if_neg (by decide)]
    rw [this]; norm_num

/-- Below the density floor the corrected momentum and velocity do not agree: the velocity is corrected by less. -/
theorem thin_plasma_inconsistent : ∃ st', electromagnetic oneCell ["d", "d+", "e"] (plasma 1e-6) = (.ok (), st') ∧
    fieldOf (plasma 1e-6) "e" .momentum () =
      realOf (plasma 1e-6) "e" .AA * fieldOf (plasma 1e-6) "e" .density () * fieldOf (plasma 1e-6) "e" .velocity () ∧
    fieldOf st' "e" .momentum () ≠ realOf st' "e" .AA * fieldOf st' "e" .density () * fieldOf st' "e" .velocity () := by
  obtain ⟨st', h⟩ := plasma_run 1e-6
  refine ⟨st', h, plasma_momentum _ _, ?_⟩
  have hn : ["d", "d+", "e"].Nodup := by decide
  obtain ⟨-, h1, h2⟩ := em_ok hn h
  obtain ⟨m, v⟩ := h1 "e" (by decide) (plasma_charged.2 (Or.inl rfl))
  have hd : fieldOf st' "e" .density = fieldOf (plasma 1e-6) "e" .density := fieldOf_congr (h2 _ (by simp) (fun _ _ _ => ⟨by simp, by simp⟩))
  have ha : realOf st' "e" .AA = realOf (plasma 1e-6) "e" .AA := realOf_congr (h2 _ (by simp) (fun _ _ _ => ⟨by simp, by simp⟩))
  have c1 : Coupled (plasma 1e-6) "e" := plasma_charged.2 (Or.inl rfl)
  have c2 : Coupled (plasma 1e-6) "d+" := plasma_charged.2 (Or.inr rfl)
  have c3 : ¬ Coupled (plasma 1e-6) "d" := fun hh => by rcases plasma_charged.1 hh with hh | hh <;> exact absurd hh (by decide)
  have r1 : realOf (plasma 1e-6) "e" .charge = -1 := rfl
  have r2 : realOf (plasma 1e-6) "d+" .charge = 1 := by
    show (if "d+" = "e" then (-1 : ℝ) else if "d+" = "d+" then 1 else 0) = 1
    rw [if_neg (by decide), if_pos rfl]
  have a1 : realOf (plasma 1e-6) "e" .AA = 1 / 1836 := rfl
  have a2 : realOf (plasma 1e-6) "d+" .AA = 2 := rfl
  have d0 : ∀ s, fieldOf (plasma 1e-6) s .density () = 1e-6 := fun s => rfl
  have m1 : fieldOf (plasma 1e-6) "e" .momentum () = 1 / 1836 * 1e-6 * 3 := rfl
  have m2 : fieldOf (plasma 1e-6) "d+" .momentum () = 0 := rfl
  have v1 : fieldOf (plasma 1e-6) "e" .velocity () = 3 := rfl
  have hP : potential oneCell ["d", "d+", "e"] (plasma 1e-6) () ≠ 0 := by
    unfold potential totalCurrent alpha oneCell
    simp only [List.map_cons, List.map_nil, List.sum_cons, List.sum_nil, if_pos c1, if_pos c2, if_neg c3, current, r1, r2, a1, a2, d0, m1, m2]
    norm_num
  have hb : ∀ f, oneCell.bndry f = f := fun f => rfl
  rw [m, v, hd, ha, hb, hb]
  simp only [r1, a1, d0, m1, v1]
  generalize potential oneCell ["d", "d+", "e"] (plasma 1e-6) () = P at hP
  rw [show max (1e-6 : ℝ) 1e-5 = 1e-5 by norm_num]
  intro e
  apply hP
  norm_num at e
  linarith

end

end Hermes.Electromagnetics
