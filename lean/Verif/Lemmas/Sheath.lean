import Verif.Model.SheathSimple
import Verif.Props.Closures
import Mathlib.Tactic.Positivity

/-! # Helper lemmas: loops over the ends of field lines, and reading of optional variables -/

set_option linter.unusedSectionVars false
set_option linter.unusedVariables false

namespace Hermes.Sheath
open Hermes.Closures

section
variable {ι : Type}

/-- The guard cells of both ends are distinct, and no loop reads one of them: the line has at least two cells. -/
structure MeshOk (m : YMesh ι) : Prop where
  nodup : (m.lower.map m.ym ++ m.upper.map m.yp).Nodup
  sep : ∀ g ∈ m.lower.map m.ym ++ m.upper.map m.yp,
    g ∉ m.lower ∧ g ∉ m.upper ∧ g ∉ m.lower.map m.yp ∧ g ∉ m.upper.map m.ym

/-- Conditions for the loop over one end. -/
structure EndOk (guard inner : ι → ι) (pts : List ι) : Prop where
  nodup : (pts.map guard).Nodup
  last : ∀ a ∈ pts, ∀ b ∈ pts, guard a ≠ b
  inner : ∀ a ∈ pts, ∀ b ∈ pts, guard a ≠ inner b

theorem MeshOk.lower {m : YMesh ι} (h : MeshOk m) : EndOk m.ym m.yp m.lower where
  nodup := (List.nodup_append.1 h.nodup).1
  last a ha b hb e := (h.sep (m.ym a) (List.mem_append_left _ (List.mem_map_of_mem ha))).1 (e ▸ hb)
  inner a ha b hb e := (h.sep (m.ym a) (List.mem_append_left _ (List.mem_map_of_mem ha))).2.2.1
    (e ▸ List.mem_map_of_mem hb)

theorem MeshOk.upper {m : YMesh ι} (h : MeshOk m) : EndOk m.yp m.ym m.upper where
  nodup := (List.nodup_append.1 h.nodup).2.1
  last a ha b hb e := (h.sep (m.yp a) (List.mem_append_right _ (List.mem_map_of_mem ha))).2.1 (e ▸ hb)
  inner a ha b hb e := (h.sep (m.yp a) (List.mem_append_right _ (List.mem_map_of_mem ha))).2.2.2
    (e ▸ List.mem_map_of_mem hb)

theorem MeshOk.disjoint {m : YMesh ι} (h : MeshOk m) {i : ι} (hl : i ∈ m.lower) : i ∉ m.upper := fun hu =>
  (h.sep (m.yp i) (List.mem_append_right _ (List.mem_map_of_mem hu))).2.2.1 (List.mem_map_of_mem hl)

theorem EndOk.tail {guard inner : ι → ι} {a : ι} {pts : List ι} (h : EndOk guard inner (a :: pts)) :
    EndOk guard inner pts where
  nodup := (List.nodup_cons.1 h.nodup).2
  last x hx y hy := h.last x (List.mem_cons_of_mem _ hx) y (List.mem_cons_of_mem _ hy)
  inner x hx y hy := h.inner x (List.mem_cons_of_mem _ hx) y (List.mem_cons_of_mem _ hy)

theorem EndOk.notMem {guard inner : ι → ι} {a : ι} {pts : List ι} (h : EndOk guard inner (a :: pts)) : a ∉ pts := by
  intro ha
  exact (List.nodup_cons.1 h.nodup).1 (List.mem_map_of_mem ha)

theorem EndOk.guard_inj {guard inner : ι → ι} {pts : List ι} (h : EndOk guard inner pts) {a b : ι} (ha : a ∈ pts)
    (hb : b ∈ pts) (e : guard a = guard b) : a = b := List.inj_on_of_nodup_map h.nodup ha hb e

variable [DecidableEq ι]

section
variable {κ : Type} {guard inner : ι → ι} {f : ι → κ → κ → κ × ℝ}

theorem sweep_cons (a : ι) (pts : List ι) (s : (ι → κ) × Fld ι) :
    sweep guard inner f (a :: pts) s = sweep guard inner f pts
      (Function.update s.1 (guard a) (f a (s.1 a) (s.1 (inner a))).1,
        Function.update s.2 a (s.2 a + (f a (s.1 a) (s.1 (inner a))).2)) := rfl

theorem sweep_other {j : ι} : ∀ {pts : List ι} {s : (ι → κ) × Fld ι}, j ∉ pts.map guard →
    (sweep guard inner f pts s).1 j = s.1 j
  | [], s, _ => rfl
  | a :: pts, s, h => by
    rw [List.map_cons, List.mem_cons, not_or] at h
    rw [sweep_cons, sweep_other h.2]
    exact Function.update_of_ne h.1 _ _

theorem sweep_src_other {j : ι} : ∀ {pts : List ι} {s : (ι → κ) × Fld ι}, j ∉ pts →
    (sweep guard inner f pts s).2 j = s.2 j
  | [], s, _ => rfl
  | a :: pts, s, h => by
    rw [List.mem_cons, not_or] at h
    rw [sweep_cons, sweep_src_other h.2]
    exact Function.update_of_ne h.1 _ _

theorem sweep_guard {i : ι} : ∀ {pts : List ι} {s : (ι → κ) × Fld ι}, EndOk guard inner pts → i ∈ pts →
    (sweep guard inner f pts s).1 (guard i) = (f i (s.1 i) (s.1 (inner i))).1
  | a :: pts, s, h, hi => by
    rw [sweep_cons]
    rcases List.mem_cons.1 hi with rfl | hi'
    · rw [sweep_other (List.nodup_cons.1 h.nodup).1]
      exact Function.update_self _ _ _
    · rw [sweep_guard h.tail hi']
      dsimp only
      rw [Function.update_of_ne (h.last a (List.mem_cons_self ..) i hi).symm,
        Function.update_of_ne (h.inner a (List.mem_cons_self ..) i hi).symm]

theorem sweep_src {i : ι} : ∀ {pts : List ι} {s : (ι → κ) × Fld ι}, EndOk guard inner pts → i ∈ pts →
    (sweep guard inner f pts s).2 i = s.2 i + (f i (s.1 i) (s.1 (inner i))).2
  | a :: pts, s, h, hi => by
    rw [sweep_cons]
    rcases List.mem_cons.1 hi with rfl | hi'
    · rw [sweep_src_other h.notMem]
      exact Function.update_self _ _ _
    · rw [sweep_src h.tail hi']
      dsimp only
      rw [Function.update_of_ne (h.last a (List.mem_cons_self ..) i hi).symm,
        Function.update_of_ne (h.inner a (List.mem_cons_self ..) i hi).symm,
        Function.update_of_ne (by rintro rfl; exact h.notMem hi')]

end

/-- Loops over both ends, the lower end first. -/
def bothEnds {κ : Type} (m : YMesh ι) (lo up : Bool) (fl fu : ι → κ → κ → κ × ℝ) (s : (ι → κ) × Fld ι) :
    (ι → κ) × Fld ι :=
  let a := if lo then sweep m.ym m.yp fl m.lower s else s
  if up then sweep m.yp m.ym fu m.upper a else a

/-- Cell `i` is the last cell, `g` the guard cell and `inn` the cell before the last one, at an end that is switched on. -/
inductive Target (m : YMesh ι) (lo up : Bool) : (atUpper : Bool) → (i g inn : ι) → Prop
  | lower {i : ι} (h : lo = true) (hi : i ∈ m.lower) : Target m lo up false i (m.ym i) (m.yp i)
  | upper {i : ι} (h : up = true) (hi : i ∈ m.upper) : Target m lo up true i (m.yp i) (m.ym i)

section
variable {κ : Type} {m : YMesh ι} {lo up : Bool} {fl fu : ι → κ → κ → κ × ℝ} {s : (ι → κ) × Fld ι}

omit [DecidableEq ι] in
theorem Target.ne {u u' : Bool} {i g inn i' g' inn' : ι} (hm : MeshOk m) (h : Target m lo up u i g inn)
    (h' : Target m lo up u' i' g' inn') : g ≠ i' ∧ g ≠ inn' := by
  have hg : g ∈ m.lower.map m.ym ++ m.upper.map m.yp := by
    cases h with
    | lower _ hi => exact List.mem_append_left _ (List.mem_map_of_mem hi)
    | upper _ hi => exact List.mem_append_right _ (List.mem_map_of_mem hi)
  obtain ⟨h1, h2, h3, h4⟩ := hm.sep g hg
  cases h' with
  | lower _ hi => exact ⟨fun e => h1 (e ▸ hi), fun e => h3 (e ▸ List.mem_map_of_mem hi)⟩
  | upper _ hi => exact ⟨fun e => h2 (e ▸ hi), fun e => h4 (e ▸ List.mem_map_of_mem hi)⟩

omit [DecidableEq ι] in
theorem Target.guard_ne {u u' : Bool} {i g inn i' g' inn' : ι} (hm : MeshOk m) (h : Target m lo up u i g inn)
    (h' : Target m lo up u' i' g' inn') (hne : i ≠ i') : g ≠ g' := by
  have hn := hm.nodup
  rw [List.nodup_append] at hn
  cases h with
  | lower _ hi =>
    cases h' with
    | lower _ hi' => exact fun e => hne (List.inj_on_of_nodup_map hn.1 hi hi' e)
    | upper _ hi' => exact hn.2.2 _ (List.mem_map_of_mem hi) _ (List.mem_map_of_mem hi')
  | upper _ hi =>
    cases h' with
    | lower _ hi' => exact fun e => hn.2.2 _ (List.mem_map_of_mem hi') _ (List.mem_map_of_mem hi) e.symm
    | upper _ hi' => exact fun e => hne (List.inj_on_of_nodup_map hn.2.1 hi hi' e)

theorem bothEnds_other {j : ι} (h : ∀ u i inn, ¬ Target m lo up u i j inn) : (bothEnds m lo up fl fu s).1 j = s.1 j := by
  have hl : lo = true → j ∉ m.lower.map m.ym := by
    intro e hj
    obtain ⟨i, hi, rfl⟩ := List.mem_map.1 hj
    exact h _ _ _ (.lower e hi)
  have hu : up = true → j ∉ m.upper.map m.yp := by
    intro e hj
    obtain ⟨i, hi, rfl⟩ := List.mem_map.1 hj
    exact h _ _ _ (.upper e hi)
  unfold bothEnds
  cases up
  · cases lo
    · rfl
    · exact sweep_other (hl rfl)
  · simp only [if_true]
    rw [sweep_other (hu rfl)]
    cases lo
    · rfl
    · exact sweep_other (hl rfl)

theorem bothEnds_src_other {j : ι} (h : ∀ u g inn, ¬ Target m lo up u j g inn) :
    (bothEnds m lo up fl fu s).2 j = s.2 j := by
  have hl : lo = true → j ∉ m.lower := fun e hj => h _ _ _ (.lower e hj)
  have hu : up = true → j ∉ m.upper := fun e hj => h _ _ _ (.upper e hj)
  unfold bothEnds
  cases up
  · cases lo
    · rfl
    · exact sweep_src_other (hl rfl)
  · simp only [if_true]
    rw [sweep_src_other (hu rfl)]
    cases lo
    · rfl
    · exact sweep_src_other (hl rfl)

/-- At an end that is switched on, the loop body sees the values from before the loops. -/
theorem bothEnds_target {u : Bool} {i g inn : ι} (hm : MeshOk m) (h : Target m lo up u i g inn) :
    (bothEnds m lo up fl fu s).1 g = ((if u then fu else fl) i (s.1 i) (s.1 inn)).1 ∧
    (bothEnds m lo up fl fu s).2 i = s.2 i + ((if u then fu else fl) i (s.1 i) (s.1 inn)).2 := by
  cases h with
  | lower e hi =>
    subst e
    unfold bothEnds
    simp only [if_true]
    cases up
    · exact ⟨sweep_guard hm.lower hi, sweep_src hm.lower hi⟩
    · simp only [if_true]
      rw [sweep_src_other (hm.disjoint hi), sweep_src hm.lower hi, sweep_other, sweep_guard hm.lower hi]
      · exact ⟨rfl, rfl⟩
      · intro hj
        exact (List.nodup_append.1 hm.nodup).2.2 _ (List.mem_map_of_mem hi) _ hj rfl
  | upper e hi =>
    subst e
    unfold bothEnds
    simp only [if_true]
    rw [sweep_guard hm.upper hi, sweep_src hm.upper hi]
    cases lo
    · exact ⟨rfl, rfl⟩
    · simp only [if_true]
      have h1 : i ∉ m.lower.map m.ym := fun hj => (hm.sep i (List.mem_append_left _ hj)).2.1 hi
      have h2 : m.ym i ∉ m.lower.map m.ym := fun hj =>
        (hm.sep _ (List.mem_append_left _ hj)).2.2.2 (List.mem_map_of_mem hi)
      rw [sweep_other h1, sweep_other h2, sweep_src_other (fun hl => hm.disjoint hl hi)]
      exact ⟨rfl, rfl⟩

theorem bothEnds_last {u : Bool} {i g inn : ι} (hm : MeshOk m) (h : Target m lo up u i g inn) :
    (bothEnds m lo up fl fu s).1 i = s.1 i :=
  bothEnds_other fun _ _ _ h' => (h'.ne hm h).1 rfl

end

/-! ## Reading optional variables -/

/-- Field at `k`, or `d` if nothing is published. -/
def fieldOr (st : Store Key (Value ι)) (k : Key) (d : Fld ι) : Fld ι := ((vals st k).bind asField).getD d
/-- Number at `k`, or `d` if nothing is published. -/
def realOr (st : Store Key (Value ι)) (k : Key) (d : ℝ) : ℝ := ((vals st k).bind asReal).getD d

omit [DecidableEq ι] in
theorem fieldOr_congr {st st' : Store Key (Value ι)} (h : vals st' = vals st) : fieldOr st' = fieldOr st := by
  funext k d; unfold fieldOr; rw [h]

omit [DecidableEq ι] in
theorem realOr_congr {st st' : Store Key (Value ι)} (h : vals st' = vals st) : realOr st' = realOr st := by
  funext k d; unfold realOr; rw [h]

omit [DecidableEq ι] in
theorem fieldOr_read {st : Store Key (Value ι)} {k : Key} {d f : Fld ι}
    (h : readVal asField k (vals st) = .ok f) : f = fieldOr st k d := by
  obtain ⟨x, h1, h2⟩ := readVal_asField h
  unfold fieldOr; rw [h1]; simp [h2]

omit [DecidableEq ι] in
theorem realOr_read {st : Store Key (Value ι)} {k : Key} {d f : ℝ}
    (h : readVal asReal k (vals st) = .ok f) : f = realOr st k d := by
  unfold realOr; rw [readVal_asReal h]; rfl

omit [DecidableEq ι] in
theorem fieldOr_unset {st : Store Key (Value ι)} {k : Key} {d : Fld ι} (h : (vals st k).isSome = false) :
    fieldOr st k d = d := by
  unfold fieldOr
  cases e : vals st k with
  | none => rfl
  | some x => rw [e] at h; cases h

omit [DecidableEq ι] in
theorem realOr_unset {st : Store Key (Value ι)} {k : Key} {d : ℝ} (h : (vals st k).isSome = false) :
    realOr st k d = d := by
  unfold realOr
  cases e : vals st k with
  | none => rfl
  | some x => rw [e] at h; cases h

omit [DecidableEq ι] in
theorem readNB_bind {β : Type} {k : Key} {d : Fld ι} {f : Fld ι → Prog ι β} {st st'' : Store Key (Value ι)} {b : β}
    (h : (readNB k d >>= f) st = (.ok b, st'')) : ∃ st', vals st' = vals st ∧ f (fieldOr st k d) st' = (.ok b, st'') := by
  obtain ⟨a, s1, h1, h2⟩ := M_bind_ok h
  unfold readNB at h1
  obtain ⟨s2, e2, h1⟩ := isSetFinalNB_bind h1
  split at h1 <;> rename_i hs
  · obtain ⟨h3, h4⟩ := (den_getNoBoundary asField _).ok h1
    rw [e2] at h3
    rw [fieldOr_read h3] at h2
    exact ⟨s1, h4.trans e2, h2⟩
  · obtain ⟨rfl, rfl⟩ := pure_ok h1
    rw [fieldOr_unset (by simpa using hs)]
    exact ⟨_, e2, h2⟩

omit [DecidableEq ι] in
theorem readSet_bind {β : Type} {k : Key} {d : Fld ι} {f : Fld ι → Prog ι β} {st st'' : Store Key (Value ι)} {b : β}
    (h : (readSet k d >>= f) st = (.ok b, st'')) :
    ∃ st', vals st' = vals st ∧ f (fieldOr st k d) st' = (.ok b, st'') := by
  obtain ⟨a, s1, h1, h2⟩ := M_bind_ok h
  unfold readSet at h1
  have h1 := isSet_bind h1
  split at h1 <;> rename_i hs
  · obtain ⟨h3, h4⟩ := (den_getNoBoundary asField _).ok h1
    rw [fieldOr_read h3] at h2
    exact ⟨s1, h4, h2⟩
  · obtain ⟨rfl, rfl⟩ := pure_ok h1
    rw [fieldOr_unset (by simpa using hs)]
    exact ⟨_, rfl, h2⟩

omit [DecidableEq ι] in
theorem readSource_bind {β : Type} {k : Key} {f : Fld ι → Prog ι β} {st st'' : Store Key (Value ι)} {b : β}
    (h : (readSource k >>= f) st = (.ok b, st'')) :
    ∃ st', vals st' = vals st ∧ f (fieldOr st k 0) st' = (.ok b, st'') := by
  obtain ⟨a, s1, h1, h2⟩ := M_bind_ok h
  unfold readSource at h1
  have h1 := isSet_bind h1
  split at h1 <;> rename_i hs
  · obtain ⟨h3, h4⟩ := (den_getNonFinal asField _).ok h1
    rw [fieldOr_read h3] at h2
    exact ⟨s1, h4, h2⟩
  · obtain ⟨rfl, rfl⟩ := pure_ok h1
    rw [fieldOr_unset (by simpa using hs)]
    exact ⟨_, rfl, h2⟩

omit [DecidableEq ι] in
theorem readReal_bind {β : Type} {k : Key} {d : ℝ} {f : ℝ → Prog ι β} {st st'' : Store Key (Value ι)} {b : β}
    (h : (readReal k d >>= f) st = (.ok b, st'')) : ∃ st', vals st' = vals st ∧ f (realOr st k d) st' = (.ok b, st'') := by
  obtain ⟨a, s1, h1, h2⟩ := M_bind_ok h
  unfold readReal at h1
  obtain ⟨s2, e2, h1⟩ := isSetFinal_bind h1
  split at h1 <;> rename_i hs
  · obtain ⟨h3, h4⟩ := (den_get asReal _).ok h1
    rw [e2] at h3
    rw [realOr_read h3] at h2
    exact ⟨s1, h4.trans e2, h2⟩
  · obtain ⟨rfl, rfl⟩ := pure_ok h1
    rw [realOr_unset (by simpa using hs)]
    exact ⟨_, e2, h2⟩

omit [DecidableEq ι] in
theorem readRealIfSet_bind {β : Type} {k : Key} {d : ℝ} {f : ℝ → Prog ι β} {st st'' : Store Key (Value ι)} {b : β}
    (h : (readRealIfSet k d >>= f) st = (.ok b, st'')) :
    ∃ st', vals st' = vals st ∧ f (realOr st k d) st' = (.ok b, st'') := by
  obtain ⟨a, s1, h1, h2⟩ := M_bind_ok h
  unfold readRealIfSet at h1
  have h1 := isSet_bind h1
  split at h1 <;> rename_i hs
  · obtain ⟨h3, h4⟩ := (den_get asReal _).ok h1
    rw [realOr_read h3] at h2
    exact ⟨s1, h4, h2⟩
  · obtain ⟨rfl, rfl⟩ := pure_ok h1
    rw [realOr_unset (by simpa using hs)]
    exact ⟨_, rfl, h2⟩

/-- `f` if the variable is there. -/
def ifSet (old : Option (Value ι)) (f : Fld ι) : Option (Value ι) := if old.isSome then some (.field f) else none

omit [DecidableEq ι] in
theorem update_ifSet {st : Store Key (Value ι)} {k : Key} {f : Fld ι} :
    (if (vals st k).isSome then Function.update (vals st) k (some (.field f)) else vals st) =
      Function.update (vals st) k (ifSet (vals st k) f) := by
  unfold ifSet
  split <;> rename_i h
  · rfl
  · rw [eq_comm, Function.update_eq_self_iff]
    simpa using (Option.not_isSome_iff_eq_none.1 h).symm

omit [DecidableEq ι] in
theorem setBoundaryIfSet_ok {k : Key} {f : Fld ι} {st st' : Store Key (Value ι)} {u : Unit}
    (h : setBoundaryIfSet k f st = (.ok u, st')) : vals st' = Function.update (vals st) k (ifSet (vals st k) f) := by
  unfold setBoundaryIfSet at h
  have h := isSet_bind h
  rw [← update_ifSet]
  split at h <;> rename_i hs
  · rw [if_pos hs]; exact setBoundary_ok h
  · obtain ⟨_, rfl⟩ := pure_ok h
    rw [if_neg hs]

omit [DecidableEq ι] in
theorem setBoundaryIfSetNB_ok {k : Key} {f : Fld ι} {st st' : Store Key (Value ι)} {u : Unit}
    (h : setBoundaryIfSetNB k f st = (.ok u, st')) : vals st' = Function.update (vals st) k (ifSet (vals st k) f) := by
  unfold setBoundaryIfSetNB at h
  obtain ⟨s1, e1, h⟩ := isSetFinalNB_bind h
  rw [← update_ifSet]
  split at h <;> rename_i hs
  · rw [if_pos hs, ← e1]; exact setBoundary_ok h
  · obtain ⟨_, rfl⟩ := pure_ok h
    rw [if_neg hs, e1]

/-- A loop over species: the body for `n` reads and changes only variables of `n`. -/
theorem forM_species {body : String → Prog ι Unit} {R : String → (Var → Option (Value ι)) → (Var → Option (Value ι)) → Prop}
    (hb : ∀ n s u s', body n s = (.ok u, s') → R n (fun v => vals s (.sp n v)) (fun v => vals s' (.sp n v)) ∧
      ∀ k, (∀ v, k ≠ .sp n v) → vals s' k = vals s k) :
    ∀ {names : List String} {s s' : Store Key (Value ι)} {u : Unit}, names.Nodup → names.forM body s = (.ok u, s') →
      (∀ n ∈ names, R n (fun v => vals s (.sp n v)) (fun v => vals s' (.sp n v))) ∧
      ∀ k, (∀ n ∈ names, ∀ v, k ≠ .sp n v) → vals s' k = vals s k
  | [], s, s', u, _, h => by cases h; exact ⟨by simp, fun _ _ => rfl⟩
  | a :: l, s, s', u, hn, h => by
    have h : (body a >>= fun _ => l.forM body) s = (.ok u, s') := h
    obtain ⟨_, s1, h1, h2⟩ := M_bind_ok h
    obtain ⟨r1, k1⟩ := hb _ _ _ _ h1
    obtain ⟨r2, k2⟩ := forM_species hb (List.nodup_cons.1 hn).2 h2
    have hna := (List.nodup_cons.1 hn).1
    constructor
    · intro n hmem
      rcases List.mem_cons.1 hmem with rfl | hmem'
      · have : (fun v => vals s' (.sp n v)) = fun v => vals s1 (.sp n v) := by
          funext v
          apply k2
          intro n' hn' v' e
          exact hna ((Key.sp.inj e).1 ▸ hn')
        rw [this]; exact r1
      · have : (fun v => vals s1 (.sp n v)) = fun v => vals s (.sp n v) := by
          funext v
          apply k1
          intro v' e
          exact hna ((Key.sp.inj e).1 ▸ hmem')
        rw [← this]; exact r2 n hmem'
    · intro k hk
      rw [k2 k (fun n hn' => hk n (List.mem_cons_of_mem _ hn')), k1 k (hk a (List.mem_cons_self ..))]

end
end Hermes.Sheath
