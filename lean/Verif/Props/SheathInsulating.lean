import Verif.Props.SheathSimpleExamples

/-!
# `SheathBoundaryInsulating` (C35–C39)

Runs of `SheathBoundaryInsulating::transform` that end without exception: what they publish, the flows into the wall and the energy loss.
-/

set_option linter.unusedSectionVars false
set_option linter.unusedVariables false

namespace Hermes.SheathInsulating
open Hermes.Closures Hermes.Sheath

variable {ι : Type} [DecidableEq ι]

/-! ## Loops -/

/-- Same densities, temperatures and pressures. -/
def NT (e e' : ι → ECell) : Prop := ∀ j, (e j).n = (e' j).n ∧ (e j).t = (e' j).t ∧ (e j).p = (e' j).p

theorem NT.trans {e e' e'' : ι → ECell} (h : NT e e') (h' : NT e' e'') : NT e e'' := fun j =>
  ⟨(h j).1.trans (h' j).1, (h j).2.1.trans (h' j).2.1, (h j).2.2.trans (h' j).2.2⟩
theorem NT.symm {e e' : ι → ECell} (h : NT e e') : NT e' e := fun j => ⟨(h j).1.symm, (h j).2.1.symm, (h j).2.2.symm⟩

/-- Electron flow in one cell with something added. -/
def push (c : ECell) (p : ℝ × ℝ) : ECell := { c with v := c.v + p.1, nv := c.nv + p.2 }

section
variable {guard inner : ι → ι} {f : (ι → ECell) → ι → ICell → ICell → (ICell × ℝ) × (ℝ × ℝ)}

theorem sweepIon_cons (a : ι) (pts : List ι) (s : ((ι → ICell) × Fld ι) × (ι → ECell)) :
    sweepIon guard inner f (a :: pts) s = sweepIon guard inner f pts
      ((Function.update s.1.1 (guard a) (f s.2 a (s.1.1 a) (s.1.1 (inner a))).1.1,
        Function.update s.1.2 a (s.1.2 a + (f s.2 a (s.1.1 a) (s.1.1 (inner a))).1.2)),
        Function.update s.2 (guard a) (push (s.2 (guard a)) (f s.2 a (s.1.1 a) (s.1.1 (inner a))).2)) := rfl

theorem NT_push (e : ι → ECell) (g : ι) (p : ℝ × ℝ) : NT e (Function.update e g (push (e g) p)) := by
  intro j
  by_cases h : j = g
  · subst h; rw [Function.update_self]; exact ⟨rfl, rfl, rfl⟩
  · rw [Function.update_of_ne h]; exact ⟨rfl, rfl, rfl⟩

theorem sweepIon_NT : ∀ (pts : List ι) (s : ((ι → ICell) × Fld ι) × (ι → ECell)), NT s.2 (sweepIon guard inner f pts s).2
  | [], _ => fun _ => ⟨rfl, rfl, rfl⟩
  | a :: l, s => by
    rw [sweepIon_cons]
    have h := sweepIon_NT l
      ((Function.update s.1.1 (guard a) (f s.2 a (s.1.1 a) (s.1.1 (inner a))).1.1,
        Function.update s.1.2 a (s.1.2 a + (f s.2 a (s.1.1 a) (s.1.1 (inner a))).1.2)),
        Function.update s.2 (guard a) (push (s.2 (guard a)) (f s.2 a (s.1.1 a) (s.1.1 (inner a))).2))
    exact (NT_push _ _ _).trans h

theorem sweepIon_fst (hf : ∀ e e', NT e e' → f e = f e') : ∀ (pts : List ι) (s : ((ι → ICell) × Fld ι) × (ι → ECell)),
    (sweepIon guard inner f pts s).1 = sweep guard inner (fun i c d => (f s.2 i c d).1) pts s.1
  | [], _ => rfl
  | a :: l, s => by
    rw [sweepIon_cons, sweepIon_fst hf l, sweep_cons]
    dsimp only
    rw [hf _ _ (NT_push s.2 (guard a) (f s.2 a (s.1.1 a) (s.1.1 (inner a))).2).symm]

theorem sweepIon_other {j : ι} : ∀ {pts : List ι} {s : ((ι → ICell) × Fld ι) × (ι → ECell)}, j ∉ pts.map guard →
    (sweepIon guard inner f pts s).2 j = s.2 j
  | [], _, _ => rfl
  | a :: l, s, h => by
    rw [List.map_cons, List.mem_cons, not_or] at h
    rw [sweepIon_cons, sweepIon_other h.2]
    exact Function.update_of_ne h.1 _ _

theorem sweepIon_guard (hf : ∀ e e', NT e e' → f e = f e') {i : ι} : ∀ {pts : List ι} {s : ((ι → ICell) × Fld ι) × (ι → ECell)},
    EndOk guard inner pts → i ∈ pts →
    (sweepIon guard inner f pts s).2 (guard i) = push (s.2 (guard i)) (f s.2 i (s.1.1 i) (s.1.1 (inner i))).2
  | a :: l, s, h, hi => by
    rw [sweepIon_cons]
    rcases List.mem_cons.1 hi with rfl | hi'
    · rw [sweepIon_other (List.nodup_cons.1 h.nodup).1]
      exact Function.update_self _ _ _
    · rw [sweepIon_guard hf h.tail hi']
      dsimp only
      have hne : guard i ≠ guard a := fun e => h.notMem (h.guard_inj hi List.mem_cons_self e ▸ hi')
      rw [Function.update_of_ne hne, Function.update_of_ne (h.last a List.mem_cons_self i hi).symm,
        Function.update_of_ne (h.inner a List.mem_cons_self i hi).symm,
        hf _ _ (NT_push s.2 (guard a) (f s.2 a (s.1.1 a) (s.1.1 (inner a))).2).symm]

end

/-- Loops over both ends. -/
def bothIon (m : YMesh ι) (lo up : Bool) (fl fu : (ι → ECell) → ι → ICell → ICell → (ICell × ℝ) × (ℝ × ℝ))
    (s : ((ι → ICell) × Fld ι) × (ι → ECell)) : ((ι → ICell) × Fld ι) × (ι → ECell) :=
  let a := if lo then sweepIon m.ym m.yp fl m.lower s else s
  if up then sweepIon m.yp m.ym fu m.upper a else a

section
variable {m : YMesh ι} {lo up : Bool} {fl fu : (ι → ECell) → ι → ICell → ICell → (ICell × ℝ) × (ℝ × ℝ)}
  {s : ((ι → ICell) × Fld ι) × (ι → ECell)}

theorem bothIon_NT : NT s.2 (bothIon m lo up fl fu s).2 := by
  unfold bothIon
  cases lo <;> cases up <;> simp only [if_true, Bool.false_eq_true, if_false]
  · exact fun _ => ⟨rfl, rfl, rfl⟩
  · exact sweepIon_NT _ _
  · exact sweepIon_NT _ _
  · exact (sweepIon_NT _ _).trans (sweepIon_NT _ _)

theorem bothIon_fst (hl : ∀ e e', NT e e' → fl e = fl e') (hu : ∀ e e', NT e e' → fu e = fu e') :
    (bothIon m lo up fl fu s).1 = bothEnds m lo up (fun i c d => (fl s.2 i c d).1) (fun i c d => (fu s.2 i c d).1) s.1 := by
  unfold bothIon bothEnds
  cases lo <;> cases up <;> simp only [if_true, Bool.false_eq_true, if_false, sweepIon_fst hl, sweepIon_fst hu]
  rw [hu _ _ (sweepIon_NT m.lower s).symm]

theorem bothIon_other {j : ι} (h : ∀ u i inn, ¬ Target m lo up u i j inn) : (bothIon m lo up fl fu s).2 j = s.2 j := by
  have hl : lo = true → j ∉ m.lower.map m.ym := by
    intro e hj
    obtain ⟨i, hi, rfl⟩ := List.mem_map.1 hj
    exact h _ _ _ (.lower e hi)
  have hu : up = true → j ∉ m.upper.map m.yp := by
    intro e hj
    obtain ⟨i, hi, rfl⟩ := List.mem_map.1 hj
    exact h _ _ _ (.upper e hi)
  unfold bothIon
  cases up
  · cases lo
    · rfl
    · exact sweepIon_other (hl rfl)
  · simp only [if_true]
    rw [sweepIon_other (hu rfl)]
    cases lo
    · rfl
    · exact sweepIon_other (hl rfl)

theorem bothIon_target (hl : ∀ e e', NT e e' → fl e = fl e') (hu : ∀ e e', NT e e' → fu e = fu e') {u : Bool} {i g inn : ι} (hm : MeshOk m)
    (h : Target m lo up u i g inn) :
    (bothIon m lo up fl fu s).2 g = push (s.2 g) ((if u then fu else fl) s.2 i (s.1.1 i) (s.1.1 inn)).2 := by
  cases h with
  | lower e hi =>
    subst e
    unfold bothIon
    simp only [if_true]
    cases up
    · exact sweepIon_guard hl hm.lower hi
    · simp only [if_true]
      rw [sweepIon_other, sweepIon_guard hl hm.lower hi]
      · rfl
      · intro hj
        exact (List.nodup_append.1 hm.nodup).2.2 _ (List.mem_map_of_mem hi) _ hj rfl
  | upper e hi =>
    subst e
    unfold bothIon
    simp only [if_true]
    rw [sweepIon_guard hu hm.upper hi]
    cases lo
    · rfl
    · simp only [if_true]
      have h1 : i ∉ m.lower.map m.ym := fun hj => (hm.sep i (List.mem_append_left _ hj)).2.1 hi
      have h2 : m.ym i ∉ m.lower.map m.ym := fun hj =>
        (hm.sep _ (List.mem_append_left _ hj)).2.2.2 (List.mem_map_of_mem hi)
      have h3 : m.yp i ∉ m.lower.map m.ym := fun hj =>
        (List.nodup_append.1 hm.nodup).2.2 _ hj _ (List.mem_map_of_mem hi) rfl
      rw [hu _ _ (sweepIon_NT m.lower s).symm, sweepIon_fst hl, sweep_other h1, sweep_other h2, sweepIon_other h3]

end

/-! ## The program -/

theorem lower_NT (m : YMesh ι) (Z M γ Me : ℝ) (e e' : ι → ECell) (h : NT e e') : insulatingIonLower m Z M γ Me e = insulatingIonLower m Z M γ Me e' := by
  funext i c d
  unfold insulatingIonLower
  simp only [(h _).1, (h _).2.1]

theorem upper_NT (m : YMesh ι) (Z M γ Me : ℝ) (e e' : ι → ECell) (h : NT e e') : insulatingIonUpper m Z M γ Me e = insulatingIonUpper m Z M γ Me e' := by
  funext i c d
  unfold insulatingIonUpper
  simp only [(h _).1, (h _).2.1]

/-- What a species publishes, given the electrons. -/
noncomputable def ionOut (o : InsulatingOpts) (m : YMesh ι) (Me : ℝ) (e : ι → ECell) (w : Var → Option (Value ι)) :
    ((ι → ICell) × Fld ι) × (ι → ECell) :=
  bothIon m o.lower_y o.upper_y (insulatingIonLower m (num w .charge 0) (num w .AA 0) (num w .adiabatic (5 / 3)) Me)
    (insulatingIonUpper m (num w .charge 0) (num w .AA 0) (num w .adiabatic (5 / 3)) Me) ((ionCells w, fld w .energy_source 0), e)

theorem ionOut_fst {o : InsulatingOpts} {m : YMesh ι} {Me : ℝ} {e : ι → ECell} {w : Var → Option (Value ι)} :
    (ionOut o m Me e w).1 = bothEnds m o.lower_y o.upper_y
      (fun i c d => (insulatingIonLower m (num w .charge 0) (num w .AA 0) (num w .adiabatic (5 / 3)) Me e i c d).1)
      (fun i c d => (insulatingIonUpper m (num w .charge 0) (num w .AA 0) (num w .adiabatic (5 / 3)) Me e i c d).1)
      (ionCells w, fld w .energy_source 0) := bothIon_fst (lower_NT m _ _ _ _) (upper_NT m _ _ _ _)

theorem ionOut_congr {o : InsulatingOpts} {m : YMesh ι} {Me : ℝ} {e e' : ι → ECell} (h : NT e e') (w : Var → Option (Value ι)) :
    (ionOut o m Me e w).1 = (ionOut o m Me e' w).1 := by
  rw [ionOut_fst, ionOut_fst, lower_NT _ _ _ _ _ _ _ h, upper_NT _ _ _ _ _ _ _ h]

open Classical in
/-- The electrons after species `n`. -/
noncomputable def electronsAfter (o : InsulatingOpts) (m : YMesh ι) (Me : ℝ) (st : Store Key (Value ι)) (e : ι → ECell) (n : String) : ι → ECell :=
  if IsIon st n then (ionOut o m Me e (species st n)).2 else e

/-- Result of the loop body for species `n`. -/
def IonResult (o : InsulatingOpts) (m : YMesh ι) (Me : ℝ) (e : ι → ECell) (n : String) (w w' : Var → Option (Value ι)) : Prop :=
  (n = "e" ∨ num w .charge 0 = 0 → w' = w) ∧ (n ≠ "e" → num w .charge 0 ≠ 0 → IonPublished w w' (ionOut o m Me e w).1)

theorem insulatingIon_ok {o : InsulatingOpts} {m : YMesh ι} {Me : ℝ} {e e' : ι → ECell} {n : String} {st st' : Store Key (Value ι)}
    (h : insulatingIon o m Me e n st = (.ok e', st')) :
    IonResult o m Me e n (species st n) (species st' n) ∧ e' = electronsAfter o m Me st e n ∧
    ∀ k, (∀ v, k ≠ .sp n v) → vals st' k = vals st k := by
  unfold insulatingIon at h
  split at h <;> rename_i hn
  · obtain ⟨rfl, rfl⟩ := pure_ok h
    refine ⟨⟨fun _ => rfl, fun hne => absurd hn hne⟩, ?_, fun _ _ => rfl⟩
    rw [electronsAfter, if_neg (fun hi => hi.1 hn)]
  obtain ⟨s1, e1, h⟩ := readReal_bind h
  split at h <;> rename_i hz
  · obtain ⟨rfl, rfl⟩ := pure_ok h
    refine ⟨⟨fun _ => ?_, fun _ hc => absurd hz hc⟩, ?_, fun k _ => by rw [e1]⟩
    · unfold species; rw [e1]
    · rw [electronsAfter, if_neg (fun hi => hi.2 hz)]
  unfold insulatingIonCharged at h
  obtain ⟨s2, e2, h⟩ := getR_bind h
  obtain ⟨s3, e3, h⟩ := readReal_bind h
  obtain ⟨s4, e4, h⟩ := getNoBndryF_bind h
  obtain ⟨s5, e5, h⟩ := getNoBndryF_bind h
  obtain ⟨s6, e6, h⟩ := readSet_bind h
  obtain ⟨s7, e7, h⟩ := readSet_bind h
  obtain ⟨s8, e8, h⟩ := readSet_bind h
  obtain ⟨s9, e9, h⟩ := readSource_bind h
  have e2 := e2.trans e1
  have e3 := e3.trans e2
  have e4 := e4.trans e3
  have e5 := e5.trans e4
  have e6 := e6.trans e5
  have e7 := e7.trans e6
  have e8 := e8.trans e7
  have e9 := e9.trans e8
  rw [vals_realOf e1, realOr_congr e2, vals_fieldOf e3, vals_fieldOf e4, fieldOr_congr e5, fieldOr_congr e6,
    fieldOr_congr e7, fieldOr_congr e8] at h
  obtain ⟨_, s10, h10, h⟩ := M_bind_ok h
  obtain ⟨rfl, rfl⟩ := pure_ok h
  obtain ⟨h1, h2, h3⟩ := publishIons_ok h10
  rw [e9] at h3
  have hs : species s9 n = species st n := by unfold species; rw [e9]
  rw [hs] at h1
  refine ⟨⟨fun hc => (hc.elim (absurd · hn) (absurd · hz)), fun _ _ => h1⟩, ?_, h3⟩
  rw [electronsAfter, if_pos ⟨hn, hz⟩]
  rfl

theorem electronsAfter_NT (o : InsulatingOpts) (m : YMesh ι) (Me : ℝ) (st : Store Key (Value ι)) (e : ι → ECell) (n : String) :
    NT e (electronsAfter o m Me st e n) := by
  unfold electronsAfter
  split
  · unfold ionOut
    exact bothIon_NT (s := ((_, _), e))
  · exact fun _ => ⟨rfl, rfl, rfl⟩

theorem electronsAfter_congr {o : InsulatingOpts} {m : YMesh ι} {Me : ℝ} {st st' : Store Key (Value ι)} {n : String}
    (h : species st n = species st' n) (e : ι → ECell) : electronsAfter o m Me st e n = electronsAfter o m Me st' e n := by
  unfold electronsAfter IsIon
  rw [h]

theorem foldl_after_congr {o : InsulatingOpts} {m : YMesh ι} {Me : ℝ} {st st' : Store Key (Value ι)} : ∀ (l : List String),
    (∀ n ∈ l, n ≠ "e" → species st n = species st' n) → ∀ e, l.foldl (electronsAfter o m Me st) e = l.foldl (electronsAfter o m Me st') e
  | [], _, _ => rfl
  | b :: l, hb, e => by
    have h1 : electronsAfter o m Me st e b = electronsAfter o m Me st' e b := by
      by_cases hbe : b = "e"
      · rw [electronsAfter, electronsAfter, if_neg (fun h => h.1 hbe), if_neg (fun h => h.1 hbe)]
      · exact electronsAfter_congr (hb b List.mem_cons_self hbe) e
    rw [List.foldl_cons, List.foldl_cons, h1]
    exact foldl_after_congr l (fun n hn => hb n (List.mem_cons_of_mem _ hn)) _

/-- The loop over all species. -/
theorem ions_ok {ι : Type} [DecidableEq ι] {o : InsulatingOpts} {m : YMesh ι} {Me : ℝ} {e0 : ι → ECell} : ∀ {names : List String} {e e' : ι → ECell}
    {st st' : Store Key (Value ι)}, names.Nodup → NT e0 e → names.foldlM (insulatingIon o m Me) e st = (.ok e', st') →
    (∀ n ∈ names, IonResult o m Me e0 n (species st n) (species st' n)) ∧ e' = names.foldl (electronsAfter o m Me st) e ∧
    ∀ k, (∀ n ∈ names, n ≠ "e" → ∀ v, k ≠ .sp n v) → vals st' k = vals st k
  | [], e, e', st, st', _, _, h => by
    obtain ⟨rfl, rfl⟩ := pure_ok h
    exact ⟨by simp, rfl, fun _ _ => rfl⟩
  | a :: l, e, e', st, st', hn, hnt, h => by
    have h : (insulatingIon o m Me e a >>= fun e1 => l.foldlM (insulatingIon o m Me) e1) st = (.ok e', st') := by
      rw [List.foldlM_cons] at h; exact h
    obtain ⟨e1, s1, h1, h2⟩ := M_bind_ok h
    obtain ⟨r1, he1, k1⟩ := insulatingIon_ok h1
    have hnt1 : NT e0 e1 := by rw [he1]; exact hnt.trans (electronsAfter_NT _ _ _ _ _ _)
    have hna := (List.nodup_cons.1 hn).1
    obtain ⟨r2, he2, k2⟩ := ions_ok (List.nodup_cons.1 hn).2 hnt1 h2
    have hsp : ∀ n ∈ l, species s1 n = species st n := by
      intro n hmem
      funext v
      apply k1
      intro v' e
      exact hna ((Key.sp.inj e).1 ▸ hmem)
    have hr1 : IonResult o m Me e0 a (species st a) (species s1 a) := by
      refine ⟨r1.1, fun h1 h2 => ?_⟩
      rw [ionOut_congr hnt]
      exact r1.2 h1 h2
    refine ⟨fun n hmem => ?_, ?_, fun k hk => ?_⟩
    · rcases List.mem_cons.1 hmem with rfl | hmem'
      · have : species st' n = species s1 n := by
          funext v
          apply k2
          intro n' hn' _ v' e
          exact hna ((Key.sp.inj e).1 ▸ hn')
        rw [this]; exact hr1
      · rw [← hsp n hmem']; exact r2 n hmem'
    · rw [he2, List.foldl_cons, ← he1]
      exact foldl_after_congr l (fun n hn _ => hsp n hn) e1
    · rw [k2 k (fun n hn' => hk n (List.mem_cons_of_mem _ hn'))]
      by_cases hae : a = "e"
      · by_cases hka : ∃ v, k = .sp a v
        · obtain ⟨v, rfl⟩ := hka
          have := r1.1 (Or.inl hae)
          exact congrFun this v
        · exact k1 k fun v e => hka ⟨v, e⟩
      · exact k1 k (hk a List.mem_cons_self hae)

/-- Electrons with boundary values before the ions are treated. -/
noncomputable def electronsFirst (o : InsulatingOpts) (m : YMesh ι) (st : Store Key (Value ι)) : ι → ECell :=
  (bothEnds m o.lower_y o.upper_y insulatingElectron insulatingElectron (electronCells (species st "e") 0, fun _ => 0)).1

/-- Electron mass that is used. -/
def electronMass (o : InsulatingOpts) (st : Store Key (Value ι)) : ℝ := num (species st "e") .AA o.electronMass

/-- Electrons at the end. -/
noncomputable def electronsLast (o : InsulatingOpts) (m : YMesh ι) (names : List String) (st : Store Key (Value ι)) : ι → ECell :=
  names.foldl (electronsAfter o m (electronMass o st) st) (electronsFirst o m st)

theorem foldl_after_NT {o : InsulatingOpts} {m : YMesh ι} {Me : ℝ} {st : Store Key (Value ι)} : ∀ (l : List String) (e : ι → ECell),
    NT e (l.foldl (electronsAfter o m Me st) e)
  | [], _ => fun _ => ⟨rfl, rfl, rfl⟩
  | b :: l, e => (electronsAfter_NT o m Me st e b).trans (foldl_after_NT l _)

theorem insulatingSetPhi_ok {o : InsulatingOpts} {m : YMesh ι} {st st' : Store Key (Value ι)} {u : Unit}
    (h : insulatingSetPhi o m st = (.ok u, st')) :
    vals st' = Function.update (vals st) (.top "fields:phi") (ifSet (vals st (.top "fields:phi")) (insulatingPhi o m (fieldOr st (.top "fields:phi") 0))) := by
  unfold insulatingSetPhi at h
  obtain ⟨s1, e1, h⟩ := isSetFinalNB_bind h
  rw [← update_ifSet]
  split at h <;> rename_i hs
  · rw [if_pos hs]
    obtain ⟨phi, s2, r2, e2, h⟩ := (den_getNoBoundary asField _).bind_ok h
    rw [e1] at r2
    rw [← fieldOr_read r2]
    rw [setBoundary_ok h, e2.trans e1]
  · obtain ⟨_, rfl⟩ := pure_ok h
    rw [if_neg hs, e1]

/-- What `SheathBoundaryInsulating::transform` publishes. -/
theorem insulating_ok {o : InsulatingOpts} {m : YMesh ι} {names : List String} (hn : names.Nodup) {st st' : Store Key (Value ι)}
    (h : sheathBoundaryInsulating o m names st = (.ok (), st')) :
    ElectronPublished st st' (electronsLast o m names st, insulatingPower o m (electronMass o st) (num (species st "e") .adiabatic (5 / 3))
      (electronsLast o m names st) (fld (species st "e") .energy_source 0)) ∧
    vals st' (.top "fields:phi") = ifSet (vals st (.top "fields:phi")) (insulatingPhi o m (fieldOr st (.top "fields:phi") 0)) ∧
    ∀ n ∈ names, n ≠ "e" → IonResult o m (electronMass o st) (electronsFirst o m st) n (species st n) (species st' n) := by
  unfold sheathBoundaryInsulating at h
  obtain ⟨s1, e1, h⟩ := getNoBndryF_bind h
  obtain ⟨s2, e2, h⟩ := getNoBndryF_bind h
  obtain ⟨s3, e3, h⟩ := readNB_bind h
  obtain ⟨s4, e4, h⟩ := readReal_bind h
  obtain ⟨s5, e5, h⟩ := readReal_bind h
  obtain ⟨s6, e6, h⟩ := readNB_bind h
  obtain ⟨s7, e7, h⟩ := readNB_bind h
  have e2 := e2.trans e1
  have e3 := e3.trans e2
  have e4 := e4.trans e3
  have e5 := e5.trans e4
  have e6 := e6.trans e5
  have e7 := e7.trans e6
  rw [vals_fieldOf e1, fieldOr_congr e2, realOr_congr e3, realOr_congr e4, fieldOr_congr e5, fieldOr_congr e6] at h
  obtain ⟨_, s8, h8, h⟩ := M_bind_ok h
  have e8 := insulatingSetPhi_ok h8
  obtain ⟨s9, e9, h⟩ := setBoundary_bind_ok h
  obtain ⟨s10, e10, h⟩ := setBoundary_bind_ok h
  obtain ⟨s11, e11, h⟩ := setBoundary_bind_ok h
  obtain ⟨e', s12, h12, h⟩ := M_bind_ok h
  obtain ⟨s13, e13, h⟩ := readSource_bind h
  obtain ⟨s14, e14, h⟩ := set_bind_ok h
  obtain ⟨_, s15, h15, h⟩ := M_bind_ok h
  have e15 := setBoundaryIfSetNB_ok h15
  have e16 := setBoundaryIfSetNB_ok h
  have h12 : names.foldlM (insulatingIon o m (electronMass o st)) (electronsFirst o m st) s11 = (.ok e', s12) := h12
  obtain ⟨hr, he, hk⟩ := ions_ok (e0 := electronsFirst o m st) hn (fun _ => ⟨rfl, rfl, rfl⟩) h12
  have hs11 : ∀ k, k ∉ [Key.top "fields:phi", .sp "e" .density, .sp "e" .temperature, .sp "e" .pressure] → vals s11 k = vals st k := by
    intro k hk'
    simp only [List.mem_cons, List.not_mem_nil, or_false, not_or] at hk'
    rw [e11, Function.update_of_ne hk'.2.2.2, e10, Function.update_of_ne hk'.2.2.1, e9, Function.update_of_ne hk'.2.1, e8,
      Function.update_of_ne hk'.1, e7]
  have hsp : ∀ n, n ≠ "e" → species s11 n = species st n := by
    intro n hne
    funext v
    exact hs11 _ (by simp [hne])
  have he : e' = electronsLast o m names st := by
    rw [he]
    exact foldl_after_congr names (fun n _ hne => hsp n hne) _
  have hel : ∀ v, vals s12 (.sp "e" v) = vals s11 (.sp "e" v) := by
    intro v
    apply hk
    intro n _ hne v' e
    exact hne (Key.sp.inj e).1.symm
  have hst' : ∀ k, k ∉ [Key.sp "e" .velocity, .sp "e" .momentum, .sp "e" .energy_source] → vals st' k = vals s12 k := by
    intro k hk'
    simp only [List.mem_cons, List.not_mem_nil, or_false, not_or] at hk'
    rw [e16, Function.update_of_ne hk'.2.1, e15, Function.update_of_ne hk'.1, e14, Function.update_of_ne hk'.2.2, e13]
  subst he
  have hfin : ∀ n, n ≠ "e" → species st' n = species s12 n := by
    intro n hne
    funext v
    exact hst' _ (by simp [hne])
  refine ⟨⟨?_, ?_, ?_, ?_, ?_, ?_⟩, ?_, ?_⟩
  · rw [hst' _ (by simp), hel, e11, Function.update_of_ne (by simp), e10, Function.update_of_ne (by simp), e9, Function.update_self]
    exact congrArg (fun f => some (Value.field f)) (funext fun j => (foldl_after_NT names (electronsFirst o m st) j).1)
  · rw [hst' _ (by simp), hel, e11, Function.update_of_ne (by simp), e10, Function.update_self]
    exact congrArg (fun f => some (Value.field f)) (funext fun j => (foldl_after_NT names (electronsFirst o m st) j).2.1)
  · rw [hst' _ (by simp), hel, e11, Function.update_self]
    exact congrArg (fun f => some (Value.field f)) (funext fun j => (foldl_after_NT names (electronsFirst o m st) j).2.2)
  · rw [e16, Function.update_of_ne (by simp), e15, Function.update_self, e14, Function.update_of_ne (by simp), e13, hel, hs11 _ (by simp)]
  · rw [e16, Function.update_self, e15, Function.update_of_ne (by simp), e14, Function.update_of_ne (by simp), e13, hel, hs11 _ (by simp)]
  · rw [e16, Function.update_of_ne (by simp), e15, Function.update_of_ne (by simp), e14, Function.update_self]
    have : fieldOr s12 (.sp "e" .energy_source) 0 = fld (species st "e") .energy_source 0 := by
      unfold fieldOr fld species
      rw [hel, hs11 _ (by simp)]
    rw [this]
    rfl
  · rw [hst' _ (by simp), hk _ (by intro n _ _ v; exact Key.noConfusion), e11, Function.update_of_ne (by simp), e10,
      Function.update_of_ne (by simp), e9, Function.update_of_ne (by simp), e8, Function.update_self, e7, fieldOr_congr e7]
  · intro n hmem hne
    rw [hfin n hne, ← hsp n hne]
    exact hr n hmem

/-! ## Specification -/

/-- Share of an ion species in the electron density at a target.  At the lower end it is kept between 0 and 1; at the upper end it is zero if
there are no electrons. -/
noncomputable def share (atUpper : Bool) (ni ne : ℝ) : ℝ :=
  if atUpper then (if 1e-5 < ne then ni / ne else 0) else min 1 (max 0 (ni / max ne 1e-10))

/-- Bohm speed squared, as for `bohmSq`, with given share. -/
noncomputable def bohmSq (Z M γ s te ti dne dni : ℝ) : ℝ :=
  (γ * max ti 1e-5 + Z * s * max te 1e-5 * (if |dni| < 1e-3 then 1 else dne / dni)) / M

/-- The speed with which ion species `n` enters the wall, from the published values. -/
noncomputable def speedAt (st st' : Store Key (Value ι)) (n : String) (u : Bool) (i g : ι) : ℝ :=
  Real.sqrt (min 100 (max 0 (bohmSq (charge st n) (mass st n) (adiabatic st n)
    (share u (face (fieldOf st' n .density) i g) (face (fieldOf st' "e" .density) i g))
    (face (fieldOf st' "e" .temperature) i g) (face (fieldOf st' n .temperature) i g)
    (fieldOf st' "e" .density i - face (fieldOf st' "e" .density) i g)
    (fieldOf st' n .density i - face (fieldOf st' n .density) i g))))

/-- With some electrons, and not more ions than electrons, this is the Bohm speed of the other sheath. -/
theorem speedAt_eq {st st' : Store Key (Value ι)} {n : String} {u : Bool} {i g : ι}
    (h1 : 1e-5 < face (fieldOf st' "e" .density) i g) (h2 : 0 ≤ face (fieldOf st' n .density) i g)
    (h3 : face (fieldOf st' n .density) i g ≤ face (fieldOf st' "e" .density) i g) :
    speedAt st st' n u i g = Real.sqrt (min 100 (max 0 (bohmSqAt st st' n i g))) := by
  have hs : share u (face (fieldOf st' n .density) i g) (face (fieldOf st' "e" .density) i g) =
      min 1 (max 0 (face (fieldOf st' n .density) i g / max (face (fieldOf st' "e" .density) i g) 1e-10)) := by
    cases u
    · rfl
    · have hp : (0 : ℝ) < face (fieldOf st' "e" .density) i g := lt_trans (by norm_num) h1
      rw [share, if_pos rfl, if_pos h1, max_eq_left (le_trans (by norm_num) h1.le),
        max_eq_right (div_nonneg h2 hp.le), min_eq_right ((div_le_one hp).2 h3)]
  unfold speedAt bohmSqAt bohmSq Sheath.bohmSq
  rw [hs]

/-! ## Loop bodies -/

theorem ionBody_eq (m : YMesh ι) (Z M γ Me : ℝ) (e : ι → ECell) (u : Bool) (i g : ι) (c inn : ICell)
    (hg : g = if u then m.yp i else m.ym i) :
    let N : ℝ := (c.n + limitFree inn.n c.n) / 2
    let T : ℝ := (c.t + limitFree inn.t c.t) / 2
    let ne : ℝ := ((e i).n + (e g).n) / 2
    let te : ℝ := ((e i).t + (e g).t) / 2
    let C2 : ℝ := min 100 (max 0 (bohmSq Z M γ (share u N ne) te T ((e i).n - ne) (c.n - N)))
    let q : ℝ := (((2.5 + 0.5 * M * C2 / max T 1e-5) - 1 - 1 / (γ - 1)) * max T 1e-5 - 0.5 * M * C2) * N * Real.sqrt C2
    (if u then insulatingIonUpper m Z M γ Me else insulatingIonLower m Z M γ Me) e i c inn =
      ((⟨limitFree inn.n c.n, limitFree inn.t c.t, limitFree inn.p c.p, 2 * (out u * Real.sqrt C2) - c.v,
        2 * M * N * (out u * Real.sqrt C2) - c.nv⟩, -(max 0 q * areaPerVolume m i g)),
        (2 * (out u * (Z * Real.sqrt C2)), 2 * (out u * (Me * (N * Real.sqrt C2))))) := by
  intro N T ne te C2 q
  have hN : 0.5 * (limitFree inn.n c.n + c.n) = N := by simp only [N]; ring
  have hT : 0.5 * (limitFree inn.t c.t + c.t) = T := by simp only [T]; ring
  have hne : 0.5 * ((e g).n + (e i).n) = ne := by simp only [ne]; ring
  have hte : 0.5 * ((e g).t + (e i).t) = te := by simp only [te]; ring
  have hC : clipTo ((γ * max T 1e-5 + Z * share u N ne * floorTo te 1e-5 *
      (if |c.n - N| < 1e-3 then ((1e-3, 1e-3) : ℝ × ℝ) else ((e i).n - ne, c.n - N)).1 /
      (if |c.n - N| < 1e-3 then ((1e-3, 1e-3) : ℝ × ℝ) else ((e i).n - ne, c.n - N)).2) / M) 0 100 = C2 := by
    rw [clipTo_eq _ (by norm_num : (0:ℝ) ≤ 100), floorTo_eq_max]
    simp only [C2, bohmSq]
    congr 3
    split
    · norm_num
    · rw [mul_div_assoc]
  have hS : ∀ q' : ℝ, sheathPower m i g q' = q' * areaPerVolume m i g := by
    intro q'; unfold sheathPower areaPerVolume; ring
  cases u
  · have hsh : clipTo (N / floorTo ne 1e-10) 0 1 = share false N ne := by
      rw [clipTo_eq _ (by norm_num : (0:ℝ) ≤ 1), floorTo_eq_max]; rfl
    simp only [Bool.false_eq_true, if_false] at hg ⊢
    unfold insulatingIonLower
    subst hg
    simp only [hN, hT, hne, hte, hsh, floorTo_eq_max T, hC, hS, out, Bool.false_eq_true, if_false]
    refine Prod.ext (Prod.ext ?_ ?_) (Prod.ext ?_ ?_)
    · dsimp only
      congr 1 <;> ring
    · dsimp only
      have hq : ((2.5 + 0.5 * M * C2 / max T 1e-5 - 1 - 1 / (γ - 1)) * max T 1e-5 - 0.5 * M * C2) * N * -Real.sqrt C2 = -q := by
        simp only [q]; ring
      rw [hq]
      by_cases h0 : -q > 0
      · rw [if_pos h0, max_eq_left (by linarith)]; ring
      · rw [if_neg h0, max_eq_right (by linarith)]; ring
    · dsimp only; ring
    · dsimp only; ring
  · have hsh : (if ne > 1e-5 then N / ne else 0) = share true N ne := rfl
    simp only [if_true] at hg ⊢
    unfold insulatingIonUpper
    subst hg
    simp only [hN, hT, hne, hte, hsh, floorTo_eq_max T, hC, hS, out, if_true]
    refine Prod.ext (Prod.ext ?_ ?_) (Prod.ext ?_ ?_)
    · dsimp only
      congr 1 <;> ring
    · dsimp only
      have hq : ((2.5 + 0.5 * M * C2 / max T 1e-5 - 1 - 1 / (γ - 1)) * max T 1e-5 - 0.5 * C2 * M) * N * Real.sqrt C2 = q := by
        simp only [q]; ring
      rw [hq]
      by_cases h0 : q < 0
      · rw [if_pos h0, max_eq_left (by linarith)]
      · rw [if_neg h0, max_eq_right (by linarith)]
    · dsimp only; ring
    · dsimp only; ring

section
variable {o : InsulatingOpts} {m : YMesh ι} {names : List String} {st st' : Store Key (Value ι)}

theorem first_target (hm : MeshOk m) {u : Bool} {i g inn : ι} (ht : Target m o.lower_y o.upper_y u i g inn) :
    electronsFirst o m st g = (insulatingElectron i (electronCells (species st "e") 0 i) (electronCells (species st "e") 0 inn)).1 := by
  have := (bothEnds_target (s := (electronCells (species st "e") 0, fun _ => 0)) (fl := insulatingElectron) (fu := insulatingElectron) hm ht).1
  rw [ite_self] at this
  exact this

theorem first_other {j : ι} (hj : ∀ u i inn, ¬ Target m o.lower_y o.upper_y u i j inn) :
    electronsFirst o m st j = electronCells (species st "e") 0 j := bothEnds_other hj

theorem last_NT : NT (electronsFirst o m st) (electronsLast o m names st) := foldl_after_NT names _

theorem last_other {j : ι} (hj : ∀ u i inn, ¬ Target m o.lower_y o.upper_y u i j inn) :
    electronsLast o m names st j = electronCells (species st "e") 0 j := by
  rw [← first_other (st := st) hj]
  unfold electronsLast
  generalize electronsFirst o m st = e
  induction names generalizing e with
  | nil => rfl
  | cons a l ih =>
    rw [List.foldl_cons, ih]
    unfold electronsAfter
    split
    · exact bothIon_other (s := ((_, _), e)) hj
    · rfl

/-- Ion species `n` in terms of the loops. -/
theorem ion_published (hn : names.Nodup) (h : sheathBoundaryInsulating o m names st = (.ok (), st')) {n : String} (hmem : n ∈ names)
    (hi : IsIon st n) : IonPublished (species st n) (species st' n) (ionOut o m (electronMass o st) (electronsFirst o m st) (species st n)).1 := by
  obtain ⟨_, _, hr⟩ := insulating_ok hn h
  exact (hr n hmem hi.1).2 hi.1 hi.2

/-- The same, cell by cell at a target. -/
theorem ion_cells (hm : MeshOk m) (e : ι → ECell) (Me : ℝ) (w : Var → Option (Value ι)) {u : Bool} {i g inn : ι}
    (ht : Target m o.lower_y o.upper_y u i g inn) :
    let b := (if u then insulatingIonUpper m (num w .charge 0) (num w .AA 0) (num w .adiabatic (5 / 3)) Me
      else insulatingIonLower m (num w .charge 0) (num w .AA 0) (num w .adiabatic (5 / 3)) Me) e i (ionCells w i) (ionCells w inn)
    (ionOut o m Me e w).1.1 g = b.1.1 ∧ (ionOut o m Me e w).1.1 i = ionCells w i ∧ (ionOut o m Me e w).1.1 inn = ionCells w inn ∧
    (ionOut o m Me e w).1.2 i = fld w .energy_source 0 i + b.1.2 ∧ (ionOut o m Me e w).2 g = push (e g) b.2 := by
  intro b
  obtain ⟨h1, h2⟩ := bothEnds_target (s := (ionCells w, fld w .energy_source 0))
    (fl := fun i c d => (insulatingIonLower m (num w .charge 0) (num w .AA 0) (num w .adiabatic (5 / 3)) Me e i c d).1)
    (fu := fun i c d => (insulatingIonUpper m (num w .charge 0) (num w .AA 0) (num w .adiabatic (5 / 3)) Me e i c d).1) hm ht
  refine ⟨?_, ?_, ?_, ?_, ?_⟩
  · rw [ionOut_fst, h1]; cases u <;> rfl
  · rw [ionOut_fst]; exact bothEnds_last hm ht
  · rw [ionOut_fst]; exact bothEnds_other fun _ _ _ h' => (h'.ne hm ht).2 rfl
  · rw [ionOut_fst, h2]; cases u <;> rfl
  · unfold ionOut
    rw [bothIon_target (s := ((_, _), e)) (lower_NT m _ _ _ _) (upper_NT m _ _ _ _) hm ht]

/-! ## C35: guard cells -/

/-- Density, temperature and pressure in the guard cell come from `limitFree`. -/
theorem insulating_limitFree (hm : MeshOk m) (hn : names.Nodup) (h : sheathBoundaryInsulating o m names st = (.ok (), st'))
    {s : String} (hs : HasSheath st names s) {v : Var} (hv : v ∈ [Var.density, .temperature, .pressure])
    {u : Bool} {i g inn : ι} (ht : Target m o.lower_y o.upper_y u i g inn) :
    fieldOf st' s v g = limitFree (fieldOf st' s v inn) (fieldOf st' s v i) := by
  simp only [List.mem_cons, List.not_mem_nil, or_false] at hv
  rcases hs with rfl | ⟨hmem, hi⟩
  · obtain ⟨hp, _⟩ := insulating_ok hn h
    have hg := first_target (st := st) hm ht
    have hl : electronsLast o m names st i = electronCells (species st "e") 0 i := last_other fun _ _ _ h' => (h'.ne hm ht).1 rfl
    have hinn : electronsLast o m names st inn = electronCells (species st "e") 0 inn := last_other fun _ _ _ h' => (h'.ne hm ht).2 rfl
    have hnt := last_NT (o := o) (m := m) (names := names) (st := st) g
    rcases hv with rfl | rfl | rfl
    · rw [fieldOf_some hp.n]; dsimp only; rw [← hnt.1, hg, hl, hinn]; rfl
    · rw [fieldOf_some hp.t]; dsimp only; rw [← hnt.2.1, hg, hl, hinn]; rfl
    · rw [fieldOf_some hp.p]; dsimp only; rw [← hnt.2.2, hg, hl, hinn]; rfl
  · have hp := ion_published hn h hmem hi
    obtain ⟨hg, hl, hinn, -, -⟩ := ion_cells hm (electronsFirst o m st) (electronMass o st) (species st s) ht
    rcases hv with rfl | rfl | rfl
    · rw [fieldOf_some hp.n]; dsimp only; rw [hg, hl, hinn]; cases u <;> rfl
    · rw [fieldOf_some hp.t]; dsimp only; rw [hg, hl, hinn]; cases u <;> rfl
    · rw [fieldOf_some hp.p]; dsimp only; rw [hg, hl, hinn]; cases u <;> rfl

/-- **C35.**  Guard values of density, temperature and pressure. -/
theorem insulating_guard_values (hm : MeshOk m) (hn : names.Nodup) (h : sheathBoundaryInsulating o m names st = (.ok (), st'))
    {s : String} (hs : HasSheath st names s) {v : Var} (hv : v ∈ [Var.density, .temperature, .pressure])
    {u : Bool} {i g inn : ι} (ht : Target m o.lower_y o.upper_y u i g inn) (h0 : 0 ≤ fieldOf st' s v i) :
    0 ≤ fieldOf st' s v g ∧ fieldOf st' s v g ≤ fieldOf st' s v i ∧ (0 < fieldOf st' s v i → 0 < fieldOf st' s v g) ∧
    (fieldOf st' s v i ≤ fieldOf st' s v inn → 1e-10 ≤ fieldOf st' s v inn →
      fieldOf st' s v g * fieldOf st' s v inn = fieldOf st' s v i ^ 2) ∧
    (fieldOf st' s v inn < fieldOf st' s v i → fieldOf st' s v g = fieldOf st' s v i) := by
  have e := insulating_limitFree hm hn h hs hv ht
  refine ⟨?_, ?_, fun hp => ?_, fun h1 h2 => ?_, fun h1 => ?_⟩
  · rw [e]; exact limitFree_nonneg h0
  · rw [e]; exact limitFree_le h0
  · rw [e]; exact limitFree_pos hp
  · rw [e]; exact limitFree_ratio h1 h2
  · rw [e]; exact limitFree_neumann (Or.inl h1)

/-- Extrapolation along one end, as in the loops of the other sheaths. -/
theorem sweep_phi (guard inner : ι → ι) : ∀ (pts : List ι) (φ q : Fld ι),
    (sweep guard inner (fun _ c n => (2 * c - n, 0)) pts (φ, q)).1 =
      pts.foldl (fun φ i => Function.update φ (guard i) (2 * φ i - φ (inner i))) φ
  | [], _, _ => rfl
  | a :: pts, φ, q => by
    rw [sweep_cons, List.foldl_cons]
    exact sweep_phi guard inner pts _ _

theorem insulatingPhi_eq (φ : Fld ι) : insulatingPhi o m φ =
    (bothEnds m o.lower_y o.upper_y (fun _ c n => (2 * c - n, 0)) (fun _ c n => (2 * c - n, 0)) (φ, 0)).1 := by
  unfold insulatingPhi bothEnds
  cases o.lower_y <;> cases o.upper_y <;> simp only [if_true, Bool.false_eq_true, if_false]
  · exact (sweep_phi _ _ _ _ _).symm
  · exact (sweep_phi _ _ _ _ _).symm
  · have e := sweep_phi m.ym m.yp m.lower φ 0
    rw [← e]
    exact (sweep_phi _ _ _ _ _).symm

/-- The potential is extrapolated linearly into the guard cells of both ends, and not changed elsewhere. -/
theorem insulating_potential (hm : MeshOk m) (hn : names.Nodup) (h : sheathBoundaryInsulating o m names st = (.ok (), st'))
    {φ : Fld ι} (hφ : vals st (.top "fields:phi") = some (.field φ)) :
    (∀ {u : Bool} {i g inn : ι}, Target m o.lower_y o.upper_y u i g inn → topField st' "fields:phi" g = 2 * φ i - φ inn) ∧
    ∀ {j : ι}, (∀ u i inn, ¬ Target m o.lower_y o.upper_y u i j inn) → topField st' "fields:phi" j = φ j := by
  obtain ⟨_, h2, _⟩ := insulating_ok hn h
  have hf : fieldOr st (.top "fields:phi") 0 = φ := by unfold fieldOr; rw [hφ]; rfl
  rw [hφ, hf, insulatingPhi_eq] at h2
  have ht : topField st' "fields:phi" = (bothEnds m o.lower_y o.upper_y (fun _ c n => (2 * c - n, 0)) (fun _ c n => (2 * c - n, 0)) (φ, 0)).1 := by
    unfold topField
    rw [h2]
    rfl
  rw [ht]
  refine ⟨fun hT => ?_, fun hj => ?_⟩
  · rw [(bothEnds_target hm hT).1]
    split <;> rfl
  · rw [bothEnds_other hj]

/-- Away from the guard cells density is limited to non-negative values and the rest is unchanged. -/
theorem insulating_interior (hm : MeshOk m) (hn : names.Nodup) (h : sheathBoundaryInsulating o m names st = (.ok (), st'))
    {s : String} (hs : HasSheath st names s) {j : ι} (hj : ∀ u i inn, ¬ Target m o.lower_y o.upper_y u i j inn) :
    fieldOf st' s .density j = max (fieldOf st s .density j) 0 ∧
    fieldOf st' s .temperature j = fieldOf st s .temperature j ∧
    ((vals st (.sp s .velocity)).isSome → fieldOf st' s .velocity j = fieldOf st s .velocity j) := by
  rcases hs with rfl | ⟨hmem, hi⟩
  · obtain ⟨hp, _⟩ := insulating_ok hn h
    have hc : electronsLast o m names st j = electronCells (species st "e") 0 j := last_other hj
    refine ⟨?_, ?_, fun hset => ?_⟩
    · rw [fieldOf_some hp.n]; dsimp only; rw [hc, ← floorTo_eq_max]; rfl
    · rw [fieldOf_some hp.t]; dsimp only; rw [hc]; rfl
    · rw [fieldOf_ifSet hp.v hset]; dsimp only; rw [hc]; rfl
  · have hp := ion_published hn h hmem hi
    have hc : (ionOut o m (electronMass o st) (electronsFirst o m st) (species st s)).1.1 j = ionCells (species st s) j := by
      rw [ionOut_fst]; exact bothEnds_other hj
    refine ⟨?_, ?_, fun hset => ?_⟩
    · rw [fieldOf_some hp.n]; dsimp only; rw [hc, ← floorTo_eq_max]; rfl
    · rw [fieldOf_some hp.t]; dsimp only; rw [hc]; rfl
    · rw [fieldOf_ifSet hp.v hset]; dsimp only; rw [hc]; rfl

/-! ## C36, C37: ions -/

/-- The loop body for ion species `n`, in terms of the published fields. -/
theorem ion_body (hm : MeshOk m) (hn : names.Nodup) (h : sheathBoundaryInsulating o m names st = (.ok (), st'))
    {n : String} (hmem : n ∈ names) (hi : IsIon st n) {u : Bool} {i g inn : ι} (ht : Target m o.lower_y o.upper_y u i g inn)
    {e : ι → ECell} (he : NT (electronsFirst o m st) e) :
    let speed := speedAt st st' n u i g
    let N := face (fieldOf st' n .density) i g
    let T := max (face (fieldOf st' n .temperature) i g) 1e-5
    let w := species st n
    let c := ionCells w i
    let inn' := ionCells w inn
    (if u then insulatingIonUpper m (num w .charge 0) (num w .AA 0) (num w .adiabatic (5 / 3)) (electronMass o st)
      else insulatingIonLower m (num w .charge 0) (num w .AA 0) (num w .adiabatic (5 / 3)) (electronMass o st)) e i c inn' =
      ((⟨limitFree inn'.n c.n, limitFree inn'.t c.t, limitFree inn'.p c.p, 2 * (out u * speed) - c.v,
        2 * mass st n * N * (out u * speed) - c.nv⟩,
        -(max 0 ((((2.5 + 0.5 * mass st n * speed ^ 2 / T) - 1 - 1 / (adiabatic st n - 1)) * T - 0.5 * mass st n * speed ^ 2) * N * speed)
          * areaPerVolume m i g)),
        (2 * (out u * (charge st n * speed)), 2 * (out u * (electronMass o st * (N * speed))))) := by
  intro speed N T w c inn'
  have hp := ion_published hn h hmem hi
  obtain ⟨hpe, _⟩ := insulating_ok hn h
  obtain ⟨hg, hl, -, -, -⟩ := ion_cells hm (electronsFirst o m st) (electronMass o st) (species st n) ht
  have hnt : NT e (electronsLast o m names st) := he.symm.trans last_NT
  have hb := ionBody_eq m (num w .charge 0) (num w .AA 0) (num w .adiabatic (5 / 3)) (electronMass o st) e
    u i g c inn' ht.guard_eq
  dsimp only at hb
  have fN : (c.n + limitFree inn'.n c.n) / 2 = N := by
    simp only [N, face]; rw [fieldOf_some hp.n]; dsimp only; rw [hg, hl]; cases u <;> rfl
  have fT : (c.t + limitFree inn'.t c.t) / 2 = face (fieldOf st' n .temperature) i g := by
    simp only [face]; rw [fieldOf_some hp.t]; dsimp only; rw [hg, hl]; cases u <;> rfl
  have fne : ((e i).n + (e g).n) / 2 = face (fieldOf st' "e" .density) i g := by
    simp only [face]; rw [fieldOf_some hpe.n]; dsimp only; rw [(hnt i).1, (hnt g).1]
  have fte : ((e i).t + (e g).t) / 2 = face (fieldOf st' "e" .temperature) i g := by
    simp only [face]; rw [fieldOf_some hpe.t]; dsimp only; rw [(hnt i).2.1, (hnt g).2.1]
  have fni : c.n = fieldOf st' n .density i := by rw [fieldOf_some hp.n]; dsimp only; rw [hl]
  have fnei : (e i).n = fieldOf st' "e" .density i := by rw [fieldOf_some hpe.n]; exact (hnt i).1
  rw [fN, fT, fne, fte, fnei] at hb
  have hsq : min 100 (max 0 (bohmSq (num w .charge 0) (num w .AA 0) (num w .adiabatic (5 / 3))
      (share u N (face (fieldOf st' "e" .density) i g)) (face (fieldOf st' "e" .temperature) i g)
      (face (fieldOf st' n .temperature) i g) (fieldOf st' "e" .density i - face (fieldOf st' "e" .density) i g) (c.n - N))) = speed ^ 2 := by
    rw [fni]
    exact (Real.sq_sqrt (le_min (by norm_num) (le_max_left _ _))).symm
  have hsp : Real.sqrt (speed ^ 2) = speed := Real.sqrt_sq (Real.sqrt_nonneg _)
  rw [hsq, hsp] at hb
  exact hb

/-- **C36 (ions), C37 (ions).**  The ions of every charged species enter the wall with the Bohm speed, limited to at most 10; the momentum on
the face is mass times density times velocity; the energy removed from the last cell is the positive part of the sheath heat flux. -/
theorem insulating_ions (hm : MeshOk m) (hn : names.Nodup) (h : sheathBoundaryInsulating o m names st = (.ok (), st'))
    {n : String} (hmem : n ∈ names) (hi : IsIon st n) {u : Bool} {i g inn : ι} (ht : Target m o.lower_y o.upper_y u i g inn) :
    let speed := speedAt st st' n u i g
    let N := face (fieldOf st' n .density) i g
    let T := max (face (fieldOf st' n .temperature) i g) 1e-5
    let gamma := 2.5 + 0.5 * mass st n * speed ^ 2 / T
    ((vals st (.sp n .velocity)).isSome → out u * face (fieldOf st' n .velocity) i g = speed) ∧
    ((vals st (.sp n .momentum)).isSome → out u * face (fieldOf st' n .momentum) i g = mass st n * N * speed) ∧
    fieldOf st' n .energy_source i = fieldOf st n .energy_source i -
      max 0 (((gamma - 1 - 1 / (adiabatic st n - 1)) * T - 0.5 * mass st n * speed ^ 2) * N * speed) * areaPerVolume m i g := by
  intro speed N T gamma
  have hp := ion_published hn h hmem hi
  obtain ⟨hg, hl, -, hsrc, -⟩ := ion_cells hm (electronsFirst o m st) (electronMass o st) (species st n) ht
  have hb := ion_body hm hn h hmem hi ht (e := electronsFirst o m st) (fun _ => ⟨rfl, rfl, rfl⟩)
  dsimp only at hb
  rw [hb] at hg hsrc
  have ho : out u * out u = 1 := by cases u <;> simp [out]
  refine ⟨fun hv => ?_, fun hv => ?_, ?_⟩
  · rw [fieldOf_ifSet hp.v hv]
    simp only [face]
    rw [hg, hl]
    show out u * (((ionCells (species st n) i).v + (2 * (out u * speed) - (ionCells (species st n) i).v)) / 2) = _
    linear_combination speed * ho
  · rw [fieldOf_ifSet hp.nv hv]
    simp only [face]
    rw [hg, hl]
    show out u * (((ionCells (species st n) i).nv + (2 * mass st n * N * (out u * speed) - (ionCells (species st n) i).nv)) / 2) = _
    linear_combination mass st n * N * speed * ho
  · rw [fieldOf_some hp.src, hsrc]
    show fieldOf st n .energy_source i + _ = _
    rw [← sub_eq_add_neg]

/-- **C37 (ions).**  The ions are never heated. -/
theorem insulating_ions_never_heated (hm : MeshOk m) (hn : names.Nodup) (hJ : ∀ j, 0 ≤ m.J j) (hdy : ∀ j, 0 ≤ m.dy j)
    (h : sheathBoundaryInsulating o m names st = (.ok (), st')) {n : String} (hmem : n ∈ names) (hi : IsIon st n) (j : ι) :
    fieldOf st' n .energy_source j ≤ fieldOf st n .energy_source j := by
  by_cases hno : ∀ u g inn, ¬ Target m o.lower_y o.upper_y u j g inn
  · rw [fieldOf_some (ion_published hn h hmem hi).src, ionOut_fst, bothEnds_src_other hno]
    exact le_refl _
  · push Not at hno
    obtain ⟨u, g, inn, ht⟩ := hno
    rw [(insulating_ions hm hn h hmem hi ht).2.2]
    exact sub_le_self _ (mul_nonneg (le_max_left _ _) (areaPerVolume_nonneg hJ hdy _ _))

/-! ## Electrons -/

open Classical in
/-- Sum over the ion species in a list. -/
noncomputable def overIons (st : Store Key (Value ι)) (names : List String) (f : String → ℝ) : ℝ :=
  (names.map fun n => if IsIon st n then f n else 0).sum

theorem last_target (hm : MeshOk m) (hn : names.Nodup) (h : sheathBoundaryInsulating o m names st = (.ok (), st'))
    {u : Bool} {i g inn : ι} (ht : Target m o.lower_y o.upper_y u i g inn) :
    (electronsLast o m names st g).v = -(electronCells (species st "e") 0 i).v +
      2 * (out u * overIons st names fun n => charge st n * speedAt st st' n u i g) ∧
    (electronsLast o m names st g).nv = -(electronCells (species st "e") 0 i).nv +
      2 * (out u * (electronMass o st * overIons st names fun n => face (fieldOf st' n .density) i g * speedAt st st' n u i g)) := by
  have key : ∀ (l : List String), (∀ n ∈ l, n ∈ names) → ∀ e : ι → ECell, NT (electronsFirst o m st) e →
      (l.foldl (electronsAfter o m (electronMass o st) st) e g).v = (e g).v +
        2 * (out u * overIons st l fun n => charge st n * speedAt st st' n u i g) ∧
      (l.foldl (electronsAfter o m (electronMass o st) st) e g).nv = (e g).nv +
        2 * (out u * (electronMass o st * overIons st l fun n => face (fieldOf st' n .density) i g * speedAt st st' n u i g)) := by
    intro l
    induction l with
    | nil => intro _ e _; simp [overIons]
    | cons a l ih =>
      intro hl e he
      obtain ⟨h1, h2⟩ := ih (fun n hn => hl n (List.mem_cons_of_mem _ hn)) _ (he.trans (electronsAfter_NT o m (electronMass o st) st e a))
      rw [List.foldl_cons, h1, h2]
      have hadd : ∀ f : String → ℝ, IsIon st a → overIons st (a :: l) f = f a + overIons st l f := by
        intro f hia
        unfold overIons
        rw [List.map_cons, List.sum_cons, if_pos hia]
      have hskip : ∀ f : String → ℝ, ¬ IsIon st a → overIons st (a :: l) f = overIons st l f := by
        intro f hia
        unfold overIons
        rw [List.map_cons, List.sum_cons, if_neg hia, zero_add]
      by_cases hia : IsIon st a
      · rw [hadd _ hia, hadd _ hia]
        obtain ⟨-, -, -, -, hg⟩ := ion_cells hm e (electronMass o st) (species st a) ht
        have hb := ion_body hm hn h (hl a List.mem_cons_self) hia ht he
        dsimp only at hb
        rw [hb] at hg
        have hea : electronsAfter o m (electronMass o st) st e a = (ionOut o m (electronMass o st) e (species st a)).2 := by
          unfold electronsAfter
          rw [if_pos hia]
        rw [hea, hg]
        unfold push
        constructor <;> dsimp only <;> ring
      · rw [hskip _ hia, hskip _ hia]
        have hea : electronsAfter o m (electronMass o st) st e a = e := by
          unfold electronsAfter
          rw [if_neg hia]
        rw [hea]
        exact ⟨rfl, rfl⟩
  obtain ⟨h1, h2⟩ := key names (fun _ hn => hn) (electronsFirst o m st) (fun _ => ⟨rfl, rfl, rfl⟩)
  have hf := first_target (st := st) hm ht
  refine ⟨h1.trans ?_, h2.trans ?_⟩
  · rw [hf]; rfl
  · rw [hf]; rfl

/-- **C38.**  Electron flow through a target: the velocity is the sum over ions of charge times ion velocity, and the momentum per electron mass
is the sum over ions of density times velocity. -/
theorem insulating_electrons (hm : MeshOk m) (hn : names.Nodup) (h : sheathBoundaryInsulating o m names st = (.ok (), st'))
    {u : Bool} {i g inn : ι} (ht : Target m o.lower_y o.upper_y u i g inn) :
    ((vals st (.sp "e" .velocity)).isSome → out u * face (fieldOf st' "e" .velocity) i g =
      overIons st names fun n => charge st n * speedAt st st' n u i g) ∧
    ((vals st (.sp "e" .momentum)).isSome → out u * face (fieldOf st' "e" .momentum) i g =
      electronMass o st * overIons st names fun n => face (fieldOf st' n .density) i g * speedAt st st' n u i g) := by
  obtain ⟨hp, _⟩ := insulating_ok hn h
  obtain ⟨h1, h2⟩ := last_target hm hn h ht
  have hl : electronsLast o m names st i = electronCells (species st "e") 0 i := last_other fun _ _ _ h' => (h'.ne hm ht).1 rfl
  have ho : out u * out u = 1 := by cases u <;> simp [out]
  refine ⟨fun hv => ?_, fun hv => ?_⟩
  · rw [fieldOf_ifSet hp.v hv]
    simp only [face]
    rw [h1, hl]
    linear_combination (overIons st names fun n => charge st n * speedAt st st' n u i g) * ho
  · rw [fieldOf_ifSet hp.nv hv]
    simp only [face]
    rw [h2, hl]
    simp only [face]
    linear_combination (electronMass o st * overIons st names fun n => (fieldOf st' n .density i + fieldOf st' n .density g) / 2 * speedAt st st' n u i g) * ho

/-- Charge flowing out through a target, from the momenta: charge times momentum over mass, summed over the species. -/
noncomputable def momentumCurrent (o : InsulatingOpts) (st st' : Store Key (Value ι)) (names : List String) (u : Bool) (i g : ι) : ℝ :=
  out u * ((overIons st names fun n => charge st n * (face (fieldOf st' n .momentum) i g / mass st n)) - face (fieldOf st' "e" .momentum) i g / electronMass o st)

/-- Charge flowing out through a target, from densities and velocities. -/
noncomputable def velocityCurrent (st st' : Store Key (Value ι)) (names : List String) (u : Bool) (i g : ι) : ℝ :=
  out u * ((overIons st names fun n => charge st n * (face (fieldOf st' n .density) i g * face (fieldOf st' n .velocity) i g)) -
    face (fieldOf st' "e" .density) i g * face (fieldOf st' "e" .velocity) i g)

theorem overIons_congr {f f' : String → ℝ} (h : ∀ n ∈ names, IsIon st n → f n = f' n) : overIons st names f = overIons st names f' := by
  unfold overIons
  congr 1
  apply List.map_congr_left
  intro n hn
  split
  · exact h n hn ‹_›
  · rfl

theorem overIons_mul (c : ℝ) (f : String → ℝ) : c * overIons st names f = overIons st names fun n => c * f n := by
  unfold overIons
  rw [← List.sum_map_mul_left]
  congr 1
  apply List.map_congr_left
  intro n hn
  rw [mul_ite, mul_zero]

theorem overIons_sub (f f' : String → ℝ) : overIons st names f - overIons st names f' = overIons st names fun n => f n - f' n := by
  unfold overIons
  induction names with
  | nil => simp
  | cons a l ih =>
    simp only [List.map_cons, List.sum_cons]
    rw [← ih]
    split <;> ring

/-- **C38.**  The current through a target, exactly.  From the momenta, each ion species leaves behind its charge minus one; from the velocities,
its charge times the difference of its density and the electron density. -/
theorem insulating_current (hm : MeshOk m) (hn : names.Nodup) (h : sheathBoundaryInsulating o m names st = (.ok (), st'))
    {u : Bool} {i g inn : ι} (ht : Target m o.lower_y o.upper_y u i g inn) :
    ((∀ n ∈ names, IsIon st n → (vals st (.sp n .momentum)).isSome ∧ mass st n ≠ 0) → (vals st (.sp "e" .momentum)).isSome → electronMass o st ≠ 0 →
      momentumCurrent o st st' names u i g =
        overIons st names fun n => (charge st n - 1) * (face (fieldOf st' n .density) i g * speedAt st st' n u i g)) ∧
    ((∀ n ∈ names, IsIon st n → (vals st (.sp n .velocity)).isSome) → (vals st (.sp "e" .velocity)).isSome →
      velocityCurrent st st' names u i g =
        overIons st names fun n => charge st n * ((face (fieldOf st' n .density) i g - face (fieldOf st' "e" .density) i g) * speedAt st st' n u i g)) := by
  obtain ⟨e1, e2⟩ := insulating_electrons hm hn h ht
  refine ⟨fun hi he hMe => ?_, fun hi he => ?_⟩
  · unfold momentumCurrent
    rw [mul_sub, overIons_mul, mul_div_assoc', e2 he, mul_div_cancel_left₀ _ hMe, overIons_sub]
    apply overIons_congr
    intro n hmem hion
    have := (insulating_ions hm hn h hmem hion ht).2.1 (hi n hmem hion).1
    have hM := (hi n hmem hion).2
    have e : out u * (charge st n * (face (fieldOf st' n .momentum) i g / mass st n)) =
        charge st n * (out u * face (fieldOf st' n .momentum) i g / mass st n) := by ring
    rw [e, this, mul_assoc, mul_div_cancel_left₀ _ hM]
    ring
  · unfold velocityCurrent
    have e : ∀ a b c : ℝ, out u * (a - b * c) = out u * a - b * (out u * c) := by intros; ring
    rw [e, e1 he, overIons_mul, overIons_mul, overIons_sub]
    apply overIons_congr
    intro n hmem hion
    have := (insulating_ions hm hn h hmem hion ht).1 (hi n hmem hion)
    have e : out u * (charge st n * (face (fieldOf st' n .density) i g * face (fieldOf st' n .velocity) i g)) =
        charge st n * (face (fieldOf st' n .density) i g * (out u * face (fieldOf st' n .velocity) i g)) := by ring
    rw [e, this]
    ring

/-- **C38, what holds.**  No current from the momenta if all ions are singly charged; none from the velocities if in addition every ion species has
the electron density on the face, that is, if there is one ion species in a quasi-neutral plasma. -/
theorem insulating_zero_current_partial (hm : MeshOk m) (hn : names.Nodup) (h : sheathBoundaryInsulating o m names st = (.ok (), st'))
    (hZ : ∀ n ∈ names, IsIon st n → charge st n = 1) {u : Bool} {i g inn : ι} (ht : Target m o.lower_y o.upper_y u i g inn) :
    ((∀ n ∈ names, IsIon st n → (vals st (.sp n .momentum)).isSome ∧ mass st n ≠ 0) → (vals st (.sp "e" .momentum)).isSome → electronMass o st ≠ 0 →
      momentumCurrent o st st' names u i g = 0) ∧
    ((∀ n ∈ names, IsIon st n → (vals st (.sp n .velocity)).isSome ∧ face (fieldOf st' n .density) i g = face (fieldOf st' "e" .density) i g) →
      (vals st (.sp "e" .velocity)).isSome → velocityCurrent st st' names u i g = 0) := by
  obtain ⟨h1, h2⟩ := insulating_current hm hn h ht
  have hz : overIons st names (fun _ => (0 : ℝ)) = 0 := by
    unfold overIons
    apply List.sum_eq_zero
    intro x hx
    obtain ⟨n, _, rfl⟩ := List.mem_map.1 hx
    exact ite_self _
  refine ⟨fun a b c => ?_, fun a b => ?_⟩
  · rw [h1 a b c, ← hz]
    apply overIons_congr
    intro n hmem hi
    rw [hZ n hmem hi]; ring
  · rw [h2 (fun n hmem hi => (a n hmem hi).1) b, ← hz]
    apply overIons_congr
    intro n hmem hi
    rw [(a n hmem hi).2]; ring

/-! ## C37: electrons -/

theorem power_eq (hm : MeshOk m) (Me γ : ℝ) (e : ι → ECell) (src : Fld ι) (j : ι) :
    insulatingPower o m Me γ e src j = src j
      + (if o.lower_y = true ∧ j ∈ m.lower then sheathPower m j (m.ym j) (((o.gamma_e - 1 - 1 / (γ - 1)) * (0.5 * ((e (m.ym j)).t + (e j).t))
          - 0.5 * Me * (0.5 * ((e (m.ym j)).v + (e j).v)) ^ 2) * (0.5 * ((e (m.ym j)).n + (e j).n)) * (0.5 * ((e (m.ym j)).v + (e j).v))) else 0)
      + (if o.upper_y = true ∧ j ∈ m.upper then -sheathPower m j (m.yp j) (((o.gamma_e - 1 - 1 / (γ - 1)) * (0.5 * ((e (m.yp j)).t + (e j).t))
          - 0.5 * Me * (0.5 * ((e (m.ym j)).v + (e j).v)) ^ 2) * (0.5 * ((e (m.yp j)).n + (e j).n)) * (0.5 * ((e (m.ym j)).v + (e j).v))) else 0) := by
  have h1 : ∀ src : Fld ι, (if o.lower_y = true then m.lower.foldl (insulatingPowerLower o m Me γ e) src else src) j = src j
      + (if o.lower_y = true ∧ j ∈ m.lower then sheathPower m j (m.ym j) (((o.gamma_e - 1 - 1 / (γ - 1)) * (0.5 * ((e (m.ym j)).t + (e j).t))
          - 0.5 * Me * (0.5 * ((e (m.ym j)).v + (e j).v)) ^ 2) * (0.5 * ((e (m.ym j)).n + (e j).n)) * (0.5 * ((e (m.ym j)).v + (e j).v))) else 0) := by
    intro src
    by_cases hl : o.lower_y = true
    · rw [if_pos hl, foldl_accum' (g := fun i => sheathPower m i (m.ym i) (((o.gamma_e - 1 - 1 / (γ - 1)) * (0.5 * ((e (m.ym i)).t + (e i).t))
          - 0.5 * Me * (0.5 * ((e (m.ym i)).v + (e i).v)) ^ 2) * (0.5 * ((e (m.ym i)).n + (e i).n)) * (0.5 * ((e (m.ym i)).v + (e i).v))))
        (f := insulatingPowerLower o m Me γ e) (fun s i => rfl) _ _ hm.lower_nodup]
      simp only [hl, true_and]
    · rw [if_neg hl, if_neg (fun h => hl h.1), add_zero]
  unfold insulatingPower
  rw [← h1 src]
  generalize (if o.lower_y = true then m.lower.foldl (insulatingPowerLower o m Me γ e) src else src) = s1
  by_cases hu : o.upper_y = true
  · rw [if_pos hu, foldl_accum' (g := fun i => -sheathPower m i (m.yp i) (((o.gamma_e - 1 - 1 / (γ - 1)) * (0.5 * ((e (m.yp i)).t + (e i).t))
          - 0.5 * Me * (0.5 * ((e (m.ym i)).v + (e i).v)) ^ 2) * (0.5 * ((e (m.yp i)).n + (e i).n)) * (0.5 * ((e (m.ym i)).v + (e i).v))))
        (fun s i => by unfold insulatingPowerUpper; rw [← sub_eq_add_neg]) _ _ hm.upper_nodup]
    simp only [hu, true_and]
  · rw [if_neg hu, if_neg (fun h => hu h.1), add_zero]

/-- **C37 (electrons), exactly.**  The electron energy lost in the last cell.  At the lower end it is computed with the velocity on the face with the
wall.  At the upper end it is computed with the velocity on the *inner* face of the last cell. -/
theorem insulating_electron_energy (hm : MeshOk m) (hn : names.Nodup) (h : sheathBoundaryInsulating o m names st = (.ok (), st'))
    {u : Bool} {i g inn : ι} (ht : Target m o.lower_y o.upper_y u i g inn) :
    let V := if u then face (fun j => (electronCells (species st "e") 0 j).v) i inn else overIons st names fun n => charge st n * speedAt st st' n u i g
    fieldOf st' "e" .energy_source i = fieldOf st "e" .energy_source i -
      ((o.gamma_e - 1 - 1 / (adiabatic st "e" - 1)) * face (fieldOf st' "e" .temperature) i g - 0.5 * electronMass o st * V ^ 2)
        * face (fieldOf st' "e" .density) i g * V * areaPerVolume m i g := by
  intro V
  obtain ⟨hp, _⟩ := insulating_ok hn h
  obtain ⟨h1, -⟩ := last_target hm hn h ht
  have hl : electronsLast o m names st i = electronCells (species st "e") 0 i := last_other fun _ _ _ h' => (h'.ne hm ht).1 rfl
  have hinn : electronsLast o m names st inn = electronCells (species st "e") 0 inn := last_other fun _ _ _ h' => (h'.ne hm ht).2 rfl
  have fn : 0.5 * ((electronsLast o m names st g).n + (electronsLast o m names st i).n) = face (fieldOf st' "e" .density) i g := by
    rw [fieldOf_some hp.n]; simp only [face]; ring
  have fte : 0.5 * ((electronsLast o m names st g).t + (electronsLast o m names st i).t) = face (fieldOf st' "e" .temperature) i g := by
    rw [fieldOf_some hp.t]; simp only [face]; ring
  have hS : ∀ q' : ℝ, sheathPower m i g q' = q' * areaPerVolume m i g := by
    intro q'; unfold sheathPower areaPerVolume; ring
  rw [fieldOf_some hp.src]
  dsimp only
  rw [power_eq hm]
  have hsrc : fld (species st "e") .energy_source 0 i = fieldOf st "e" .energy_source i := rfl
  have had : num (species st "e") .adiabatic (5 / 3) = adiabatic st "e" := rfl
  rw [hsrc, had]
  cases ht with
  | lower hlo hmem =>
    have hv : 0.5 * ((electronsLast o m names st (m.ym i)).v + (electronsLast o m names st i).v) = -V := by
      rw [h1, hl]
      simp only [V, out, Bool.false_eq_true, if_false]
      ring
    rw [if_pos ⟨hlo, hmem⟩, if_neg (fun hh => hm.disjoint hmem hh.2), hS, fn, fte, hv]
    ring
  | upper hup hmem =>
    have hv : 0.5 * ((electronsLast o m names st (m.ym i)).v + (electronsLast o m names st i).v) = V := by
      rw [hl, hinn]
      simp only [V, face, if_true]
      ring
    rw [if_neg (fun hh => hm.disjoint hh.2 hmem), if_pos ⟨hup, hmem⟩, hS, fn, fte, hv]
    ring

/-- **C37, what holds for electrons.**  At the lower end the electrons are not heated as long as their kinetic energy on the face is small; `u = false`. -/
theorem insulating_electrons_never_heated_partial (hm : MeshOk m) (hn : names.Nodup) (hJ : ∀ j, 0 ≤ m.J j) (hdy : ∀ j, 0 ≤ m.dy j)
    (h : sheathBoundaryInsulating o m names st = (.ok (), st')) {i g inn : ι} (ht : Target m o.lower_y o.upper_y false i g inn)
    (hZ : ∀ n ∈ names, IsIon st n → 0 ≤ charge st n) (hN : 0 ≤ fieldOf st' "e" .density i)
    (hK : 0.5 * electronMass o st * (overIons st names fun n => charge st n * speedAt st st' n false i g) ^ 2 ≤
      (o.gamma_e - 1 - 1 / (adiabatic st "e" - 1)) * face (fieldOf st' "e" .temperature) i g) :
    fieldOf st' "e" .energy_source i ≤ fieldOf st "e" .energy_source i := by
  have he := insulating_electron_energy hm hn h ht
  simp only [Bool.false_eq_true, if_false] at he
  rw [he]
  have hV : 0 ≤ overIons st names fun n => charge st n * speedAt st st' n false i g := by
    unfold overIons
    apply List.sum_nonneg
    intro x hx
    obtain ⟨n, hmem, rfl⟩ := List.mem_map.1 hx
    dsimp only
    split
    · exact mul_nonneg (hZ n hmem ‹_›) (Real.sqrt_nonneg _)
    · exact le_refl _
  have hNg : 0 ≤ face (fieldOf st' "e" .density) i g := by
    unfold face
    have := (insulating_guard_values hm hn h (Or.inl rfl) (v := .density) (by simp) ht hN).1
    linarith
  exact sub_le_self _ (mul_nonneg (mul_nonneg (mul_nonneg (sub_nonneg.2 hK) hNg) hV) (areaPerVolume_nonneg hJ hdy _ _))

end

/-! ## Runs -/

section
variable {names : List String}

theorem safe_insulatingIon (o : InsulatingOpts) (m : YMesh ι) (Me : ℝ) (e : ι → ECell) {n : String} (hn : n ∈ names) :
    Safe names (sheathInputs names) (insulatingIon o m Me e n) := by
  have he : n ∈ "e" :: names := List.mem_cons_of_mem _ hn
  refine Safe.ite (fun _ => Safe.pure _) fun hne => Safe.bind (safe_readReal (by decide) _) fun Z =>
    Safe.ite (fun _ => Safe.pure _) fun _ => ?_
  exact Safe.bind (safe_getReal (by decide) (Or.inr ⟨n, hn, hne, rfl⟩)) fun _ =>
    Safe.bind (safe_readReal (by decide) _) fun _ =>
    Safe.bind (safe_getNB (interior_sp (by decide)) (Or.inl ⟨n, he, Or.inl rfl⟩)) fun _ =>
    Safe.bind (safe_getNB (interior_sp (by decide)) (Or.inl ⟨n, he, Or.inr rfl⟩)) fun _ =>
    Safe.bind (safe_readSet (interior_sp (by decide)) _) fun _ => Safe.bind (safe_readSet (interior_sp (by decide)) _) fun _ =>
    Safe.bind (safe_readSet (interior_sp (by decide)) _) fun _ => Safe.bind safe_readSource fun _ =>
    Safe.bind (safe_publishIons hn _) fun _ => Safe.pure _

/-- The component ends normally in every state in which density and temperature of all species and the mass of the ions
are set, and no variable has been read in a way that forbids setting its guard cells. -/
theorem insulating_runs (o : InsulatingOpts) (m : YMesh ι) {st : Store Key (Value ι)} (h : Ready names (sheathInputs names) st) :
    ∃ st', sheathBoundaryInsulating o m names st = (.ok (), st') := by
  have he : "e" ∈ "e" :: names := List.mem_cons_self
  have hφ : Safe names (sheathInputs names) (insulatingSetPhi o m) :=
    Safe.ifSet (test_isSetNB interior_top) (Safe.pure _)
      (Safe.bind (safe_getNB interior_top (Or.inr rfl)) fun _ => safe_setPhi _)
  have hs : Safe names (sheathInputs names) (sheathBoundaryInsulating o m names) :=
    Safe.bind (safe_getNB (interior_sp (by decide)) (Or.inl ⟨"e", he, Or.inl rfl⟩)) fun _ =>
    Safe.bind (safe_getNB (interior_sp (by decide)) (Or.inl ⟨"e", he, Or.inr rfl⟩)) fun _ =>
    Safe.bind (safe_readNB (interior_sp (by decide)) _) fun _ => Safe.bind (safe_readReal (by decide) _) fun _ =>
    Safe.bind (safe_readReal (by decide) _) fun _ =>
    Safe.bind (safe_readNB (interior_sp (by decide)) _) fun _ => Safe.bind (safe_readNB (interior_sp (by decide)) _) fun _ =>
    Safe.bind hφ fun _ =>
    Safe.bind (safe_setBoundary (by decide) he _) fun _ => Safe.bind (safe_setBoundary (by decide) he _) fun _ =>
    Safe.bind (safe_setBoundary (by decide) he _) fun _ =>
    Safe.bind (Safe.foldlM names (fun n hn a => safe_insulatingIon o m _ a hn) _) fun _ =>
    Safe.bind safe_readSource fun _ => Safe.bind (safe_setSource (by decide) he _) fun _ =>
    Safe.bind (safe_setBoundaryIfSetNB (by decide) he _) fun _ => safe_setBoundaryIfSetNB (by decide) he _
  obtain ⟨_, st', h1, _⟩ := hs st h
  exact ⟨st', h1⟩

end

/-! ## Examples -/

/-- The default settings. -/
noncomputable def defaults : InsulatingOpts where
  gamma_e := 3.5
  lower_y := true
  upper_y := true
  electronMass := 1 / 1836

/-- A uniform plasma moving with velocity `v`: electrons with density one, and two ion species with density `n`, charge `Z` and mass `M`;
all temperatures are one. -/
noncomputable def mix (Z M n v : ℝ) : Store Key (Value (Fin 6)) := stateOf fun s x =>
  if s = "e" then
    match x with
    | .density => some (.field fun _ => 1)
    | .temperature => some (.field fun _ => 1)
    | .velocity => some (.field fun _ => v)
    | .momentum => some (.field fun _ => 1 / 1836 * v)
    | _ => none
  else if s = "a+" ∨ s = "b+" then
    match x with
    | .AA => some (.real M)
    | .charge => some (.real Z)
    | .density => some (.field fun _ => n)
    | .temperature => some (.field fun _ => 1)
    | .velocity => some (.field fun _ => v)
    | .momentum => some (.field fun _ => M * n * v)
    | _ => none
  else none

/-- One ion species, or both. -/
def names (both : Bool) : List String := if both then ["a+", "b+", "e"] else ["a+", "e"]

theorem names_nodup (both : Bool) : (names both).Nodup := by cases both <;> decide

theorem mem_names {both : Bool} {s : String} (h : s ∈ names both) : s = "e" ∨ s = "a+" ∨ s = "b+" := by
  cases both <;> simp only [names, if_true, Bool.false_eq_true, if_false, List.mem_cons, List.not_mem_nil, or_false] at h <;> tauto

theorem mix_ready (Z M n v : ℝ) (both : Bool) : Ready (names both) (sheathInputs (names both)) (mix Z M n v) := by
  have hm : ∀ {s}, s ∈ "e" :: names both → s = "e" ∨ s = "a+" ∨ s = "b+" := by
    intro s h
    rcases List.mem_cons.1 h with rfl | h
    · exact Or.inl rfl
    · exact mem_names h
  refine ⟨?_, ?_, fun _ _ _ _ => rfl, rfl, fun _ _ _ _ => ⟨rfl, rfl⟩⟩
  · intro s x hx y hy
    simp only [List.mem_cons, List.not_mem_nil, or_false] at hx
    by_cases he : s = "e"
    · subst he
      rcases hx with rfl | rfl | rfl <;> exact absurd hy (by simp [mix, stateOf, vals])
    · by_cases hd : s = "a+" ∨ s = "b+"
      · rcases hx with rfl | rfl | rfl
        · exact ⟨M, by simpa [mix, stateOf, vals, he, hd] using hy.symm⟩
        · exact ⟨Z, by simpa [mix, stateOf, vals, he, hd] using hy.symm⟩
        · exact absurd hy (by simp [mix, stateOf, vals, he, hd])
      · exact absurd hy (by simp [mix, stateOf, vals, he, hd])
  · rintro k (⟨s, hs, rfl | rfl⟩ | ⟨s, hs, hne, rfl⟩)
    · rcases hm hs with rfl | rfl | rfl <;> rfl
    · rcases hm hs with rfl | rfl | rfl <;> rfl
    · rcases mem_names hs with rfl | rfl | rfl
      · exact absurd rfl hne
      · rfl
      · rfl

theorem mix_runs (m : YMesh (Fin 6)) (Z M n v : ℝ) (both : Bool) :
    ∃ st', sheathBoundaryInsulating defaults m (names both) (mix Z M n v) = (.ok (), st') := insulating_runs _ _ (mix_ready Z M n v both)

theorem mix_ion {Z : ℝ} (hZ : Z ≠ 0) (M n v : ℝ) {s : String} (hs : s = "a+" ∨ s = "b+") :
    IsIon (mix Z M n v) s ∧ charge (mix Z M n v) s = Z ∧ mass (mix Z M n v) s = M ∧ adiabatic (mix Z M n v) s = 5 / 3 ∧
    (vals (mix Z M n v) (.sp s .velocity)).isSome ∧ (vals (mix Z M n v) (.sp s .momentum)).isSome := by
  rcases hs with rfl | rfl <;> exact ⟨⟨by decide, hZ⟩, rfl, rfl, rfl, rfl, rfl⟩

theorem limitFree_same {x : ℝ} : limitFree x x = x := by
  by_cases h : 1e-10 ≤ x
  · have := limitFree_ratio (le_refl x) h
    have hx : x ≠ 0 := by intro e; rw [e] at h; norm_num at h
    exact mul_right_cancel₀ hx (by rw [this]; ring)
  · exact limitFree_neumann (Or.inr (not_le.1 h))

/-- Values at a target of this plasma. -/
theorem mix_values {m : YMesh (Fin 6)} (hm : MeshOk m) {Z M n v : ℝ} (hZ : Z ≠ 0) (hn0 : 0 ≤ n) {both : Bool} {st' : Store Key (Value (Fin 6))}
    (h : sheathBoundaryInsulating defaults m (names both) (mix Z M n v) = (.ok (), st')) {u : Bool} {i g inn : Fin 6} (ht : Target m true true u i g inn)
    {s : String} (hs : s ∈ names both) :
    face (fieldOf st' s .density) i g = (if s = "e" then 1 else n) ∧ face (fieldOf st' s .temperature) i g = 1 ∧
    fieldOf st' s .density i = (if s = "e" then 1 else n) := by
  have hsh : HasSheath (mix Z M n v) (names both) s := by
    by_cases he : s = "e"
    · exact Or.inl he
    · exact Or.inr ⟨hs, (mix_ion hZ M n v ((mem_names hs).resolve_left he)).1⟩
  have hd : ∀ j, fieldOf (mix Z M n v) s .density j = (if s = "e" then 1 else n) := by
    intro j; rcases mem_names hs with rfl | rfl | rfl <;> rfl
  have htt : ∀ j, fieldOf (mix Z M n v) s .temperature j = 1 := by
    intro j; rcases mem_names hs with rfl | rfl | rfl <;> rfl
  have hpos : 0 ≤ (if s = "e" then 1 else n) := by split <;> linarith
  have a := insulating_interior hm (names_nodup both) h hsh (j := i) (fun _ _ _ h' => (h'.ne hm ht).1 rfl)
  have b := insulating_interior hm (names_nodup both) h hsh (j := inn) (fun _ _ _ h' => (h'.ne hm ht).2 rfl)
  have c := insulating_limitFree hm (names_nodup both) h hsh (v := .density) (by decide) ht
  have d := insulating_limitFree hm (names_nodup both) h hsh (v := .temperature) (by decide) ht
  rw [a.1, b.1, hd, hd, limitFree_same, max_eq_left hpos] at c
  rw [a.2.1, b.2.1, htt, htt, limitFree_same] at d
  refine ⟨?_, ?_, ?_⟩
  · unfold face; rw [a.1, c, hd, max_eq_left hpos]; ring
  · unfold face; rw [a.2.1, d, htt]; ring
  · rw [a.1, hd, max_eq_left hpos]

/-- Speed of the ions at a target of this plasma. -/
theorem mix_speed {m : YMesh (Fin 6)} (hm : MeshOk m) {Z M n v : ℝ} (hZ : 0 < Z) (hM : 1 ≤ M) (hn0 : 0 ≤ n) (hn1 : n ≤ 1) (hZn : Z * n ≤ 1) {both : Bool}
    {st' : Store Key (Value (Fin 6))} (h : sheathBoundaryInsulating defaults m (names both) (mix Z M n v) = (.ok (), st')) {u : Bool}
    {i g inn : Fin 6} (ht : Target m true true u i g inn) {s : String} (hs : s ∈ names both) (hse : s ≠ "e") :
    speedAt (mix Z M n v) st' s u i g = Real.sqrt ((5 / 3 + Z * n) / M) ∧ 0 < speedAt (mix Z M n v) st' s u i g := by
  have he : "e" ∈ names both := by cases both <;> decide
  obtain ⟨a1, a2, a3⟩ := mix_values hm hZ.ne' hn0 h ht hs
  obtain ⟨b1, b2, b3⟩ := mix_values hm hZ.ne' hn0 h ht he
  rw [if_neg hse] at a1 a3
  rw [if_pos rfl] at b1 b3
  obtain ⟨-, hc, hma, had, -, -⟩ := mix_ion hZ.ne' M n v ((mem_names hs).resolve_left hse)
  have hsh : share u n 1 = n := by
    cases u
    · rw [share, if_neg (by decide), max_eq_left (by norm_num : (1e-10 : ℝ) ≤ 1), div_one, max_eq_right hn0, min_eq_right hn1]
    · rw [share, if_pos rfl, if_pos (by norm_num), div_one]
  have hpos : 0 < (5 / 3 + Z * n) / M := div_pos (by positivity) (by linarith)
  have hle : (5 / 3 + Z * n) / M ≤ 100 := by
    rw [div_le_iff₀ (by linarith)]; nlinarith
  have e : speedAt (mix Z M n v) st' s u i g = Real.sqrt ((5 / 3 + Z * n) / M) := by
    unfold speedAt bohmSq
    rw [a1, a2, a3, b1, b2, b3, hc, hma, had, hsh, sub_self, sub_self, abs_zero, if_pos (by norm_num), max_eq_left (by norm_num : (1e-5 : ℝ) ≤ 1),
      mul_one, mul_one, mul_one, max_eq_right hpos.le, min_eq_right hle]
  exact ⟨e, by rw [e]; exact Real.sqrt_pos.2 hpos⟩

theorem lower_end : Target line true true false 1 0 2 := Target.lower (m := line) rfl (by decide)
theorem upper_end : Target line true true true 4 5 3 := Target.upper (m := line) rfl (by decide)

theorem mix_mass (Z M n v : ℝ) : electronMass defaults (mix Z M n v) = 1 / 1836 := rfl
theorem mix_electrons (Z M n v : ℝ) : ¬ IsIon (mix Z M n v) "e" := fun h => h.1 rfl

theorem overIons_one {Z : ℝ} (hZ : Z ≠ 0) (M n v : ℝ) (f : String → ℝ) : overIons (mix Z M n v) (names false) f = f "a+" := by
  unfold overIons names
  simp only [Bool.false_eq_true, if_false, List.map_cons, List.map_nil, List.sum_cons, List.sum_nil]
  rw [if_pos (mix_ion hZ M n v (Or.inl rfl)).1, if_neg (mix_electrons Z M n v)]
  ring

theorem overIons_both {Z : ℝ} (hZ : Z ≠ 0) (M n v : ℝ) (f : String → ℝ) : overIons (mix Z M n v) (names true) f = f "a+" + f "b+" := by
  unfold overIons names
  simp only [if_true, List.map_cons, List.map_nil, List.sum_cons, List.sum_nil]
  rw [if_pos (mix_ion hZ M n v (Or.inl rfl)).1, if_pos (mix_ion hZ M n v (Or.inr rfl)).1, if_neg (mix_electrons Z M n v)]
  ring

theorem mix_sets {Z : ℝ} (hZ : Z ≠ 0) {M : ℝ} (hM : M ≠ 0) (n v : ℝ) (both : Bool) :
    (∀ s ∈ names both, IsIon (mix Z M n v) s → (vals (mix Z M n v) (.sp s .momentum)).isSome ∧ mass (mix Z M n v) s ≠ 0) ∧
    (∀ s ∈ names both, IsIon (mix Z M n v) s → (vals (mix Z M n v) (.sp s .velocity)).isSome) := by
  refine ⟨fun s hs hi => ?_, fun s hs hi => ?_⟩
  · obtain ⟨-, -, h1, -, -, h2⟩ := mix_ion hZ M n v ((mem_names hs).resolve_left hi.1)
    exact ⟨h2, by rw [h1]; exact hM⟩
  · exact (mix_ion hZ M n v ((mem_names hs).resolve_left hi.1)).2.2.2.2.1

/-- **C38 fails** for multiply charged ions: with fully ionised helium in a quasi-neutral plasma both currents through the target differ from
zero, in opposite directions. -/
theorem insulating_helium_current : ∃ st', sheathBoundaryInsulating defaults line (names false) (mix 2 4 (1 / 2) 0) = (.ok (), st') ∧
    face (fieldOf st' "e" .density) 4 5 = charge (mix 2 4 (1 / 2) 0) "a+" * face (fieldOf st' "a+" .density) 4 5 ∧
    0 < momentumCurrent defaults (mix 2 4 (1 / 2) 0) st' (names false) true 4 5 ∧
    velocityCurrent (mix 2 4 (1 / 2) 0) st' (names false) true 4 5 < 0 := by
  obtain ⟨st', h⟩ := mix_runs line 2 4 (1 / 2) 0 false
  have hZ : (2 : ℝ) ≠ 0 := by norm_num
  have ha : "a+" ∈ names false := by decide
  have he : "e" ∈ names false := by decide
  obtain ⟨a1, -, -⟩ := mix_values line_ok hZ (by norm_num) h upper_end ha
  obtain ⟨b1, -, -⟩ := mix_values line_ok hZ (by norm_num) h upper_end he
  rw [if_neg (by decide)] at a1
  rw [if_pos rfl] at b1
  obtain ⟨-, hs⟩ := mix_speed line_ok (by norm_num) (by norm_num) (by norm_num) (by norm_num) (by norm_num) h upper_end ha (by decide)
  obtain ⟨c1, c2⟩ := insulating_current line_ok (names_nodup false) h upper_end
  obtain ⟨s1, s2⟩ := mix_sets hZ (by norm_num : (4:ℝ) ≠ 0) (1 / 2) 0 false
  have hc := (mix_ion hZ 4 (1 / 2) 0 (Or.inl rfl : "a+" = "a+" ∨ "a+" = "b+")).2.1
  refine ⟨st', h, ?_, ?_, ?_⟩
  · rw [a1, b1, hc]; norm_num
  · rw [c1 s1 rfl (by rw [mix_mass]; norm_num), overIons_one hZ, hc, a1]
    linarith
  · rw [c2 s2 rfl, overIons_one hZ, hc, a1, b1]
    linarith

/-- **C38 fails** for two species of singly charged ions: with equal parts of two isotopes the velocities that the component sets carry a current. -/
theorem insulating_isotope_current : ∃ st', sheathBoundaryInsulating defaults line (names true) (mix 1 2 (1 / 2) 0) = (.ok (), st') ∧
    face (fieldOf st' "e" .density) 4 5 = face (fieldOf st' "a+" .density) 4 5 + face (fieldOf st' "b+" .density) 4 5 ∧
    momentumCurrent defaults (mix 1 2 (1 / 2) 0) st' (names true) true 4 5 = 0 ∧
    velocityCurrent (mix 1 2 (1 / 2) 0) st' (names true) true 4 5 < 0 := by
  obtain ⟨st', h⟩ := mix_runs line 1 2 (1 / 2) 0 true
  have hZ : (1 : ℝ) ≠ 0 := by norm_num
  have ha : "a+" ∈ names true := by decide
  have hb : "b+" ∈ names true := by decide
  have he : "e" ∈ names true := by decide
  obtain ⟨a1, -, -⟩ := mix_values line_ok hZ (by norm_num) h upper_end ha
  obtain ⟨b1, -, -⟩ := mix_values line_ok hZ (by norm_num) h upper_end hb
  obtain ⟨e1, -, -⟩ := mix_values line_ok hZ (by norm_num) h upper_end he
  rw [if_neg (by decide)] at a1 b1
  rw [if_pos rfl] at e1
  obtain ⟨-, hs⟩ := mix_speed line_ok (by norm_num) (by norm_num) (by norm_num) (by norm_num) (by norm_num) h upper_end ha (by decide)
  obtain ⟨-, hs'⟩ := mix_speed line_ok (by norm_num) (by norm_num) (by norm_num) (by norm_num) (by norm_num) h upper_end hb (by decide)
  obtain ⟨c1, c2⟩ := insulating_current line_ok (names_nodup true) h upper_end
  obtain ⟨s1, s2⟩ := mix_sets hZ (by norm_num : (2:ℝ) ≠ 0) (1 / 2) 0 true
  have hc := (mix_ion hZ 2 (1 / 2) 0 (Or.inl rfl : "a+" = "a+" ∨ "a+" = "b+")).2.1
  have hc' := (mix_ion hZ 2 (1 / 2) 0 (Or.inr rfl : "b+" = "a+" ∨ "b+" = "b+")).2.1
  refine ⟨st', h, ?_, ?_, ?_⟩
  · rw [a1, b1, e1]; norm_num
  · rw [c1 s1 rfl (by rw [mix_mass]; norm_num), overIons_both hZ, hc, hc']
    ring
  · rw [c2 s2 rfl, overIons_both hZ, hc, hc', a1, b1, e1]
    linarith

theorem line_area (i g : Fin 6) : areaPerVolume line i g = 1 := by
  unfold areaPerVolume line
  norm_num

/-- **C37 fails** at the upper end: in a plasma that moves towards the lower target, the electrons are heated at the upper one. -/
theorem insulating_heats_electrons : ∃ st', sheathBoundaryInsulating defaults line (names false) (mix 1 2 1 (-1)) = (.ok (), st') ∧
    Target line true true true 4 5 3 ∧ fieldOf (mix 1 2 1 (-1)) "e" .energy_source 4 < fieldOf st' "e" .energy_source 4 := by
  obtain ⟨st', h⟩ := mix_runs line 1 2 1 (-1) false
  refine ⟨st', h, upper_end, ?_⟩
  obtain ⟨b1, b2, -⟩ := mix_values line_ok one_ne_zero zero_le_one h upper_end (s := "e") (by decide)
  rw [if_pos rfl] at b1
  have he := insulating_electron_energy line_ok (names_nodup false) h upper_end
  simp only [if_true] at he
  have hV : face (fun j => (electronCells (species (mix 1 2 1 (-1)) "e") 0 j).v) 4 3 = -1 := by
    show ((-1 : ℝ) + -1) / 2 = -1
    norm_num
  have had : adiabatic (mix 1 2 1 (-1)) "e" = 5 / 3 := rfl
  have hg : defaults.gamma_e = 3.5 := rfl
  rw [he, hV, b1, b2, line_area, mix_mass, had, hg]
  norm_num

/-- **C39 fails**: in a plasma at rest the electrons lose energy at the lower target, but none at the upper one.  The plasma is its own mirror
image, and the results on the mesh and on the mirrored mesh are not. -/
theorem insulating_not_mirrored : ∃ st' st2', Mirrored (mix 1 2 1 0) (mix 1 2 1 0) ∧
    sheathBoundaryInsulating defaults line (names false) (mix 1 2 1 0) = (.ok (), st') ∧
    sheathBoundaryInsulating defaults line.mirror (names false) (mix 1 2 1 0) = (.ok (), st2') ∧ ¬ Mirrored st' st2' ∧
    fieldOf st' "e" .energy_source 1 < 0 ∧ fieldOf st' "e" .energy_source 4 = 0 := by
  obtain ⟨st', h⟩ := mix_runs line 1 2 1 0 false
  obtain ⟨st2', h2⟩ := mix_runs line.mirror 1 2 1 0 false
  have hsrc : ∀ j, fieldOf (mix 1 2 1 0) "e" .energy_source j = 0 := fun _ => rfl
  have had : adiabatic (mix 1 2 1 0) "e" = 5 / 3 := rfl
  have hg : defaults.gamma_e = 3.5 := rfl
  have h4 : fieldOf st' "e" .energy_source 4 = 0 := by
    have he := insulating_electron_energy line_ok (names_nodup false) h upper_end
    simp only [if_true] at he
    have hV : face (fun j => (electronCells (species (mix 1 2 1 0) "e") 0 j).v) 4 3 = 0 := by
      show ((0 : ℝ) + 0) / 2 = 0
      norm_num
    rw [he, hV, hsrc]
    ring
  have low : ∀ {m : YMesh (Fin 6)} (hm : MeshOk m) (ha : ∀ i g, areaPerVolume m i g = 1) {s : Store Key (Value (Fin 6))}
      (h : sheathBoundaryInsulating defaults m (names false) (mix 1 2 1 0) = (.ok (), s)) {i g inn : Fin 6},
      Target m true true false i g inn → fieldOf s "e" .energy_source i < 0 := by
    intro m hm ha s h i g inn ht
    obtain ⟨b1, b2, -⟩ := mix_values hm one_ne_zero zero_le_one h ht (s := "e") (by decide)
    rw [if_pos rfl] at b1
    obtain ⟨hs, hs0⟩ := mix_speed hm (by norm_num) (by norm_num) (by norm_num) (by norm_num) (by norm_num) h ht (s := "a+") (by decide) (by decide)
    have he := insulating_electron_energy hm (names_nodup false) h ht
    simp only [Bool.false_eq_true, if_false] at he
    rw [overIons_one one_ne_zero, (mix_ion one_ne_zero 2 1 0 (Or.inl rfl : "a+" = "a+" ∨ "a+" = "b+")).2.1, b1, b2, ha, mix_mass, had, hg, hsrc] at he
    have hsq : speedAt (mix 1 2 1 0) s "a+" false i g ^ 2 = 4 / 3 := by
      rw [hs, Real.sq_sqrt (by norm_num)]; norm_num
    rw [he, mul_pow, hsq]
    linarith
  refine ⟨st', st2', ?_, h, h2, ?_, low line_ok line_area h lower_end, h4⟩
  · have z : (fun _ : Fin 6 => (0 : ℝ)) = -fun _ => 0 := by funext _; simp
    refine ⟨fun _ => rfl, fun s v _ => ?_⟩
    by_cases hd : directed v = true
    · rw [if_pos hd]
      have : v = .velocity ∨ v = .momentum ∨ v = .momentum_source := by
        cases v <;> simp_all [directed]
      by_cases he : s = "e"
      · subst he
        rcases this with rfl | rfl | rfl
        · simp [mix, stateOf, vals, Value.rev]; exact z
        · simp [mix, stateOf, vals, Value.rev]; exact z
        · simp [mix, stateOf, vals, Value.rev]
      · by_cases hi : s = "a+" ∨ s = "b+"
        · rcases this with rfl | rfl | rfl
          · simp [mix, stateOf, vals, he, hi, Value.rev]; exact z
          · simp [mix, stateOf, vals, he, hi, Value.rev]; exact z
          · simp [mix, stateOf, vals, he, hi, Value.rev]
        · simp [mix, stateOf, vals, he, hi]
    · rw [if_neg hd]
  · intro hmir
    have e1 := hmir.2 "e" .energy_source (by decide)
    rw [if_neg (by decide)] at e1
    have e2 : fieldOf st2' "e" .energy_source 4 = fieldOf st' "e" .energy_source 4 := by
      unfold fieldOf
      rw [e1]
    have e3 := low (m := line.mirror) line_ok.mirror line_area h2 (i := 4) (g := 5) (inn := 3) (Target.lower (m := line.mirror) rfl (by decide))
    rw [e2, h4] at e3
    exact lt_irrefl _ e3

/-- `insulating_zero_current_partial` applies to deuterium, and the ions flow into the wall. -/
example : ∃ st', sheathBoundaryInsulating defaults line (names false) (mix 1 2 1 0) = (.ok (), st') ∧
    momentumCurrent defaults (mix 1 2 1 0) st' (names false) true 4 5 = 0 ∧ velocityCurrent (mix 1 2 1 0) st' (names false) true 4 5 = 0 ∧
    0 < face (fieldOf st' "a+" .velocity) 4 5 := by
  obtain ⟨st', h⟩ := mix_runs line 1 2 1 0 false
  have ha : "a+" ∈ names false := by decide
  have hion := mix_ion one_ne_zero 2 1 0 (Or.inl rfl : "a+" = "a+" ∨ "a+" = "b+")
  have hall : ∀ n ∈ names false, IsIon (mix 1 2 1 0) n → n = "a+" := by
    intro n hn hi
    simp only [names, Bool.false_eq_true, if_false, List.mem_cons, List.not_mem_nil, or_false] at hn
    exact hn.resolve_right hi.1
  obtain ⟨p1, p2⟩ := insulating_zero_current_partial line_ok (names_nodup false) h
    (fun n hn hi => by rw [hall n hn hi]; exact hion.2.1) upper_end
  obtain ⟨s1, s2⟩ := mix_sets one_ne_zero (by norm_num : (2:ℝ) ≠ 0) 1 0 false
  obtain ⟨a1, -, -⟩ := mix_values line_ok one_ne_zero zero_le_one h upper_end ha
  obtain ⟨b1, -, -⟩ := mix_values line_ok one_ne_zero zero_le_one h upper_end (s := "e") (by decide)
  refine ⟨st', h, p1 s1 rfl (by rw [mix_mass]; norm_num), p2 (fun n hn hi => ⟨s2 n hn hi, ?_⟩) rfl, ?_⟩
  · rw [hall n hn hi, a1, b1, if_neg (by decide), if_pos rfl]
  · have hv := (insulating_ions line_ok (names_nodup false) h ha hion.1 upper_end).1 rfl
    have hs := (mix_speed line_ok (by norm_num) (by norm_num) (by norm_num) (by norm_num) (by norm_num) h upper_end ha (by decide)).2
    rw [out, if_pos rfl, one_mul] at hv
    rw [hv]; exact hs

/-- `insulating_electrons_never_heated_partial` applies to it. -/
example : ∃ st', sheathBoundaryInsulating defaults line (names false) (mix 1 2 1 0) = (.ok (), st') ∧
    fieldOf st' "e" .energy_source 1 ≤ fieldOf (mix 1 2 1 0) "e" .energy_source 1 := by
  obtain ⟨st', h⟩ := mix_runs line 1 2 1 0 false
  obtain ⟨b1, b2, b3⟩ := mix_values line_ok one_ne_zero zero_le_one h lower_end (s := "e") (by decide)
  obtain ⟨hs, -⟩ := mix_speed line_ok (by norm_num) (by norm_num) (by norm_num) (by norm_num) (by norm_num) h lower_end (s := "a+") (by decide) (by decide)
  have hion := mix_ion one_ne_zero 2 1 0 (Or.inl rfl : "a+" = "a+" ∨ "a+" = "b+")
  refine ⟨st', h, insulating_electrons_never_heated_partial line_ok (names_nodup false) (fun _ => zero_le_one) (fun _ => zero_le_one) h lower_end ?_ ?_ ?_⟩
  · intro n hn hi
    rw [(mix_ion one_ne_zero 2 1 0 ((mem_names hn).resolve_left hi.1)).2.1]
    exact zero_le_one
  · rw [b3, if_pos rfl]; exact zero_le_one
  · rw [overIons_one one_ne_zero, hs, hion.2.1, b2, mix_mass, mul_pow, Real.sq_sqrt (by norm_num)]
    have had : adiabatic (mix 1 2 1 0) "e" = 5 / 3 := rfl
    have hg : defaults.gamma_e = 3.5 := rfl
    rw [had, hg]
    norm_num

end Hermes.SheathInsulating
