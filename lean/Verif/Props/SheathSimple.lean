import Verif.Props.SheathMirror

/-!
# Sheath boundary conditions (C35–C39): what `SheathBoundarySimple::transform` publishes
-/

set_option linter.unusedSectionVars false
set_option linter.unusedVariables false

namespace Hermes.SheathSimple
open Hermes.Closures Hermes.Sheath

variable {ι : Type} [DecidableEq ι]

/-! ## Loops -/

section
variable {κ : Type} {guard inner flowAt : ι → ι} {f : ι → κ → κ → κ × ℝ × ℝ}

/-- The loop body without the reported flow. -/
def noFlow (f : ι → κ → κ → κ × ℝ × ℝ) : ι → κ → κ → κ × ℝ := fun i c d => ((f i c d).1, (f i c d).2.1)

theorem sweepFlow_cons (a : ι) (pts : List ι) (s : ((ι → κ) × Fld ι) × Fld ι) :
    sweepFlow guard inner flowAt f (a :: pts) s = sweepFlow guard inner flowAt f pts
      ((Function.update s.1.1 (guard a) (f a (s.1.1 a) (s.1.1 (inner a))).1,
        Function.update s.1.2 a (s.1.2 a + (f a (s.1.1 a) (s.1.1 (inner a))).2.1)),
        Function.update s.2 (flowAt a) (s.2 (flowAt a) + (f a (s.1.1 a) (s.1.1 (inner a))).2.2)) := rfl

theorem sweepFlow_fst : ∀ (pts : List ι) (s : ((ι → κ) × Fld ι) × Fld ι),
    (sweepFlow guard inner flowAt f pts s).1 = sweep guard inner (noFlow f) pts s.1
  | [], _ => rfl
  | a :: l, s => by
    rw [sweepFlow_cons, sweepFlow_fst l, sweep_cons]
    rfl

theorem sweepFlow_other {j : ι} : ∀ {pts : List ι} {s : ((ι → κ) × Fld ι) × Fld ι}, (∀ a ∈ pts, flowAt a ≠ j) →
    (sweepFlow guard inner flowAt f pts s).2 j = s.2 j
  | [], _, _ => rfl
  | a :: l, s, h => by
    rw [sweepFlow_cons, sweepFlow_other fun b hb => h b (List.mem_cons_of_mem _ hb)]
    exact Function.update_of_ne (h a List.mem_cons_self).symm _ _

theorem sweepFlow_hit {i : ι} : ∀ {pts : List ι} {s : ((ι → κ) × Fld ι) × Fld ι}, EndOk guard inner pts →
    (∀ a ∈ pts, ∀ b ∈ pts, flowAt a = flowAt b → a = b) → i ∈ pts →
    (sweepFlow guard inner flowAt f pts s).2 (flowAt i) = s.2 (flowAt i) + (f i (s.1.1 i) (s.1.1 (inner i))).2.2
  | a :: l, s, h, hinj, hi => by
    rw [sweepFlow_cons]
    rcases List.mem_cons.1 hi with rfl | hi'
    · rw [sweepFlow_other]
      · exact Function.update_self _ _ _
      · intro b hb e
        have := hinj b (List.mem_cons_of_mem _ hb) i hi e
        exact h.notMem (this ▸ hb)
    · rw [sweepFlow_hit h.tail (fun x hx y hy => hinj x (List.mem_cons_of_mem _ hx) y (List.mem_cons_of_mem _ hy)) hi']
      dsimp only
      have hne : i ≠ a := by rintro rfl; exact h.notMem hi'
      rw [Function.update_of_ne (h.last a List.mem_cons_self i hi).symm,
        Function.update_of_ne (h.inner a List.mem_cons_self i hi).symm,
        Function.update_of_ne (fun e => hne (hinj i hi a List.mem_cons_self e))]

end

/-- Loops over both ends which report a flow. -/
def bothEndsFlow {κ : Type} (m : YMesh ι) (lo up : Bool) (fl fu : ι → κ → κ → κ × ℝ × ℝ) (s : ((ι → κ) × Fld ι) × Fld ι) :
    ((ι → κ) × Fld ι) × Fld ι :=
  let a := if lo then sweepFlow m.ym m.yp id fl m.lower s else s
  if up then sweepFlow m.yp m.ym m.yp fu m.upper a else a

section
variable {κ : Type} {m : YMesh ι} {lo up : Bool} {fl fu : ι → κ → κ → κ × ℝ × ℝ} {s : ((ι → κ) × Fld ι) × Fld ι}

theorem bothEndsFlow_fst : (bothEndsFlow m lo up fl fu s).1 = bothEnds m lo up (noFlow fl) (noFlow fu) s.1 := by
  unfold bothEndsFlow bothEnds
  cases lo <;> cases up <;> simp only [if_true, Bool.false_eq_true, if_false, sweepFlow_fst]

/-- The flow is reported at the face between the last cell and the guard cell: the lower face of the last cell at the
lower end, of the guard cell at the upper end. -/
theorem bothEndsFlow_target {u : Bool} {i g inn : ι} (hm : MeshOk m) (h : Target m lo up u i g inn) :
    (bothEndsFlow m lo up fl fu s).2 (if u then g else i) = s.2 (if u then g else i) +
      ((if u then fu else fl) i (s.1.1 i) (s.1.1 inn)).2.2 := by
  cases h with
  | lower e hi =>
    subst e
    unfold bothEndsFlow
    simp only [if_true, Bool.false_eq_true, if_false]
    have h1 := sweepFlow_hit (flowAt := id) (f := fl) (s := s) hm.lower (fun _ _ _ _ e => e) hi
    cases up
    · exact h1
    · simp only [if_true]
      rw [sweepFlow_other]
      · exact h1
      · intro a ha e
        exact (hm.sep (m.yp a) (List.mem_append_right _ (List.mem_map_of_mem ha))).1 (e ▸ hi)
  | upper e hi =>
    subst e
    unfold bothEndsFlow
    simp only [if_true]
    have h1 := fun s => sweepFlow_hit (flowAt := m.yp) (f := fu) (s := s) hm.upper (fun a ha b hb e => hm.upper.guard_inj ha hb e) hi
    rw [h1]
    cases lo
    · rfl
    · simp only [if_true]
      have h2 : i ∉ m.lower.map m.ym := fun hj => (hm.sep i (List.mem_append_left _ hj)).2.1 hi
      have h3 : m.ym i ∉ m.lower.map m.ym := fun hj =>
        (hm.sep _ (List.mem_append_left _ hj)).2.2.2 (List.mem_map_of_mem hi)
      rw [sweepFlow_fst, sweep_other h2, sweep_other h3, sweepFlow_other]
      intro a ha e
      exact (hm.sep (m.yp i) (List.mem_append_right _ (List.mem_map_of_mem hi))).1 (e ▸ ha)

end

/-! ## Publishing -/

theorem publishElectrons_ok {always : Bool} {r : ((ι → ECell) × Fld ι) × Fld ι} {st st' : Store Key (Value ι)} {u : Unit}
    (h : simplePublishElectrons always r st = (.ok u, st')) :
    ElectronPublished st st' r.1 ∧
    vals st' (.top "fields:phi") = phiPublished always (vals st (.top "fields:phi")) (fun i => (r.1.1 i).phi) ∧
    vals st' (.sp "e" .energy_flow_ylow) = addVal (.field r.2) (vals st (.sp "e" .energy_flow_ylow)) ∧
    ∀ k, k ∉ [Key.top "fields:phi", .sp "e" .density, .sp "e" .temperature, .sp "e" .pressure, .sp "e" .velocity,
      .sp "e" .momentum, .sp "e" .energy_source, .sp "e" .energy_flow_ylow] → vals st' k = vals st k := by
  unfold simplePublishElectrons at h
  obtain ⟨s1, e1, h⟩ := setBoundary_bind_ok h
  obtain ⟨s2, e2, h⟩ := setBoundary_bind_ok h
  obtain ⟨s3, e3, h⟩ := setBoundary_bind_ok h
  obtain ⟨s4, e4, h⟩ := set_bind_ok h
  obtain ⟨_, s4', h4', h⟩ := M_bind_ok h
  obtain ⟨_, e4'⟩ := add_ok h4'
  obtain ⟨_, s5, h5, h⟩ := M_bind_ok h
  obtain ⟨_, s6, h6, h⟩ := M_bind_ok h
  have e5 := setBoundaryIfSetNB_ok h5
  have e6 := setBoundaryIfSetNB_ok h6
  rw [e1] at e2; rw [e2] at e3; rw [e3] at e4; rw [e4] at e4'; rw [e4'] at e5; rw [e5] at e6
  have e7 : vals st' = Function.update (vals s6) (.top "fields:phi")
      (phiPublished always (vals s6 (.top "fields:phi")) (fun i => (r.1.1 i).phi)) := by
    unfold phiPublished
    cases always
    · exact setBoundaryIfSet_ok h
    · exact setBoundary_ok h
  rw [e6] at e7
  refine ⟨⟨?_, ?_, ?_, ?_, ?_, ?_⟩, ?_, ?_, ?_⟩
  · rw [e7]; simp [Function.update_apply]
  · rw [e7]; simp [Function.update_apply]
  · rw [e7]; simp [Function.update_apply]
  · rw [e7]; simp [Function.update_apply]
  · rw [e7]; simp [Function.update_apply]
  · rw [e7]; simp [Function.update_apply]
  · rw [e7]; simp [Function.update_apply]
  · rw [e7]; simp [Function.update_apply]
  · intro k hk
    simp only [List.mem_cons, List.not_mem_nil, or_false, not_or] at hk
    rw [e7]
    simp [Function.update_apply, hk]

theorem publishIons_ok {n : String} {r : ((ι → ICell) × Fld ι) × Fld ι} {st st' : Store Key (Value ι)} {u : Unit}
    (h : simplePublishIons n r st = (.ok u, st')) :
    IonPublished (species st n) (species st' n) r.1 ∧
    vals st' (.sp n .energy_flow_ylow) = addVal (.field r.2) (vals st (.sp n .energy_flow_ylow)) ∧
    ∀ k, (∀ v, k ≠ .sp n v) → vals st' k = vals st k := by
  unfold simplePublishIons at h
  obtain ⟨_, s1, h1, h⟩ := M_bind_ok h
  obtain ⟨_, e2⟩ := add_ok h
  obtain ⟨h1, h2, h3⟩ := Sheath.publishIons_ok h1
  have hs : ∀ v, v ≠ .energy_flow_ylow → species st' n v = species s1 n v := by
    intro v hv
    unfold species
    rw [e2, Function.update_of_ne]
    intro e
    exact hv (Key.sp.inj e).2
  refine ⟨⟨?_, ?_, ?_, ?_, ?_, ?_, ?_⟩, ?_, ?_⟩
  · rw [hs _ (by decide)]; exact h1.n
  · rw [hs _ (by decide)]; exact h1.t
  · rw [hs _ (by decide)]; exact h1.p
  · rw [hs _ (by decide)]; exact h1.v
  · rw [hs _ (by decide)]; exact h1.nv
  · rw [hs _ (by decide)]; exact h1.src
  · intro x hx
    rw [hs x (by rintro rfl; exact hx (by decide))]
    exact h1.other x hx
  · rw [e2, Function.update_self, h2]
  · intro k hk
    rw [e2, Function.update_of_ne (hk _)]
    exact h3 k hk

/-! ## Ions -/

/-- Result of the loop body for species `n`. -/
def IonResult (o : SimpleOpts ι) (m : YMesh ι) (e : ι → ECell) (n : String) (w w' : Var → Option (Value ι)) : Prop :=
  (n = "e" ∨ num w .charge 0 = 0 → w' = w) ∧
  (n ≠ "e" → num w .charge 0 ≠ 0 →
    let r := simpleIonSheath o m (num w .charge 0) (num w .AA 0) e ((ionCells w, fld w .energy_source 0), fun _ => 0)
    IonPublished w w' r.1 ∧ w' .energy_flow_ylow = addVal (.field r.2) (w .energy_flow_ylow))

theorem ionTransform_ok {o : SimpleOpts ι} {m : YMesh ι} {e : ι → ECell} (n : String) (st : Store Key (Value ι)) (u : Unit)
    (st' : Store Key (Value ι)) (h : simpleIonTransform o m e n st = (.ok u, st')) :
    IonResult o m e n (species st n) (species st' n) ∧ ∀ k, (∀ v, k ≠ .sp n v) → vals st' k = vals st k := by
  unfold simpleIonTransform at h
  split at h <;> rename_i hn
  · obtain ⟨_, rfl⟩ := pure_ok h
    exact ⟨⟨fun _ => rfl, fun hne => absurd hn hne⟩, fun _ _ => rfl⟩
  obtain ⟨s1, e1, h⟩ := readRealIfSet_bind h
  split at h <;> rename_i hz
  · obtain ⟨_, rfl⟩ := pure_ok h
    refine ⟨⟨fun _ => ?_, fun _ hc => absurd hz hc⟩, fun k _ => by rw [e1]⟩
    unfold species; rw [e1]
  unfold simpleIonTransformCharged at h
  obtain ⟨s2, e2, h⟩ := getR_bind h
  obtain ⟨s4, e4, h⟩ := getNoBndryF_bind h
  obtain ⟨s5, e5, h⟩ := getNoBndryF_bind h
  obtain ⟨s6, e6, h⟩ := readSet_bind h
  obtain ⟨s7, e7, h⟩ := readSet_bind h
  obtain ⟨s8, e8, h⟩ := readSet_bind h
  obtain ⟨s9, e9, h⟩ := readSource_bind h
  have e2 := e2.trans e1
  have e4 := e4.trans e2
  have e5 := e5.trans e4
  have e6 := e6.trans e5
  have e7 := e7.trans e6
  have e8 := e8.trans e7
  have e9 := e9.trans e8
  rw [vals_realOf e1, vals_fieldOf e2, vals_fieldOf e4, fieldOr_congr e5, fieldOr_congr e6,
    fieldOr_congr e7, fieldOr_congr e8] at h
  obtain ⟨h1, h2, h3⟩ := publishIons_ok h
  rw [e9] at h3 h2
  have hs : species s9 n = species st n := by unfold species; rw [e9]
  rw [hs] at h1
  exact ⟨⟨fun hc => (hc.elim (absurd · hn) (absurd · hz)), fun _ _ => ⟨h1, h2⟩⟩, h3⟩

/-! ## Electrons -/

open Classical in
/-- The ion current used for the potential. -/
noncomputable def ionSum (o : SimpleOpts ι) (m : YMesh ι) (Te : Fld ι) (st : Store Key (Value ι)) (names : List String) :
    Fld ι :=
  names.foldl (fun s n => if IsIon st n then
    let w := species st n
    simpleIonSumBoth o m (num w .charge 0) (num w .AA 0) Te (fld w .density 0) (fld w .temperature 0) (fld w .velocity 0) s
    else s) (fun _ => 0)

theorem ionSumTerm_ok {o : SimpleOpts ι} {m : YMesh ι} {Te s y : Fld ι} {n : String} {st st' : Store Key (Value ι)}
    (h : simpleIonSumTerm o m Te s n st = (.ok y, st')) :
    (y = open Classical in if IsIon st n then
      simpleIonSumBoth o m (num (species st n) .charge 0) (num (species st n) .AA 0) Te (fld (species st n) .density 0)
        (fld (species st n) .temperature 0) (fld (species st n) .velocity 0) s else s) ∧
    vals st' = vals st := by
  unfold simpleIonSumTerm at h
  split at h <;> rename_i hn
  · obtain ⟨rfl, rfl⟩ := pure_ok h
    rw [if_neg (fun hi => hi.1 hn)]
    exact ⟨rfl, rfl⟩
  have h := isSet_bind h
  split at h <;> rename_i hc
  · obtain ⟨rfl, rfl⟩ := pure_ok h
    refine ⟨?_, rfl⟩
    rw [if_neg]
    intro hi
    have : num (species st' n) .charge 0 = 0 := realOr_unset (by simpa using hc)
    exact hi.2 this
  obtain ⟨s2, e2, h⟩ := getR_bind h
  split at h <;> rename_i hz
  · obtain ⟨rfl, rfl⟩ := pure_ok h
    rw [if_neg (fun hi => hi.2 hz)]
    exact ⟨rfl, e2⟩
  · rw [if_pos ⟨hn, hz⟩]
    unfold simpleIonSumRead at h
    obtain ⟨s3, e3, h⟩ := getNoBndryF_bind h
    obtain ⟨s4, e4, h⟩ := getNoBndryF_bind h
    obtain ⟨_, s5, r5, e5, h⟩ := (den_getNoBoundary asReal _).bind_ok h
    obtain ⟨_, s6, r6, e6, h⟩ := (den_getNoBoundary asReal _).bind_ok h
    obtain ⟨s7, e7, h⟩ := readSet_bind h
    have e3 := e3.trans e2
    have e4 := e4.trans e3
    have e5 := e5.trans e4
    have e6 := e6.trans e5
    rw [realOr_read (d := 0) r5, realOr_read (d := 0) r6, vals_fieldOf e2, vals_fieldOf e3, realOr_congr e4,
      realOr_congr e5, fieldOr_congr e6] at h
    obtain ⟨rfl, rfl⟩ := pure_ok h
    exact ⟨rfl, e7.trans e6⟩

/-- The potential used: the published one, or the one for zero current. -/
noncomputable def phiUsed (o : SimpleOpts ι) (m : YMesh ι) (garbage : Fld ι) (names : List String)
    (st : Store Key (Value ι)) : Fld ι :=
  let w := species st "e"
  let Ne : Fld ι := fun i => floorTo (fld w .density 0 i) 0
  let Te := fld w .temperature 0
  fieldOr st (.top "fields:phi")
    (simplePotentialBoth o m (num w .AA o.electronMass) Ne Te (ionSum o m Te st names) garbage)

theorem simplePhi_ok {o : SimpleOpts ι} {m : YMesh ι} {garbage : Fld ι} {names : List String} {Me : ℝ} {Ne Te y : Fld ι}
    {st st' : Store Key (Value ι)} (h : simplePhi o m garbage names Me Ne Te st = (.ok y, st')) :
    y = fieldOr st (.top "fields:phi") (simplePotentialBoth o m Me Ne Te (ionSum o m Te st names) garbage) ∧
    vals st' = vals st := by
  unfold simplePhi at h
  obtain ⟨s1, e1, h⟩ := isSetFinalNB_bind h
  split at h <;> rename_i hs
  · obtain ⟨h3, h4⟩ := (den_getNoBoundary asField _).ok h
    rw [e1] at h3
    exact ⟨fieldOr_read h3, h4.trans e1⟩
  · obtain ⟨ion_sum, s2, h2, h⟩ := M_bind_ok h
    obtain ⟨rfl, rfl⟩ := pure_ok h
    rw [fieldOr_unset (by simpa using hs)]
    obtain ⟨er, e2⟩ := foldlM_reads (f := simpleIonSumTerm o m Te) (g := fun v s n => open Classical in
      if IsIon (⟨true, fun k => ⟨v k, false, false⟩⟩ : Store Key (Value ι)) n then
      simpleIonSumBoth o m (num (fun x => v (.sp n x)) .charge 0) (num (fun x => v (.sp n x)) .AA 0) Te
        (fld (fun x => v (.sp n x)) .density 0) (fld (fun x => v (.sp n x)) .temperature 0)
        (fld (fun x => v (.sp n x)) .velocity 0) s else s)
      (fun x a s y s' hy => by have := ionSumTerm_ok hy; exact this) h2
    refine ⟨?_, e2.trans e1⟩
    rw [er, e1]
    rfl

/-- Electrons after the sheath loops. -/
noncomputable def electronResult (o : SimpleOpts ι) (m : YMesh ι) (garbage : Fld ι) (names : List String)
    (st : Store Key (Value ι)) : ((ι → ECell) × Fld ι) × Fld ι :=
  let w := species st "e"
  simpleElectronSheath o m (num w .AA o.electronMass)
    ((electronCells w (phiUsed o m garbage names st), fld w .energy_source 0), fun _ => 0)

theorem electronTransform_ok {o : SimpleOpts ι} {m : YMesh ι} {garbage : Fld ι} {names : List String} {e : ι → ECell}
    {st st' : Store Key (Value ι)} (h : simpleElectronTransform o m garbage names st = (.ok e, st')) :
    e = (electronResult o m garbage names st).1.1 ∧ ElectronPublished st st' (electronResult o m garbage names st).1 ∧
    vals st' (.top "fields:phi") = phiPublished o.always_set_phi (vals st (.top "fields:phi"))
      (fun i => ((electronResult o m garbage names st).1.1 i).phi) ∧
    vals st' (.sp "e" .energy_flow_ylow) = addVal (.field (electronResult o m garbage names st).2) (vals st (.sp "e" .energy_flow_ylow)) ∧
    ∀ k, k ∉ [Key.top "fields:phi", .sp "e" .density, .sp "e" .temperature, .sp "e" .pressure, .sp "e" .velocity,
      .sp "e" .momentum, .sp "e" .energy_source, .sp "e" .energy_flow_ylow] → vals st' k = vals st k := by
  unfold simpleElectronTransform at h
  obtain ⟨s1, e1, h⟩ := getNoBndryF_bind h
  obtain ⟨s2, e2, h⟩ := getNoBndryF_bind h
  obtain ⟨s3, e3, h⟩ := readNB_bind h
  obtain ⟨s5, e5, h⟩ := readReal_bind h
  obtain ⟨s6, e6, h⟩ := readNB_bind h
  obtain ⟨s7, e7, h⟩ := readNB_bind h
  obtain ⟨phi, s8, h8, h⟩ := M_bind_ok h
  obtain ⟨ep, e8⟩ := simplePhi_ok h8
  obtain ⟨s9, e9, h⟩ := readSource_bind h
  obtain ⟨_, s10, h10, h⟩ := M_bind_ok h
  obtain ⟨rfl, rfl⟩ := pure_ok h
  have e2 := e2.trans e1
  have e3 := e3.trans e2
  have e5 := e5.trans e3
  have e6 := e6.trans e5
  have e7 := e7.trans e6
  have e8 := e8.trans e7
  have e9 := e9.trans e8
  have hi : ∀ Te, ionSum o m Te s7 names = ionSum o m Te st names := by
    intro Te
    unfold ionSum IsIon species
    rw [e7]
  rw [hi] at ep
  rw [vals_fieldOf e1, fieldOr_congr e2, realOr_congr e3, fieldOr_congr e5, fieldOr_congr e6,
    fieldOr_congr e8] at h10
  rw [vals_fieldOf e1, fieldOr_congr e7, realOr_congr e3] at ep
  rw [ep] at h10
  obtain ⟨h1, h2, hf, h3⟩ := publishElectrons_ok h10
  have h1 : ElectronPublished s9 st' (electronResult o m garbage names st).1 := h1
  refine ⟨?_, ⟨h1.n, h1.t, h1.p, ?_, ?_, h1.src⟩, ?_, ?_, ?_⟩
  · rw [vals_fieldOf e1, fieldOr_congr e2, realOr_congr e3, fieldOr_congr e5, fieldOr_congr e6,
      fieldOr_congr e8, ep]
    rfl
  · rw [← e9]; exact h1.v
  · rw [← e9]; exact h1.nv
  · rw [← e9]; exact h2
  · rw [← e9]; exact hf
  · rw [← e9]; exact h3

/-- What `SheathBoundarySimple::transform` publishes. -/
theorem sheathBoundarySimple_ok {o : SimpleOpts ι} {m : YMesh ι} {garbage : Fld ι} {names : List String} (hn : names.Nodup)
    {st st' : Store Key (Value ι)} (h : sheathBoundarySimple o m garbage names st = (.ok (), st')) :
    (ElectronPublished st st' (electronResult o m garbage names st).1 ∧
      vals st' (.sp "e" .energy_flow_ylow) = addVal (.field (electronResult o m garbage names st).2) (vals st (.sp "e" .energy_flow_ylow))) ∧
    vals st' (.top "fields:phi") = phiPublished o.always_set_phi (vals st (.top "fields:phi"))
      (fun i => ((electronResult o m garbage names st).1.1 i).phi) ∧
    (∀ n ∈ names, n ≠ "e" → IonResult o m (electronResult o m garbage names st).1.1 n (species st n) (species st' n)) ∧
    (∀ k, k ∉ [Key.top "fields:phi", .sp "e" .density, .sp "e" .temperature, .sp "e" .pressure, .sp "e" .velocity,
      .sp "e" .momentum, .sp "e" .energy_source, .sp "e" .energy_flow_ylow] →
      (∀ n ∈ names, n ≠ "e" → ∀ v, k ≠ .sp n v) → vals st' k = vals st k) := by
  unfold sheathBoundarySimple at h
  obtain ⟨e, s1, h1, h⟩ := M_bind_ok h
  obtain ⟨he, hp, hphi, hf, ho⟩ := electronTransform_ok h1
  obtain ⟨hr, hk⟩ := forM_species (R := fun n w w' => IonResult o m e n w w')
    (fun n s u s' hb => ionTransform_ok n s u s' hb) hn h
  -- the loop over species leaves the electrons alone
  have hek : ∀ v, vals st' (.sp "e" v) = vals s1 (.sp "e" v) := by
    intro v
    by_cases hmem : "e" ∈ names
    · have := (hr "e" hmem).1 (Or.inl rfl)
      exact congrFun this v
    · exact hk _ (fun n hn' v' e' => hmem ((Key.sp.inj e').1 ▸ hn'))
  have hkk : ∀ k, (∀ n ∈ names, n ≠ "e" → ∀ v, k ≠ .sp n v) → vals st' k = vals s1 k := by
    intro k hk'
    by_cases hke : ∃ v, k = .sp "e" v
    · obtain ⟨v, rfl⟩ := hke; exact hek v
    · apply hk
      intro n hn' v e'
      by_cases hne : n = "e"
      · exact hke ⟨v, hne ▸ e'⟩
      · exact hk' n hn' hne v e'
  refine ⟨⟨⟨?_, ?_, ?_, ?_, ?_, ?_⟩, ?_⟩, ?_, ?_, ?_⟩
  · rw [hek]; exact hp.n
  · rw [hek]; exact hp.t
  · rw [hek]; exact hp.p
  · rw [hek]; exact hp.v
  · rw [hek]; exact hp.nv
  · rw [hek]; exact hp.src
  · rw [hek]; exact hf
  · rw [hk _ (by intro n _ v; exact Key.noConfusion)]; exact hphi
  · intro n hn' hne
    have := hr n hn'
    rw [he] at this
    have e2 : (fun v => vals s1 (.sp n v)) = species st n := by
      funext v
      apply ho
      simp [hne]
    rw [e2] at this
    exact this
  · intro k h1 h2
    rw [hkk k h2, ho k h1]

end Hermes.SheathSimple
