import Verif.Lemmas.Sheath

/-!
# Sheath boundary conditions (C35–C39)

Theorems about runs of `SheathBoundary::transform` that end without exception, in terms of the values published
before (`st`) and after (`st'`).
-/

set_option linter.unusedSectionVars false
set_option linter.unusedVariables false

namespace Hermes.Sheath
open Hermes.Closures

variable {ι : Type} [DecidableEq ι]

/-! ## What is read and published -/

/-- Field and number of a species, or a default. -/
def fld (w : Var → Option (Value ι)) (v : Var) (d : Fld ι) : Fld ι := ((w v).bind asField).getD d
def num (w : Var → Option (Value ι)) (v : Var) (d : ℝ) : ℝ := ((w v).bind asReal).getD d

/-- All variables of species `n`. -/
def species (st : Store Key (Value ι)) (n : String) : Var → Option (Value ι) := fun v => vals st (.sp n v)

/-- Ion fields in the cells, with the defaults for variables that are not set. -/
noncomputable def ionCells (w : Var → Option (Value ι)) : ι → ICell := fun i =>
  let N : Fld ι := fun i => floorTo (fld w .density 0 i) 0
  let T := fld w .temperature 0
  let V := fld w .velocity 0
  ⟨N i, T i, fld w .pressure (fun i => N i * T i) i, V i, fld w .momentum (fun i => num w .AA 0 * N i * V i) i⟩

/-- The fields `r` replace those of the species; velocity and momentum only if they were set. -/
structure IonPublished (w w' : Var → Option (Value ι)) (r : (ι → ICell) × Fld ι) : Prop where
  n : w' .density = some (.field fun i => (r.1 i).n)
  t : w' .temperature = some (.field fun i => (r.1 i).t)
  p : w' .pressure = some (.field fun i => (r.1 i).p)
  v : w' .velocity = ifSet (w .velocity) (fun i => (r.1 i).v)
  nv : w' .momentum = ifSet (w .momentum) (fun i => (r.1 i).nv)
  src : w' .energy_source = some (.field r.2)
  other : ∀ x, x ∉ [Var.density, .temperature, .pressure, .velocity, .momentum, .energy_source, .energy_flow_ylow] →
    w' x = w x

theorem publishIons_ok {n : String} {r : (ι → ICell) × Fld ι} {st st' : Store Key (Value ι)} {u : Unit}
    (h : publishIons n r st = (.ok u, st')) :
    IonPublished (species st n) (species st' n) r ∧ vals st' (.sp n .energy_flow_ylow) = vals st (.sp n .energy_flow_ylow) ∧
    ∀ k, (∀ v, k ≠ .sp n v) → vals st' k = vals st k := by
  unfold publishIons at h
  obtain ⟨s1, e1, h⟩ := setBoundary_bind_ok h
  obtain ⟨s2, e2, h⟩ := setBoundary_bind_ok h
  obtain ⟨s3, e3, h⟩ := setBoundary_bind_ok h
  obtain ⟨_, s4, h4, h⟩ := M_bind_ok h
  obtain ⟨_, s5, h5, h⟩ := M_bind_ok h
  have e4 := setBoundaryIfSet_ok h4
  have e5 := setBoundaryIfSet_ok h5
  have e6 := set_ok h
  rw [e1] at e2; rw [e2] at e3; rw [e3] at e4; rw [e4] at e5; rw [e5] at e6
  refine ⟨⟨?_, ?_, ?_, ?_, ?_, ?_, ?_⟩, ?_, ?_⟩
  · show vals st' _ = _; rw [e6]; simp [Function.update_apply]
  · show vals st' _ = _; rw [e6]; simp [Function.update_apply]
  · show vals st' _ = _; rw [e6]; simp [Function.update_apply]
  · show vals st' _ = _; rw [e6]; simp [Function.update_apply, species]
  · show vals st' _ = _; rw [e6]; simp [Function.update_apply, species]
  · show vals st' _ = _; rw [e6]; simp [Function.update_apply]
  · intro x hx
    show vals st' _ = vals st _
    simp only [List.mem_cons, List.not_mem_nil, or_false, not_or] at hx
    rw [e6]
    simp [Function.update_apply, hx]
  · rw [e6]; simp [Function.update_apply]
  · intro k hk
    rw [e6]
    simp [Function.update_apply, hk]

/-- The electron fields `r` replace those of the state. -/
structure ElectronPublished (st st' : Store Key (Value ι)) (r : (ι → ECell) × Fld ι) : Prop where
  n : vals st' (.sp "e" .density) = some (.field fun i => (r.1 i).n)
  t : vals st' (.sp "e" .temperature) = some (.field fun i => (r.1 i).t)
  p : vals st' (.sp "e" .pressure) = some (.field fun i => (r.1 i).p)
  v : vals st' (.sp "e" .velocity) = ifSet (vals st (.sp "e" .velocity)) (fun i => (r.1 i).v)
  nv : vals st' (.sp "e" .momentum) = ifSet (vals st (.sp "e" .momentum)) (fun i => (r.1 i).nv)
  src : vals st' (.sp "e" .energy_source) = some (.field r.2)

/-- The potential after the sheath. -/
def phiPublished (always : Bool) (old : Option (Value ι)) (phi : Fld ι) : Option (Value ι) :=
  if always then some (.field phi) else ifSet old phi

theorem publishElectrons_ok {always : Bool} {r : (ι → ECell) × Fld ι} {st st' : Store Key (Value ι)} {u : Unit}
    (h : publishElectrons always r st = (.ok u, st')) :
    ElectronPublished st st' r ∧
    vals st' (.top "fields:phi") = phiPublished always (vals st (.top "fields:phi")) (fun i => (r.1 i).phi) ∧
    ∀ k, k ∉ [Key.top "fields:phi", .sp "e" .density, .sp "e" .temperature, .sp "e" .pressure, .sp "e" .velocity,
      .sp "e" .momentum, .sp "e" .energy_source] → vals st' k = vals st k := by
  unfold publishElectrons at h
  obtain ⟨s1, e1, h⟩ := setBoundary_bind_ok h
  obtain ⟨s2, e2, h⟩ := setBoundary_bind_ok h
  obtain ⟨s3, e3, h⟩ := setBoundary_bind_ok h
  obtain ⟨s4, e4, h⟩ := set_bind_ok h
  obtain ⟨_, s5, h5, h⟩ := M_bind_ok h
  obtain ⟨_, s6, h6, h⟩ := M_bind_ok h
  have e5 := setBoundaryIfSetNB_ok h5
  have e6 := setBoundaryIfSetNB_ok h6
  rw [e1] at e2; rw [e2] at e3; rw [e3] at e4; rw [e4] at e5; rw [e5] at e6
  have e7 : vals st' = Function.update (vals s6) (.top "fields:phi")
      (phiPublished always (vals s6 (.top "fields:phi")) (fun i => (r.1 i).phi)) := by
    unfold phiPublished
    cases always
    · exact setBoundaryIfSetNB_ok h
    · exact setBoundary_ok h
  rw [e6] at e7
  refine ⟨⟨?_, ?_, ?_, ?_, ?_, ?_⟩, ?_, ?_⟩
  · rw [e7]; simp [Function.update_apply]
  · rw [e7]; simp [Function.update_apply]
  · rw [e7]; simp [Function.update_apply]
  · rw [e7]; simp [Function.update_apply]
  · rw [e7]; simp [Function.update_apply]
  · rw [e7]; simp [Function.update_apply]
  · rw [e7]; simp [Function.update_apply]
  · intro k hk
    simp only [List.mem_cons, List.not_mem_nil, or_false, not_or] at hk
    rw [e7]
    simp [Function.update_apply, hk]

/-! ## Ions -/

/-- Result of the loop body for species `n`. -/
def IonResult (o : SheathOpts ι) (m : YMesh ι) (e : ι → ECell) (n : String) (w w' : Var → Option (Value ι)) : Prop :=
  (n = "e" ∨ num w .charge 0 = 0 → w' = w) ∧
  (n ≠ "e" → num w .charge 0 ≠ 0 → IonPublished w w' (ionSheath o m (num w .charge 0) (num w .AA 0)
    (num w .adiabatic (5 / 3)) e (ionCells w, fld w .energy_source 0)))

theorem ionTransform_ok {o : SheathOpts ι} {m : YMesh ι} {e : ι → ECell} (n : String) (st : Store Key (Value ι)) (u : Unit)
    (st' : Store Key (Value ι)) (h : ionTransform o m e n st = (.ok u, st')) :
    IonResult o m e n (species st n) (species st' n) ∧ ∀ k, (∀ v, k ≠ .sp n v) → vals st' k = vals st k := by
  unfold ionTransform at h
  split at h <;> rename_i hn
  · obtain ⟨_, rfl⟩ := pure_ok h
    exact ⟨⟨fun _ => rfl, fun hne => absurd hn hne⟩, fun _ _ => rfl⟩
  obtain ⟨s1, e1, h⟩ := readReal_bind h
  split at h <;> rename_i hz
  · obtain ⟨_, rfl⟩ := pure_ok h
    refine ⟨⟨fun _ => ?_, fun _ hc => absurd hz hc⟩, fun k _ => by rw [e1]⟩
    unfold species; rw [e1]
  unfold ionTransformCharged at h
  obtain ⟨s2, e2, h⟩ := getR_bind h
  obtain ⟨s3, e3, h⟩ := readReal_bind h
  obtain ⟨s4, e4, h⟩ := getNoBndryF_bind h
  obtain ⟨s5, e5, h⟩ := getNoBndryF_bind h
  obtain ⟨s6, e6, h⟩ := readSet_bind h
  obtain ⟨s7, e7, h⟩ := readSet_bind h
  obtain ⟨s8, e8, h⟩ := readSet_bind h
  obtain ⟨s9, e9, h⟩ := readSource_bind h
  have e2 := e2.trans e1
  have e3 := e3.trans e2
  have e4 := e4.trans e3
  have e5 := e5.trans e4
  have e6 := e6.trans e5
  have e7 := e7.trans e6
  have e8 := e8.trans e7
  have e9 := e9.trans e8
  rw [vals_realOf e1, realOr_congr e2, vals_fieldOf e3, vals_fieldOf e4, fieldOr_congr e5, fieldOr_congr e6,
    fieldOr_congr e7, fieldOr_congr e8] at h
  obtain ⟨h1, h2, h3⟩ := publishIons_ok h
  rw [e9] at h3
  have hs : species s9 n = species st n := by unfold species; rw [e9]
  rw [hs] at h1
  exact ⟨⟨fun hc => (hc.elim (absurd · hn) (absurd · hz)), fun _ _ => h1⟩, h3⟩

/-! ## Electrons -/

/-- Electron fields in the cells, with the defaults for variables that are not set. -/
noncomputable def electronCells (w : Var → Option (Value ι)) (phi : Fld ι) : ι → ECell := fun i =>
  let N : Fld ι := fun i => floorTo (fld w .density 0 i) 0
  let T := fld w .temperature 0
  ⟨N i, T i, fld w .pressure (fun i => T i * N i) i, phi i, fld w .velocity 0 i, fld w .momentum 0 i⟩

/-- Is `n` an ion species? -/
def IsIon (st : Store Key (Value ι)) (n : String) : Prop := n ≠ "e" ∧ num (species st n) .charge 0 ≠ 0

open Classical in
/-- The sum over the ion species of `s_i Z_i C_i`. -/
noncomputable def ionSum (o : SheathOpts ι) (m : YMesh ι) (Ne Te : Fld ι) (st : Store Key (Value ι)) (names : List String) :
    Fld ι :=
  names.foldl (fun s n => if IsIon st n then
    let w := species st n
    ionSumBoth o m (num w .charge 0) (num w .AA 0) (num w .adiabatic (5 / 3)) Ne Te
      (fun i => floorTo (fld w .density 0 i) 0) (fld w .temperature 0) s else s) (fun _ => 0)

theorem ionSumTerm_ok {o : SheathOpts ι} {m : YMesh ι} {Ne Te s y : Fld ι} {n : String} {st st' : Store Key (Value ι)}
    (h : ionSumTerm o m Ne Te s n st = (.ok y, st')) :
    (y = open Classical in if IsIon st n then
      ionSumBoth o m (num (species st n) .charge 0) (num (species st n) .AA 0) (num (species st n) .adiabatic (5 / 3)) Ne Te
      (fun i => floorTo (fld (species st n) .density 0 i) 0) (fld (species st n) .temperature 0) s else s) ∧
    vals st' = vals st := by
  unfold ionSumTerm at h
  split at h <;> rename_i hn
  · obtain ⟨rfl, rfl⟩ := pure_ok h
    rw [if_neg (fun hi => hi.1 hn)]
    exact ⟨rfl, rfl⟩
  obtain ⟨s1, e1, h⟩ := isSetFinal_bind h
  split at h <;> rename_i hc
  · obtain ⟨rfl, rfl⟩ := pure_ok h
    refine ⟨?_, e1⟩
    rw [if_neg]
    intro hi
    have : num (species st n) .charge 0 = 0 := realOr_unset (by simpa using hc)
    exact hi.2 this
  obtain ⟨s2, e2, h⟩ := getR_bind h
  have e2 := e2.trans e1
  rw [vals_realOf e1] at h
  split at h <;> rename_i hz
  · obtain ⟨rfl, rfl⟩ := pure_ok h
    rw [if_neg (fun hi => hi.2 hz)]
    exact ⟨rfl, e2⟩
  · rw [if_pos ⟨hn, hz⟩]
    unfold ionSumRead at h
    obtain ⟨s3, e3, h⟩ := getNoBndryF_bind h
    obtain ⟨s4, e4, h⟩ := getNoBndryF_bind h
    obtain ⟨_, s5, r5, e5, h⟩ := (den_getNoBoundary asReal _).bind_ok h
    obtain ⟨_, s6, r6, e6, h⟩ := (den_getNoBoundary asReal _).bind_ok h
    obtain ⟨s7, e7, h⟩ := readReal_bind h
    have e3 := e3.trans e2
    have e4 := e4.trans e3
    have e5 := e5.trans e4
    have e6 := e6.trans e5
    rw [realOr_read (d := 0) r5, realOr_read (d := 0) r6, vals_fieldOf e2, vals_fieldOf e3, realOr_congr e4,
      realOr_congr e5, realOr_congr e6] at h
    obtain ⟨rfl, rfl⟩ := pure_ok h
    exact ⟨rfl, e7.trans e6⟩

/-- The potential used: the published one, or the one for zero current. -/
noncomputable def phiUsed (o : SheathOpts ι) (m : YMesh ι) (garbage : Fld ι) (names : List String)
    (st : Store Key (Value ι)) : Fld ι :=
  let w := species st "e"
  let Ne : Fld ι := fun i => floorTo (fld w .density 0 i) 0
  let Te := fld w .temperature 0
  fieldOr st (.top "fields:phi")
    (sheathPotentialBoth o m (num w .AA o.electronMass) Te (ionSum o m Ne Te st names) garbage)

theorem sheathPhi_ok {o : SheathOpts ι} {m : YMesh ι} {garbage : Fld ι} {names : List String} {Me : ℝ} {Ne Te y : Fld ι}
    {st st' : Store Key (Value ι)} (h : sheathPhi o m garbage names Me Ne Te st = (.ok y, st')) :
    y = fieldOr st (.top "fields:phi") (sheathPotentialBoth o m Me Te (ionSum o m Ne Te st names) garbage) ∧
    vals st' = vals st := by
  unfold sheathPhi at h
  obtain ⟨s1, e1, h⟩ := isSetFinalNB_bind h
  split at h <;> rename_i hs
  · obtain ⟨h3, h4⟩ := (den_getNoBoundary asField _).ok h
    rw [e1] at h3
    exact ⟨fieldOr_read h3, h4.trans e1⟩
  · obtain ⟨ion_sum, s2, h2, h⟩ := M_bind_ok h
    obtain ⟨rfl, rfl⟩ := pure_ok h
    rw [fieldOr_unset (by simpa using hs)]
    obtain ⟨er, e2⟩ := foldlM_reads (f := ionSumTerm o m Ne Te) (g := fun v s n => open Classical in
      if IsIon (⟨true, fun k => ⟨v k, false, false⟩⟩ : Store Key (Value ι)) n then
      ionSumBoth o m (num (fun x => v (.sp n x)) .charge 0) (num (fun x => v (.sp n x)) .AA 0)
        (num (fun x => v (.sp n x)) .adiabatic (5 / 3)) Ne Te
      (fun i => floorTo (fld (fun x => v (.sp n x)) .density 0 i) 0) (fld (fun x => v (.sp n x)) .temperature 0) s else s)
      (fun x a s y s' hy => by have := ionSumTerm_ok hy; exact this) h2
    refine ⟨?_, e2.trans e1⟩
    rw [er, e1]
    rfl

/-- Electrons after the sheath loops. -/
noncomputable def electronResult (o : SheathOpts ι) (m : YMesh ι) (garbage : Fld ι) (names : List String)
    (st : Store Key (Value ι)) : (ι → ECell) × Fld ι :=
  let w := species st "e"
  electronSheath o m (num w .AA o.electronMass) (num w .adiabatic (5 / 3))
    (electronCells w (phiUsed o m garbage names st), fld w .energy_source 0)

theorem electronTransform_ok {o : SheathOpts ι} {m : YMesh ι} {garbage : Fld ι} {names : List String} {e : ι → ECell}
    {st st' : Store Key (Value ι)} (h : electronTransform o m garbage names st = (.ok e, st')) :
    e = (electronResult o m garbage names st).1 ∧ ElectronPublished st st' (electronResult o m garbage names st) ∧
    vals st' (.top "fields:phi") = phiPublished o.always_set_phi (vals st (.top "fields:phi"))
      (fun i => ((electronResult o m garbage names st).1 i).phi) ∧
    ∀ k, k ∉ [Key.top "fields:phi", .sp "e" .density, .sp "e" .temperature, .sp "e" .pressure, .sp "e" .velocity,
      .sp "e" .momentum, .sp "e" .energy_source] → vals st' k = vals st k := by
  unfold electronTransform at h
  obtain ⟨s1, e1, h⟩ := getNoBndryF_bind h
  obtain ⟨s2, e2, h⟩ := getNoBndryF_bind h
  obtain ⟨s3, e3, h⟩ := readNB_bind h
  obtain ⟨s4, e4, h⟩ := readReal_bind h
  obtain ⟨s5, e5, h⟩ := readReal_bind h
  obtain ⟨s6, e6, h⟩ := readNB_bind h
  obtain ⟨s7, e7, h⟩ := readNB_bind h
  obtain ⟨phi, s8, h8, h⟩ := M_bind_ok h
  obtain ⟨ep, e8⟩ := sheathPhi_ok h8
  obtain ⟨s9, e9, h⟩ := readSource_bind h
  obtain ⟨_, s10, h10, h⟩ := M_bind_ok h
  obtain ⟨rfl, rfl⟩ := pure_ok h
  have e2 := e2.trans e1
  have e3 := e3.trans e2
  have e4 := e4.trans e3
  have e5 := e5.trans e4
  have e6 := e6.trans e5
  have e7 := e7.trans e6
  have e8 := e8.trans e7
  have e9 := e9.trans e8
  have hi : ∀ Ne Te, ionSum o m Ne Te s7 names = ionSum o m Ne Te st names := by
    intro Ne Te
    unfold ionSum IsIon species
    rw [e7]
  rw [hi] at ep
  rw [vals_fieldOf e1, fieldOr_congr e2, realOr_congr e3, realOr_congr e4, fieldOr_congr e5, fieldOr_congr e6,
    fieldOr_congr e8] at h10
  rw [vals_fieldOf e1, fieldOr_congr e7, realOr_congr e4] at ep
  rw [ep] at h10
  obtain ⟨h1, h2, h3⟩ := publishElectrons_ok h10
  have h1 : ElectronPublished s9 st' (electronResult o m garbage names st) := h1
  refine ⟨?_, ⟨h1.n, h1.t, h1.p, ?_, ?_, h1.src⟩, ?_, ?_⟩
  · rw [vals_fieldOf e1, fieldOr_congr e2, realOr_congr e3, realOr_congr e4, fieldOr_congr e5, fieldOr_congr e6,
      fieldOr_congr e8, ep]
    rfl
  · rw [← e9]; exact h1.v
  · rw [← e9]; exact h1.nv
  · rw [← e9]; exact h2
  · rw [← e9]; exact h3

/-- What `SheathBoundary::transform` publishes. -/
theorem sheathBoundary_ok {o : SheathOpts ι} {m : YMesh ι} {garbage : Fld ι} {names : List String} (hn : names.Nodup)
    {st st' : Store Key (Value ι)} (h : sheathBoundary o m garbage names st = (.ok (), st')) :
    ElectronPublished st st' (electronResult o m garbage names st) ∧
    vals st' (.top "fields:phi") = phiPublished o.always_set_phi (vals st (.top "fields:phi"))
      (fun i => ((electronResult o m garbage names st).1 i).phi) ∧
    (∀ n ∈ names, n ≠ "e" → IonResult o m (electronResult o m garbage names st).1 n (species st n) (species st' n)) ∧
    (∀ k, k ∉ [Key.top "fields:phi", .sp "e" .density, .sp "e" .temperature, .sp "e" .pressure, .sp "e" .velocity,
      .sp "e" .momentum, .sp "e" .energy_source] → (∀ n ∈ names, n ≠ "e" → ∀ v, k ≠ .sp n v) → vals st' k = vals st k) := by
  unfold sheathBoundary at h
  obtain ⟨e, s1, h1, h⟩ := M_bind_ok h
  obtain ⟨he, hp, hphi, ho⟩ := electronTransform_ok h1
  obtain ⟨hr, hk⟩ := forM_species (R := fun n w w' => IonResult o m e n w w')
    (fun n s u s' hb => ionTransform_ok n s u s' hb) hn h
  -- the loop over species leaves the electrons alone
  have hek : ∀ v, vals st' (.sp "e" v) = vals s1 (.sp "e" v) := by
    intro v
    by_cases hmem : "e" ∈ names
    · have := (hr "e" hmem).1 (Or.inl rfl)
      exact congrFun this v
    · exact hk _ (fun n hn' v' e' => hmem ((Key.sp.inj e').1 ▸ hn'))
  have hkk : ∀ k, (∀ n ∈ names, n ≠ "e" → ∀ v, k ≠ .sp n v) → vals st' k = vals s1 k := by
    intro k hk'
    by_cases hke : ∃ v, k = .sp "e" v
    · obtain ⟨v, rfl⟩ := hke; exact hek v
    · apply hk
      intro n hn' v e'
      by_cases hne : n = "e"
      · exact hke ⟨v, hne ▸ e'⟩
      · exact hk' n hn' hne v e'
  refine ⟨⟨?_, ?_, ?_, ?_, ?_, ?_⟩, ?_, ?_, ?_⟩
  · rw [hek]; exact hp.n
  · rw [hek]; exact hp.t
  · rw [hek]; exact hp.p
  · rw [hek]; exact hp.v
  · rw [hek]; exact hp.nv
  · rw [hek]; exact hp.src
  · rw [hk _ (by intro n _ v; exact Key.noConfusion)]; exact hphi
  · intro n hn' hne
    have := hr n hn'
    rw [he] at this
    have e2 : (fun v => vals s1 (.sp n v)) = species st n := by
      funext v
      apply ho
      simp [hne]
    rw [e2] at this
    exact this
  · intro k h1 h2
    rw [hkk k h2, ho k h1]

end Hermes.Sheath
