import Verif.Props.SheathSimpleCurrent
import Verif.Props.SheathExamples

/-!
# Runs of `SheathBoundarySimple`; guard values that increase or are negative (C35) and ions that are heated (C37)
-/

set_option linter.unusedSimpArgs false
set_option linter.unusedSectionVars false

namespace Hermes.Sheath

variable {ι : Type} {names : List String} {req : Key → Prop}

theorem safe_addFlow {s : String} (hs : s ∈ "e" :: names) (f : Fld ι) :
    Safe names req (add (.sp s Var.energy_flow_ylow) (.field f)) := by
  intro st h
  unfold add
  cases hv : (st.ent (.sp s Var.energy_flow_ylow)).val with
  | none => exact safe_setSource (by decide) hs f st h
  | some x =>
    cases x with
    | real y => exact safe_setSource (by decide) hs _ st h
    | field y => exact safe_setSource (by decide) hs _ st h

theorem safe_readRealIfSet {s : String} {v : Var} (hv : v ∈ [Var.AA, .charge, .adiabatic]) (d : ℝ) :
    Safe (ι := ι) names req (readRealIfSet (.sp s v) d) :=
  Safe.ifSet test_isSet (Safe.pure d) (safe_getReal hv (Or.inr rfl))

variable [DecidableEq ι]

theorem safe_simplePublishElectrons (always : Bool) (r : ((ι → ECell) × Fld ι) × Fld ι) :
    Safe names req (simplePublishElectrons always r) := by
  have he : "e" ∈ "e" :: names := List.mem_cons_self
  exact Safe.bind (safe_setBoundary (by decide) he _) fun _ => Safe.bind (safe_setBoundary (by decide) he _) fun _ =>
    Safe.bind (safe_setBoundary (by decide) he _) fun _ => Safe.bind (safe_setSource (by decide) he _) fun _ =>
    Safe.bind (safe_addFlow he _) fun _ =>
    Safe.bind (safe_setBoundaryIfSetNB (by decide) he _) fun _ =>
    Safe.bind (safe_setBoundaryIfSetNB (by decide) he _) fun _ =>
    Safe.ite (fun _ => safe_setPhi _) fun _ =>
    Safe.bind safe_isSet fun _ => Safe.ite (fun _ => safe_setPhi _) fun _ => Safe.pure _

theorem safe_simpleIonSumTerm (o : SimpleOpts ι) (m : YMesh ι) (Te s : Fld ι) {n : String} (hn : n ∈ names) :
    Safe names (sheathInputs names) (simpleIonSumTerm o m Te s n) := by
  refine Safe.ite (fun _ => Safe.pure _) fun hne => Safe.branch (Safe.ifSet test_isSet (Safe.pure _) ?_)
  have he : n ∈ "e" :: names := List.mem_cons_of_mem _ hn
  refine Safe.bind (safe_getReal (by decide) (Or.inr rfl)) fun Z => Safe.ite (fun _ => Safe.pure _) fun _ => ?_
  exact Safe.bind (safe_getNB (interior_sp (by decide)) (Or.inl (Or.inl ⟨n, he, Or.inl rfl⟩))) fun _ =>
    Safe.bind (safe_getNB (interior_sp (by decide)) (Or.inl (Or.inl ⟨n, he, Or.inr rfl⟩))) fun _ =>
    Safe.bind (safe_getRealNB (by decide) (Or.inl (Or.inr ⟨n, hn, hne, rfl⟩))) fun _ =>
    Safe.bind (safe_getRealNB (by decide) (Or.inr rfl)) fun _ =>
    Safe.bind (safe_readSet (interior_sp (by decide)) _) fun _ => Safe.pure _

theorem safe_simpleElectronTransform (o : SimpleOpts ι) (m : YMesh ι) (garbage : Fld ι) :
    Safe names (sheathInputs names) (simpleElectronTransform o m garbage names) := by
  have he : "e" ∈ "e" :: names := List.mem_cons_self
  have hφ : ∀ Me Ne Te, Safe names (sheathInputs names) (simplePhi o m garbage names Me Ne Te) := fun Me Ne Te =>
    Safe.ifSet (test_isSetNB interior_top)
      (Safe.bind (Safe.foldlM names (fun n hn a => safe_simpleIonSumTerm o m Te a hn) _) fun _ => Safe.pure _)
      (safe_getNB interior_top (Or.inr rfl))
  exact Safe.bind (safe_getNB (interior_sp (by decide)) (Or.inl ⟨"e", he, Or.inl rfl⟩)) fun _ =>
    Safe.bind (safe_getNB (interior_sp (by decide)) (Or.inl ⟨"e", he, Or.inr rfl⟩)) fun _ =>
    Safe.bind (safe_readNB (interior_sp (by decide)) _) fun _ => Safe.bind (safe_readReal (by decide) _) fun _ =>
    Safe.bind (safe_readNB (interior_sp (by decide)) _) fun _ => Safe.bind (safe_readNB (interior_sp (by decide)) _) fun _ =>
    Safe.bind (hφ _ _ _) fun _ =>
    Safe.bind safe_readSource fun _ => Safe.bind (safe_simplePublishElectrons _ _) fun _ => Safe.pure _

theorem safe_simpleIonTransform (o : SimpleOpts ι) (m : YMesh ι) (e : ι → ECell) {n : String} (hn : n ∈ names) :
    Safe names (sheathInputs names) (simpleIonTransform o m e n) := by
  have he : n ∈ "e" :: names := List.mem_cons_of_mem _ hn
  refine Safe.ite (fun _ => Safe.pure _) fun hne => Safe.bind (safe_readRealIfSet (by decide) _) fun Z =>
    Safe.ite (fun _ => Safe.pure _) fun _ => ?_
  exact Safe.bind (safe_getReal (by decide) (Or.inr ⟨n, hn, hne, rfl⟩)) fun _ =>
    Safe.bind (safe_getNB (interior_sp (by decide)) (Or.inl ⟨n, he, Or.inl rfl⟩)) fun _ =>
    Safe.bind (safe_getNB (interior_sp (by decide)) (Or.inl ⟨n, he, Or.inr rfl⟩)) fun _ =>
    Safe.bind (safe_readSet (interior_sp (by decide)) _) fun _ => Safe.bind (safe_readSet (interior_sp (by decide)) _) fun _ =>
    Safe.bind (safe_readSet (interior_sp (by decide)) _) fun _ => Safe.bind safe_readSource fun _ =>
    Safe.bind (safe_publishIons hn _) fun _ => safe_addFlow he _

/-- The component ends normally in every state in which density and temperature of all species and the mass of the ions
are set, and no variable has been read in a way that forbids setting its guard cells. -/
theorem sheathBoundarySimple_runs (o : SimpleOpts ι) (m : YMesh ι) (garbage : Fld ι) {st : Store Key (Value ι)}
    (h : Ready names (sheathInputs names) st) : ∃ st', sheathBoundarySimple o m garbage names st = (.ok (), st') := by
  obtain ⟨_, st', h1, _⟩ := Safe.bind (safe_simpleElectronTransform o m garbage)
    (fun e => Safe.forM names fun n hn => safe_simpleIonTransform o m e hn) st h
  exact ⟨st', h1⟩

end Hermes.Sheath

namespace Hermes.SheathSimple
open Hermes.Closures Hermes.Sheath

/-- The default settings, with given extrapolation of the density. -/
noncomputable def defaults (mode : BMode) : SimpleOpts (Fin 6) where
  Ge := 0
  gamma_e := 3.5
  gamma_i := 3.5
  sheath_ion_polytropic := 1
  lower_y := true
  upper_y := true
  always_set_phi := false
  no_flow := false
  wall _ := 0
  density_mode := mode
  temperature_mode := .exponential
  pressure_mode := .exponential
  electronMass := 1 / 1836

/-- Electrons with temperature `te` and deuterium ions with temperature `ti`. -/
def twoTemp (n te ti : Fin 6 → ℝ) : Store Key (Value (Fin 6)) := stateOf fun s v =>
  if s = "e" then
    match v with
    | .density => some (.field n)
    | .temperature => some (.field te)
    | .velocity => some (.field fun _ => 0)
    | _ => none
  else if s = "d+" then
    match v with
    | .AA => some (.real 2)
    | .charge => some (.real 1)
    | .density => some (.field n)
    | .temperature => some (.field ti)
    | .velocity => some (.field fun _ => 0)
    | _ => none
  else none

theorem twoTemp_ion (n te ti : Fin 6 → ℝ) : IsIon (twoTemp n te ti) "d+" := ⟨by decide, one_ne_zero⟩

theorem twoTemp_ready (n te ti : Fin 6 → ℝ) : Ready ["d+", "e"] (sheathInputs ["d+", "e"]) (twoTemp n te ti) := by
  refine ⟨?_, ?_, fun _ _ _ _ => rfl, rfl, fun _ _ _ _ => ⟨rfl, rfl⟩⟩
  · intro s v hv x hx
    simp only [List.mem_cons, List.not_mem_nil, or_false] at hv
    by_cases he : s = "e"
    · subst he
      rcases hv with rfl | rfl | rfl <;> exact absurd hx (by simp [twoTemp, stateOf, vals])
    · by_cases hd : s = "d+"
      · subst hd
        rcases hv with rfl | rfl | rfl
        · exact ⟨2, by simpa [twoTemp, stateOf, vals] using hx.symm⟩
        · exact ⟨1, by simpa [twoTemp, stateOf, vals] using hx.symm⟩
        · exact absurd hx (by simp [twoTemp, stateOf, vals])
      · exact absurd hx (by simp [twoTemp, stateOf, vals, he, hd])
  · rintro k (⟨s, hs, rfl | rfl⟩ | ⟨s, hs, hne, rfl⟩)
    · simp only [List.mem_cons, List.not_mem_nil, or_false] at hs
      rcases hs with rfl | rfl | rfl <;> rfl
    · simp only [List.mem_cons, List.not_mem_nil, or_false] at hs
      rcases hs with rfl | rfl | rfl <;> rfl
    · simp only [List.mem_cons, List.not_mem_nil, or_false] at hs
      rcases hs with rfl | rfl
      · rfl
      · exact absurd rfl hne

/-- The component runs on such a plasma and computes the potential. -/
theorem twoTemp_runs (mode : BMode) (n te ti : Fin 6 → ℝ) :
    ∃ st', sheathBoundarySimple (defaults mode) line 0 ["d+", "e"] (twoTemp n te ti) = (.ok (), st') :=
  sheathBoundarySimple_runs _ _ _ (twoTemp_ready n te ti)

theorem upper_end (mode : BMode) : Target line (defaults mode).lower_y (defaults mode).upper_y true 4 5 3 :=
  Target.upper (m := line) rfl (by decide)

theorem twoTemp_sheath (n te ti : Fin 6 → ℝ) {s : String} (hs : s = "d+" ∨ s = "e") :
    HasSheath (twoTemp n te ti) ["d+", "e"] s := by
  rcases hs with rfl | rfl
  · exact Or.inr ⟨by simp, twoTemp_ion n te ti⟩
  · exact Or.inl rfl

/-- Last two cells at the upper end. -/
theorem last_cells (mode : BMode) (n te ti : Fin 6 → ℝ) (hn : ∀ j, 0 ≤ n j) {st' : Store Key (Value (Fin 6))}
    (h : sheathBoundarySimple (defaults mode) line 0 ["d+", "e"] (twoTemp n te ti) = (.ok (), st'))
    {s : String} (hs : s = "d+" ∨ s = "e") {j : Fin 6} (hj : j = 4 ∨ j = 3) :
    fieldOf st' s .density j = n j ∧ fieldOf st' s .temperature j = (if s = "e" then te j else ti j) := by
  have hno : ∀ u' i' inn', ¬ Target line (defaults mode).lower_y (defaults mode).upper_y u' i' j inn' := by
    intro u' i' inn' h'
    have := h'.ne line_ok (upper_end mode)
    rcases hj with rfl | rfl
    · exact this.1 rfl
    · exact this.2 rfl
  obtain ⟨h1, h2, -⟩ := simple_interior line_ok plasma_nodup h (twoTemp_sheath n te ti hs) hno
  rw [h1, h2]
  have e1 : fieldOf (twoTemp n te ti) s .density j = n j := by rcases hs with rfl | rfl <;> rfl
  have e2 : fieldOf (twoTemp n te ti) s .temperature j = (if s = "e" then te j else ti j) := by
    rcases hs with rfl | rfl <;> rfl
  rw [e1, e2, max_eq_left (hn j)]
  exact ⟨rfl, rfl⟩

/-- **C35 fails** for the default extrapolation `exponential` (mode 1) when the density rises toward the wall: densities 1 and 3 in the last two cells give 9 in the guard cell. -/
theorem simple_guard_increases : ∃ st' n, sheathBoundarySimple (defaults .exponential) line 0 ["d+", "e"] (twoTemp n (fun _ => 1) fun _ => 1) = (.ok (), st') ∧
    Target line true true true 4 5 3 ∧
    fieldOf st' "d+" .density 3 = 1 ∧ fieldOf st' "d+" .density 4 = 3 ∧ fieldOf st' "d+" .density 5 = 9 := by
  obtain ⟨st', h⟩ := twoTemp_runs .exponential (fun j => if j = 4 then 3 else 1) (fun _ => 1) fun _ => 1
  have hpos : ∀ j : Fin 6, (0 : ℝ) ≤ if j = 4 then 3 else 1 := by intro j; split <;> norm_num
  have h4 := (last_cells _ _ _ _ hpos h (s := "d+") (Or.inl rfl) (j := 4) (Or.inl rfl)).1
  have h3 := (last_cells _ _ _ _ hpos h (s := "d+") (Or.inl rfl) (j := 3) (Or.inr rfl)).1
  have h5 := simple_limitFree line_ok plasma_nodup h (twoTemp_sheath _ _ _ (Or.inl rfl)) (v := .density) (by decide) (upper_end _)
  rw [if_pos rfl] at h4
  rw [if_neg (by decide)] at h3
  refine ⟨st', _, h, upper_end .exponential, h3, h4, ?_⟩
  rw [h5, h4, h3]
  simp only [limitFreeMode, modeOf, defaults]
  norm_num
  simp

/-- **C35 fails** for the extrapolation `linear` (mode 2) when the density falls toward the wall by more than half:
densities 3 and 1 in the last two cells give −1 in the guard cell. -/
theorem simple_guard_negative : ∃ st' n, sheathBoundarySimple (defaults .linear) line 0 ["d+", "e"] (twoTemp n (fun _ => 1) fun _ => 1) = (.ok (), st') ∧
    Target line true true true 4 5 3 ∧
    fieldOf st' "d+" .density 3 = 3 ∧ fieldOf st' "d+" .density 4 = 1 ∧ fieldOf st' "d+" .density 5 = -1 := by
  obtain ⟨st', h⟩ := twoTemp_runs .linear (fun j => if j = 3 then 3 else 1) (fun _ => 1) fun _ => 1
  have hpos : ∀ j : Fin 6, (0 : ℝ) ≤ if j = 3 then 3 else 1 := by intro j; split <;> norm_num
  have h4 := (last_cells _ _ _ _ hpos h (s := "d+") (Or.inl rfl) (j := 4) (Or.inl rfl)).1
  have h3 := (last_cells _ _ _ _ hpos h (s := "d+") (Or.inl rfl) (j := 3) (Or.inr rfl)).1
  have h5 := simple_limitFree line_ok plasma_nodup h (twoTemp_sheath _ _ _ (Or.inl rfl)) (v := .density) (by decide) (upper_end _)
  rw [if_neg (by decide)] at h4
  rw [if_pos rfl] at h3
  refine ⟨st', _, h, upper_end .linear, h3, h4, ?_⟩
  rw [h5, h4, h3]
  simp only [limitFreeMode, modeOf, defaults]
  norm_num
  simp

/-- Uniform plasma: the values on the face. -/
theorem uniform_faces {te ti : ℝ} (hte : 1e-5 ≤ te) (hti : 1e-5 ≤ ti) {st' : Store Key (Value (Fin 6))}
    (h : sheathBoundarySimple (defaults .exponential) line 0 ["d+", "e"] (twoTemp (fun _ => 1) (fun _ => te) fun _ => ti) = (.ok (), st'))
    {s : String} (hs : s = "d+" ∨ s = "e") :
    face (fieldOf st' s .density) 4 5 = 1 ∧ face (fieldOf st' s .temperature) 4 5 = if s = "e" then te else ti := by
  have h4 := last_cells _ _ _ _ (fun _ => zero_le_one) h hs (j := 4) (Or.inl rfl)
  have h3 := last_cells _ _ _ _ (fun _ => zero_le_one) h hs (j := 3) (Or.inr rfl)
  have h5 := simple_limitFree line_ok plasma_nodup h (twoTemp_sheath _ _ _ hs) (v := .density) (by decide) (upper_end _)
  have h5t := simple_limitFree line_ok plasma_nodup h (twoTemp_sheath _ _ _ hs) (v := .temperature) (by decide) (upper_end _)
  have hlim : ∀ x : ℝ, 1e-5 ≤ x → limitFreeMode x x .exponential = x := by
    intro x hx
    unfold limitFreeMode
    rw [if_neg (by simp), if_neg (by norm_num at hx ⊢; linarith), if_pos (by simp)]
    have : x ≠ 0 := by intro e; rw [e] at hx; norm_num at hx
    field_simp
  rw [h4.1, h3.1] at h5
  rw [h4.2, h3.2] at h5t
  unfold face
  rw [h5, h5t, h4.1, h4.2]
  have m1 : modeOf (defaults .exponential) .density = .exponential := rfl
  have m2 : modeOf (defaults .exponential) .temperature = .exponential := rfl
  rw [m1, m2, hlim 1 (by norm_num), hlim _ (by split <;> assumption)]
  constructor <;> ring

/-- **C37 fails** for the ions with the default settings: if the electrons are hotter than the ions, the sheath adds energy
to the ions. -/
theorem simple_heats_ions : ∃ st', sheathBoundarySimple (defaults .exponential) line 0 ["d+", "e"]
      (twoTemp (fun _ => 1) (fun _ => 3) fun _ => 1) = (.ok (), st') ∧
    Target line true true true 4 5 3 ∧
    fieldOf (twoTemp (fun _ => 1) (fun _ => 3) fun _ => 1) "d+" .energy_source 4 < fieldOf st' "d+" .energy_source 4 := by
  obtain ⟨st', h⟩ := twoTemp_runs .exponential (fun _ => 1) (fun _ => 3) fun _ => 1
  refine ⟨st', h, upper_end .exponential, ?_⟩
  obtain ⟨-, -, hs, -⟩ := simple_ions line_ok plasma_nodup h (n := "d+") (by simp) (twoTemp_ion _ _ _) (upper_end _)
  have f1 := uniform_faces (by norm_num) (by norm_num) h (s := "d+") (Or.inl rfl)
  have f2 := uniform_faces (by norm_num) (by norm_num) h (s := "e") (Or.inr rfl)
  rw [if_neg (by decide)] at f1
  rw [if_pos rfl] at f2
  have hsp : ionSpeedAt (defaults .exponential) (twoTemp (fun _ => 1) (fun _ => 3) fun _ => 1) st' "d+" true 4 5 = Real.sqrt 2 := by
    unfold ionSpeedAt ionSpeed soundSpeed
    rw [f1.2, f2.2]
    have : out true * fieldOf (twoTemp (fun _ => 1) (fun _ => 3) fun _ => 1) "d+" .velocity 4 = 0 := by
      show (_ : ℝ) * 0 = 0
      rw [mul_zero]
    rw [this, max_eq_right (Real.sqrt_nonneg _)]
    show Real.sqrt ((1 * max 1 1e-5 + 1 * max 3 1e-5) / 2) = _
    rw [max_eq_left (by norm_num), max_eq_left (by norm_num)]
    norm_num
  rw [hs, hsp, f1.1, f1.2]
  have ha : areaPerVolume line 4 5 = 1 := by
    unfold areaPerVolume line
    norm_num
  rw [ha]
  have hq : sheathHeat (defaults .exponential).no_flow (defaults .exponential).gamma_i
      (mass (twoTemp (fun _ => 1) (fun _ => 3) fun _ => 1) "d+") 1 (max 1 1e-5) (Real.sqrt 2) = -Real.sqrt 2 := by
    unfold sheathHeat
    rw [max_eq_left (by norm_num)]
    show 3.5 * 1 * 1 * Real.sqrt 2 - (if false = true then 0 else (2.5 * 1 + 0.5 * 2 * Real.sqrt 2 ^ 2) * 1 * Real.sqrt 2) = _
    rw [if_neg (by decide), Real.sq_sqrt (by norm_num)]
    ring
  rw [hq]
  have : 0 < Real.sqrt 2 := Real.sqrt_pos.2 (by norm_num)
  linarith

/-- In a uniform plasma with equal temperatures `simple_zero_current` applies, and the current is zero. -/
example : ∃ st', sheathBoundarySimple (defaults .exponential) line 0 ["d+", "e"] (twoTemp (fun _ => 1) (fun _ => 1) fun _ => 1) = (.ok (), st') ∧
    electronFlow st' true 4 5 = ionCurrent (twoTemp (fun _ => 1) (fun _ => 1) fun _ => 1) st' ["d+", "e"] true 4 5 ∧
    0 < electronFlow st' true 4 5 := by
  classical
  obtain ⟨st', h⟩ := twoTemp_runs .exponential (fun _ => 1) (fun _ => 1) fun _ => 1
  have f1 := uniform_faces (by norm_num) (by norm_num) h (s := "d+") (Or.inl rfl)
  have f2 := uniform_faces (by norm_num) (by norm_num) h (s := "e") (Or.inr rfl)
  rw [if_neg (by decide)] at f1
  rw [if_pos rfl] at f2
  have hv := (simple_ions line_ok plasma_nodup h (n := "d+") (by simp) (twoTemp_ion _ _ _) (upper_end _)).1 rfl
  have hsp : ionSpeedAt (defaults .exponential) (twoTemp (fun _ => 1) (fun _ => 1) fun _ => 1) st' "d+" true 4 5 = 1 := by
    unfold ionSpeedAt ionSpeed soundSpeed
    rw [f1.2, f2.2]
    have : out true * fieldOf (twoTemp (fun _ => 1) (fun _ => 1) fun _ => 1) "d+" .velocity 4 = 0 := by
      show (_ : ℝ) * 0 = 0
      rw [mul_zero]
    rw [this, max_eq_right (Real.sqrt_nonneg _)]
    show Real.sqrt ((1 * max 1 1e-5 + 1 * max 1 1e-5) / 2) = _
    rw [max_eq_left (by norm_num)]
    norm_num
  rw [hsp] at hv
  have hv' : out true * face (fieldOf st' "d+" .velocity) 4 5 = 1 := hv
  have hc : ionCurrent (twoTemp (fun _ => 1) (fun _ => 1) fun _ => 1) st' ["d+", "e"] true 4 5 = 1 := by
    unfold ionCurrent
    rw [List.map_cons, List.map_cons, List.map_nil, if_pos (twoTemp_ion _ _ _), if_neg (fun hh => hh.1 rfl), hv', f1.1]
    show (1 : ℝ) * 1 * 1 + (0 + 0) = 1
    norm_num
  have hz := simple_zero_current line_ok line_long plasma_nodup h rfl rfl (upper_end _) rfl
    (fun n hn hi => by
      have : n = "d+" := by
        simp only [List.mem_cons, List.not_mem_nil, or_false] at hn
        rcases hn with rfl | rfl
        · rfl
        · exact absurd rfl hi.1
      subst this; rfl)
    (by show (0 : ℝ) < 1 / 1836; norm_num) (by show (0 : ℝ) < 1; norm_num) (by rw [f2.1]; norm_num) (by rw [f2.2]; norm_num)
    (fun n hn hi => by
      have : n = "d+" := by
        simp only [List.mem_cons, List.not_mem_nil, or_false] at hn
        rcases hn with rfl | rfl
        · rfl
        · exact absurd rfl hi.1
      subst this
      exact ⟨zero_le_one, zero_le_one⟩)
    (by rw [hc]; norm_num)
  rw [hc, f2.1, f2.2] at hz
  have hbig : (1 : ℝ) ≤ 1 * (Real.sqrt (1 / (2 * Real.pi * electronMassOf (defaults .exponential) (twoTemp (fun _ => 1) (fun _ => 1) fun _ => 1)))
      * (1 - (defaults .exponential).Ge)) := by
    show (1 : ℝ) ≤ 1 * (Real.sqrt (1 / (2 * Real.pi * (1 / 1836))) * (1 - 0))
    rw [one_mul, sub_zero, mul_one]
    refine Real.one_le_sqrt.2 ?_
    have := Real.pi_le_four
    have := Real.pi_pos
    rw [le_div_iff₀ (by positivity)]
    linarith
  rw [min_eq_left hbig] at hz
  exact ⟨st', h, by rw [hz, hc], by rw [hz]; norm_num⟩

end Hermes.SheathSimple
