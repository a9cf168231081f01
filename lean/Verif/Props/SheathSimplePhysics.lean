import Verif.Props.SheathSimple

/-!
# `SheathBoundarySimple`: boundary values, flows into the wall and energy loss (C35–C37)
-/

set_option linter.unusedSectionVars false
set_option linter.unusedVariables false

namespace Hermes.SheathSimple
open Hermes.Closures Hermes.Sheath

variable {ι : Type} [DecidableEq ι]

/-! ## Specification -/

/-- The boundary mode chosen for a variable. -/
def modeOf (o : SimpleOpts ι) : Var → BMode
  | .density => o.density_mode
  | .temperature => o.temperature_mode
  | _ => o.pressure_mode

/-- Sound speed of the ions at the sheath edge: `sqrt((γ Tᵢ + Z Tₑ) / M)` with temperatures of at least `1e-5`. -/
noncomputable def soundSpeed (γ Z M ti te : ℝ) : ℝ := Real.sqrt ((γ * max ti 1e-5 + Z * max te 1e-5) / M)

/-- Speed of the ions into the wall, for ions that arrive with speed `v`. -/
noncomputable def ionSpeed (γ Z M ti te v : ℝ) : ℝ := max v (soundSpeed γ Z M ti te)

/-- Speed of the electrons into the wall, for the potential drop `drop`. -/
noncomputable def electronSpeed (Me Ge te drop : ℝ) : ℝ :=
  Real.sqrt (te / (2 * Real.pi * Me)) * (1 - Ge) * Real.exp (-drop / max te 1e-5)

/-- Energy flux into the wall on top of the energy that flows with the particles: the sheath takes `γ n T v`, the flow
`(5/2 T + M v²/2) n v`.  With `no_flow` there is no flow, but heat is still lost. -/
noncomputable def sheathHeat (no_flow : Bool) (gamma M n t v : ℝ) : ℝ :=
  gamma * t * n * v - (if no_flow then 0 else (2.5 * t + 0.5 * M * v ^ 2) * n * v)

/-- Area of the face. -/
noncomputable def faceArea (m : YMesh ι) (i g : ι) : ℝ :=
  (m.J i + m.J g) / (Real.sqrt (m.g22 i) + Real.sqrt (m.g22 g)) * m.dx i * m.dz i

/-! ## The loop bodies in terms of face values -/

theorem ionBody_eq (o : SimpleOpts ι) (m : YMesh ι) (Z M : ℝ) (e : ι → ECell) (u : Bool) (i g : ι) (c inn : ICell)
    (hg : g = if u then m.yp i else m.ym i) :
    let N : ℝ := (c.n + limitFreeMode inn.n c.n o.density_mode) / 2
    let T : ℝ := (c.t + limitFreeMode inn.t c.t o.temperature_mode) / 2
    let te : ℝ := ((e i).t + (e g).t) / 2
    let s1 : ℝ := ionSpeed o.sheath_ion_polytropic Z M T te (out u * c.v)
    let s : ℝ := if o.no_flow then 0 else s1
    let q : ℝ := sheathHeat o.no_flow o.gamma_i M N (max T 1e-5) s1
    (if u then simpleIonUpper o m Z M e else simpleIonLower o m Z M e) i c inn =
      (⟨limitFreeMode inn.n c.n o.density_mode, limitFreeMode inn.t c.t o.temperature_mode,
        limitFreeMode inn.p c.p o.pressure_mode, 2 * (out u * s) - c.v, 2 * M * N * (out u * s) - c.nv⟩,
        -(q * areaPerVolume m i g), out u * (q * faceArea m i g)) := by
  intro N T te s1 s q
  have hN : 0.5 * (limitFreeMode inn.n c.n o.density_mode + c.n) = N := by simp only [N]; ring
  have hT : 0.5 * (limitFreeMode inn.t c.t o.temperature_mode + c.t) = T := by simp only [T]; ring
  have hte : 0.5 * ((e g).t + (e i).t) = te := by simp only [te]; ring
  cases u
  · simp only [Bool.false_eq_true, if_false] at hg ⊢
    unfold simpleIonLower
    subst hg
    simp only [hN, hT, hte, floorTo_eq_max]
    have hv : (if c.v < -Real.sqrt ((o.sheath_ion_polytropic * max T 1e-5 + Z * max te 1e-5) / M) then c.v else
        -Real.sqrt ((o.sheath_ion_polytropic * max T 1e-5 + Z * max te 1e-5) / M)) = -s1 := by
      simp only [s1, ionSpeed, soundSpeed, out, Bool.false_eq_true, if_false]
      generalize Real.sqrt _ = K
      split
      · rw [max_eq_left (by linarith)]; ring
      · rw [max_eq_right (by linarith)]
    rw [hv]
    have hs : (if o.no_flow = true then 0 else -s1) = -s := by
      simp only [s]; split <;> simp
    rw [hs]
    have hq : o.gamma_i * max T 1e-5 * N * -s1 - (2.5 * max T 1e-5 + 0.5 * M * (-s) ^ 2) * N * -s = -q := by
      simp only [q, sheathHeat, s]; split <;> ring
    rw [hq]
    refine Prod.ext ?_ (Prod.ext ?_ ?_)
    · simp only [out, Bool.false_eq_true, if_false]
      congr 1 <;> ring
    · simp only [heatflow, areaPerVolume]; ring
    · simp only [heatflow, faceArea, out, Bool.false_eq_true, if_false]; ring
  · simp only [if_true] at hg ⊢
    unfold simpleIonUpper
    subst hg
    simp only [hN, hT, hte, floorTo_eq_max]
    have hv : (if c.v > Real.sqrt ((o.sheath_ion_polytropic * max T 1e-5 + Z * max te 1e-5) / M) then c.v else
        Real.sqrt ((o.sheath_ion_polytropic * max T 1e-5 + Z * max te 1e-5) / M)) = s1 := by
      simp only [s1, ionSpeed, soundSpeed, out, if_true]
      generalize Real.sqrt _ = K
      split
      · rw [max_eq_left (by linarith)]; ring
      · rw [max_eq_right (by linarith)]
    rw [hv]
    have hs : (if o.no_flow = true then 0 else s1) = s := rfl
    rw [hs]
    have hq : o.gamma_i * max T 1e-5 * N * s1 - (2.5 * max T 1e-5 + 0.5 * M * s ^ 2) * N * s = q := by
      simp only [q, sheathHeat, s]; split <;> ring
    rw [hq]
    refine Prod.ext ?_ (Prod.ext ?_ ?_)
    · simp only [out, if_true]
      congr 1 <;> ring
    · simp only [heatflow, areaPerVolume]; ring
    · simp only [heatflow, faceArea, out, if_true]; ring

theorem electronBody_eq (o : SimpleOpts ι) (m : YMesh ι) (Me : ℝ) (u : Bool) (i g : ι) (c inn : ECell)
    (hg : g = if u then m.yp i else m.ym i) :
    let N : ℝ := (c.n + limitFreeMode inn.n c.n o.density_mode) / 2
    let T : ℝ := (c.t + limitFreeMode inn.t c.t o.temperature_mode) / 2
    let φ : ℝ := max (c.phi + (c.phi - inn.phi) / 2) (o.wall i)
    let s1 : ℝ := electronSpeed Me o.Ge T (φ - o.wall i)
    let s : ℝ := if o.no_flow then 0 else s1
    let q : ℝ := sheathHeat o.no_flow o.gamma_e Me N T s1
    (if u then simpleElectronUpper o m Me else simpleElectronLower o m Me) i c inn =
      (⟨limitFreeMode inn.n c.n o.density_mode, limitFreeMode inn.t c.t o.temperature_mode,
        limitFreeMode inn.p c.p o.pressure_mode, 2 * c.phi - inn.phi, 2 * (out u * s) - c.v, 2 * Me * N * (out u * s) - c.nv⟩,
        -(q * areaPerVolume m i g), out u * (q * faceArea m i g)) := by
  intro N T φ s1 s q
  have hN : 0.5 * (limitFreeMode inn.n c.n o.density_mode + c.n) = N := by simp only [N]; ring
  have hT : 0.5 * (limitFreeMode inn.t c.t o.temperature_mode + c.t) = T := by simp only [T]; ring
  have hφ : floorTo (0.5 * (2 * c.phi - inn.phi + c.phi)) (o.wall i) = φ := by
    rw [floorTo_eq_max]; simp only [φ]; congr 1; ring
  cases u
  · simp only [Bool.false_eq_true, if_false] at hg ⊢
    unfold simpleElectronLower
    subst hg
    simp only [hN, hT, hφ]
    simp only [floorTo_eq_max T]
    have hv : -Real.sqrt (T / (2 * Real.pi * Me)) * (1 - o.Ge) * Real.exp (-(φ - o.wall i) / max T 1e-5) = -s1 := by
      simp only [s1, electronSpeed]; ring
    rw [hv]
    have hs : (if o.no_flow = true then 0 else -s1) = -s := by
      simp only [s]; split <;> simp
    rw [hs]
    have hq : o.gamma_e * T * N * -s1 - (2.5 * T + 0.5 * Me * (-s) ^ 2) * N * -s = -q := by
      simp only [q, sheathHeat, s]; split <;> ring
    rw [hq]
    refine Prod.ext ?_ (Prod.ext ?_ ?_)
    · simp only [out, Bool.false_eq_true, if_false]
      congr 1 <;> ring
    · simp only [heatflow, areaPerVolume]; ring
    · simp only [heatflow, faceArea, out, Bool.false_eq_true, if_false]; ring
  · simp only [if_true] at hg ⊢
    unfold simpleElectronUpper
    subst hg
    simp only [hN, hT, hφ]
    simp only [floorTo_eq_max T]
    have hv : Real.sqrt (T / (2 * Real.pi * Me)) * (1 - o.Ge) * Real.exp (-(φ - o.wall i) / max T 1e-5) = s1 := rfl
    rw [hv]
    have hs : (if o.no_flow = true then 0 else s1) = s := rfl
    rw [hs]
    have hq : o.gamma_e * T * N * s1 - (2.5 * T + 0.5 * Me * s ^ 2) * N * s = q := by
      simp only [q, sheathHeat, s]; split <;> ring
    rw [hq]
    refine Prod.ext ?_ (Prod.ext ?_ ?_)
    · simp only [out, if_true]
      congr 1 <;> ring
    · simp only [heatflow, areaPerVolume]; ring
    · simp only [heatflow, faceArea, out, if_true]; ring

/-! ## One species at one target -/

theorem noFlow_if {κ : Type} (u : Bool) (fl fu : ι → κ → κ → κ × ℝ × ℝ) (i : ι) (c d : κ) :
    (if u then noFlow fu else noFlow fl) i c d =
      (((if u then fu else fl) i c d).1, ((if u then fu else fl) i c d).2.1) := by cases u <;> rfl

theorem bothEndsFlow_all {κ : Type} {m : YMesh ι} {lo up : Bool} {fl fu : ι → κ → κ → κ × ℝ × ℝ}
    {s : ((ι → κ) × Fld ι) × Fld ι} {u : Bool} {i g inn : ι} (hm : MeshOk m) (h : Target m lo up u i g inn)
    {x : κ × ℝ × ℝ} (hx : (if u then fu else fl) i (s.1.1 i) (s.1.1 inn) = x) :
    (bothEndsFlow m lo up fl fu s).1.1 g = x.1 ∧ (bothEndsFlow m lo up fl fu s).1.2 i = s.1.2 i + x.2.1 ∧
    (bothEndsFlow m lo up fl fu s).2 (if u then g else i) = s.2 (if u then g else i) + x.2.2 ∧
    (bothEndsFlow m lo up fl fu s).1.1 i = s.1.1 i := by
  subst hx
  refine ⟨?_, ?_, bothEndsFlow_target hm h, ?_⟩
  · rw [bothEndsFlow_fst, (bothEnds_target hm h).1, noFlow_if]
  · rw [bothEndsFlow_fst, (bothEnds_target hm h).2, noFlow_if]
  · rw [bothEndsFlow_fst, bothEnds_last hm h]

theorem flow_added {st st' : Store Key (Value ι)} {s : String} {v : Var} {f : Fld ι}
    (h : vals st' (.sp s v) = addVal (.field f) (vals st (.sp s v))) (j : ι) :
    fieldOf st' s v j = fieldOf st s v j + f j := by
  unfold fieldOf
  rw [h]
  cases e : vals st (.sp s v) with
  | none => simp [addVal, asField]
  | some x =>
    cases x with
    | real y => simp [addVal, asField, StoreVal.addTo, add_comm]
    | field y => simp [addVal, asField, StoreVal.addTo, add_comm]

/-- What is published about the ions of one species. -/
theorem ion_published {o : SimpleOpts ι} {m : YMesh ι} {garbage : Fld ι} {names : List String}
    (hn : names.Nodup) {st st' : Store Key (Value ι)} (h : sheathBoundarySimple o m garbage names st = (.ok (), st'))
    {n : String} (hmem : n ∈ names) (hi : IsIon st n) :
    ∃ r : ((ι → ICell) × Fld ι) × Fld ι,
      r = bothEndsFlow m o.lower_y o.upper_y
        (simpleIonLower o m (charge st n) (mass st n) (electronResult o m garbage names st).1.1)
        (simpleIonUpper o m (charge st n) (mass st n) (electronResult o m garbage names st).1.1)
        ((ionCells (species st n), fld (species st n) .energy_source 0), fun _ => 0) ∧
      IonPublished (species st n) (species st' n) r.1 ∧
      vals st' (.sp n .energy_flow_ylow) = addVal (.field r.2) (vals st (.sp n .energy_flow_ylow)) := by
  obtain ⟨_, _, hr, _⟩ := sheathBoundarySimple_ok hn h
  obtain ⟨h1, h2⟩ := (hr n hmem hi.1).2 hi.1 hi.2
  exact ⟨_, rfl, h1, h2⟩

theorem electron_result (o : SimpleOpts ι) (m : YMesh ι) (garbage : Fld ι) (names : List String) (st : Store Key (Value ι)) :
    electronResult o m garbage names st = bothEndsFlow m o.lower_y o.upper_y
      (simpleElectronLower o m (num (species st "e") .AA o.electronMass))
      (simpleElectronUpper o m (num (species st "e") .AA o.electronMass))
      ((electronCells (species st "e") (phiUsed o m garbage names st), fld (species st "e") .energy_source 0), fun _ => 0) := rfl

/-! ## C35: guard cells -/

/-- Density, temperature and pressure in the guard cell come from `limitFree`. -/
theorem simple_limitFree {o : SimpleOpts ι} {m : YMesh ι} {garbage : Fld ι} {names : List String} (hm : MeshOk m)
    (hn : names.Nodup) {st st' : Store Key (Value ι)} (h : sheathBoundarySimple o m garbage names st = (.ok (), st'))
    {s : String} (hs : HasSheath st names s) {v : Var} (hv : v ∈ [Var.density, .temperature, .pressure])
    {u : Bool} {i g inn : ι} (ht : Target m o.lower_y o.upper_y u i g inn) :
    fieldOf st' s v g = limitFreeMode (fieldOf st' s v inn) (fieldOf st' s v i) (modeOf o v) := by
  simp only [List.mem_cons, List.not_mem_nil, or_false] at hv
  rcases hs with rfl | ⟨hmem, hi⟩
  · obtain ⟨⟨hp, _⟩, _⟩ := sheathBoundarySimple_ok hn h
    rw [electron_result, bothEndsFlow_fst] at hp
    rcases hv with rfl | rfl | rfl
    · rw [fieldOf_some hp.n]; dsimp only
      rw [(bothEnds_target hm ht).1, bothEnds_last hm ht, bothEnds_other fun _ _ _ h' => (h'.ne hm ht).2 rfl]; cases u <;> rfl
    · rw [fieldOf_some hp.t]; dsimp only
      rw [(bothEnds_target hm ht).1, bothEnds_last hm ht, bothEnds_other fun _ _ _ h' => (h'.ne hm ht).2 rfl]; cases u <;> rfl
    · rw [fieldOf_some hp.p]; dsimp only
      rw [(bothEnds_target hm ht).1, bothEnds_last hm ht, bothEnds_other fun _ _ _ h' => (h'.ne hm ht).2 rfl]; cases u <;> rfl
  · obtain ⟨r, hr, hp, _⟩ := ion_published hn h hmem hi
    rw [hr, bothEndsFlow_fst] at hp
    rcases hv with rfl | rfl | rfl
    · rw [fieldOf_some hp.n]; dsimp only
      rw [(bothEnds_target hm ht).1, bothEnds_last hm ht, bothEnds_other fun _ _ _ h' => (h'.ne hm ht).2 rfl]; cases u <;> rfl
    · rw [fieldOf_some hp.t]; dsimp only
      rw [(bothEnds_target hm ht).1, bothEnds_last hm ht, bothEnds_other fun _ _ _ h' => (h'.ne hm ht).2 rfl]; cases u <;> rfl
    · rw [fieldOf_some hp.p]; dsimp only
      rw [(bothEnds_target hm ht).1, bothEnds_last hm ht, bothEnds_other fun _ _ _ h' => (h'.ne hm ht).2 rfl]; cases u <;> rfl

/-- **C35, in part**: guard values are non-negative and positive if the last value is, unless the extrapolation is linear;
and with the mode `limit` (number 0) they never exceed the last value.  For the other modes see
`simple_guard_increases` and `simple_guard_negative`. -/
theorem simple_guard_values_partial {o : SimpleOpts ι} {m : YMesh ι} {garbage : Fld ι} {names : List String} (hm : MeshOk m)
    (hn : names.Nodup) {st st' : Store Key (Value ι)} (h : sheathBoundarySimple o m garbage names st = (.ok (), st'))
    {s : String} (hs : HasSheath st names s) {v : Var} (hv : v ∈ [Var.density, .temperature, .pressure])
    {u : Bool} {i g inn : ι} (ht : Target m o.lower_y o.upper_y u i g inn) (h0 : 0 ≤ fieldOf st' s v i) :
    (modeOf o v ≠ .linear → 0 ≤ fieldOf st' s v g ∧ (0 < fieldOf st' s v i → 0 < fieldOf st' s v g)) ∧
    (modeOf o v = .limit ∨ fieldOf st' s v i ≤ fieldOf st' s v inn → fieldOf st' s v g ≤ fieldOf st' s v i) := by
  have e := simple_limitFree hm hn h hs hv ht
  rw [e]
  generalize fieldOf st' s v inn = fm
  generalize fieldOf st' s v i = fc at h0
  unfold limitFreeMode
  refine ⟨fun hmode => ?_, fun hmode => ?_⟩
  · split
    · exact ⟨h0, id⟩
    split
    · exact ⟨h0, id⟩
    rename_i h2
    have : 0 < fm := by linarith [not_lt.1 h2]
    rw [if_pos (by cases hh : modeOf o v <;> simp_all)]
    exact ⟨by positivity, fun hp => by positivity⟩
  · split
    · exact le_rfl
    split
    · exact le_rfl
    rename_i h1 h2
    have hfm : 0 < fm := by linarith [not_lt.1 h2]
    have hle : fc ≤ fm := by
      rcases hmode with hmode | hmode
      · exact not_lt.1 fun hlt => h1 ⟨hlt, hmode⟩
      · exact hmode
    split
    · rw [div_le_iff₀ hfm]; nlinarith
    · linarith

/-- Away from the guard cells density and temperature are unchanged, except that the density is at least zero. -/
theorem simple_interior {o : SimpleOpts ι} {m : YMesh ι} {garbage : Fld ι} {names : List String} (hm : MeshOk m)
    (hn : names.Nodup) {st st' : Store Key (Value ι)} (h : sheathBoundarySimple o m garbage names st = (.ok (), st'))
    {s : String} (hs : HasSheath st names s) {j : ι} (hj : ∀ u i inn, ¬ Target m o.lower_y o.upper_y u i j inn) :
    fieldOf st' s .density j = max (fieldOf st s .density j) 0 ∧
    fieldOf st' s .temperature j = fieldOf st s .temperature j ∧
    ((vals st (.sp s .velocity)).isSome → fieldOf st' s .velocity j = fieldOf st s .velocity j) := by
  rcases hs with rfl | ⟨hmem, hi⟩
  · obtain ⟨⟨hp, _⟩, _⟩ := sheathBoundarySimple_ok hn h
    rw [electron_result, bothEndsFlow_fst] at hp
    refine ⟨?_, ?_, fun hset => ?_⟩
    · rw [fieldOf_some hp.n]; dsimp only; rw [bothEnds_other hj, ← floorTo_eq_max]; rfl
    · rw [fieldOf_some hp.t]; dsimp only; rw [bothEnds_other hj]; rfl
    · rw [fieldOf_ifSet hp.v hset]; dsimp only; rw [bothEnds_other hj]; rfl
  · obtain ⟨r, hr, hp, _⟩ := ion_published hn h hmem hi
    rw [hr, bothEndsFlow_fst] at hp
    refine ⟨?_, ?_, fun hset => ?_⟩
    · rw [fieldOf_some hp.n]; dsimp only; rw [bothEnds_other hj, ← floorTo_eq_max]; rfl
    · rw [fieldOf_some hp.t]; dsimp only; rw [bothEnds_other hj]; rfl
    · rw [fieldOf_ifSet hp.v hset]; dsimp only; rw [bothEnds_other hj]; rfl

/-! ## C36 and C37: flows into the wall and energy loss -/

/-- Speed of ion species `n` into the wall, before `no_flow` is applied. -/
noncomputable def ionSpeedAt (o : SimpleOpts ι) (st st' : Store Key (Value ι)) (n : String) (u : Bool) (i g : ι) : ℝ :=
  ionSpeed o.sheath_ion_polytropic (charge st n) (mass st n) (face (fieldOf st' n .temperature) i g)
    (face (fieldOf st' "e" .temperature) i g) (out u * fieldOf st n .velocity i)

/-- **C36, C37 (ions).**  At every target the ions of every charged species enter the wall with the sound speed, or with
the speed in the last cell if that is higher; with `no_flow` they do not flow.  The momentum on the face is mass times
density times velocity.  The energy removed from the last cell is the sheath heat flux, and it is reported as flow of
energy through the face. -/
theorem simple_ions {o : SimpleOpts ι} {m : YMesh ι} {garbage : Fld ι} {names : List String} (hm : MeshOk m)
    (hn : names.Nodup) {st st' : Store Key (Value ι)} (h : sheathBoundarySimple o m garbage names st = (.ok (), st'))
    {n : String} (hmem : n ∈ names) (hi : IsIon st n)
    {u : Bool} {i g inn : ι} (ht : Target m o.lower_y o.upper_y u i g inn) :
    let speed1 := ionSpeedAt o st st' n u i g
    let speed := if o.no_flow then 0 else speed1
    let N := face (fieldOf st' n .density) i g
    let T := max (face (fieldOf st' n .temperature) i g) 1e-5
    let q := sheathHeat o.no_flow o.gamma_i (mass st n) N T speed1
    ((vals st (.sp n .velocity)).isSome → out u * face (fieldOf st' n .velocity) i g = speed) ∧
    ((vals st (.sp n .momentum)).isSome → out u * face (fieldOf st' n .momentum) i g = mass st n * N * speed) ∧
    fieldOf st' n .energy_source i = fieldOf st n .energy_source i - q * areaPerVolume m i g ∧
    added st st' n .energy_flow_ylow (if u then g else i) = out u * (q * faceArea m i g) := by
  intro speed1 speed N T q
  obtain ⟨r, hr, hp, hf⟩ := ion_published hn h hmem hi
  obtain ⟨⟨hpe, _⟩, _⟩ := sheathBoundarySimple_ok hn h
  set e := (electronResult o m garbage names st).1.1 with he
  have hb := ionBody_eq o m (charge st n) (mass st n) e u i g (ionCells (species st n) i) (ionCells (species st n) inn) ht.guard_eq
  obtain ⟨hg, hsrc, hfl, hl⟩ := bothEndsFlow_all (s := ((ionCells (species st n), fld (species st n) .energy_source 0), fun _ => 0))
    hm ht hb
  rw [← hr] at hg hsrc hfl hl
  dsimp only at hg hsrc hfl
  have fN : ((ionCells (species st n) i).n + limitFreeMode (ionCells (species st n) inn).n (ionCells (species st n) i).n o.density_mode) / 2 = N := by
    simp only [N, face]; rw [fieldOf_some hp.n]; dsimp only; rw [hg, hl]
  have fT : ((ionCells (species st n) i).t + limitFreeMode (ionCells (species st n) inn).t (ionCells (species st n) i).t o.temperature_mode) / 2
      = face (fieldOf st' n .temperature) i g := by
    simp only [face]; rw [fieldOf_some hp.t]; dsimp only; rw [hg, hl]
  have fte : ((e i).t + (e g).t) / 2 = face (fieldOf st' "e" .temperature) i g := by
    simp only [face]; rw [fieldOf_some hpe.t]
  rw [fN, fT, fte] at hg hsrc hfl
  have ho : out u * out u = 1 := by cases u <;> simp [out]
  refine ⟨fun hv => ?_, fun hv => ?_, ?_, ?_⟩
  · rw [fieldOf_ifSet hp.v hv]
    simp only [face]
    rw [hg, hl]
    show out u * (((ionCells (species st n) i).v + (2 * (out u * speed) - (ionCells (species st n) i).v)) / 2) = _
    linear_combination speed * ho
  · rw [fieldOf_ifSet hp.nv hv]
    simp only [face]
    rw [hg, hl]
    show out u * (((ionCells (species st n) i).nv + (2 * mass st n * N * (out u * speed) - (ionCells (species st n) i).nv)) / 2) = _
    linear_combination mass st n * N * speed * ho
  · rw [fieldOf_some hp.src, hsrc, ← sub_eq_add_neg]
    rfl
  · unfold added
    rw [flow_added hf, hfl, add_sub_cancel_left, zero_add]
    rfl

/-- Mass of the electrons. -/
noncomputable def electronMassOf (o : SimpleOpts ι) (st : Store Key (Value ι)) : ℝ := num (species st "e") .AA o.electronMass

/-- The drop of the potential `φ` between the sheath edge and the wall, not below zero. -/
noncomputable def potentialDrop (o : SimpleOpts ι) (φ : Fld ι) (i inn : ι) : ℝ :=
  max (φ i + (φ i - φ inn) / 2) (o.wall i) - o.wall i

theorem simple_electrons_phi {o : SimpleOpts ι} {m : YMesh ι} {garbage : Fld ι} {names : List String} (hm : MeshOk m)
    (hn : names.Nodup) {st st' : Store Key (Value ι)} (h : sheathBoundarySimple o m garbage names st = (.ok (), st'))
    {u : Bool} {i g inn : ι} (ht : Target m o.lower_y o.upper_y u i g inn) :
    let Me := electronMassOf o st
    let φ := phiUsed o m garbage names st
    let N := face (fieldOf st' "e" .density) i g
    let T := face (fieldOf st' "e" .temperature) i g
    let speed1 := electronSpeed Me o.Ge T (potentialDrop o φ i inn)
    let speed := if o.no_flow then 0 else speed1
    let q := sheathHeat o.no_flow o.gamma_e Me N T speed1
    ((vals st (.sp "e" .velocity)).isSome → out u * face (fieldOf st' "e" .velocity) i g = speed) ∧
    ((vals st (.sp "e" .momentum)).isSome → out u * face (fieldOf st' "e" .momentum) i g = Me * N * speed) ∧
    fieldOf st' "e" .energy_source i = fieldOf st "e" .energy_source i - q * areaPerVolume m i g ∧
    added st st' "e" .energy_flow_ylow (if u then g else i) = out u * (q * faceArea m i g) ∧
    ((electronResult o m garbage names st).1.1 g).phi = 2 * φ i - φ inn := by
  intro Me φ N T speed1 speed q
  obtain ⟨⟨hp, hf⟩, _⟩ := sheathBoundarySimple_ok hn h
  set r := electronResult o m garbage names st with hr
  rw [electron_result] at hr
  have hb := electronBody_eq o m Me u i g (electronCells (species st "e") φ i) (electronCells (species st "e") φ inn) ht.guard_eq
  obtain ⟨hg, hsrc, hfl, hl⟩ := bothEndsFlow_all
    (s := ((electronCells (species st "e") φ, fld (species st "e") .energy_source 0), fun _ => 0)) hm ht hb
  have hr' : r = bothEndsFlow m o.lower_y o.upper_y (simpleElectronLower o m Me) (simpleElectronUpper o m Me)
    ((electronCells (species st "e") φ, fld (species st "e") .energy_source 0), fun _ => 0) := hr
  rw [← hr'] at hg hsrc hfl hl
  dsimp only at hg hsrc hfl
  have fN : ((electronCells (species st "e") φ i).n + limitFreeMode (electronCells (species st "e") φ inn).n (electronCells (species st "e") φ i).n o.density_mode) / 2 = N := by
    simp only [N, face]; rw [fieldOf_some hp.n]; dsimp only; rw [hg, hl]
  have fT : ((electronCells (species st "e") φ i).t + limitFreeMode (electronCells (species st "e") φ inn).t (electronCells (species st "e") φ i).t o.temperature_mode) / 2 = T := by
    simp only [T, face]; rw [fieldOf_some hp.t]; dsimp only; rw [hg, hl]
  rw [fN, fT] at hg hsrc hfl
  have ho : out u * out u = 1 := by cases u <;> simp [out]
  refine ⟨fun hv => ?_, fun hv => ?_, ?_, ?_, ?_⟩
  · rw [fieldOf_ifSet hp.v hv]
    simp only [face]
    rw [hg, hl]
    show out u * (((electronCells (species st "e") φ i).v + (2 * (out u * speed) - (electronCells (species st "e") φ i).v)) / 2) = _
    linear_combination speed * ho
  · rw [fieldOf_ifSet hp.nv hv]
    simp only [face]
    rw [hg, hl]
    show out u * (((electronCells (species st "e") φ i).nv + (2 * Me * N * (out u * speed) - (electronCells (species st "e") φ i).nv)) / 2) = _
    linear_combination Me * N * speed * ho
  · rw [fieldOf_some hp.src, hsrc, ← sub_eq_add_neg]
    rfl
  · unfold added
    rw [flow_added hf, hfl, add_sub_cancel_left, zero_add]
    rfl
  · rw [hg]
    rfl

/-- **C36, C37 (electrons)** when the potential is given. -/
theorem simple_electrons {o : SimpleOpts ι} {m : YMesh ι} {garbage : Fld ι} {names : List String} (hm : MeshOk m)
    (hn : names.Nodup) {st st' : Store Key (Value ι)} (h : sheathBoundarySimple o m garbage names st = (.ok (), st'))
    {φ : Fld ι} (hφ : vals st (.top "fields:phi") = some (.field φ))
    {u : Bool} {i g inn : ι} (ht : Target m o.lower_y o.upper_y u i g inn) :
    let Me := electronMassOf o st
    let N := face (fieldOf st' "e" .density) i g
    let T := face (fieldOf st' "e" .temperature) i g
    let speed1 := electronSpeed Me o.Ge T (potentialDrop o φ i inn)
    let speed := if o.no_flow then 0 else speed1
    let q := sheathHeat o.no_flow o.gamma_e Me N T speed1
    ((vals st (.sp "e" .velocity)).isSome → out u * face (fieldOf st' "e" .velocity) i g = speed) ∧
    ((vals st (.sp "e" .momentum)).isSome → out u * face (fieldOf st' "e" .momentum) i g = Me * N * speed) ∧
    fieldOf st' "e" .energy_source i = fieldOf st "e" .energy_source i - q * areaPerVolume m i g ∧
    added st st' "e" .energy_flow_ylow (if u then g else i) = out u * (q * faceArea m i g) ∧
    topField st' "fields:phi" g = 2 * φ i - φ inn := by
  have hu : phiUsed o m garbage names st = φ := by
    unfold phiUsed fieldOr
    rw [hφ]
    rfl
  have hh := simple_electrons_phi hm hn h ht
  dsimp only at hh ⊢
  rw [hu] at hh
  obtain ⟨h1, h2, h3, h4, h5⟩ := hh
  refine ⟨h1, h2, h3, h4, ?_⟩
  obtain ⟨_, hph, _⟩ := sheathBoundarySimple_ok hn h
  rw [hφ, phiPublished] at hph
  have hph' : vals st' (.top "fields:phi") = some (.field fun i => ((electronResult o m garbage names st).1.1 i).phi) := by
    rw [hph]
    split
    · rfl
    · rfl
  unfold topField
  rw [hph']
  exact h5

/-- **C36.**  Ions enter the wall at least with the sound speed, unless `no_flow` is set. -/
theorem simple_ions_inward {o : SimpleOpts ι} {m : YMesh ι} {garbage : Fld ι} {names : List String} (hm : MeshOk m)
    (hn : names.Nodup) {st st' : Store Key (Value ι)} (h : sheathBoundarySimple o m garbage names st = (.ok (), st'))
    {n : String} (hmem : n ∈ names) (hi : IsIon st n) (hv : (vals st (.sp n .velocity)).isSome)
    {u : Bool} {i g inn : ι} (ht : Target m o.lower_y o.upper_y u i g inn) :
    0 ≤ out u * face (fieldOf st' n .velocity) i g ∧
    (o.no_flow = false → soundSpeed o.sheath_ion_polytropic (charge st n) (mass st n) (face (fieldOf st' n .temperature) i g)
      (face (fieldOf st' "e" .temperature) i g) ≤ out u * face (fieldOf st' n .velocity) i g) := by
  have hs := (simple_ions hm hn h hmem hi ht).1 hv
  rw [hs]
  unfold ionSpeedAt ionSpeed
  constructor
  · split
    · exact le_rfl
    · exact le_trans (Real.sqrt_nonneg _) (le_max_right _ _)
  · intro hf
    rw [if_neg (by rw [hf]; decide)]
    exact le_max_right _ _

theorem electronSpeed_nonneg {Me Ge te drop : ℝ} (hGe : Ge ≤ 1) : 0 ≤ electronSpeed Me Ge te drop :=
  mul_nonneg (mul_nonneg (Real.sqrt_nonneg _) (by linarith)) (Real.exp_pos _).le

theorem electronSpeed_le {Me Ge te drop : ℝ} (hGe : Ge ≤ 1) (hd : 0 ≤ drop) :
    electronSpeed Me Ge te drop ≤ Real.sqrt (te / (2 * Real.pi * Me)) * (1 - Ge) := by
  unfold electronSpeed
  refine mul_le_of_le_one_right (mul_nonneg (Real.sqrt_nonneg _) (by linarith)) ?_
  rw [Real.exp_le_one_iff]
  exact div_nonpos_of_nonpos_of_nonneg (by linarith) (le_trans (by norm_num) (le_max_right te 1e-5))

theorem potentialDrop_nonneg (o : SimpleOpts ι) (φ : Fld ι) (i inn : ι) : 0 ≤ potentialDrop o φ i inn :=
  sub_nonneg.2 (le_max_right _ _)

/-- **C36.**  Electrons never come out of the wall, nor exceed the thermal flux. -/
theorem simple_electrons_inward {o : SimpleOpts ι} {m : YMesh ι} {garbage : Fld ι} {names : List String} (hm : MeshOk m)
    (hn : names.Nodup) {st st' : Store Key (Value ι)} (h : sheathBoundarySimple o m garbage names st = (.ok (), st'))
    (hv : (vals st (.sp "e" .velocity)).isSome) (hGe : o.Ge ≤ 1)
    {u : Bool} {i g inn : ι} (ht : Target m o.lower_y o.upper_y u i g inn) :
    0 ≤ out u * face (fieldOf st' "e" .velocity) i g ∧
    out u * face (fieldOf st' "e" .velocity) i g ≤
      Real.sqrt (face (fieldOf st' "e" .temperature) i g / (2 * Real.pi * electronMassOf o st)) * (1 - o.Ge) := by
  have hs := (simple_electrons_phi hm hn h ht).1 hv
  rw [hs]
  split
  · exact ⟨le_rfl, mul_nonneg (Real.sqrt_nonneg _) (by linarith)⟩
  · exact ⟨electronSpeed_nonneg hGe, electronSpeed_le hGe (potentialDrop_nonneg ..)⟩

/-- **C37, electrons**: if the sheath heat transmission is at least `5/2 + 1/(4π) ≈ 2.58`, the sheath never heats the
electrons. -/
theorem simple_electrons_never_heated {o : SimpleOpts ι} {m : YMesh ι} {garbage : Fld ι} {names : List String} (hm : MeshOk m)
    (hn : names.Nodup) (hJ : ∀ j, 0 ≤ m.J j) (hdy : ∀ j, 0 ≤ m.dy j)
    {st st' : Store Key (Value ι)} (h : sheathBoundarySimple o m garbage names st = (.ok (), st'))
    (hγ : 2.5 + 1 / (4 * Real.pi) ≤ o.gamma_e) (hGe : o.Ge ≤ 1) (hGe0 : 0 ≤ o.Ge) (hMe : 0 < electronMassOf o st)
    {u : Bool} {i g inn : ι} (ht : Target m o.lower_y o.upper_y u i g inn)
    (hN : 0 ≤ face (fieldOf st' "e" .density) i g) (hT : 0 ≤ face (fieldOf st' "e" .temperature) i g) :
    fieldOf st' "e" .energy_source i ≤ fieldOf st "e" .energy_source i := by
  rw [(simple_electrons_phi hm hn h ht).2.2.1]
  refine sub_le_self _ (mul_nonneg ?_ (areaPerVolume_nonneg hJ hdy _ _))
  have h1 := electronSpeed_nonneg (Me := electronMassOf o st) (te := face (fieldOf st' "e" .temperature) i g)
    (drop := potentialDrop o (phiUsed o m garbage names st) i inn) hGe
  have h2 := electronSpeed_le (Me := electronMassOf o st) (te := face (fieldOf st' "e" .temperature) i g) hGe
    (potentialDrop_nonneg o (phiUsed o m garbage names st) i inn)
  generalize electronSpeed (electronMassOf o st) o.Ge (face (fieldOf st' "e" .temperature) i g)
    (potentialDrop o (phiUsed o m garbage names st) i inn) = v at h1 h2
  generalize face (fieldOf st' "e" .temperature) i g = T at hT h2
  generalize face (fieldOf st' "e" .density) i g = N at hN
  generalize electronMassOf o st = Me at hMe h2
  have hpi := Real.pi_pos
  have h3 : v ≤ Real.sqrt (T / (2 * Real.pi * Me)) := h2.trans (mul_le_of_le_one_right (Real.sqrt_nonneg _) (by linarith))
  have h4 : v ^ 2 ≤ T / (2 * Real.pi * Me) := by
    calc v ^ 2 ≤ Real.sqrt (T / (2 * Real.pi * Me)) ^ 2 := by gcongr
      _ = _ := Real.sq_sqrt (by positivity)
  have h5 : 0.5 * Me * v ^ 2 ≤ 1 / (4 * Real.pi) * T := by
    calc 0.5 * Me * v ^ 2 ≤ 0.5 * Me * (T / (2 * Real.pi * Me)) := by gcongr
      _ = 1 / (4 * Real.pi) * T := by field_simp; norm_num; ring
  have h6 : (2.5 + 1 / (4 * Real.pi)) * T ≤ o.gamma_e * T := by gcongr
  unfold sheathHeat
  have hNv : 0 ≤ N * v := mul_nonneg hN h1
  have h7 : 0 ≤ o.gamma_e * T := le_trans (by positivity) h6
  split
  · have : o.gamma_e * T * N * v = o.gamma_e * T * (N * v) := by ring
    rw [sub_zero, this]
    exact mul_nonneg h7 hNv
  · have : o.gamma_e * T * N * v - (2.5 * T + 0.5 * Me * v ^ 2) * N * v
        = (o.gamma_e * T - (2.5 * T + 0.5 * Me * v ^ 2)) * (N * v) := by ring
    rw [this]
    refine mul_nonneg ?_ hNv
    linarith

/-- **C37, ions, in part**: the sheath does not heat the ions if the kinetic energy with which they enter the wall is at
most `(γᵢ - 5/2) Tᵢ`, or with `no_flow`.  Otherwise it does: `simple_heats_ions`. -/
theorem simple_ions_never_heated_partial {o : SimpleOpts ι} {m : YMesh ι} {garbage : Fld ι} {names : List String} (hm : MeshOk m)
    (hn : names.Nodup) (hJ : ∀ j, 0 ≤ m.J j) (hdy : ∀ j, 0 ≤ m.dy j)
    {st st' : Store Key (Value ι)} (h : sheathBoundarySimple o m garbage names st = (.ok (), st'))
    {n : String} (hmem : n ∈ names) (hi : IsIon st n)
    {u : Bool} {i g inn : ι} (ht : Target m o.lower_y o.upper_y u i g inn) (hγ : 0 ≤ o.gamma_i)
    (hN : 0 ≤ face (fieldOf st' n .density) i g)
    (hke : o.no_flow = false → mass st n * ionSpeedAt o st st' n u i g ^ 2 / 2 ≤
      (o.gamma_i - 2.5) * max (face (fieldOf st' n .temperature) i g) 1e-5) :
    fieldOf st' n .energy_source i ≤ fieldOf st n .energy_source i := by
  rw [(simple_ions hm hn h hmem hi ht).2.2.1]
  refine sub_le_self _ (mul_nonneg ?_ (areaPerVolume_nonneg hJ hdy _ _))
  have h1 : 0 ≤ ionSpeedAt o st st' n u i g := le_trans (Real.sqrt_nonneg _) (le_max_right _ _)
  have hT : 0 ≤ max (face (fieldOf st' n .temperature) i g) 1e-5 := le_trans (by norm_num) (le_max_right _ 1e-5)
  generalize ionSpeedAt o st st' n u i g = v at h1 hke
  generalize max (face (fieldOf st' n .temperature) i g) 1e-5 = T at hT hke
  generalize face (fieldOf st' n .density) i g = N at hN
  have hNv : 0 ≤ N * v := mul_nonneg hN h1
  unfold sheathHeat
  split
  · have : o.gamma_i * T * N * v = o.gamma_i * T * (N * v) := by ring
    rw [sub_zero, this]
    exact mul_nonneg (mul_nonneg hγ hT) hNv
  · rename_i hf
    have hke := hke (by simpa using hf)
    have : o.gamma_i * T * N * v - (2.5 * T + 0.5 * mass st n * v ^ 2) * N * v
        = ((o.gamma_i - 2.5) * T - mass st n * v ^ 2 / 2) * (N * v) := by ring
    rw [this]
    exact mul_nonneg (by linarith) hNv

/-- **C13, C37.**  The energy taken from the last cell is the reported flow of energy through its face. -/
theorem simple_flow_reported {o : SimpleOpts ι} {m : YMesh ι} {garbage : Fld ι} {names : List String} (hm : MeshOk m)
    (hn : names.Nodup) {st st' : Store Key (Value ι)} (h : sheathBoundarySimple o m garbage names st = (.ok (), st'))
    {s : String} (hs : HasSheath st names s) {u : Bool} {i g inn : ι} (ht : Target m o.lower_y o.upper_y u i g inn)
    (hJ : m.J i ≠ 0) (hdy : m.dy i ≠ 0) :
    added st st' s .energy_source i * (m.J i * m.dx i * m.dy i * m.dz i) =
      -(out u * added st st' s .energy_flow_ylow (if u then g else i)) := by
  have key : ∀ q : ℝ, (-(q * areaPerVolume m i g)) * (m.J i * m.dx i * m.dy i * m.dz i) = -(out u * (out u * (q * faceArea m i g))) := by
    intro q
    have ho : out u * out u = 1 := by cases u <;> simp [out]
    rw [← mul_assoc (out u), ho, one_mul]
    unfold areaPerVolume faceArea
    field_simp
  rcases hs with rfl | ⟨hmem, hi⟩
  · obtain ⟨_, _, h3, h4, _⟩ := simple_electrons_phi hm hn h ht
    rw [h4, ← key]
    unfold added
    rw [h3]
    ring
  · obtain ⟨_, _, h3, h4⟩ := simple_ions hm hn h hmem hi ht
    rw [h4, ← key]
    unfold added
    rw [h3]
    ring

end Hermes.SheathSimple
