import Verif.Props.ClosedPlasma
import Verif.Props.CollisionExamples
import Verif.Props.NucleiExamples

/-!
# C83: a plasma that meets the hypotheses, and the energy made by thermal forces
-/

namespace Hermes.ClosedPlasma
open Finset Hermes Hermes.Limiters Hermes.PerpOps Hermes.Rhs Hermes.DensityEquation Hermes.PressureEquation Hermes.MomentumEquation Hermes.Closures

/-! ## Equations that have a value -/

theorem momentum_runs {nz : ℕ} [NeZero nz] {o : MomentumOpts} (h1 : o.low_p_diffuse_perp = false) (g : Grid) (B : RhsOps nz)
    (lim : Limiter) (e : F3 nz) {s : SpeciesIn nz} {f : FieldsIn nz} {A : ℝ} {NV N V w : F3 nz} (hA : s.AA = some A) (hm : s.momentum = some NV)
    (hN : s.density = some N) (hV : s.velocity = some V) (hw : waveSpeed s f = .ok w) : ∃ r, momentumRhs o g B lim e s f = .ok r := by
  unfold momentumRhs momentumLow
  rw [hA, hm, hN, hV, hw, h1]
  cases f.scale_timederivs with
  | none => exact ⟨_, rfl⟩
  | some sc => exact ⟨_, rfl⟩

theorem pressure_runs {nz : ℕ} [NeZero nz] {o : PressureOpts} (h1 : o.thermal_conduction = false) (h2 : o.numerical_viscous_heating = false)
    (h3 : o.diagnose = false) (g : Grid) (B : RhsOps nz) (lim : Limiter) (P₀ source : F3 nz) {s : SpeciesIn nz} {f : FieldsIn nz} {P T N V w : F3 nz} (hP : s.pressure = some P)
    (hT : s.temperature = some T) (hN : s.density = some N) (hV : s.velocity = some V) (hw : waveSpeed s f = .ok w) :
    ∃ r, pressureRhs o g B lim P₀ source s f = .ok r := by
  unfold pressureRhs pressureAdvection pressureConduction pressureHeating
  rw [hP, hT, hN, hV, hw, h1, h2, h3]
  cases f.scale_timederivs with
  | none => exact ⟨_, rfl⟩
  | some sc => exact ⟨_, rfl⟩

/-! ## Deuterium runs through tritium at rest -/

noncomputable def boxN (n : String) : Fld (Cell 1) := fun _ => if n = "e" then 2 else 1
noncomputable def boxV (n : String) : Fld (Cell 1) := fun p =>
  (if n = "d+" then 1 else if n = "e" then 1 / 2 else 0) * MomentumEquation.collide p.1 p.2.1 p.2.2
/-- The electrons are hotter at one end. -/
noncomputable def boxT (n : String) : Fld (Cell 1) := fun p => if n = "e" ∧ 2 < p.2.1 then 2 else 1
noncomputable def boxA (n : String) : ℝ := if n = "e" then 1 / 1836 else if n = "d+" then 2 else 3
noncomputable def boxZ (n : String) : ℝ := if n = "e" then -1 else 1

/-- What collisions see. -/
noncomputable def boxWorld : World (Cell 1) where
  st := {
    check := true
    ent := fun k => match k with
      | .sp s .density => { val := some (boxN s) }
      | .sp s .temperature => { val := some (boxT s) }
      | .sp s .velocity => { val := some (boxV s) }
      | _ => { val := none } }
  num := fun s v => match v with
    | .AA => some (boxA s)
    | .charge => some (boxZ s)
    | _ => none
  ym := id
  yp := id
  J := fun _ => 1
  lim := upwind

noncomputable def boxNorms : CollNorms := { Tnorm := 1, Nnorm := 1, rho_s0 := 1, Omega_ci := 1, Mp := 1, Me := 1, qe := 1, e0 := 1 }
noncomputable def boxOpts : CollOpts :=
  { electron_electron := true, electron_ion := true, electron_neutral := false, ion_ion := true, ion_neutral := false, neutral_neutral := false,
    frictional_heating := true, ei_multiplier := 1 }

abbrev boxNames : List String := ["d+", "e", "t+"]
noncomputable def boxX : Exchange 1 := (collisions boxNorms boxOpts boxNames, boxWorld)

/-- The state in which the sources are those of the collisions. -/
noncomputable def boxState : Store Key (Value (Cell 1)) where
  check := true
  ent := fun k => { val := match k with
    | .top n => if n = "fastest_wave" then some (.field fun _ => 0) else none
    | .sp s .AA => some (.real (boxA s))
    | .sp s .charge => some (.real (boxZ s))
    | .sp s .density => some (.field (boxN s))
    | .sp s .velocity => some (.field (boxV s))
    | .sp s .temperature => some (.field (boxT s))
    | .sp s .pressure => some (.field fun p => boxN s p * boxT s p)
    | .sp s .momentum => some (.field fun p => boxA s * boxN s p * boxV s p)
    | .sp s .density_source => some (.field (boxX.given s .density_source))
    | .sp s .momentum_source => some (.field (boxX.given s .momentum_source))
    | .sp s .energy_source => some (.field (boxX.given s .energy_source))
    | _ => none }

theorem box_unread : SourcesUnread boxWorld.st := by
  intro s v hv
  simp only [List.mem_cons, List.not_mem_nil, or_false] at hv
  rcases hv with rfl | rfl | rfl | rfl <;> exact ⟨rfl, rfl⟩

theorem boxA_pos (n : String) : 0 < boxA n := by
  unfold boxA
  split_ifs <;> norm_num

theorem box_ready : Collisions.Ready boxNorms boxNames boxWorld where
  Tnorm := one_pos
  Mp := one_pos
  Me := one_pos
  density s _ := ⟨_, rfl⟩
  temperature s _ := ⟨_, rfl, fun p => by
    show 0 ≤ boxT s p
    unfold boxT
    split_ifs <;> norm_num⟩
  mass s _ := ⟨_, rfl, boxA_pos s⟩
  charges a _ b _ ha hb x y hx _ hy _ := by
    have hx : some (boxZ a) = some x := hx
    have hy : some (boxZ b) = some y := hy
    unfold boxZ at hx hy
    rw [if_neg ha] at hx
    rw [if_neg hb] at hy
    cases hx
    cases hy
    norm_num

theorem box_sources : Sources boxGrid boxNames boxState (fun _ _ => 0) [boxX] where
  ran x hx := by
    obtain rfl := List.mem_singleton.1 hx
    obtain ⟨after, h⟩ := Collisions.collisions_succeed boxNorms boxOpts boxNames boxWorld box_ready box_unread
    exact congrArg Prod.fst h
  unread x hx := by
    obtain rfl := List.mem_singleton.1 hx
    exact box_unread
  same x hx n _ := by
    obtain rfl := List.mem_singleton.1 hx
    exact ⟨rfl, fun _ _ => rfl⟩
  sum n _ v hv p _ := by
    simp only [List.mem_cons, List.not_mem_nil, or_false] at hv
    rw [List.map_singleton, List.sum_singleton]
    show _ = 0 + _
    rw [zero_add]
    rcases hv with rfl | rfl | rfl <;> rfl

theorem box_balanced : ∃ st' E, Balanced boxGrid (plainRhs 1) ["d+", "t+"] boxNames boxState st' E := by
  have h : ∃ st' E, electronForceBalance (gradCells (plainRhs 1)) boxNames boxState = (.ok E, st') := by
    refine ⟨_, _, bind_intro rfl (bind_intro (throwIf_intro (by decide) _) (bind_intro rfl (bind_intro rfl (bind_intro rfl (bind_intro (throwIf_intro ?_ _) rfl)))))⟩
    rw [not_not]
    norm_num [boxZ]
  obtain ⟨st', E, h⟩ := h
  refine ⟨st', E, by decide, by decide, h, fun p _ => ?_, fun p _ => ?_⟩
  · show boxZ "d+" * boxN "d+" p + (boxZ "e" * boxN "e" p + (boxZ "t+" * boxN "t+" p + 0)) = 0
    simp [boxZ, boxN]
    norm_num
  · show (1e-5 : ℝ) ≤ boxN "e" p
    norm_num [boxN]

/-- No current. -/
theorem box_current (p : Cell 1) : (boxNames.map fun n => currentDensity boxState n p).sum = 0 := by
  show boxZ "d+" * boxN "d+" p * boxV "d+" p + (boxZ "e" * boxN "e" p * boxV "e" p + (boxZ "t+" * boxN "t+" p * boxV "t+" p + 0)) = 0
  simp [boxZ, boxN, boxV]

theorem box_closed (n : String) (i : ℤ) : ClosedEnds boxGrid (plainRhs 1) (asF3 (boxV n)) i := by
  refine ⟨rfl, rfl, rfl, fun k => ?_, fun k => ?_⟩ <;>
    norm_num [plainRhs, ExB.plainOps, asF3, boxV, MomentumEquation.collide, boxGrid]

/-- Options of the pressure equations, without conduction. -/
noncomputable def boxOP : PressureOpts :=
  { density_floor := 1e-5, temperature_floor := 1e-5, pressure_floor := 1e-5, kappa_coefficient := 3, thermal_conduction := false, bndry_flux := false,
    fix_momentum_boundary_flux := true }
noncomputable def boxOM : MomentumOpts := { density_floor := 1e-5, pressure_floor := 1e-5, fix_momentum_boundary_flux := true, bndry_flux := false }

section
variable {st' : Store Key (Value (Cell 1))} {E : Fld (Cell 1)}

theorem box_top (hb : Balanced boxGrid (plainRhs 1) ["d+", "t+"] boxNames boxState st' E) (n : String) :
    readF3 st' (.top n) = readF3 boxState (.top n) := by
  have := hb.field.2.2.1 (.top n) (by
    intro hk
    obtain ⟨m, hm, e⟩ := List.mem_map.1 hk
    cases e)
  unfold vals at this
  unfold readF3
  rw [this]

theorem box_AA (hb : Balanced boxGrid (plainRhs 1) ["d+", "t+"] boxNames boxState st' E) (n : String) : (speciesIn st' n).AA = some (boxA n) := by
  have := hb.field.2.2.1 (.sp n .AA) (by
    intro hk
    obtain ⟨m, hm, e⟩ := List.mem_map.1 hk
    cases e)
  unfold vals at this
  show readNumber st' (.sp n .AA) = _
  unfold readNumber
  rw [this]
  rfl

theorem box_wave (hb : Balanced boxGrid (plainRhs 1) ["d+", "t+"] boxNames boxState st' E) (n : String) :
    waveSpeed (speciesIn st' n) (fieldsIn st') = .ok (asF3 fun _ => 0) := by
  unfold waveSpeed
  rw [show (fieldsIn st').fastest_wave = some (asF3 fun _ => 0) from box_top hb _]

theorem box_fluid (hb : Balanced boxGrid (plainRhs 1) ["d+", "t+"] boxNames boxState st' E) (n : String) (hn : n ≠ "e") :
    ∃ rN rM rP, FluidAlong oN boxOP boxOM boxGrid (plainRhs 1) upwind (asF3 (boxN n)) (asF3 fun p => boxN n p * boxT n p) 0 0 (speciesIn st' n) (fieldsIn st')
      (boxA n) (asF3 (boxN n)) (asF3 (boxV n)) (asF3 fun _ => 0) rN rM rP := by
  have hN : (speciesIn st' n).density = some (asF3 (boxN n)) := hb.read (by decide)
  have hV : (speciesIn st' n).velocity = some (asF3 (boxV n)) := hb.read (by decide)
  have hM : (speciesIn st' n).momentum = some (asF3 fun p => boxA n * boxN n p * boxV n p) := hb.read (by decide)
  have hP : (speciesIn st' n).pressure = some (asF3 fun p => boxN n p * boxT n p) := hb.read (by decide)
  have hT : (speciesIn st' n).temperature = some (asF3 (boxT n)) := hb.read (by decide)
  have hS : (speciesIn st' n).density_source = some (asF3 (boxX.given n .density_source)) := hb.read (by decide)
  have hl : (speciesIn st' n).low_n_coeff = none := hb.read (by decide)
  have hf : (fieldsIn st').Apar_flutter = none := box_top hb _
  have hw := box_wave hb n
  obtain ⟨rN, h1⟩ := Nuclei.density_runs (o := oN) rfl rfl boxGrid (plainRhs 1) upwind (asF3 (boxN n)) hN hS (fun _ _ => ⟨_, hw⟩) hf
  obtain ⟨rM, h2⟩ := momentum_runs (o := boxOM) rfl boxGrid (plainRhs 1) upwind 0 (box_AA hb n) hM hN hV hw
  obtain ⟨rP, h3⟩ := pressure_runs (o := boxOP) rfl rfl rfl boxGrid (plainRhs 1) upwind (asF3 fun p => boxN n p * boxT n p) 0 hP hT hN hV hw
  have hfl : floor3 (asF3 (boxN n)) 1e-5 = asF3 (boxN n) := by
    funext i j k
    unfold floor3
    rw [if_neg]
    rw [not_lt]
    show (1e-5 : ℝ) ≤ boxN n _
    unfold boxN
    rw [if_neg hn]
    norm_num
  refine ⟨rN, rM, rP, ⟨asF3 fun p => boxN n p * boxT n p, asF3 (boxT n), ?_⟩, hw, fun i _ => box_closed n i, h1, h2, h3⟩
  exact {
    hasAA := box_AA hb n
    hasN := hN
    hasV := hV
    hasP := hP
    hasT := hT
    phi := hb.phi
    flutter := hf
    scale := box_top hb _
    low_n := ⟨hl, rfl⟩
    perpN := ⟨rfl, rfl⟩
    perpP := ⟨rfl, rfl, rfl⟩
    perpM := ⟨rfl, rfl⟩
    hyper := by refine ⟨?_, ?_, ?_, ?_⟩ <;> norm_num [oN, boxOM, boxOP]
    form := rfl
    fix := ⟨rfl, rfl⟩
    floors := ⟨hfl, hfl⟩
    consistent := ⟨rfl, rfl, rfl, rfl⟩ }

theorem box_heat (hb : Balanced boxGrid (plainRhs 1) ["d+", "t+"] boxNames boxState st' E) :
    ∃ rP, HeatAlong boxOP boxGrid (plainRhs 1) upwind (asF3 fun p => boxN "e" p * boxT "e" p) 0 (speciesIn st' "e") (fieldsIn st') rP := by
  have hN : (speciesIn st' "e").density = some (asF3 (boxN "e")) := hb.read (by decide)
  have hV : (speciesIn st' "e").velocity = some (asF3 (boxV "e")) := hb.read (by decide)
  have hP : (speciesIn st' "e").pressure = some (asF3 fun p => boxN "e" p * boxT "e" p) := hb.read (by decide)
  have hT : (speciesIn st' "e").temperature = some (asF3 (boxT "e")) := hb.read (by decide)
  have hl : (speciesIn st' "e").low_n_coeff = none := hb.read (by decide)
  obtain ⟨rP, h3⟩ := pressure_runs (o := boxOP) rfl rfl rfl boxGrid (plainRhs 1) upwind (asF3 fun p => boxN "e" p * boxT "e" p) 0 hP hT hN hV (box_wave hb "e")
  refine ⟨rP, ⟨box_top hb _, box_top hb _⟩, ⟨rfl, rfl⟩, ⟨_, _, _, _, hN, hV, hP, hT, rfl, rfl, ?_⟩, h3⟩
  exact {
    radial := rfl
    lines := fun i _ => Or.inl ⟨rfl, rfl, rfl, fun V h => by
      rw [hV] at h
      cases h
      exact box_closed "e" i⟩
    lowN := fun c hc => by
      rw [hl] at hc
      cases hc
    flatP := by simp [boxOP]
    flatT := by simp [boxOP] }

theorem box_lossless : ∀ x ∈ [boxX], Lossless boxNames x := by
  intro x hx
  obtain rfl := List.mem_singleton.1 hx
  exact .collisions _ _ _ rfl fun n _ => boxA_pos n

end

/-- Two ion species and electrons, colliding with each other on closed field lines with zero current, satisfy the hypotheses of both theorems. -/
example : ∃ (st' : Store Key (Value (Cell 1))) (E : Fld (Cell 1)) (rN rM rP : String → F3 1),
    Balanced boxGrid (plainRhs 1) ["d+", "t+"] boxNames boxState st' E ∧
    (content boxGrid (rM "d+") + content boxGrid (rM "t+")
      = (boxNames.map fun n => content boxGrid (pressureForce (plainRhs 1) boxState n)).sum) ∧
    content boxGrid (energyRate 2 (asF3 (boxV "d+")) (rN "d+") (rM "d+") (rP "d+")) + content boxGrid (energyRate 3 (asF3 (boxV "t+")) (rN "t+") (rM "t+") (rP "t+"))
        + 3 / 2 * content boxGrid (rP "e")
      = numericalHeat boxOP boxGrid (plainRhs 1) upwind 2 (asF3 (boxN "d+")) (asF3 (boxV "d+")) 0
        + numericalHeat boxOP boxGrid (plainRhs 1) upwind 3 (asF3 (boxN "t+")) (asF3 (boxV "t+")) 0 := by
  obtain ⟨st', E, hb⟩ := box_balanced
  have hf : ∀ n : String, ∃ rN rM rP, n ≠ "e" → FluidAlong oN boxOP boxOM boxGrid (plainRhs 1) upwind (asF3 (boxN n)) (asF3 fun p => boxN n p * boxT n p) 0 0
      (speciesIn st' n) (fieldsIn st') (boxA n) (asF3 (boxN n)) (asF3 (boxV n)) (asF3 fun _ => 0) rN rM rP := by
    intro n
    by_cases h : n = "e"
    · exact ⟨0, 0, 0, fun h' => absurd h h'⟩
    · obtain ⟨a, b, c, h'⟩ := box_fluid hb n h
      exact ⟨a, b, c, fun _ => h'⟩
  choose rN rM rP hf using hf
  obtain ⟨re, he⟩ := box_heat hb
  have hne : ∀ n ∈ ["d+", "t+"], n ≠ "e" := by decide
  let rP' : String → F3 1 := fun n => if n = "e" then re else rP n
  refine ⟨st', E, rN, rM, rP', hb, ?_, ?_⟩
  · have h := closed_plasma_momentum boxGrid_regular boxGrid_separable (plainRhs_assumed 1) (lim := upwind) (o := fun _ => boxOM) (NV_err := fun _ => 0) (rM := rM)
      hb box_sources (fun x hx => .lossless x (box_lossless x hx)) (fun n hn => {
        still := ⟨box_top hb _, box_top hb _, box_top hb _⟩
        radial := rfl
        fixed := rfl
        low := ⟨hb.read (by decide), rfl, rfl⟩
        closed := ⟨_, hb.read (by decide), fun i _ => box_closed n i⟩
        exact_momentum := rfl
        eval := (hf n (hne n hn)).momentum })
    have e : content boxGrid (asF3 (0 : Fld (Cell 1))) = 0 := content_zero _
    simp only [e, zero_add] at h
    simpa [add_zero] using h
  · have h := closed_plasma_energy_partial boxGrid_regular boxGrid_separable plain_relabels (plainRhs_assumed 1) (lim := upwind) (oN := fun _ => oN)
      (oP := fun _ => boxOP) (oM := fun _ => boxOM) (source := fun _ => 0) (N := fun n => asF3 (boxN n)) (V := fun n => asF3 (boxV n))
      (w := fun _ => asF3 fun _ => 0) (AA := boxA) (rN := rN) (rM := rM) (rP := rP') (NV_err := fun _ => 0) (N₀ := fun n => asF3 (boxN n))
      (P₀ := fun n => asF3 fun p => boxN n p * boxT n p) hb box_sources box_lossless (fun p _ => box_current p)
      (fun n hn => by
        have := hf n (hne n hn)
        rwa [show rP n = rP' n from (if_neg (hne n hn)).symm] at this)
      he
    have e : ∀ n, content boxGrid (asF3 (power boxState ((fun _ _ => 0 : String → Var → Fld (Cell 1)) n) n)) = 0 := by
      intro n
      have : power boxState ((fun _ _ => 0 : String → Var → Fld (Cell 1)) n) n = 0 := by
        funext p
        simp [power]
      rw [this]
      exact content_zero _
    have h2 : boxA "d+" = 2 := by simp [boxA]
    have h3 : boxA "t+" = 3 := by simp [boxA]
    simp only [e, List.map_cons, List.map_nil, List.sum_cons, List.sum_nil, content_zero, mul_zero, add_zero, zero_add, h2, h3] at h
    exact h

/-! ## Thermal forces -/

/-- Deuterium and electrons, the deuterium moving and the electrons at rest. -/
noncomputable def thermalWorld (V : ℝ) : World (Fin 1) := Reactions.demo (fun _ => 1) (fun _ => 1) (fun n => if n = "d+" then V else 0)

/-- **C83, negation.**  Thermal forces make energy: where the ions move relative to the electrons along a gradient of the electron temperature, `thermal_force` does
work on them, and takes it from nothing, because it adds to the momentum sources only.  Total momentum is kept (C32). -/
theorem thermal_force_makes_energy (V G : ℝ) : ∃ after : Store Key (Fld (Fin 1)),
    (thermalForce (fun _ _ => G) true true ["d+", "e"]).transform (thermalWorld V) = (.ok (), after) ∧
    (["d+", "e"].map fun n => gain (thermalWorld V).st after n .momentum_source 0).sum = 0 ∧
    (["d+", "e"].map fun n => totalEnergyRate (thermalWorld V) after n 0).sum = 0.71 * G * V := by
  have hc : thermalForce (fun _ _ => G) true true ["d+", "e"] (thermalWorld V) = .ok (pairForce "d+" "e" fun _ => 1 * (0.71 * 1 ^ 2) * G) := rfl
  obtain ⟨after, h1, h2, h3⟩ := contributeAll_gain (pairForce "d+" "e" fun _ => 1 * (0.71 * 1 ^ 2) * G) (thermalWorld V).st ["d+", "e"] [Var.momentum_source]
    (by simp [pairForce]) (by simp) (Reactions.demo_unread _ _ _)
  have h0 : ∀ n v, v ≠ Var.momentum_source → gain (thermalWorld V).st after n v 0 = 0 := fun n v hv => by
    unfold gain
    rw [h2 (.sp n v) fun s _ u hu e => hv (by cases e; exact List.mem_singleton.1 hu), sub_self]
  refine ⟨after, ?_, ?_, ?_⟩
  · unfold SourceComponent.transform
    rw [hc]
    exact h1
  · simp [h3, pairForce]
  · simp only [List.map_cons, List.map_nil, List.sum_cons, List.sum_nil, totalEnergyRate, h0 _ Var.energy_source (by decide), h0 _ Var.density_source (by decide), h3]
    have e1 : velocity (thermalWorld V) "d+" 0 = V := rfl
    have e2 : velocity (thermalWorld V) "e" 0 = 0 := rfl
    rw [e1, e2]
    simp [pairForce]
    ring

example : ∃ after : Store Key (Fld (Fin 1)), (thermalForce (fun _ _ => 1) true true ["d+", "e"]).transform (thermalWorld 1) = (.ok (), after) ∧
    0 < (["d+", "e"].map fun n => totalEnergyRate (thermalWorld 1) after n 0).sum := by
  obtain ⟨after, h, -, e⟩ := thermal_force_makes_energy 1 1
  exact ⟨after, h, by rw [e]; norm_num⟩

end Hermes.ClosedPlasma
