import Verif.Lemmas.Marks
import Verif.Props.ComponentFootprints

/-!
# Wrong orders that are reported, wrong orders that are not (C82)

The components that publish a variable fail once it has been used; the components below always use theirs.  `quasineutral` and `sound_speed` ask whether a
variable is there, and go on without it.
-/

namespace Hermes.Order

variable {ι : Type}

/-! ## Publishing -/

theorem evolveDensity_needs (name : String) (charge AA : ℝ) (N source : Fld ι) (p : Part) :
    (evolveDensityC name charge AA N source).Needs p (.sp name .density) ∧ (evolveDensityC name charge AA N source).Needs p (.sp name .AA) ∧
      (evolveDensityC name charge AA N source).Needs p (.sp name .density_source) := by
  refine ⟨?_, ?_, ?_⟩ <;> unfold Component.Needs evolveDensityC <;> dsimp only <;> unfold evolveDensity setChargeIf <;> needs

theorem fixedDensity_needs (name : String) (charge AA : ℝ) (N : Fld ι) (p : Part) :
    (fixedDensityC name charge AA N).Needs p (.sp name .density) ∧ (fixedDensityC name charge AA N).Needs p (.sp name .AA) := by
  refine ⟨?_, ?_⟩ <;> unfold Component.Needs fixedDensityC <;> dsimp only <;> unfold fixedDensity setChargeIf <;> needs

theorem quasineutral_needs (name : String) (charge AA : ℝ) (names : List String) (p : Part) :
    (quasineutralC (ι := ι) name charge AA names).Needs p (.sp name .density) ∧ (quasineutralC (ι := ι) name charge AA names).Needs p (.sp name .charge) ∧
      (quasineutralC (ι := ι) name charge AA names).Needs p (.sp name .AA) := by
  refine ⟨?_, ?_, ?_⟩ <;> unfold Component.Needs quasineutralC <;> dsimp only <;> unfold quasineutral quasineutralTerm <;> needs

theorem evolvePressure_needs (name : String) (density_floor : ℝ) (P : Fld ι) (p : Part) :
    (evolvePressureC name density_floor P).Needs p (.sp name .pressure) ∧ (evolvePressureC name density_floor P).Needs p (.sp name .temperature) := by
  refine ⟨?_, ?_⟩ <;> unfold Component.Needs evolvePressureC <;> dsimp only <;> unfold evolvePressure <;> needs

theorem isothermal_needs (name : String) (T : ℝ) (p : Part) : (isothermalC (ι := ι) name T).Needs p (.sp name .temperature) := by
  unfold Component.Needs isothermalC
  dsimp only
  unfold isothermal setPressureFrom
  needs

theorem evolveMomentum_needs (name : String) (density_floor : ℝ) (bndry : Fld ι → Fld ι) (m : MomentumMembers ι) (p : Part) :
    (evolveMomentumC name density_floor bndry m).Needs p (.sp name .velocity) ∧ (evolveMomentumC name density_floor bndry m).Needs p (.sp name .momentum) := by
  refine ⟨?_, ?_⟩ <;> unfold Component.Needs evolveMomentumC <;> dsimp only <;> unfold ignore evolveMomentum <;> refine Needs.left ?_ <;> needs

/-! ## Using -/

theorem evolvePressure_uses (name : String) (density_floor : ℝ) (P : Fld ι) : (evolvePressureC name density_floor P).Uses .interior (.sp name .density) := by
  unfold Component.Uses evolvePressureC
  dsimp only
  unfold evolvePressure
  uses

theorem isothermal_uses (name : String) (T : ℝ) : (isothermalC (ι := ι) name T).Uses .interior (.sp name .density) := by
  unfold Component.Uses isothermalC
  dsimp only
  unfold isothermal setPressureFrom
  uses

theorem fixedTemperature_uses (name : String) (T : Fld ι) : (fixedTemperatureC name T).Uses .interior (.sp name .density) := by
  unfold Component.Uses fixedTemperatureC
  dsimp only
  unfold fixedTemperature setPressureFrom
  uses

theorem evolveMomentum_uses (name : String) (density_floor : ℝ) (bndry : Fld ι → Fld ι) (m : MomentumMembers ι) :
    (evolveMomentumC name density_floor bndry m).Uses .interior (.sp name .density) ∧ (evolveMomentumC name density_floor bndry m).Uses .interior (.sp name .AA) := by
  refine ⟨?_, ?_⟩ <;> unfold Component.Uses evolveMomentumC <;> dsimp only <;> unfold ignore evolveMomentum <;> refine Uses.left ?_ (fun _ => Keeps.pure _) <;> uses

theorem fixedVelocity_uses (name : String) (V : Fld ι) : (fixedVelocityC name V).Uses .interior (.sp name .density) := by
  unfold Component.Uses fixedVelocityC
  dsimp only
  unfold fixedVelocity
  uses

theorem evolveEnergy_uses (name : String) (density_floor Cv : ℝ) (bndry : Fld ι → Fld ι) (E : Fld ι) :
    (evolveEnergyC name density_floor Cv bndry E).Uses .interior (.sp name .density) ∧
      (evolveEnergyC name density_floor Cv bndry E).Uses .interior (.sp name .velocity) := by
  refine ⟨?_, ?_⟩ <;> unfold Component.Uses evolveEnergyC <;> dsimp only <;> unfold evolveEnergy <;> uses

theorem simplePump_uses (name : String) (sink_shape : Fld ι) (residence_time : ℝ) :
    (simplePumpC name sink_shape residence_time).Uses .interior (.sp name .density) := by
  unfold Component.Uses simplePumpC
  dsimp only
  unfold simplePump
  uses

theorem setTemperature_uses (name temperature_from : String) :
    (setTemperatureC (ι := ι) name temperature_from).Uses .interior (.sp temperature_from .temperature) ∧
      (setTemperatureC (ι := ι) name temperature_from).Uses .interior (.sp name .density) := by
  refine ⟨?_, ?_⟩ <;> unfold Component.Uses setTemperatureC <;> dsimp only <;> unfold setTemperature setPressureFrom <;> uses

theorem fixedFractionIons_uses (fractions : List (String × ℝ)) (p : Part) : (fixedFractionIonsC (ι := ι) fractions).Uses p (.sp "e" .density) := by
  unfold Component.Uses fixedFractionIonsC
  dsimp only
  unfold fixedFractionIons
  uses

theorem electronForceBalance_uses (gradPar : Fld ι → Fld ι) (names : List String) (p : Part) :
    (electronForceBalanceC gradPar names).Uses p (.top "fields:phi") ∧ (electronForceBalanceC gradPar names).Uses p (.sp "e" .pressure) ∧
      (electronForceBalanceC gradPar names).Uses .interior (.sp "e" .density) ∧ (electronForceBalanceC gradPar names).Uses p (.sp "e" .momentum_source) := by
  refine ⟨?_, ?_, ?_, ?_⟩ <;> unfold Component.Uses electronForceBalanceC <;> dsimp only <;> unfold ignore electronForceBalance otherForces forceOn <;>
    refine Uses.left ?_ (fun _ => Keeps.pure _)
  · uses
  · uses
  · uses
  · iterate 6 refine Uses.right (by keeps) fun _ => ?_
    refine Uses.left ?_ (fun _ => by keeps)
    uses

theorem sheathClosure_uses (o : ClosureOpts) (names : List String) (p : Part) :
    (sheathClosureC (ι := ι) o names).Uses p (.top "fields:phi") ∧ (sheathClosureC (ι := ι) o names).Uses p (.sp "e" .density) := by
  refine ⟨?_, ?_⟩ <;> unfold Component.Uses sheathClosureC <;> dsimp only <;>
    unfold sheathClosure closureElectronHeat closureSinks closureTotals closureSink <;> uses

theorem vorticity_needs (o : DriftOps ι) (q : VortOpts ι) (solve : Fld ι → Fld ι) (Vort : Fld ι) (names : List String) (p : Part) :
    (vorticityC o q solve Vort names).Needs p (.top "fields:phi") ∧ (vorticityC o q solve Vort names).Needs p (.top "fields:vorticity") := by
  refine ⟨?_, ?_⟩ <;> unfold Component.Needs vorticityC <;> dsimp only <;>
    unfold ignore vorticityTransform piHat piTerm vortDiamagnetic jdiaTerm vortFriction frictionTerm ifSet ifSetNB ifSetFinal ifCharged <;>
    refine Needs.left ?_ <;> needs

theorem zeroCurrent_uses (name : String) (charge : ℝ) (names : List String) :
    (zeroCurrentC (ι := ι) name charge names).Uses .interior (.sp name .density) := by
  refine Uses.right ?_ fun J => ?_
  · unfold zeroCurrentTerm; keeps
  · cases J with
    | none => intro st a st' _ e; exact absurd (congrArg Prod.fst e) (by simp [zeroCurrentSet, M.throw])
    | some J =>
      unfold zeroCurrentSet
      refine Uses.right (by keeps) fun _ => Uses.ite (fun _ => ?_) fun _ => ?_
      · intro st a st' _ e; exact absurd (congrArg Prod.fst e) (by simp [M.throw])
      · uses

section
variable [DecidableEq ι]

theorem fixedFractionRadiation_uses (o : RadOpts) (m : RadMesh ι) (curve : ℝ → ℝ) :
    (fixedFractionRadiationC o m curve).Uses .interior (.sp "e" .density) ∧ (fixedFractionRadiationC o m curve).Uses .interior (.sp "e" .temperature) := by
  refine ⟨?_, ?_⟩ <;> unfold Component.Uses fixedFractionRadiationC <;> dsimp only <;> unfold fixedFractionRadiation <;> uses

theorem neutralBoundary_uses (o : NeutralOpts) (m : RMesh ι) (name : String) :
    ∀ v ∈ [Var.density, .pressure, .temperature], (neutralBoundaryC o m name).Uses .interior (.sp name v) := by
  intro v hv
  simp only [List.mem_cons, List.not_mem_nil, or_false] at hv
  rcases hv with rfl | rfl | rfl <;> unfold Component.Uses neutralBoundaryC <;> dsimp only <;> unfold neutralBoundary readNB readSource setBoundaryIfSetNB <;> uses

theorem sheathBoundary_uses (o : SheathOpts ι) (m : YMesh ι) (garbage : Fld ι) (names : List String) :
    ∀ v ∈ [Var.density, .temperature], (sheathBoundaryC o m garbage names).Uses .interior (.sp "e" v) := by
  intro v hv
  simp only [List.mem_cons, List.not_mem_nil, or_false] at hv
  rcases hv with rfl | rfl <;> unfold Component.Uses sheathBoundaryC <;> dsimp only <;>
    unfold sheathBoundary electronTransform sheathPhi ionSumTerm ionSumRead ionTransform ionTransformCharged publishIons
      publishElectrons readNB readSet readSource readReal setBoundaryIfSet setBoundaryIfSetNB <;> refine Uses.left ?_ (fun _ => by keeps) <;> uses

theorem sheathBoundary_needs (o : SheathOpts ι) (m : YMesh ι) (garbage : Fld ι) (names : List String) :
    ∀ v ∈ [Var.density, .temperature, .pressure], (sheathBoundaryC o m garbage names).Needs .whole (.sp "e" v) := by
  intro v hv
  have hp : ∀ (b : Bool) (r : (ι → ECell) × Fld ι), Needs .whole (.sp "e" v) (publishElectrons b r) := by
    intro b r
    simp only [List.mem_cons, List.not_mem_nil, or_false] at hv
    unfold publishElectrons
    rcases hv with rfl | rfl | rfl <;> needs
  unfold Component.Needs sheathBoundaryC
  dsimp only
  unfold sheathBoundary electronTransform sheathPhi ionSumTerm ionSumRead readNB readSource readReal
  refine Needs.left ?_
  repeat first
    | with_reducible exact Needs.left (hp _ _)
    | with_reducible refine Needs.right (by keeps) fun _ => ?_

end

/-! ## A species with density, pressure, momentum and a pump -/

section
variable (name : String) (charge AA : ℝ) (N source : Fld ι) (density_floor : ℝ) (P : Fld ι) (bndry : Fld ι → Fld ι) (m : MomentumMembers ι)
  (sink_shape : Fld ι) (residence_time : ℝ)

/-- `evolve_density`, `evolve_pressure`, `evolve_momentum` and `simple_pump` of the species `name`. -/
noncomputable def evolving : Fin 4 → Component ι
  | 0 => evolveDensityC name charge AA N source
  | 1 => evolvePressureC name density_floor P
  | 2 => evolveMomentumC name density_floor bndry m
  | 3 => simplePumpC name sink_shape residence_time

theorem evolving_declared : ∀ i, (evolving name charge AA N source density_floor P bndry m sink_shape residence_time i).Declared
  | 0 => evolveDensityC_declared _ _ _ _ _
  | 1 => evolvePressureC_declared _ _ _
  | 2 => evolveMomentumC_declared _ _ _ _
  | 3 => simplePumpC_declared _ _ _

theorem evolving_conflict {i j : Fin 4} (hne : i ≠ j)
    (hc : Conflict (evolving name charge AA N source density_floor P bndry m sink_shape residence_time i)
      (evolving name charge AA N source density_floor P bndry m sink_shape residence_time j)) : i = 0 ∨ j = 0 := by
  by_contra h
  rw [not_or] at h
  obtain ⟨k, hk⟩ := hc
  have hi : i = 1 ∨ i = 2 ∨ i = 3 := by omega
  have hj : j = 1 ∨ j = 2 ∨ j = 3 := by omega
  cases k with
  | top s =>
    rcases hi with rfl | rfl | rfl <;> rcases hj with rfl | rfl | rfl <;>
      simp [evolving, evolvePressureC, evolveMomentumC, simplePumpC] at hk
  | sp s v =>
    rcases hi with rfl | rfl | rfl <;> rcases hj with rfl | rfl | rfl <;> first | exact absurd rfl hne | skip
    all_goals
      simp only [evolving, evolvePressureC, evolveMomentumC, simplePumpC, of_sp, List.mem_cons, List.not_mem_nil, or_false, false_and, false_or] at hk
      cases v <;> simp at hk

/-- All orders of the four components that run give the same state. -/
theorem evolving_orders {l l' : List (Fin 4)} (hl : l.Perm (List.finRange 4)) (hl' : l'.Perm (List.finRange 4)) {st s s' : Store Key (Value ι)}
    (hc : st.check = true)
    (h : Runs (evolving name charge AA N source density_floor P bndry m sink_shape residence_time) l st s)
    (h' : Runs (evolving name charge AA N source density_floor P bndry m sink_shape residence_time) l' st s') : s = s' := by
  refine order_reported_partial (evolving_declared _ _ _ _ _ _ _ _ _ _ _) (hl.nodup_iff.2 (List.nodup_finRange 4)) (hl'.trans hl.symm) (fun i _ j _ hne hcf => ?_) hc h h'
  have key : ∀ j : Fin 4, j ≠ 0 →
      (evolving name charge AA N source density_floor P bndry m sink_shape residence_time j).Uses .interior (.sp name .density) := by
    intro j hj
    have : j = 1 ∨ j = 2 ∨ j = 3 := by omega
    rcases this with rfl | rfl | rfl
    · exact evolvePressure_uses _ _ _
    · exact (evolveMomentum_uses ..).1
    · exact simplePump_uses _ _ _
  have hn : (evolving name charge AA N source density_floor P bndry m sink_shape residence_time 0).Needs .interior (.sp name .density) :=
    (evolveDensity_needs ..).1
  rcases evolving_conflict name charge AA N source density_floor P bndry m sink_shape residence_time hne hcf with rfl | rfl
  · exact ⟨_, _, Or.inr ⟨key j hne.symm, hn⟩⟩
  · exact ⟨_, _, Or.inl ⟨key i hne, hn⟩⟩

/-- The orders in which the density is not first stop with an error. -/
theorem evolving_density_first {l : List (Fin 4)} {i : Fin 4} (hi : Before l i 0) {st s : Store Key (Value ι)} (h0 : i ≠ 0) (hc : st.check = true) :
    ¬ Runs (evolving name charge AA N source density_floor P bndry m sink_shape residence_time) l st s := by
  refine used_before_written_fails (evolving_declared _ _ _ _ _ _ _ _ _ _ _) hi (p := .interior) (k := .sp name .density) ?_ (evolveDensity_needs ..).1 hc
  have : i = 1 ∨ i = 2 ∨ i = 3 := by omega
  rcases this with rfl | rfl | rfl
  · exact evolvePressure_uses _ _ _
  · exact (evolveMomentum_uses ..).1
  · exact simplePump_uses _ _ _

/-- The other orders run: all of them give the state of the first. -/
theorem evolving_runs {l : List (Fin 4)} (hl : (0 :: l).Perm (List.finRange 4)) {st s : Store Key (Value ι)}
    (h : Runs (evolving name charge AA N source density_floor P bndry m sink_shape residence_time) [0, 1, 2, 3] st s) :
    Runs (evolving name charge AA N source density_floor P bndry m sink_shape residence_time) (0 :: l) st s := by
  refine order_irrelevant (evolving_declared _ _ _ _ _ _ _ _ _ _ _) (by decide) hl (fun i j hcf hb => ?_) h
  have hne : i ≠ j := by
    rintro rfl
    have := List.Nodup.sublist hb (by decide : [0, 1, 2, (3 : Fin 4)].Nodup)
    simp at this
  have hmem : ∀ j : Fin 4, j ≠ 0 → j ∈ l := fun j hj => by
    have : j ∈ 0 :: l := hl.symm.subset (List.mem_finRange j)
    rcases List.mem_cons.1 this with h | h
    · exact absurd h hj
    · exact h
  rcases evolving_conflict name charge AA N source density_floor P bndry m sink_shape residence_time hne hcf with rfl | rfl
  · exact (List.singleton_sublist.2 (hmem j hne.symm)).cons_cons 0
  · exfalso
    unfold Before at hb
    have : ∀ i : Fin 4, ¬ [i, 0].Sublist [0, 1, 2, 3] := by decide
    exact this i hb

end

/-! ## Wrong orders that are not reported -/

open Closures

/-- The state at the beginning of a time step, with checks. -/
def blank : Store Key (Value ι) := ⟨true, fun _ => {}⟩

theorem add_run {st : Store Key (Value ι)} {k : Key} (v : Value ι) (h : marks st k = (false, false)) (h' : valOf st k = none) :
    add k v st = (.ok (), st.force k v) := by
  unfold Hermes.add
  rw [show (st.ent k).val = none from h']
  exact set_run fun _ => h

theorem force_marks {st : Store Key (Value ι)} (k : Key) (v : Value ι) (k' : Key) : marks (st.force k v) k' = marks st k' := by
  simp only [marks, Store.force, Store.update]
  split
  · rename_i e; subst e; rfl
  · rfl

/-- What `evolve_density` does to a state in which nothing is marked. -/
theorem evolveDensity_run (name : String) (AA : ℝ) (N source : Fld ι) (st : Store Key (Value ι)) (h : ∀ k, marks st k = (false, false))
    (hs : valOf st (.sp name .density_source) = none) :
    evolveDensity name 1 AA N source st = (.ok (), (((st.force (.sp name .density) (.field (floorF N 0))).force (.sp name .AA) (.real AA)).force
      (.sp name .charge) (.real 1)).force (.sp name .density_source) (.field source)) := by
  refine bind_intro (set_run fun _ => h _) (bind_intro (set_run fun _ => ?_) (bind_intro (a := ()) ?_ (add_run _ ?_ ?_)))
  rotate_left 1
  · unfold setChargeIf
    rw [if_pos one_ne_zero]
    exact set_run fun _ => by simp only [force_marks, h]
  · simp only [force_marks, h]
  · simp [valOf, Store.force, Store.update, hs]
  · simp only [force_marks, h]

/-- The four components of a species run at the beginning of a time step: `evolving_orders`, `evolving_runs` are not empty. -/
example : ∃ s, Runs (evolving (ι := Unit) "d+" 1 2 (fun _ => 3) (fun _ => 0) 1e-5 (fun _ => 6) id ⟨fun _ => 0, fun _ => 0, fun _ => 0, fun _ => 0⟩
    (fun _ => 1) 1) [0, 1, 2, 3] blank s ∧ valOf s (.sp "d+" .density) = some (.field fun _ => 3) := by
  simp only [runs_cons, runs_nil]
  refine ⟨_, ⟨_, evolveDensity_run "d+" 2 (fun _ => 3) (fun _ => 0) blank (fun _ => rfl) rfl, _, rfl, _, rfl, _, rfl, rfl⟩, ?_⟩
  have : floorF (fun _ : Unit => (3 : ℝ)) 0 = fun _ => 3 := by
    funext i
    norm_num [floorF, floorTo]
  rw [this]
  rfl

/-- `quasineutral` sets density, charge and mass of its species. -/
theorem quasineutral_run (AAe : ℝ) (names : List String) (rho : Fld ι) (st st' : Store Key (Value ι))
    (hf : names.foldlM (quasineutralTerm "e") (fun _ => 0) st = (.ok rho, st')) (h : ∀ v, marks st' (.sp "e" v) = (false, false)) :
    quasineutral "e" (-1) AAe names st = (.ok (), ((st'.force (.sp "e" .density) (.field (floorF (fun i => rho i / -(-1)) 0))).force
      (.sp "e" .charge) (.real (-1))).force (.sp "e" .AA) (.real AAe)) := by
  refine bind_intro hf (bind_intro (set_run fun _ => h _) (bind_intro (set_run fun _ => ?_) (set_run fun _ => ?_)))
  · simp only [force_marks, h]
  · simp only [force_marks, h]

/-- **C82 fails for the code**: `quasineutral` before `evolve_density` runs without an error, and the electron density is zero; after it, the electron density
is the ion density. -/
theorem quasineutral_silent (N source : Fld ι) (hN : ∀ i, 0 ≤ N i) (AA AAe : ℝ) :
    let comp : Bool → Component ι := fun b => if b then evolveDensityC "d+" 1 AA N source else quasineutralC "e" (-1) AAe ["d+", "e"]
    ∃ s s', Runs comp [true, false] blank s ∧ Runs comp [false, true] blank s' ∧
      valOf s (.sp "e" .density) = some (.field N) ∧ valOf s' (.sp "e" .density) = some (.field fun _ => 0) := by
  intro comp
  simp only [runs_cons, runs_nil]
  have h1 : ∀ st : Store Key (Value ι), (comp true).transform st = evolveDensity "d+" 1 AA N source st := fun _ => rfl
  have h2 : ∀ st : Store Key (Value ι), (comp false).transform st = quasineutral "e" (-1) AAe ["d+", "e"] st := fun _ => rfl
  simp only [h1, h2]
  have hb : ∀ k, marks (blank : Store Key (Value ι)) k = (false, false) := fun _ => rfl
  have hfl : floorF N 0 = N := by
    funext i
    have := hN i
    simp only [floorF, floorTo]
    split <;> linarith
  -- electrons last
  obtain ⟨s, hs, hv⟩ : ∃ s, (∃ s1, evolveDensity "d+" 1 AA N source blank = (.ok (), s1) ∧ quasineutral "e" (-1) AAe ["d+", "e"] s1 = (.ok (), s)) ∧
      valOf s (.sp "e" .density) = some (.field N) := by
    set s1 := ((((blank : Store Key (Value ι)).force (.sp "d+" .density) (.field (floorF N 0))).force (.sp "d+" .AA) (.real AA)).force
      (.sp "d+" .charge) (.real 1)).force (.sp "d+" .density_source) (.field source) with e1
    have hf : ["d+", "e"].foldlM (quasineutralTerm "e") (fun _ => 0) s1 =
        (.ok (fun i => 0 + N i * 1), (s1.markFinalDomain (.sp "d+" .density)).markFinal (.sp "d+" .charge)) := by
      refine bind_intro (a := fun i => 0 + N i * 1) ?_ rfl
      unfold quasineutralTerm
      rw [if_neg (by decide)]
      refine bind_intro (a := true) rfl (bind_intro (a := true) rfl ?_)
      rw [if_pos (by rfl)]
      rw [hfl] at e1
      refine bind_intro (a := N) (s' := s1.markFinalDomain (.sp "d+" .density)) (by rw [e1]; rfl) (bind_intro (a := 1) (s' := (s1.markFinalDomain (.sp "d+" .density)).markFinal (.sp "d+" .charge)) (by rw [e1]; rfl) rfl)
    refine ⟨_, ⟨s1, evolveDensity_run _ _ _ _ _ hb rfl, quasineutral_run AAe _ _ _ _ hf fun v => rfl⟩, ?_⟩
    have : floorF (fun i => (0 + N i * 1) / -(-1)) 0 = N := by
      rw [show (fun i => (0 + N i * 1) / -(-1)) = N by funext i; simp, hfl]
    rw [this]
    rfl
  -- electrons first
  obtain ⟨s', hs', hv'⟩ : ∃ s, (∃ s1, quasineutral "e" (-1) AAe ["d+", "e"] blank = (.ok (), s1) ∧ evolveDensity "d+" 1 AA N source s1 = (.ok (), s)) ∧
      valOf s (.sp "e" .density) = some (.field fun _ => 0) := by
    refine ⟨_, ⟨_, quasineutral_run AAe ["d+", "e"] (fun _ => 0) blank blank rfl fun v => rfl, evolveDensity_run _ _ _ _ _ (fun k => ?_) rfl⟩, ?_⟩
    · simp only [force_marks, hb]
    · have : floorF (fun _ : ι => (0 : ℝ) / -(-1)) 0 = fun _ => 0 := by
        funext i
        simp [floorF, floorTo]
      rw [this]
      rfl
  obtain ⟨s1, e1, e2⟩ := hs
  obtain ⟨s1', e1', e2'⟩ := hs'
  exact ⟨s, s', ⟨s1, e1, s, e2, rfl⟩, ⟨s1', e1', s', e2', rfl⟩, hv, hv'⟩

theorem soundSpeed_run (ed : Bool) (tf factor : ℝ) (names : List String) (a : Waves ι) (st st' : Store Key (Value ι))
    (hf : names.foldlM (soundSpeedTerm ed tf) ⟨fun _ => 0, fun _ => 0, fun _ => 0⟩ st = (.ok a, st')) (hP : ∀ i, 0 ≤ a.P i / floorF a.rho 1e-10 i)
    (h1 : marks st' (.top "sound_speed") = (false, false)) (h2 : marks st' (.top "fastest_wave") = (false, false)) :
    soundSpeed ed tf factor none names st = (.ok (), (st'.force (.top "sound_speed") (.field fun i => Real.sqrt (a.P i / floorF a.rho 1e-10 i))).force
      (.top "fastest_wave") (.field fun i => max (a.fastest i) (Real.sqrt (a.P i / floorF a.rho 1e-10 i)) * factor)) := by
  refine bind_intro hf (bind_intro (throwIf_intro (not_not.2 hP) _) (bind_intro (set_run fun _ => h1) (set_run fun _ => ?_)))
  rw [force_marks, h2]

/-- **C82 fails for the code**: `sound_speed` before the component that publishes the pressure runs, and gives the speed of sound of a species without pressure;
after it, the speed of sound is `√(P / (A n))`. -/
theorem soundSpeed_silent :
    let comp : Fin 3 → Component Unit := ![evolveDensityC "d+" 1 1 (fun _ => 1) (fun _ => 0), evolvePressureC "d+" 1e-5 fun _ => 4,
      soundSpeedC true 0 1 none ["d+"]]
    ∃ s s', Runs comp [0, 1, 2] blank s ∧ Runs comp [0, 2, 1] blank s' ∧
      valOf s (.top "sound_speed") = some (.field fun _ => 2) ∧ valOf s' (.top "sound_speed") = some (.field fun _ => 0) := by
  intro comp
  simp only [runs_cons, runs_nil]
  have hd : ∀ st : Store Key (Value Unit), (comp 0).transform st = evolveDensity "d+" 1 1 (fun _ => 1) (fun _ => 0) st := fun _ => rfl
  have hp : ∀ st : Store Key (Value Unit), (comp 1).transform st = evolvePressure "d+" 1e-5 (fun _ => 4) st := fun _ => rfl
  have hs : ∀ st : Store Key (Value Unit), (comp 2).transform st = soundSpeed true 0 1 none ["d+"] st := fun _ => rfl
  simp only [hd, hp, hs]
  have h1 : floorF (fun _ : Unit => (1 : ℝ)) 0 = fun _ => 1 := by
    funext i
    norm_num [floorF, floorTo]
  have e1 := evolveDensity_run "d+" 1 (fun _ => (1 : ℝ)) (fun _ => 0) (blank : Store Key (Value Unit)) (fun _ => rfl) rfl
  rw [h1] at e1
  obtain ⟨s, hs1, hv⟩ : ∃ s, (∃ s1, evolveDensity "d+" 1 1 (fun _ => 1) (fun _ => 0) (blank : Store Key (Value Unit)) = (.ok (), s1) ∧
      ∃ s2, evolvePressure "d+" 1e-5 (fun _ => 4) s1 = (.ok (), s2) ∧ soundSpeed true 0 1 none ["d+"] s2 = (.ok (), s)) ∧
      valOf s (.top "sound_speed") = some (.field fun _ => 2) := by
    refine ⟨_, ⟨_, e1, _, rfl, soundSpeed_run _ _ _ _ _ _ _ rfl ?_ rfl rfl⟩, ?_⟩
    · intro i
      norm_num [floorF, floorTo]
    · refine congrArg (fun f => some (Value.field f)) (a₁ := _) (a₂ := fun _ => 2) (funext fun i => ?_)
      norm_num [floorF, floorTo]
      rw [show (4 : ℝ) = 2 ^ 2 by norm_num]
      exact Real.sqrt_sq (by norm_num)
  obtain ⟨s', hs2, hv'⟩ : ∃ s, (∃ s1, evolveDensity "d+" 1 1 (fun _ => 1) (fun _ => 0) (blank : Store Key (Value Unit)) = (.ok (), s1) ∧
      ∃ s2, soundSpeed true 0 1 none ["d+"] s1 = (.ok (), s2) ∧ evolvePressure "d+" 1e-5 (fun _ => 4) s2 = (.ok (), s)) ∧
      valOf s (.top "sound_speed") = some (.field fun _ => 0) := by
    refine ⟨_, ⟨_, e1, _, soundSpeed_run _ _ _ _ _ _ _ rfl ?_ rfl rfl, rfl⟩, ?_⟩
    · intro i
      norm_num [floorF, floorTo]
    · refine congrArg (fun f => some (Value.field f)) (a₁ := _) (a₂ := fun _ => 0) (funext fun i => ?_)
      norm_num [floorF, floorTo]
  obtain ⟨s1, a1, s2, a2, a3⟩ := hs1
  obtain ⟨t1, b1, t2, b2, b3⟩ := hs2
  exact ⟨s, s', ⟨s1, a1, s2, a2, s, a3, rfl⟩, ⟨t1, b1, t2, b2, s', b3, rfl⟩, hv, hv'⟩

end Hermes.Order
