import Verif.Props.RecyclingPhysics
import Verif.Lemmas.Runs

/-!
# Recycling: concrete runs

Shows that the hypotheses of the recycling theorems are met, and gives runs in which C41 and C42 fail.
-/

set_option linter.unusedSectionVars false
set_option linter.unusedVariables false

namespace Hermes.Recycling
open Hermes.Closures Hermes.Sheath Hermes.ParOps Hermes.Runs

/-- One radial cell (and radial guard cells 0 and 2) times a field line of four cells (and guard cells 0 and 5). -/
def box (pump : ℝ) : RMesh (Fin 3 × Fin 6) where
  ym i := (i.1, i.2 - 1)
  yp i := (i.1, i.2 + 1)
  lower := [(1, 1)]
  upper := [(1, 4)]
  J _ := 1
  g22 _ := 1
  dx _ := 1
  dy _ := 1
  dz _ := 1
  xm i := (i.1 - 1, i.2)
  xp i := (i.1 + 1, i.2)
  sol := [(1, 1), (1, 2), (1, 3), (1, 4)]
  pfr := [(1, 1), (1, 2), (1, 3), (1, 4)]
  is_pump _ := pump
  g22up _ := 1
  g33 _ := 1

theorem box_ok (pump : ℝ) : MeshOk (box pump).toYMesh :=
  ⟨by show List.Nodup [((1 : Fin 3), (0 : Fin 6)), (1, 5)]; decide,
   by show ∀ g ∈ [((1 : Fin 3), (0 : Fin 6)), (1, 5)], g ∉ [((1 : Fin 3), (1 : Fin 6))] ∧ g ∉ [((1 : Fin 3), (4 : Fin 6))] ∧
        g ∉ [((1 : Fin 3), (2 : Fin 6))] ∧ g ∉ [((1 : Fin 3), (3 : Fin 6))]
      decide⟩

theorem box_edge (pump : ℝ) : (box pump).sol.Nodup ∧ (box pump).pfr.Nodup := by
  constructor <;> (show List.Nodup [((1 : Fin 3), (1 : Fin 6)), (1, 2), (1, 3), (1, 4)]; decide)

/-- Settings of a species that recycles completely as `dest`. -/
noncomputable def full (dest : String) (fast pump : ℝ) (fl : RecycleFlags) : RecycleSettings :=
  ⟨dest, 1, 1, 1, pump, 3, 3, 3, fast, fast, fast, 1, 1, 1, fl.target_recycle, fl.sol_recycle, fl.pfr_recycle, fl.neutral_pump⟩

/-- Two ions (`d+`, `t+`) and two gases (`d`, `t`).  The ions move with velocity `v` along the field, carry the energy flow `e`
along the field and the flows `p`, `q` of particles and energy outwards; with `onlyD` the flows of `t+` are not known. -/
noncomputable def mixture (v e p q : ℝ) (onlyD : Bool) : Store Key (Value (Fin 3 × Fin 6)) := stateOf fun s x =>
  if s = "d+" ∨ s = "t+" then
    match x with
    | .density => some (.field fun _ => 1)
    | .temperature => some (.field fun _ => 1)
    | .velocity => some (.field fun _ => v)
    | .energy_flow_ylow => some (.field fun _ => e)
    | .other "particle_flow_xlow" => if s = "t+" ∧ onlyD = true then none else some (.field fun _ => p)
    | .other "energy_flow_xlow" => if s = "t+" ∧ onlyD = true then none else some (.field fun _ => q)
    | _ => none
  else if s = "d" ∨ s = "t" then
    match x with
    | .density => some (.field fun _ => 1)
    | .temperature => some (.field fun _ => 1)
    | .pressure => some (.field fun _ => 1)
    | .AA => some (.real 2)
    | _ => none
  else none

/-! ## The component ends normally -/

/-- What the component reads and sets. -/
def access (chs : List RecycleChannel) : Access where
  found k := ∃ ch ∈ chs, k ∈ [Key.sp ch.source .density, .sp ch.source .velocity, .sp ch.source .temperature,
    .sp ch.source .energy_flow_ylow, .sp ch.source particleFlowX, .sp ch.source energyFlowX,
    .sp ch.dest .density, .sp ch.dest .pressure, .sp ch.dest .temperature, .sp ch.dest .AA]
  own k := ∃ ch ∈ chs, k = .sp ch.dest .density_source ∨ k = .sp ch.dest .energy_source
  edge _ := False
  num k := ∃ s, k = .sp s .AA

section
variable {ι : Type} [DecidableEq ι]

theorem not_own {chs : List RecycleChannel} {s : String} {v : Var} (h1 : v ≠ .density_source) (h2 : v ≠ .energy_source) :
    ¬(access chs).own (.sp s v) := by
  rintro ⟨ch, -, e | e⟩
  · exact h1 (Key.sp.inj e).2
  · exact h2 (Key.sp.inj e).2

theorem runs_readFlow {chs : List RecycleChannel} {ch : RecycleChannel} {v : Var} (hf : (access chs).found (.sp ch.source v))
    (h1 : v ≠ .density_source) (h2 : v ≠ .energy_source) (old : Option (Fld ι)) :
    RunsTo (access chs) (recycleReadFlow ch v old) fun r => r.isSome :=
  RunsTo.ifFound hf (Runs.bindTo (runs_getF hf (not_own h1 h2) id) fun _ => RunsTo.pure rfl)

theorem runs_edge {chs : List RecycleChannel} {on : Bool} {pts : List ι} {body : Fld ι → Fld ι → Sources ι → ι → Sources ι}
    {mem : RecycleMem ι} (h : on = true → mem.particle.isSome ∧ mem.energy.isSome) (s : Sources ι) :
    Runs (access chs) (recycleEdge on pts body mem s) := by
  unfold recycleEdge
  refine Runs.ite (fun hon => ?_) fun _ => Runs.pure _
  obtain ⟨a, b⟩ := h hon
  obtain ⟨p, e⟩ := mem
  cases p with
  | none => cases a
  | some p =>
    cases e with
    | none => cases b
    | some e => exact Runs.pure _

/-- The component ends normally in every state in which its inputs are set and its outputs have not been used. -/
theorem recycling_runs (m : RMesh ι) (fl : RecycleFlags) (chs : List RecycleChannel) (mem : RecycleMem ι) :
    Runs (access chs) (recycling m fl chs mem) := by
  refine Runs.foldlM chs (fun ch hch mem => ?_) mem
  have hf : ∀ k ∈ [Key.sp ch.source .density, .sp ch.source .velocity, .sp ch.source .temperature,
    .sp ch.source .energy_flow_ylow, .sp ch.source particleFlowX, .sp ch.source energyFlowX,
    .sp ch.dest .density, .sp ch.dest .pressure, .sp ch.dest .temperature, .sp ch.dest .AA], (access chs).found k :=
    fun k hk => ⟨ch, hch, hk⟩
  unfold recycleChannel
  refine Runs.bind (runs_getF (hf _ (by simp)) (not_own (by simp) (by simp)) id) fun N => ?_
  refine Runs.bind (runs_getF (hf _ (by simp)) (not_own (by simp) (by simp)) id) fun V => ?_
  refine Runs.bind (runs_getF (hf _ (by simp)) (not_own (by simp) (by simp)) id) fun _ => ?_
  refine Runs.bind (runs_getF (hf _ (by simp)) (not_own (by simp) (by simp)) id) fun Nn => ?_
  refine Runs.bind (runs_getF (hf _ (by simp)) (not_own (by simp) (by simp)) id) fun _ => ?_
  refine Runs.bind (runs_getF (hf _ (by simp)) (not_own (by simp) (by simp)) id) fun Tn => ?_
  refine Runs.bind (runs_getR (hf _ (by simp)) ⟨_, rfl⟩ (not_own (by simp) (by simp)) id) fun A => ?_
  refine Runs.bind runs_readSource fun ds => Runs.bind runs_readSource fun es => ?_
  refine Runs.bind ?_ fun s1 => ?_
  · refine Runs.ite (fun _ => ?_) fun _ => Runs.pure _
    intro st h
    have hk : (vals st (.sp ch.source .energy_flow_ylow)).isSome = true := h.found _ (hf _ (by simp))
    obtain ⟨f, s1, h1, r1⟩ := runs_getF (ι := ι) (A := access chs) (hf (.sp ch.source .energy_flow_ylow) (by simp))
      (not_own (by simp) (by simp)) id st h
    refine ⟨_, s1, bind_intro (s' := st) (a := true) ?_ (bind_intro h1 rfl), r1⟩
    show (Except.ok (vals st (.sp ch.source .energy_flow_ylow)).isSome, st) = _
    rw [hk]
  have hread : RunsTo (ι := ι) (access chs) (recycleReadFlows fl ch mem)
      fun r => fl.sol_recycle = true ∨ fl.pfr_recycle = true → r.particle.isSome ∧ r.energy.isSome := by
    unfold recycleReadFlows
    split
    · exact RunsTo.bindTo (runs_readFlow (hf _ (by simp)) (by simp) (by simp) _) fun e he =>
        RunsTo.bindTo (runs_readFlow (hf _ (by simp)) (by simp) (by simp) _) fun p hp => RunsTo.pure fun _ => ⟨hp, he⟩
    · rename_i hn
      exact RunsTo.pure fun hh => absurd hh hn
  refine RunsTo.bind hread fun mem' hmem => ?_
  refine Runs.bind (runs_edge (fun hs => hmem (Or.inl hs)) _) fun s2 => ?_
  refine Runs.bind (runs_edge (fun hs => hmem (Or.inr hs)) _) fun s3 => ?_
  refine Runs.bind (runs_set ⟨ch, hch, Or.inl rfl⟩ (by rintro ⟨s, e⟩; exact absurd (Key.sp.inj e).2 (by decide))) fun _ => ?_
  exact Runs.bind (runs_set ⟨ch, hch, Or.inr rfl⟩ (by rintro ⟨s, e⟩; exact absurd (Key.sp.inj e).2 (by decide))) fun _ => Runs.pure _
end

theorem mixture_fit (v e p q : ℝ) (chs : List RecycleChannel)
    (h : ∀ ch ∈ chs, (ch.source = "d+" ∨ ch.source = "t+") ∧ (ch.dest = "d" ∨ ch.dest = "t")) :
    Fit (access chs) (mixture v e p q false) := by
  refine ⟨?_, ?_, fun k _ => ?_, fun k hk => hk.elim⟩
  · rintro k ⟨s, rfl⟩ x hx
    have : vals (mixture v e p q false) (.sp s .AA) = if s = "d+" ∨ s = "t+" then none else if s = "d" ∨ s = "t" then some (.real 2) else none := rfl
    rw [this] at hx
    split at hx
    · cases hx
    · split at hx
      · exact ⟨2, (Option.some.inj hx).symm⟩
      · cases hx
  · rintro k ⟨ch, hch, hk⟩
    obtain ⟨hs, hd⟩ := h ch hch
    simp only [List.mem_cons, List.not_mem_nil, or_false] at hk
    rcases hs with hs | hs <;> rcases hd with hd | hd <;> rw [hs, hd] at hk <;>
      rcases hk with rfl | rfl | rfl | rfl | rfl | rfl | rfl | rfl | rfl | rfl <;> rfl
  · cases k with
    | sp n v => exact ⟨rfl, rfl⟩
    | top n => exact ⟨rfl, rfl⟩

/-- The species `d+` recycles completely. -/
noncomputable def dFull (fast pump : ℝ) (fl : RecycleFlags) : RecycleChannel := recycleChannelOf 1 "d+" (full "d" fast pump fl)

/-- A run of the component with one channel. -/
theorem mixture_run (pump v e p q fast pm : ℝ) (fl fl' : RecycleFlags) :
    ∃ r st', recycling (box pump) fl [dFull fast pm fl'] ⟨none, none⟩ (mixture v e p q false) = (.ok r, st') ∧
      ∀ j, fieldOf st' "d" .density_source j = gainD (box pump) fl (mixture v e p q false) (dFull fast pm fl') j ∧
        fieldOf st' "d" .energy_source j = gainE (box pump) fl (mixture v e p q false) (dFull fast pm fl') j := by
  obtain ⟨r, st', h, -⟩ := recycling_runs (box pump) fl [dFull fast pm fl'] ⟨none, none⟩ _
    (mixture_fit v e p q [dFull fast pm fl'] (by simp [dFull, recycleChannelOf, full]))
  refine ⟨r, st', h, fun j => ?_⟩
  obtain ⟨a, b, -⟩ := recycling_sources (box_ok pump) (box_edge pump).1 (box_edge pump).2
    (fun ch hch hh => by obtain rfl := List.mem_singleton.1 hch; exact ⟨rfl, rfl⟩) h
  rw [a, b]
  have e1 : fieldOf (mixture v e p q false) "d" .density_source j = 0 := rfl
  have e2 : fieldOf (mixture v e p q false) "d" .energy_source j = 0 := rfl
  have e3 : (dFull fast pm fl').dest = "d" := rfl
  rw [e1, e2]
  simp [e3]

/-! ## C41 fails: one species switches recycling off for another -/

/-- Targets recycle, nothing else. -/
def targetsOn : RecycleFlags := ⟨true, false, false, false⟩
def allOff : RecycleFlags := ⟨false, false, false, false⟩

/-- `d+` recycles at the targets, `t+` does not. -/
noncomputable def settingsDT (n : String) : RecycleSettings := if n = "d+" then full "d" 0 1 targetsOn else full "t" 0 1 allOff

theorem full_inRange (dest : String) (fast : ℝ) (fl : RecycleFlags) : ¬(full dest fast 1 fl).outOfRange := by
  unfold RecycleSettings.outOfRange full
  norm_num

theorem construct_two {settings : String → RecycleSettings} {a b : String} (ha : a ≠ "") (hb : b ≠ "")
    (h1 : ¬(settings a).outOfRange) (h2 : ¬(settings b).outOfRange) :
    recyclingConstruct 1 settings [a, b] =
      .ok ([recycleChannelOf 1 a (settings a), recycleChannelOf 1 b (settings b)], some (settings b).flags) := by
  unfold recyclingConstruct
  simp only [List.foldlM_cons, List.foldlM_nil, recyclingStep, if_neg ha, if_neg hb, if_neg h1, if_neg h2]
  rfl

/-- C41 is violated.  The settings are those of `settingsDT`: the species `d+` asks for recycling at the targets, the species
`t+` does not ask for anything.  With the list `d+, t+` no ion of `d+` is recycled; with the list `t+, d+` the ions of `t+`, for
which recycling is off, are recycled too. -/
theorem different_switches :
    (settingsDT "d+").target_recycle = true ∧ (settingsDT "t+").target_recycle = false ∧
    (∃ chs fl, recyclingConstruct 1 settingsDT ["d+", "t+"] = .ok (chs, some fl) ∧ ∃ r st',
      recycling (box 0) fl chs ⟨none, none⟩ (mixture 1 0 0 0 false) = (.ok r, st') ∧ ∀ j, fieldOf st' "d" .density_source j = 0) ∧
    (∃ chs fl, recyclingConstruct 1 settingsDT ["t+", "d+"] = .ok (chs, some fl) ∧ ∃ r st',
      recycling (box 0) fl chs ⟨none, none⟩ (mixture 1 0 0 0 false) = (.ok r, st') ∧
      fieldOf st' "d" .density_source (1, 4) = 1 ∧ fieldOf st' "t" .density_source (1, 4) = 1) := by
  have r1 : ¬(settingsDT "d+").outOfRange := full_inRange _ _ _
  have r2 : ¬(settingsDT "t+").outOfRange := full_inRange _ _ _
  have hd : settingsDT "d+" = full "d" 0 1 targetsOn := rfl
  have ht : settingsDT "t+" = full "t" 0 1 allOff := rfl
  refine ⟨rfl, rfl, ⟨_, _, construct_two (by decide) (by decide) r1 r2, ?_⟩, ⟨_, _, construct_two (by decide) (by decide) r2 r1, ?_⟩⟩
  · obtain ⟨r, st', h, -⟩ := recycling_runs (box 0) (settingsDT "t+").flags _ ⟨none, none⟩ _
      (mixture_fit 1 0 0 0 [recycleChannelOf 1 "d+" (settingsDT "d+"), recycleChannelOf 1 "t+" (settingsDT "t+")]
        (by simp [recycleChannelOf, hd, ht, full]))
    refine ⟨r, st', h, fun j => ?_⟩
    obtain ⟨a, -, -⟩ := recycling_sources (box_ok 0) (box_edge 0).1 (box_edge 0).2
      (fun ch hch hh => by rcases hh with hh | hh <;> cases hh) h
    have e1 : fieldOf (mixture 1 0 0 0 false) "d" .density_source j = 0 := rfl
    rw [a, e1]
    simp [recycleChannelOf, hd, ht, full, gainD, RecycleSettings.flags, allOff]
  · obtain ⟨r, st', h, -⟩ := recycling_runs (box 0) (settingsDT "d+").flags _ ⟨none, none⟩ _
      (mixture_fit 1 0 0 0 [recycleChannelOf 1 "t+" (settingsDT "t+"), recycleChannelOf 1 "d+" (settingsDT "d+")]
        (by simp [recycleChannelOf, hd, ht, full]))
    refine ⟨r, st', h, ?_⟩
    obtain ⟨a, -, -⟩ := recycling_sources (box_ok 0) (box_edge 0).1 (box_edge 0).2
      (fun ch hch hh => by rcases hh with hh | hh <;> cases hh) h
    have e1 : fieldOf (mixture 1 0 0 0 false) "d" .density_source (1, 4) = 0 := rfl
    have e2 : fieldOf (mixture 1 0 0 0 false) "t" .density_source (1, 4) = 0 := rfl
    have n1 : ∀ j, fieldOf (mixture 1 0 0 0 false) "d+" .density j = 1 := fun _ => rfl
    have n2 : ∀ j, fieldOf (mixture 1 0 0 0 false) "t+" .density j = 1 := fun _ => rfl
    have v1 : ∀ j, fieldOf (mixture 1 0 0 0 false) "d+" .velocity j = 1 := fun _ => rfl
    have v2 : ∀ j, fieldOf (mixture 1 0 0 0 false) "t+" .velocity j = 1 := fun _ => rfl
    have g1 : ∀ ch : RecycleChannel, ch.target_multiplier = 1 → ch.source = "d+" ∨ ch.source = "t+" →
        gainD (box 0) targetsOn (mixture 1 0 0 0 false) ch (1, 4) = 1 := by
      intro ch hm hs
      have hl : ¬(((1 : Fin 3), (4 : Fin 6)) ∈ (box 0).lower) := by show ¬_ ∈ [((1 : Fin 3), (1 : Fin 6))]; decide
      have hu : ((1 : Fin 3), (4 : Fin 6)) ∈ (box 0).upper := List.mem_singleton.2 rfl
      unfold gainD
      rw [if_neg (fun hh => hl hh.2), if_pos ⟨rfl, hu⟩, if_neg (fun hh => by cases hh.1), if_neg (fun hh => by cases hh.1)]
      unfold targetD fromTarget targetArea cellVolume face out
      rw [hm]
      rcases hs with hs | hs <;> rw [hs] <;> simp only [n1, n2, v1, v2] <;> norm_num [box]
    rw [a, a, e1, e2]
    have hfl : (settingsDT "d+").flags = targetsOn := rfl
    have d1 : (recycleChannelOf 1 "d+" (settingsDT "d+")).dest = "d" := rfl
    have d2 : (recycleChannelOf 1 "t+" (settingsDT "t+")).dest = "t" := rfl
    simp only [List.map_cons, List.map_nil, List.sum_cons, List.sum_nil, hfl, d1, d2]
    rw [g1 _ rfl (Or.inr rfl), g1 _ rfl (Or.inl rfl)]
    norm_num
    decide

/-! ## C42 fails: inflow, and pumped cells -/

theorem gainE_upper (pump v e p q : ℝ) (ch : RecycleChannel) (hs : ch.source = "d+") (hm : ch.target_multiplier = 1) (hf : ch.target_fast_recycle_fraction = 1)
    (hx : ch.target_fast_recycle_energy_factor = 1) :
    gainE (box pump) targetsOn (mixture v e p q false) ch (1, 4) = e := by
  have hl : ¬(((1 : Fin 3), (4 : Fin 6)) ∈ (box pump).lower) := by show ¬_ ∈ [((1 : Fin 3), (1 : Fin 6))]; decide
  have hu : ((1 : Fin 3), (4 : Fin 6)) ∈ (box pump).upper := List.mem_singleton.2 rfl
  unfold gainE
  rw [if_neg (fun hh => hl hh.2), if_pos ⟨rfl, hu⟩, if_neg (fun hh => by cases hh.1), if_neg (fun hh => by cases hh.1)]
  unfold targetE heatFromTarget
  have n1 : ∀ j, fieldOf (mixture v e p q false) "d+" .energy_flow_ylow j = e := fun _ => rfl
  rw [hs, hm, hf, hx, n1]
  unfold cellVolume
  norm_num [box, out]

/-- C42 is violated: if the ions carry energy into the plasma at a target (here the energy flow is −1 at the upper target, with
all ions recycled as fast neutrals), the "recycled" neutrals lose that energy. -/
theorem inflow_takes_heat : ∃ r st', recycling (box 0) targetsOn [dFull 1 1 targetsOn] ⟨none, none⟩ (mixture (-1) (-1) 0 0 false) = (.ok r, st') ∧
    fieldOf st' "d" .density_source (1, 4) = 0 ∧ fieldOf st' "d" .energy_source (1, 4) = -1 := by
  obtain ⟨r, st', h, hj⟩ := mixture_run 0 (-1) (-1) 0 0 1 1 targetsOn targetsOn
  refine ⟨r, st', h, ?_, ?_⟩
  · rw [(hj _).1]
    have hl : ¬(((1 : Fin 3), (4 : Fin 6)) ∈ (box 0).lower) := by show ¬_ ∈ [((1 : Fin 3), (1 : Fin 6))]; decide
    have hu : ((1 : Fin 3), (4 : Fin 6)) ∈ (box 0).upper := List.mem_singleton.2 rfl
    unfold gainD
    rw [if_neg (fun hh => hl hh.2), if_pos ⟨rfl, hu⟩, if_neg (fun hh => by cases hh.1), if_neg (fun hh => by cases hh.1)]
    unfold targetD
    rw [target_inflow]
    · simp
    · have n1 : ∀ j, fieldOf (mixture (-1) (-1) 0 0 false) "d+" .density j = 1 := fun _ => rfl
      have v1 : ∀ j, fieldOf (mixture (-1) (-1) 0 0 false) "d+" .velocity j = -1 := fun _ => rfl
      have hs : (dFull 1 1 targetsOn).source = "d+" := rfl
      unfold face out
      rw [hs]
      simp only [n1, v1]
      norm_num
  · rw [(hj _).2]
    exact gainE_upper 0 (-1) (-1) 0 0 _ rfl rfl rfl rfl

/-- Only the outer edge recycles, with pump. -/
def pumpOn : RecycleFlags := ⟨false, true, false, true⟩

/-- C42 is violated in pumped cells: with the pump multiplier zero no particle comes back from the outer edge, but the energy of
the fast ones does (here 1; the same energy with and without pump, apart from what the pump takes from the gas). -/
theorem pump_returns_heat_without_particles :
    let ch := dFull 1 0 pumpOn
    let st := mixture 0 0 1 1 false
    (∃ r st', recycling (box 1) pumpOn [ch] ⟨none, none⟩ st = (.ok r, st')) ∧ Pumped (box 1) pumpOn (1, 2) ∧ ch.pump_multiplier = 0 ∧
    solFraction (box 1) pumpOn ch (1, 2) * max (fieldOf st ch.source particleFlowX ((box 1).xp (1, 2))) 0 = 0 ∧
    gainE (box 1) pumpOn st ch (1, 2)
      + (pumpSinks (box 1) (fieldOf st "d" .density) (fieldOf st "d" .temperature) 2 0 (1, 2) (0, 2) (2, 2)).2 = 1 := by
  intro ch st
  obtain ⟨r, st', h, -⟩ := mixture_run 1 0 0 1 1 1 0 pumpOn pumpOn
  have hp : (box 1).is_pump (1, 2) = 1 ∧ pumpOn.neutral_pump = true := ⟨rfl, rfl⟩
  have hsf : solFraction (box 1) pumpOn ch (1, 2) = 0 := by
    unfold solFraction; rw [if_pos hp]; rfl
  refine ⟨⟨r, st', h⟩, hp, rfl, ?_, ?_⟩
  · rw [hsf, zero_mul]
  · have hsol : ((1 : Fin 3), (2 : Fin 6)) ∈ (box 1).sol := by
      show _ ∈ [((1 : Fin 3), (1 : Fin 6)), (1, 2), (1, 3), (1, 4)]; decide
    unfold gainE
    rw [if_neg (fun hh => by cases hh.1), if_neg (fun hh => by cases hh.1), if_pos ⟨rfl, hsol⟩, if_neg (fun hh => by cases hh.1)]
    unfold solE pumping
    rw [hsf, if_pos hp]
    have a1 : ch.sol_fast_recycle_fraction = 1 := rfl
    have a2 : ch.sol_fast_recycle_energy_factor = 1 := rfl
    have a3 : ch.sol_multiplier = 1 := rfl
    have a4 : fieldOf st ch.source energyFlowX ((box 1).xp (1, 2)) = 1 := rfl
    have a5 : cellVolume (box 1) (1, 2) = 1 := by unfold cellVolume; norm_num [box]
    have a6 : realOf st ch.dest .AA = 2 := rfl
    have a7 : (box 1).xm (1, 2) = (0, 2) := rfl
    have a8 : (box 1).xp (1, 2) = (2, 2) := rfl
    have a9 : ch.dest = "d" := rfl
    rw [a1, a2, a3, a4, a5, a6, a7, a8, a9]
    ring

/-- The hypotheses of the particle balance are met. -/
example : ∃ (g : Line), Proper g ∧ UniformPerp g ∧ Closed g ∧ ∃ m : RMesh ℤ, m.toYMesh = lineMesh g :=
  ⟨⟨1, 4, true, true, false, fun _ => 1, fun _ => 1, fun _ => 1, fun _ => 1, fun _ => 1⟩,
    ⟨by decide, fun _ => one_pos, fun _ => one_pos, fun _ => one_pos, fun _ => one_pos⟩, fun _ _ => ⟨rfl, rfl⟩, ⟨rfl, rfl, rfl⟩,
    ⟨lineMesh _, id, id, [], [], 0, 1, 1⟩, rfl⟩

end Hermes.Recycling
