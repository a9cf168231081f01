import Verif.Props.RadialWalls
import Verif.Props.NucleiExamples

/-!
# Recycling at the radial walls: concrete runs

Shows that the hypotheses of the theorems in `Props/RadialWalls.lean` are met, and that a species without radial flow is recycled with the flow
of another one.
-/

set_option linter.unusedSectionVars false
set_option linter.unusedVariables false

namespace Hermes.RadialWalls
open Finset Hermes Hermes.Limiters Hermes.PerpOps Hermes.Rhs Hermes.Closures Hermes.Sheath Hermes.Recycling Hermes.MomentumEquation Hermes.Runs
open Hermes.DensityEquation (Assumed plainRhs plainRhs_assumed boxGrid_regular)
open Hermes.Nuclei hiding Evaluation Evaluation.balance
open Hermes.Anomalous (ColumnClosed KeepsAxi anomalous_conserves box_columns_closed onlyD onlyD_off profile_box closedRows flat plain_keeps)

/-- Recycling at the targets and at both edges, no pump. -/
def everywhere : RecycleFlags := ⟨true, true, true, false⟩

/-- Everything that arrives as `d+` comes back as `d`. -/
noncomputable def home : RecycleChannel := dFull 0 1 everywhere

/-- Ions with density `N` and velocity `V` that diffuse as `p` says, and a gas of which one atom is ionised per volume and time. -/
noncomputable def walled (N V : Fld (Cell 2)) (p : PerpOut 2) : Store Key (Value (Cell 2)) := stateOf fun s v =>
  if s = "d+" then
    match v with
    | .density => some (.field N)
    | .temperature => some (.field fun _ => 1)
    | .velocity => some (.field V)
    | .AA => some (.real 2)
    | .density_source => some (.field fun q => 1 + p.source q.1 q.2.1 q.2.2)
    | .energy_flow_ylow => some (.field fun _ => 0)
    | .other "particle_flow_xlow" => some (.field fun q => p.flow_xlow q.1 q.2.1 q.2.2)
    | .other "energy_flow_xlow" => some (.field fun _ => 0)
    | _ => none
  else if s = "d" then
    match v with
    | .density => some (.field fun _ => 1)
    | .temperature => some (.field fun _ => 1)
    | .pressure => some (.field fun _ => 1)
    | .AA => some (.real 2)
    | .density_source => some (.field fun _ => -1)
    | _ => none
  else none

theorem walled_fit (N V : Fld (Cell 2)) (p : PerpOut 2) : Fit (access [home]) (walled N V p) := by
  refine ⟨?_, ?_, fun k _ => ?_, fun k hk => hk.elim⟩
  · rintro k ⟨s, rfl⟩ x hx
    have : vals (walled N V p) (.sp s .AA) = if s = "d+" then some (.real 2) else if s = "d" then some (.real 2) else none := rfl
    rw [this] at hx
    split_ifs at hx
    · exact ⟨2, (Option.some.inj hx).symm⟩
    · exact ⟨2, (Option.some.inj hx).symm⟩
  · rintro k ⟨ch, hch, hk⟩
    obtain rfl := List.mem_singleton.1 hch
    have h1 : home.source = "d+" := rfl
    have h2 : home.dest = "d" := rfl
    rw [h1, h2] at hk
    simp only [List.mem_cons, List.not_mem_nil, or_false] at hk
    rcases hk with rfl | rfl | rfl | rfl | rfl | rfl | rfl | rfl | rfl | rfl <;> rfl
  · cases k with
    | sp n v => exact ⟨rfl, rfl⟩
    | top n => exact ⟨rfl, rfl⟩

/-- Recycling and the equations run. -/
theorem walled_runs {B : RhsOps 2} (N V : Fld (Cell 2)) (p : PerpOut 2) :
    ∃ mem' st', recycling (targets B) everywhere [home] ⟨none, none⟩ (walled N V p) = (.ok mem', st') ∧
      (∀ k, k ≠ .sp "d" .density_source → k ≠ .sp "d" .energy_source → vals st' k = vals (walled N V p) k) ∧
      ∀ lim N₀, (∃ r, densityRhs (quietOpts 1) boxGrid B lim N₀ (speciesIn st' "d+") (fieldsIn st') = .ok r) ∧
        ∃ r, densityRhs (quietOpts 0) boxGrid B lim N₀ (speciesIn st' "d") (fieldsIn st') = .ok r := by
  obtain ⟨mem', st', h, -⟩ := recycling_runs (targets B) everywhere [home] ⟨none, none⟩ _ (walled_fit N V p)
  have hy : boxGrid.ystart < boxGrid.yend := by norm_num [boxGrid]
  have h' := h
  unfold recycling at h'
  rw [List.foldlM_cons] at h'
  obtain ⟨mem1, s1, h1, h2⟩ := M_bind_ok h'
  obtain ⟨-, hs1⟩ := pure_ok h2
  subst hs1
  have e := recycleChannel_ok (mesh_ok hy) sol_nodup pfr_nodup (fun _ => ⟨rfl, rfl⟩) h1
  rw [show home.dest = "d" from rfl] at e
  have hsrc : vals st' (.sp "d" .density_source) = some (.field fun j => fieldOf (walled N V p) "d" .density_source j
      + gainD (targets B) everywhere (walled N V p) home j) := by
    rw [e, Function.update_of_ne (by simp)]
    exact Function.update_self _ _ _
  have keep : ∀ k, k ≠ .sp "d" .density_source → k ≠ .sp "d" .energy_source → vals st' k = vals (walled N V p) k := by
    intro k a b
    rw [e, Function.update_of_ne b, Function.update_of_ne a]
  have hvd : ∀ v, v ≠ .density_source → v ≠ .energy_source → vals st' (.sp "d" v) = vals (walled N V p) (.sp "d" v) := fun v a b =>
    keep _ (fun e => a (Key.sp.inj e).2) fun e => b (Key.sp.inj e).2
  have hvi : ∀ v, vals st' (.sp "d+" v) = vals (walled N V p) (.sp "d+" v) := fun v =>
    keep _ (fun e => absurd (Key.sp.inj e).1 (by decide)) fun e => absurd (Key.sp.inj e).1 (by decide)
  have htop : ∀ s, vals st' (.top s) = none := fun s => keep _ (by simp) (by simp)
  have read : ∀ k x, vals st' k = some x → ∀ f, asField x = some f → readF3 st' k = some (asF3 f) := by
    intro k x hk f hf
    unfold readF3
    rw [show (st'.ent k).val = some x from hk, Option.bind_some, hf]
    rfl
  have readn : ∀ k, vals st' k = none → readF3 st' k = none := by
    intro k hk
    unfold readF3
    rw [show (st'.ent k).val = none from hk]
    rfl
  refine ⟨mem', st', h, keep, fun lim N₀ => ⟨?_, ?_⟩⟩
  · refine density_runs rfl rfl _ _ _ _ (d := asF3 N) (S := asF3 fun q => 1 + p.source q.1 q.2.1 q.2.2) (read _ _ (hvi _) _ rfl)
      (read _ _ (hvi _) _ rfl) (fun V' _ => ?_) (readn _ (htop _))
    unfold waveSpeed
    have e1 : (fieldsIn st').fastest_wave = none := readn _ (htop _)
    have e2 : (speciesIn st' "d+").temperature = some (asF3 fun _ => 1) := read _ _ (hvi _) _ rfl
    have e3 : (speciesIn st' "d+").AA = some 2 := by
      show (st'.ent _).val.bind asReal = _
      rw [show (st'.ent (.sp "d+" .AA)).val = some (.real 2) from hvi .AA]
      rfl
    rw [e1, e2, e3]
    dsimp only
    rw [if_neg]
    · exact ⟨_, rfl⟩
    · rintro ⟨i, j, k, hh⟩
      have : (asF3 (fun _ => 1) : F3 2) i j k = 1 := rfl
      rw [this] at hh
      norm_num at hh
  · refine density_runs rfl rfl _ _ _ _ (d := asF3 fun _ => 1) (read _ (.field fun _ => 1) (hvd _ (by simp) (by simp)) _ rfl)
      (read _ _ hsrc _ rfl) (fun V' hV' => ?_) (readn _ (htop _))
    · have : readF3 st' (.sp "d" .velocity) = none := readn _ (hvd _ (by simp) (by simp))
      rw [show (speciesIn st' "d").velocity = none from this] at hV'
      cases hV'

/-- A density that falls towards both edges. -/
noncomputable def heapN : F3 2 := fun i _ _ => if i = 2 ∨ i = 3 then 1 else 0
noncomputable def heap : SpeciesIn 2 := { AA := some 2, density := some heapN }

theorem heap_profile : profile onlyD boxGrid heapN = heapN := by
  unfold profile
  rw [onlyD_off, Anomalous.DC_axi fun _ _ _ _ => rfl]
  funext i j k
  rw [if_neg (by simp)]
  simp only [yNeumann, heapN, boxGrid, and_true]
  split_ifs <;> rfl

theorem heap_runs : ∃ r, anomalousDiffusion onlyD boxGrid (ExB.plainOps 2) heap = .ok r ∧ outerLoss boxGrid r.particles.flow_xlow = 4 ∧
    innerLoss boxGrid r.particles.flow_xlow = 4 ∧ outerGain boxGrid r.particles.flow_xlow = 0 ∧ innerGain boxGrid r.particles.flow_xlow = 0 := by
  have I : Icc (2 : ℤ) 3 = {2, 3} := by decide
  refine ⟨_, rfl, ?_⟩
  have hf : ∀ j (k : Fin 2), j = 2 ∨ j = 3 →
      (boxGrid.upwindFlows (ExB.plainOps 2) (fun i j k => onlyD.D i j) (profile onlyD boxGrid heapN)).flow_xlow 2 j k = -1 ∧
      (boxGrid.upwindFlows (ExB.plainOps 2) (fun i j k => onlyD.D i j) (profile onlyD boxGrid heapN)).flow_xlow 4 j k = 1 := by
    intro j k hj
    rw [heap_profile]
    simp only [Grid.upwindFlows, Grid.flowX, Grid.upwindX]
    rcases hj with rfl | rfl <;> norm_num [boxGrid, heapN, onlyD]
  unfold outerLoss innerLoss outerGain innerGain
  show (∑ j ∈ Icc (2 : ℤ) 3, ∑ k, max ((boxGrid.upwindFlows (ExB.plainOps 2) (fun i j k => onlyD.D i j) (profile onlyD boxGrid heapN)).flow_xlow 4 j k) 0) = 4 ∧
    (∑ j ∈ Icc (2 : ℤ) 3, ∑ k, max (-(boxGrid.upwindFlows (ExB.plainOps 2) (fun i j k => onlyD.D i j) (profile onlyD boxGrid heapN)).flow_xlow 2 j k) 0) = 4 ∧
    (∑ j ∈ Icc (2 : ℤ) 3, ∑ k, max (-(boxGrid.upwindFlows (ExB.plainOps 2) (fun i j k => onlyD.D i j) (profile onlyD boxGrid heapN)).flow_xlow 4 j k) 0) = 0 ∧
    (∑ j ∈ Icc (2 : ℤ) 3, ∑ k, max ((boxGrid.upwindFlows (ExB.plainOps 2) (fun i j k => onlyD.D i j) (profile onlyD boxGrid heapN)).flow_xlow 2 j k) 0) = 0
  rw [I]
  simp only [Finset.sum_pair (show (2 : ℤ) ≠ 3 by norm_num), Fin.sum_univ_two, (hf 2 _ (Or.inl rfl)).1, (hf 2 _ (Or.inl rfl)).2, (hf 3 _ (Or.inr rfl)).1,
    (hf 3 _ (Or.inr rfl)).2]
  norm_num

theorem walled_reactions (N V : Fld (Cell 2)) (p : PerpOut 2) :
    FromReactions ["d+", "d"] (walled N V p)
      (fun n q => 0 + (if n = "d+" then p else PerpOut.zero : PerpOut 2).source q.1 q.2.1 q.2.2) "d" := by
  refine ⟨[(unitParams, "d + e -> d+ + 2e", .hydIonisation 'd', uniform)], ?_, ?_⟩
  · intro x hx
    obtain rfl := List.mem_singleton.1 hx
    refine ⟨(ionisation_gains (0, 0, 0) "d").1, Registry.plasma_unread (ι := Cell 2) _ _ _ _, fun _ _ _ => rfl, (ionisation_gains (0, 0, 0) "d").2.1, ?_⟩
    show ∀ s ∈ Registry.speciesOf "d + e -> d+ + 2e", Registry.nucleus s = some "d" → s ∈ ["d+", "d"]
    decide +kernel
  · intro s hs q
    have e := (ionisation_gains q s).2.2
    simp only [List.map_cons, List.map_nil, List.sum_cons, List.sum_nil, add_zero, zero_add]
    rw [e]
    simp only [List.mem_cons, List.not_mem_nil, or_false] at hs
    rcases hs with rfl | rfl
    · have m : Registry.made "d + e -> d+ + 2e" "d+" = 1 := by decide +kernel
      rw [m, Int.cast_one, if_pos rfl, add_comm]
      rfl
    · have m : Registry.made "d + e -> d+ + 2e" "d" = -1 := by decide +kernel
      rw [m, Int.cast_neg, Int.cast_one, if_neg (by decide)]
      show (-1 : ℝ) = 0 + -1
      norm_num

/-- The hypotheses of `walls_keep_nuclei_partial` are met by a simulation with sheath, ionisation, diffusion to both radial walls, and recycling at the targets
and walls. -/
example (lim : Limiter) : ∃ diff st st' rate, Evaluation boxGrid (plainRhs 2) (targets (plainRhs 2)) (fun _ _ => 1) [home] ["d+", "d"] diff st st' rate (fun _ => 0) ∧
    FromReactions ["d+", "d"] st (fun n q => 0 + (diff n).source q.1 q.2.1 q.2.2) "d" ∧ 0 < wallLoss (targets (plainRhs 2)) st "d+" ∧
    outerLoss boxGrid (diff "d+").flow_xlow = 4 ∧ innerLoss boxGrid (diff "d+").flow_xlow = 4 ∧
    content boxGrid (rate "d+") + content boxGrid (rate "d") = 0 := by
  obtain ⟨st1, h1⟩ := sheath_ran (plainRhs 2) nAround tAround
  obtain ⟨r, hr, l1, l2, l3, l4⟩ := heap_runs
  set N := fieldOf st1 "d+" .density
  set V := fieldOf st1 "d+" .velocity
  set diff : String → PerpOut 2 := fun n => if n = "d+" then r.particles else PerpOut.zero with hdiff
  obtain ⟨mem', st', hrun, keep, hdens⟩ := walled_runs (B := plainRhs 2) N V r.particles
  obtain ⟨⟨r1, hr1⟩, r2, hr2⟩ := hdens lim 1
  have htop : ∀ s, vals st' (.top s) = none := fun s => keep _ (by simp) (by simp)
  have readn : ∀ k, vals st' k = none → readF3 st' k = none := by
    intro k hk
    unfold readF3
    rw [show (st'.ent k).val = none from hk]
    rfl
  have only : ∀ Z s N, OnlyTargets (quietOpts Z) boxGrid (plainRhs 2) (fun _ _ => 1) (speciesIn st' s) (fieldsIn st') N := by
    intro Z s N
    refine ⟨rfl, fun i _ => Or.inl (box_open (fun _ _ => rfl) i), fun hh => ?_, content_zero _, readn _ (htop _), readn _ (htop _)⟩
    rcases hh with hh | hh <;> cases hh
  have d1 : diff "d+" = r.particles := if_pos rfl
  have d2 : diff "d" = PerpOut.zero := if_neg (by decide)
  have hout : Outward (targets (plainRhs 2)) (walled N V r.particles) "d+" := by
    have := sheath_outward (by norm_num [boxGrid]) rfl rfl plasma_nodup h1 (n := "d+") (by simp) (plasma_ion _ _) rfl
    intro u p q inn ht
    exact this u p q inn ht
  have ev : Evaluation boxGrid (plainRhs 2) (targets (plainRhs 2)) (fun _ _ => 1) [home] ["d+", "d"] diff (walled N V r.particles) st'
      (fun s => if s = "d+" then r1 else r2) (fun _ => 0) := by
    refine ⟨?_, ⟨everywhere, _, _, rfl, rfl, rfl, rfl, hrun⟩, by decide, ?_, by simp, ?_, ?_, ?_⟩
    · intro ch hch
      obtain rfl := List.mem_singleton.1 hch
      exact hout
    · intro ch hch
      obtain rfl := List.mem_singleton.1 hch
      exact ⟨by show "d+" ∈ _; simp, by show "d" ∈ _; simp⟩
    · intro n hn
      simp only [List.mem_cons, List.not_mem_nil, or_false] at hn
      rcases hn with rfl | rfl
      · refine ⟨Or.inr ⟨onlyD, heap, r, fun i _ => box_columns_closed rfl _ i, hr, d1⟩, fun hh => absurd rfl (hh _ (List.mem_singleton.2 rfl))⟩
      · exact ⟨Or.inl d2, fun _ => d2⟩
    · intro ch hch
      obtain rfl := List.mem_singleton.1 hch
      refine ⟨rfl, ?_⟩
      rw [show home.source = "d+" from rfl, d1]
      rfl
    · intro s hs
      simp only [List.mem_cons, List.not_mem_nil, or_false] at hs
      rcases hs with rfl | rfl
      · refine ⟨_, ?_, fun _ => rfl, fun hh => absurd rfl (hh _ (List.mem_singleton.2 rfl))⟩
        rw [if_pos rfl]
        exact .density (quietOpts 1) lim 1 r1 (only _ _ _) hr1
      · refine ⟨_, ?_, fun _ => rfl, fun _ => ?_⟩
        · rw [if_neg (by decide)]
          exact .density (quietOpts 0) lim 1 r2 (only _ _ _) hr2
        · refine wallLoss_blocked fun u p q inn _ => ?_
          have hv : vals st' (.sp "d" .velocity) = none := by
            rw [keep _ (by simp) (by simp)]
            rfl
          unfold face fieldOf
          rw [hv]
          simp
  refine ⟨diff, _, st', _, ev, walled_reactions N V r.particles, ?_, d1 ▸ l1, d1 ▸ l2, ?_⟩
  · have : wallLoss (targets (plainRhs 2)) (walled N V r.particles) "d+" = 20 * √(4 / 3) := box_loss_around (fun _ _ => rfl) (fun _ => rfl) h1 "d" 1
    rw [this]
    positivity
  · have := walls_keep_nuclei_partial boxGrid_regular boxGrid_separable (by norm_num [boxGrid]) Nuclei.plain_relabels (plainRhs_assumed 2)
      plain_faces (plain_keeps 2) ev (ext := fun _ _ => 0) (E := "d") (walled_reactions N V r.particles) (fun ch hch => by
        obtain rfl := List.mem_singleton.1 hch
        exact ⟨by show Registry.nucleus "d" = Registry.nucleus "d+"; decide +kernel, rfl, rfl, rfl⟩)
    have n1 : Registry.nucleus "d+" = some "d" := by decide +kernel
    have n2 : Registry.nucleus "d" = some "d" := by decide +kernel
    have z : content boxGrid (asF3 (fun _ => 0) : F3 2) = 0 := content_zero _
    have z1 : entering boxGrid (plainRhs 2) (diff "d+").flow_xlow = 0 := by
      unfold entering
      rw [d1, l3, l4, if_neg (by show ¬(false = true); simp), add_zero]
    have z2 : entering boxGrid (plainRhs 2) (diff "d").flow_xlow = 0 := by
      unfold entering
      rw [d2, if_neg (by show ¬(false = true); simp)]
      unfold outerGain innerGain PerpOut.zero
      simp
    simp only [List.map_cons, List.map_nil, List.sum_cons, List.sum_nil, n1, n2, if_true, z, z1, z2, add_zero] at this
    exact this

/-! ## A species without radial flow -/

section
variable {ι : Type} [DecidableEq ι]

/-- Only the outer edge recycles, no pump. -/
def outerOnly : RecycleFlags := ⟨false, true, false, false⟩

/-- One channel at the outer edge: which flow is used, and what is made of it. -/
theorem outer_channel {m : RMesh ι} (hm : MeshOk m.toYMesh) (hsol : m.sol.Nodup) {ch : RecycleChannel} {mem mem' : RecycleMem ι}
    {st st' : Store Key (Value ι)} (h : recycleChannel m outerOnly mem ch st = (.ok mem', st')) :
    (∃ p, mem'.particle = some p ∧
      (if (vals st (.sp ch.source particleFlowX)).isSome then some (fieldOf st ch.source particleFlowX) else mem.particle) = some p ∧
      ∀ j, fieldOf st' ch.dest .density_source j = fieldOf st ch.dest .density_source j
        + if j ∈ m.sol then ch.sol_multiplier * max (p (m.xp j)) 0 / cellVolume m j else 0) ∧
    ∀ k, k ≠ .sp ch.dest .density_source → k ≠ .sp ch.dest .energy_source → vals st' k = vals st k := by
  unfold recycleChannel at h
  obtain ⟨s1, e1, h⟩ := getF_bind h
  obtain ⟨s2, e2, h⟩ := getF_bind h
  obtain ⟨s3, e3, h⟩ := getF_bind h
  obtain ⟨s4, e4, h⟩ := getF_bind h
  obtain ⟨s5, e5, h⟩ := getF_bind h
  obtain ⟨s6, e6, h⟩ := getF_bind h
  obtain ⟨s7, e7, h⟩ := getR_bind h
  obtain ⟨s8, e8, h⟩ := readSource_bind h
  obtain ⟨s9, e9, h⟩ := readSource_bind h
  have q7 : vals s7 = vals st := e7.trans (e6.trans (e5.trans (e4.trans (e3.trans (e2.trans e1)))))
  have q9 : vals s9 = vals st := e9.trans (e8.trans q7)
  have fo : fieldOr s7 (.sp ch.dest .density_source) 0 = fieldOf st ch.dest .density_source := by unfold fieldOr fieldOf; rw [q7]
  rw [fo] at h
  obtain ⟨⟨d1, x1⟩, s10, h10, h⟩ := M_bind_ok h
  obtain ⟨e10, f10⟩ := recycleTargets_ok hm h10
  have q10 := e10.trans q9
  obtain ⟨mem1, s11, h11, h⟩ := M_bind_ok h
  obtain ⟨e11, f11⟩ := recycleReadFlows_ok h11
  have q11 := e11.trans q10
  obtain ⟨⟨d2, x2⟩, s12, h12, h⟩ := M_bind_ok h
  obtain ⟨e12, -, g12⟩ := recycleEdge_ok h12
  have q12 := e12.trans q11
  obtain ⟨⟨d3, x3⟩, s13, h13, h⟩ := M_bind_ok h
  obtain ⟨e13, f13, -⟩ := recycleEdge_ok h13
  have q13 := e13.trans q12
  obtain ⟨s14, e14, h⟩ := set_bind_ok h
  obtain ⟨s15, e15, h⟩ := set_bind_ok h
  obtain ⟨rfl, rfl⟩ := pure_ok h
  obtain ⟨p, e, hp, he, hfold⟩ := g12 rfl
  have hd3 := f13 rfl
  rw [Prod.mk.injEq] at hd3
  refine ⟨⟨p, hp, ?_, fun j => ?_⟩, fun k a b => ?_⟩
  · rw [← hp, (f11 (Or.inl rfl)).1, q10]
    have : fieldOf s10 ch.source particleFlowX = fieldOf st ch.source particleFlowX := fieldOf_congr (by rw [q10])
    rw [this]
  · have hv : vals st' (.sp ch.dest .density_source) = some (.field d3) := by
      rw [e15, Function.update_of_ne (by simp), e14]
      exact Function.update_self _ _ _
    have := foldl_sources (sol_eq m outerOnly ch (fieldOf s3 ch.dest .density) (fieldOf s5 ch.dest .temperature) (realOf s6 ch.dest .AA) p e) m.sol hsol (d1, x1) j
    rw [← hfold] at this
    have t := (f10 j).1
    simp only [outerOnly, Bool.false_eq_true, false_and, if_false, add_zero] at t
    have e0 : fieldOf st' ch.dest .density_source = d3 := by
      unfold fieldOf
      rw [hv]
      rfl
    have t1 := this.1
    dsimp only at t1
    rw [e0, hd3.1, t1, t]
    congr 1
    unfold pumping solFraction
    simp only [outerOnly, Bool.false_eq_true, and_false, if_false, sub_zero]
  · rw [e15, Function.update_of_ne b, e14, Function.update_of_ne a, q13]

/-- **C87 fails** for a species without radial flow: the flow is a member of the component and keeps the value of the channel before.  Whenever species
`a` publishes its flow to the wall and `b` does not, the neutrals of `b` are made from the flow of `a`. -/
theorem flow_of_another_species {m : RMesh ι} (hm : MeshOk m.toYMesh) (hsol : m.sol.Nodup) {a b : RecycleChannel} (hab : b.dest ≠ a.dest)
    {mem mem' : RecycleMem ι} {st st' : Store Key (Value ι)} (h : recycling m outerOnly [a, b] mem st = (.ok mem', st'))
    (ha : (vals st (.sp a.source particleFlowX)).isSome) (hb : vals st (.sp b.source particleFlowX) = none) (j : ι) (hj : j ∈ m.sol) :
    fieldOf st' b.dest .density_source j = fieldOf st b.dest .density_source j
      + b.sol_multiplier * max (fieldOf st a.source particleFlowX (m.xp j)) 0 / cellVolume m j := by
  unfold recycling at h
  rw [List.foldlM_cons] at h
  obtain ⟨mem1, s1, h1, h⟩ := M_bind_ok h
  rw [List.foldlM_cons] at h
  obtain ⟨mem2, s2, h2, h⟩ := M_bind_ok h
  obtain ⟨-, rfl⟩ := pure_ok h
  obtain ⟨⟨p, hp, hp', -⟩, k1⟩ := outer_channel hm hsol h1
  obtain ⟨⟨q, hq, hq', e⟩, -⟩ := outer_channel hm hsol h2
  rw [if_pos ha] at hp'
  have hb' : vals s1 (.sp b.source particleFlowX) = none := by rw [k1 _ (by simp) (by simp)]; exact hb
  rw [hb', if_neg (by simp), hp] at hq'
  obtain rfl := Option.some.inj hq'
  obtain rfl := Option.some.inj hp'
  rw [e j, if_pos hj]
  congr 1
  exact congrFun (fieldOf_congr (k1 _ (fun hh => hab (Key.sp.inj hh).1) (fun hh => hab (Key.sp.inj hh).1))) j

/-- Reading a flow ends normally if the species has one, or if one was read before and no fast recycling asks for it. -/
theorem runs_readFlow_old {A : Access} {ch : RecycleChannel} {v : Var} (h1 : ¬A.own (.sp ch.source v)) (h2 : ¬A.edge (.sp ch.source v))
    (hfast : ¬(ch.sol_fast_recycle_fraction > 0 ∨ ch.pfr_fast_recycle_fraction > 0)) {old : Option (Fld ι)}
    (ho : A.found (.sp ch.source v) ∨ old.isSome) : RunsTo A (recycleReadFlow ch v old) fun r => r.isSome := by
  intro st h
  unfold recycleReadFlow
  by_cases hv : (vals st (.sp ch.source v)).isSome
  · have hk : Fit { A with found := fun k => A.found k ∨ k = .sp ch.source v } st :=
      ⟨h.typed, fun k hk => hk.elim (h.found k) fun e => e ▸ hv, h.own, h.edge⟩
    obtain ⟨f, s1, r1, k1⟩ := runs_getF (ι := ι) (A := { A with found := fun k => A.found k ∨ k = .sp ch.source v }) (Or.inr rfl) h1 h2 st hk
    refine ⟨some f, s1, bind_intro (s' := st) (a := true) ?_ (bind_intro r1 rfl), ⟨k1.typed, fun k hk => k1.found k (Or.inl hk), k1.own, k1.edge⟩, rfl⟩
    show (Except.ok (vals st (.sp ch.source v)).isSome, st) = _
    rw [hv]
  · refine ⟨old, st, bind_intro (s' := st) (a := false) ?_ ?_, h, ho.resolve_left fun hf => hv (h.found _ hf)⟩
    · show (Except.ok (vals st (.sp ch.source v)).isSome, st) = _
      rw [Bool.not_eq_true] at hv
      rw [hv]
    · simp only [Bool.false_eq_true, if_false, if_neg hfast]
      rfl
end

/-- `d+` diffuses to the wall, the ions `t+` do not move; both are recycled at the outer edge. -/
noncomputable def stillT : RecycleChannel := recycleChannelOf 1 "t+" (full "t" 0 1 outerOnly)

/-- What the two channels read and set. -/
def accessDT : Access where
  found k := k ∈ [Key.sp "d+" particleFlowX, .sp "d+" energyFlowX] ∨ ∃ s ∈ ["d+", "t+"], k ∈ [Key.sp s .density, .sp s .velocity, .sp s .temperature] ∨
    ∃ s ∈ ["d", "t"], k ∈ [Key.sp s .density, .sp s .pressure, .sp s .temperature, .sp s .AA]
  own k := ∃ s ∈ ["d", "t"], k = .sp s .density_source ∨ k = .sp s .energy_source
  edge _ := False
  num k := ∃ s, k = .sp s .AA

theorem runs_outer {m : RMesh (Fin 3 × Fin 6)} {ch : RecycleChannel} (hs : ch.source ∈ ["d+", "t+"]) (hd : ch.dest ∈ ["d", "t"])
    (hfast : ¬(ch.sol_fast_recycle_fraction > 0 ∨ ch.pfr_fast_recycle_fraction > 0)) {mem : RecycleMem (Fin 3 × Fin 6)}
    (hmem : ch.source = "d+" ∨ (mem.particle.isSome ∧ mem.energy.isSome)) :
    RunsTo accessDT (recycleChannel m outerOnly mem ch) fun r => r.particle.isSome ∧ r.energy.isSome := by
  have own : ∀ s v, v ≠ .density_source → v ≠ .energy_source → ¬accessDT.own (.sp s v) := by
    rintro s v a b ⟨s', -, e | e⟩
    · exact a (Key.sp.inj e).2
    · exact b (Key.sp.inj e).2
  have f1 : ∀ v ∈ [Var.density, .velocity, .temperature], accessDT.found (.sp ch.source v) := by
    intro v hv
    refine Or.inr ⟨ch.source, hs, Or.inl ?_⟩
    simp only [List.mem_cons, List.not_mem_nil, or_false] at hv
    rcases hv with rfl | rfl | rfl <;> simp
  have f2 : ∀ v ∈ [Var.density, .pressure, .temperature, .AA], accessDT.found (.sp ch.dest v) := by
    intro v hv
    refine Or.inr ⟨ch.source, hs, Or.inr ⟨ch.dest, hd, ?_⟩⟩
    simp only [List.mem_cons, List.not_mem_nil, or_false] at hv
    rcases hv with rfl | rfl | rfl | rfl <;> simp
  unfold recycleChannel
  refine Runs.bindTo (runs_getF (f1 _ (by simp)) (own _ _ (by simp) (by simp)) id) fun N => ?_
  refine Runs.bindTo (runs_getF (f1 _ (by simp)) (own _ _ (by simp) (by simp)) id) fun V => ?_
  refine Runs.bindTo (runs_getF (f1 _ (by simp)) (own _ _ (by simp) (by simp)) id) fun _ => ?_
  refine Runs.bindTo (runs_getF (f2 _ (by simp)) (own _ _ (by simp) (by simp)) id) fun Nn => ?_
  refine Runs.bindTo (runs_getF (f2 _ (by simp)) (own _ _ (by simp) (by simp)) id) fun _ => ?_
  refine Runs.bindTo (runs_getF (f2 _ (by simp)) (own _ _ (by simp) (by simp)) id) fun Tn => ?_
  refine Runs.bindTo (runs_getR (f2 _ (by simp)) ⟨_, rfl⟩ (own _ _ (by simp) (by simp)) id) fun A => ?_
  refine Runs.bindTo runs_readSource fun ds => Runs.bindTo runs_readSource fun es => ?_
  refine Runs.bindTo (Runs.pure _) fun s1 => ?_
  have hread : RunsTo (ι := Fin 3 × Fin 6) accessDT (recycleReadFlows outerOnly ch mem) fun r => r.particle.isSome ∧ r.energy.isSome := by
    refine RunsTo.bindTo (runs_readFlow_old (own _ _ (by decide) (by decide)) id hfast (hmem.imp (fun e => ?_) fun hh => hh.2)) fun e he =>
      RunsTo.bindTo (runs_readFlow_old (own _ _ (by decide) (by decide)) id hfast (hmem.imp (fun e => ?_) fun hh => hh.1)) fun p hp => RunsTo.pure ⟨hp, he⟩
    · rw [e]; exact Or.inl (by simp)
    · rw [e]; exact Or.inl (by simp)
  refine RunsTo.bindTo hread fun mem' hm' => ?_
  refine Runs.bindTo ?_ fun s2 => ?_
  · obtain ⟨p, e⟩ := mem'
    obtain ⟨p, rfl⟩ := Option.isSome_iff_exists.1 hm'.1
    obtain ⟨e, rfl⟩ := Option.isSome_iff_exists.1 hm'.2
    exact Runs.pure _
  refine Runs.bindTo (Runs.pure _) fun s3 => ?_
  refine Runs.bindTo (runs_set ⟨ch.dest, hd, Or.inl rfl⟩ (by rintro ⟨s, e⟩; exact absurd (Key.sp.inj e).2 (by decide))) fun _ => ?_
  exact Runs.bindTo (runs_set ⟨ch.dest, hd, Or.inr rfl⟩ (by rintro ⟨s, e⟩; exact absurd (Key.sp.inj e).2 (by decide))) fun _ => RunsTo.pure hm'

/-- **C87 fails**: with the species list `d+, t+` tritium atoms appear at the wall although the tritium ions do not reach it. -/
theorem tritium_from_nothing : ∃ mem' st', recycling (Recycling.box 0) outerOnly [dFull 0 1 outerOnly, stillT] ⟨none, none⟩ (mixture 0 0 1 0 true) = (.ok mem', st') ∧
    vals (mixture 0 0 1 0 true) (.sp "t+" particleFlowX) = none ∧ fieldOf (mixture 0 0 1 0 true) "t" .density_source (1, 2) = 0 ∧
    fieldOf st' "t" .density_source (1, 2) = 1 := by
  have fit : Fit accessDT (mixture 0 0 1 0 true) := by
    refine ⟨?_, ?_, fun k _ => ?_, fun k hk => hk.elim⟩
    · rintro k ⟨s, rfl⟩ x hx
      have : vals (mixture 0 0 1 0 true) (.sp s .AA) = if s = "d+" ∨ s = "t+" then none else if s = "d" ∨ s = "t" then some (.real 2) else none := rfl
      rw [this] at hx
      split_ifs at hx
      exact ⟨2, (Option.some.inj hx).symm⟩
    · rintro k (hk | ⟨s, hs, hk | ⟨s', hs', hk⟩⟩)
      · simp only [List.mem_cons, List.not_mem_nil, or_false] at hk
        rcases hk with rfl | rfl <;> rfl
      · simp only [List.mem_cons, List.not_mem_nil, or_false] at hk hs
        rcases hs with rfl | rfl <;> rcases hk with rfl | rfl | rfl <;> rfl
      · simp only [List.mem_cons, List.not_mem_nil, or_false] at hk hs'
        rcases hs' with rfl | rfl <;> rcases hk with rfl | rfl | rfl | rfl <;> rfl
    · cases k with
      | sp n v => exact ⟨rfl, rfl⟩
      | top n => exact ⟨rfl, rfl⟩
  have run : Runs accessDT (recycling (Recycling.box 0) outerOnly [dFull 0 1 outerOnly, stillT] ⟨none, none⟩) := by
    unfold recycling
    simp only [List.foldlM_cons, List.foldlM_nil]
    refine RunsTo.bind (runs_outer (by show "d+" ∈ _; simp) (by show "d" ∈ _; simp) ?_ (Or.inl rfl)) fun mem1 h1 => ?_
    · show ¬((0 : ℝ) > 0 ∨ (0 : ℝ) > 0)
      simp
    refine RunsTo.bind (runs_outer (by show "t+" ∈ _; simp) (by show "t" ∈ _; simp) ?_ (Or.inr h1)) fun mem2 h2 => Runs.pure _
    show ¬((0 : ℝ) > 0 ∨ (0 : ℝ) > 0)
    simp
  obtain ⟨mem', st', h, -⟩ := run _ fit
  refine ⟨mem', st', h, rfl, rfl, ?_⟩
  have := flow_of_another_species (box_ok 0) (box_edge 0).1 (by show "t" ≠ "d"; decide) h rfl rfl (1, 2)
    (by show ((1 : Fin 3), (2 : Fin 6)) ∈ [((1 : Fin 3), (1 : Fin 6)), (1, 2), (1, 3), (1, 4)]; decide)
  rw [show stillT.dest = "t" from rfl] at this
  rw [this]
  have z : fieldOf (mixture 0 0 1 0 true) "t" .density_source ((1, 2) : Fin 3 × Fin 6) = 0 := rfl
  have o : ∀ j, fieldOf (mixture 0 0 1 0 true) "d+" particleFlowX j = 1 := fun _ => rfl
  rw [z, show (dFull 0 1 outerOnly).source = "d+" from rfl, o, show stillT.sol_multiplier = 1 from rfl]
  unfold cellVolume
  norm_num [Recycling.box]

end Hermes.RadialWalls
