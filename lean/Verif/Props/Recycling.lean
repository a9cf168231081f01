import Verif.Model.Recycling
import Verif.Props.SheathMirror
import Verif.Props.ParOps

/-!
# Recycling: how much comes back (C40), for which species (C41), with which energy (C42), both ends alike (C39)
-/

set_option linter.unusedSectionVars false
set_option linter.unusedVariables false

namespace Hermes.Recycling
open Hermes.Closures Hermes.Sheath

variable {ι : Type} [DecidableEq ι]

/-! ## Specification -/

/-- Volume of a cell. -/
def cellVolume (m : RMesh ι) (i : ι) : ℝ := m.J i * m.dx i * m.dy i * m.dz i

/-- Area of the target face between cell `i` and guard cell `g`. -/
noncomputable def targetArea (m : RMesh ι) (i g : ι) : ℝ :=
  (m.J i + m.J g) / (Real.sqrt (m.g22 i) + Real.sqrt (m.g22 g)) * ((m.dx i + m.dx g) / 2) * ((m.dz i + m.dz g) / 2)

/-- Particles per time that return from a target: the fraction `target_multiplier` of what leaves. -/
noncomputable def fromTarget (m : RMesh ι) (ch : RecycleChannel) (N V : Fld ι) (u : Bool) (i g : ι) : ℝ :=
  ch.target_multiplier * (max (out u * face N i g * face V i g) 0 * targetArea m i g)

/-- Energy per time: the share of fast particles of the energy that leaves, and a fixed energy for each of the others. -/
noncomputable def heatFromTarget (m : RMesh ι) (ch : RecycleChannel) (N V flow : Fld ι) (u : Bool) (i g : ι) : ℝ :=
  ch.target_fast_recycle_fraction * ch.target_fast_recycle_energy_factor * ch.target_multiplier * (out u * flow (if u then g else i))
    + (1 - ch.target_fast_recycle_fraction) * ch.target_energy * fromTarget m ch N V u i g

/-- The cell has a pump that is switched on. -/
def Pumped (m : RMesh ι) (fl : RecycleFlags) (i : ι) : Prop := m.is_pump i = 1 ∧ fl.neutral_pump = true

/-- Fraction that returns from the outer and from the inner edge. -/
noncomputable def solFraction (m : RMesh ι) (fl : RecycleFlags) (ch : RecycleChannel) (i : ι) : ℝ :=
  if m.is_pump i = 1 ∧ fl.neutral_pump = true then ch.pump_multiplier else ch.sol_multiplier
noncomputable def pfrFraction (m : RMesh ι) (fl : RecycleFlags) (ch : RecycleChannel) (i : ι) : ℝ :=
  if m.is_pump i = 1 ∧ fl.neutral_pump = true then ch.pump_multiplier else ch.pfr_multiplier

/-- Neutrals removed by the pump, and their energy. -/
noncomputable def pumping (m : RMesh ι) (fl : RecycleFlags) (Nn Tn : Fld ι) (A mult : ℝ) (i is ig : ι) : ℝ × ℝ :=
  if m.is_pump i = 1 ∧ fl.neutral_pump = true then pumpSinks m Nn Tn A mult i is ig else (0, 0)

section
variable (m : RMesh ι) (fl : RecycleFlags) (st : Store Key (Value ι)) (ch : RecycleChannel)

/-- Density source of channel `ch` at a target, the outer edge and the inner edge. -/
noncomputable def targetD (u : Bool) (i g : ι) : ℝ :=
  fromTarget m ch (fieldOf st ch.source .density) (fieldOf st ch.source .velocity) u i g / cellVolume m i
noncomputable def solD (i : ι) : ℝ :=
  solFraction m fl ch i * max (fieldOf st ch.source particleFlowX (m.xp i)) 0 / cellVolume m i
    - (pumping m fl (fieldOf st ch.dest .density) (fieldOf st ch.dest .temperature) (realOf st ch.dest .AA)
        (solFraction m fl ch i) i (m.xm i) (m.xp i)).1
noncomputable def pfrD (i : ι) : ℝ :=
  pfrFraction m fl ch i * max (-fieldOf st ch.source particleFlowX i) 0 / cellVolume m i
    - (pumping m fl (fieldOf st ch.dest .density) (fieldOf st ch.dest .temperature) (realOf st ch.dest .AA)
        (pfrFraction m fl ch i) i (m.xp i) (m.xm i)).1

/-- Energy source of channel `ch`. -/
noncomputable def targetE (u : Bool) (i g : ι) : ℝ :=
  heatFromTarget m ch (fieldOf st ch.source .density) (fieldOf st ch.source .velocity) (fieldOf st ch.source .energy_flow_ylow)
    u i g / cellVolume m i
noncomputable def solE (i : ι) : ℝ :=
  (ch.sol_fast_recycle_fraction * ch.sol_fast_recycle_energy_factor * ch.sol_multiplier * fieldOf st ch.source energyFlowX (m.xp i)
    + (1 - ch.sol_fast_recycle_fraction) * ch.sol_energy
      * (solFraction m fl ch i * max (fieldOf st ch.source particleFlowX (m.xp i)) 0)) / cellVolume m i
    - (pumping m fl (fieldOf st ch.dest .density) (fieldOf st ch.dest .temperature) (realOf st ch.dest .AA)
        (solFraction m fl ch i) i (m.xm i) (m.xp i)).2
noncomputable def pfrE (i : ι) : ℝ :=
  (ch.pfr_fast_recycle_fraction * ch.pfr_fast_recycle_energy_factor * ch.pfr_multiplier * -fieldOf st ch.source energyFlowX i
    + (1 - ch.pfr_fast_recycle_fraction) * ch.pfr_energy
      * (pfrFraction m fl ch i * max (-fieldOf st ch.source particleFlowX i) 0)) / cellVolume m i
    - (pumping m fl (fieldOf st ch.dest .density) (fieldOf st ch.dest .temperature) (realOf st ch.dest .AA)
        (pfrFraction m fl ch i) i (m.xp i) (m.xm i)).2

/-- What channel `ch` adds to the density source in cell `j`. -/
noncomputable def gainD (j : ι) : ℝ :=
  (if fl.target_recycle = true ∧ j ∈ m.lower then targetD m st ch false j (m.ym j) else 0)
  + (if fl.target_recycle = true ∧ j ∈ m.upper then targetD m st ch true j (m.yp j) else 0)
  + (if fl.sol_recycle = true ∧ j ∈ m.sol then solD m fl st ch j else 0)
  + (if fl.pfr_recycle = true ∧ j ∈ m.pfr then pfrD m fl st ch j else 0)

/-- What channel `ch` adds to the energy source in cell `j`. -/
noncomputable def gainE (j : ι) : ℝ :=
  (if fl.target_recycle = true ∧ j ∈ m.lower then targetE m st ch false j (m.ym j) else 0)
  + (if fl.target_recycle = true ∧ j ∈ m.upper then targetE m st ch true j (m.yp j) else 0)
  + (if fl.sol_recycle = true ∧ j ∈ m.sol then solE m fl st ch j else 0)
  + (if fl.pfr_recycle = true ∧ j ∈ m.pfr then pfrE m fl st ch j else 0)
end

/-! ## The loops -/

theorem foldl_sources {body : Sources ι → ι → Sources ι} {a b : ι → ℝ} (hb : ∀ s i, body s i = addSources s i (a i) (b i))
    (pts : List ι) (hn : pts.Nodup) (s : Sources ι) (j : ι) :
    (pts.foldl body s).1 j = s.1 j + (if j ∈ pts then a j else 0) ∧ (pts.foldl body s).2 j = s.2 j + (if j ∈ pts then b j else 0) := by
  have key : ∀ (l : List ι) (s : Sources ι), l.foldl body s =
      (l.foldl (fun s i => Function.update s i (s i + a i)) s.1, l.foldl (fun s i => Function.update s i (s i + b i)) s.2) := by
    intro l
    induction l with
    | nil => intro s; rfl
    | cons x l ih => intro s; rw [List.foldl_cons, ih, hb]; rfl
  rw [key]
  exact ⟨foldl_accum pts s.1 hn j, foldl_accum pts s.2 hn j⟩

theorem clip_eq_max (x : ℝ) : (if x < 0 then 0 else x) = max x 0 := by
  split
  · rw [max_eq_right (by linarith)]
  · rw [max_eq_left (by linarith)]

theorem gate_eq_max (c x : ℝ) : (if x > 0 then c * x else 0) = c * max x 0 := by
  split
  · rw [max_eq_left (by linarith)]
  · rw [max_eq_right (by linarith), mul_zero]

theorem targetLower_eq (m : RMesh ι) (ch : RecycleChannel) (N V flow : Fld ι) (s : Sources ι) (i : ι) :
    recycleTargetLower m ch N V flow s i = addSources s i (fromTarget m ch N V false i (m.ym i) / cellVolume m i)
      (heatFromTarget m ch N V flow false i (m.ym i) / cellVolume m i) := by
  unfold recycleTargetLower heatFromTarget fromTarget targetArea face cellVolume
  simp only [clip_eq_max, out, Bool.false_eq_true, if_false]
  have h1 : -0.5 * (N i + N (m.ym i)) * 0.5 * (V i + V (m.ym i)) = -1 * ((N i + N (m.ym i)) / 2) * ((V i + V (m.ym i)) / 2) := by ring
  rw [h1]
  generalize max (_ : ℝ) _ = K
  congr 1 <;> congr 1 <;> ring

theorem targetUpper_eq (m : RMesh ι) (ch : RecycleChannel) (N V flow : Fld ι) (s : Sources ι) (i : ι) :
    recycleTargetUpper m ch N V flow s i = addSources s i (fromTarget m ch N V true i (m.yp i) / cellVolume m i)
      (heatFromTarget m ch N V flow true i (m.yp i) / cellVolume m i) := by
  unfold recycleTargetUpper heatFromTarget fromTarget targetArea face cellVolume
  simp only [clip_eq_max, out, if_true]
  have h1 : 0.5 * (N i + N (m.yp i)) * 0.5 * (V i + V (m.yp i)) = 1 * ((N i + N (m.yp i)) / 2) * ((V i + V (m.yp i)) / 2) := by ring
  rw [h1]
  generalize max (_ : ℝ) _ = K
  congr 1 <;> congr 1 <;> ring

/-! ## One channel -/

theorem recycleTargets_ok {m : RMesh ι} (hm : MeshOk m.toYMesh) {fl : RecycleFlags} {ch : RecycleChannel} {N V : Fld ι}
    {s s' : Sources ι} {st st' : Store Key (Value ι)} (h : recycleTargets m fl ch N V s st = (.ok s', st')) :
    vals st' = vals st ∧ ∀ j,
      s'.1 j = s.1 j + (if fl.target_recycle = true ∧ j ∈ m.lower then fromTarget m ch N V false j (m.ym j) / cellVolume m j else 0)
        + (if fl.target_recycle = true ∧ j ∈ m.upper then fromTarget m ch N V true j (m.yp j) / cellVolume m j else 0) ∧
      s'.2 j = s.2 j + (if fl.target_recycle = true ∧ j ∈ m.lower then
          heatFromTarget m ch N V (fieldOf st ch.source .energy_flow_ylow) false j (m.ym j) / cellVolume m j else 0)
        + (if fl.target_recycle = true ∧ j ∈ m.upper then
          heatFromTarget m ch N V (fieldOf st ch.source .energy_flow_ylow) true j (m.yp j) / cellVolume m j else 0) := by
  unfold recycleTargets at h
  by_cases ht : fl.target_recycle = true
  · rw [if_pos ht] at h
    have h := isSet_bind h
    have key : ∃ s1, vals s1 = vals st ∧
        (pure (m.upper.foldl (recycleTargetUpper m ch N V (fieldOf st ch.source .energy_flow_ylow))
          (m.lower.foldl (recycleTargetLower m ch N V (fieldOf st ch.source .energy_flow_ylow)) s)) : Prog ι (Sources ι)) s1 = (.ok s', st') := by
      by_cases hs : (vals st (.sp ch.source .energy_flow_ylow)).isSome = true
      · rw [if_pos hs] at h
        exact getF_bind h
      · rw [if_neg hs] at h
        obtain ⟨f, s1, h1, h2⟩ := M_bind_ok h
        split at h1
        · cases h1
        · obtain ⟨hfe, hse⟩ := pure_ok h1
          subst hfe hse
          have e : fieldOf s1 ch.source .energy_flow_ylow = fun _ => 0 := by
            refine fieldOf_unset ?_
            cases hh : vals s1 (.sp ch.source .energy_flow_ylow) with
            | none => rfl
            | some x => rw [hh] at hs; exact absurd rfl hs
          rw [e]
          exact ⟨_, rfl, h2⟩
    obtain ⟨s1, e1, h⟩ := key
    obtain ⟨rfl, rfl⟩ := pure_ok h
    refine ⟨e1, fun j => ?_⟩
    simp only [ht, true_and]
    obtain ⟨a1, a2⟩ := foldl_sources (targetUpper_eq m ch N V (fieldOf st ch.source .energy_flow_ylow)) m.upper hm.upper_nodup
      (m.lower.foldl (recycleTargetLower m ch N V (fieldOf st ch.source .energy_flow_ylow)) s) j
    obtain ⟨b1, b2⟩ := foldl_sources (targetLower_eq m ch N V (fieldOf st ch.source .energy_flow_ylow)) m.lower hm.lower_nodup s j
    rw [a1, a2, b1, b2]
    exact ⟨rfl, rfl⟩
  · rw [if_neg ht] at h
    obtain ⟨rfl, rfl⟩ := pure_ok h
    refine ⟨rfl, fun j => ?_⟩
    simp [ht]

theorem recycleReadFlow_ok {ch : RecycleChannel} {v : Var} {old r : Option (Fld ι)} {st st' : Store Key (Value ι)}
    (h : recycleReadFlow ch v old st = (.ok r, st')) :
    vals st' = vals st ∧ r = if (vals st (.sp ch.source v)).isSome then some (fieldOf st ch.source v) else old := by
  unfold recycleReadFlow at h
  have h := isSet_bind h
  split at h <;> rename_i hs
  · obtain ⟨s1, e1, h⟩ := getF_bind h
    obtain ⟨rfl, rfl⟩ := pure_ok h
    rw [if_pos hs]
    exact ⟨e1, rfl⟩
  · rw [if_neg hs]
    split at h
    · cases h
    · obtain ⟨rfl, rfl⟩ := pure_ok h
      exact ⟨rfl, rfl⟩

theorem recycleReadFlows_ok {fl : RecycleFlags} {ch : RecycleChannel} {mem r : RecycleMem ι} {st st' : Store Key (Value ι)}
    (h : recycleReadFlows fl ch mem st = (.ok r, st')) :
    vals st' = vals st ∧ (fl.sol_recycle = true ∨ fl.pfr_recycle = true →
      r.particle = (if (vals st (.sp ch.source particleFlowX)).isSome then some (fieldOf st ch.source particleFlowX) else mem.particle) ∧
      r.energy = if (vals st (.sp ch.source energyFlowX)).isSome then some (fieldOf st ch.source energyFlowX) else mem.energy) := by
  unfold recycleReadFlows at h
  split at h <;> rename_i hs
  · obtain ⟨e, s1, h1, h⟩ := M_bind_ok h
    obtain ⟨p, s2, h2, h⟩ := M_bind_ok h
    obtain ⟨rfl, rfl⟩ := pure_ok h
    obtain ⟨a1, a2⟩ := recycleReadFlow_ok h1
    obtain ⟨b1, b2⟩ := recycleReadFlow_ok h2
    refine ⟨b1.trans a1, fun _ => ⟨?_, a2⟩⟩
    rw [b2]
    have e : fieldOf s1 ch.source particleFlowX = fieldOf st ch.source particleFlowX := fieldOf_congr (by rw [a1])
    rw [e, a1]
  · obtain ⟨rfl, rfl⟩ := pure_ok h
    exact ⟨rfl, fun hh => absurd hh hs⟩

theorem recycleEdge_ok {on : Bool} {pts : List ι} {body : Fld ι → Fld ι → Sources ι → ι → Sources ι} {mem : RecycleMem ι}
    {s s' : Sources ι} {st st' : Store Key (Value ι)} (h : recycleEdge on pts body mem s st = (.ok s', st')) :
    vals st' = vals st ∧ (on = false → s' = s) ∧
      (on = true → ∃ p e, mem.particle = some p ∧ mem.energy = some e ∧ s' = pts.foldl (body p e) s) := by
  unfold recycleEdge at h
  cases on with
  | false =>
    obtain ⟨rfl, rfl⟩ := pure_ok h
    exact ⟨rfl, fun _ => rfl, fun hh => by cases hh⟩
  | true =>
    rw [if_pos rfl] at h
    obtain ⟨mp, me⟩ := mem
    cases mp with
    | none => cases h
    | some p =>
      cases me with
      | none => cases h
      | some e =>
        obtain ⟨rfl, rfl⟩ := pure_ok h
        exact ⟨rfl, fun hh => (by cases hh), fun _ => ⟨p, e, rfl, rfl, rfl⟩⟩

theorem sol_eq (m : RMesh ι) (fl : RecycleFlags) (ch : RecycleChannel) (Nn Tn : Fld ι) (A : ℝ) (p e : Fld ι) (s : Sources ι) (i : ι) :
    recycleSol m fl.neutral_pump ch Nn Tn A p e s i = addSources s i
      (solFraction m fl ch i * max (p (m.xp i)) 0 / cellVolume m i
        - (pumping m fl Nn Tn A (solFraction m fl ch i) i (m.xm i) (m.xp i)).1)
      ((ch.sol_fast_recycle_fraction * ch.sol_fast_recycle_energy_factor * ch.sol_multiplier * e (m.xp i)
          + (1 - ch.sol_fast_recycle_fraction) * ch.sol_energy * (solFraction m fl ch i * max (p (m.xp i)) 0)) / cellVolume m i
        - (pumping m fl Nn Tn A (solFraction m fl ch i) i (m.xm i) (m.xp i)).2) := by
  unfold recycleSol
  simp only [gate_eq_max]
  unfold pumping solFraction cellVolume
  congr 2
  ring

theorem pfr_eq (m : RMesh ι) (fl : RecycleFlags) (ch : RecycleChannel) (Nn Tn : Fld ι) (A : ℝ) (p e : Fld ι) (s : Sources ι) (i : ι) :
    recyclePfr m fl.neutral_pump ch Nn Tn A p e s i = addSources s i
      (pfrFraction m fl ch i * max (-p i) 0 / cellVolume m i
        - (pumping m fl Nn Tn A (pfrFraction m fl ch i) i (m.xp i) (m.xm i)).1)
      ((ch.pfr_fast_recycle_fraction * ch.pfr_fast_recycle_energy_factor * ch.pfr_multiplier * -e i
          + (1 - ch.pfr_fast_recycle_fraction) * ch.pfr_energy * (pfrFraction m fl ch i * max (-p i) 0)) / cellVolume m i
        - (pumping m fl Nn Tn A (pfrFraction m fl ch i) i (m.xp i) (m.xm i)).2) := by
  unfold recyclePfr
  simp only [gate_eq_max, mul_neg_one]
  unfold pumping pfrFraction cellVolume
  congr 2
  ring

/-- The flows through the radial edges are published for the species of channel `ch`. -/
def HasFlows (fl : RecycleFlags) (st : Store Key (Value ι)) (ch : RecycleChannel) : Prop :=
  fl.sol_recycle = true ∨ fl.pfr_recycle = true →
    (vals st (.sp ch.source particleFlowX)).isSome ∧ (vals st (.sp ch.source energyFlowX)).isSome

theorem recycleChannel_ok {m : RMesh ι} (hm : MeshOk m.toYMesh) (hsol : m.sol.Nodup) (hpfr : m.pfr.Nodup) {fl : RecycleFlags}
    {ch : RecycleChannel} {mem mem' : RecycleMem ι} {st st' : Store Key (Value ι)} (hf : HasFlows fl st ch)
    (h : recycleChannel m fl mem ch st = (.ok mem', st')) :
    vals st' = Function.update (Function.update (vals st)
        (.sp ch.dest .density_source) (some (.field fun j => fieldOf st ch.dest .density_source j + gainD m fl st ch j)))
        (.sp ch.dest .energy_source) (some (.field fun j => fieldOf st ch.dest .energy_source j + gainE m fl st ch j)) := by
  unfold recycleChannel at h
  obtain ⟨s1, e1, h⟩ := getF_bind h
  obtain ⟨s2, e2, h⟩ := getF_bind h
  obtain ⟨s3, e3, h⟩ := getF_bind h
  obtain ⟨s4, e4, h⟩ := getF_bind h
  obtain ⟨s5, e5, h⟩ := getF_bind h
  obtain ⟨s6, e6, h⟩ := getF_bind h
  obtain ⟨s7, e7, h⟩ := getR_bind h
  obtain ⟨s8, e8, h⟩ := readSource_bind h
  obtain ⟨s9, e9, h⟩ := readSource_bind h
  have q2 : vals s2 = vals st := e2.trans e1
  have q3 : vals s3 = vals st := e3.trans q2
  have q4 : vals s4 = vals st := e4.trans q3
  have q5 : vals s5 = vals st := e5.trans q4
  have q6 : vals s6 = vals st := e6.trans q5
  have q7 : vals s7 = vals st := e7.trans q6
  have q8 : vals s8 = vals st := e8.trans q7
  have q9 : vals s9 = vals st := e9.trans q8
  have fc : ∀ {s : Store Key (Value ι)}, vals s = vals st → ∀ n v, fieldOf s n v = fieldOf st n v :=
    fun hs n v => fieldOf_congr (by rw [hs])
  have rc : ∀ {s : Store Key (Value ι)}, vals s = vals st → ∀ n v, realOf s n v = realOf st n v := by
    intro s hs n v; unfold realOf; rw [hs]
  have fo : ∀ {s : Store Key (Value ι)}, vals s = vals st → ∀ n v, fieldOr s (.sp n v) 0 = fieldOf st n v := by
    intro s hs n v; unfold fieldOr fieldOf; rw [hs]
  rw [fc e1, fc q3, fc q5, rc q6, fo q7, fo q8] at h
  obtain ⟨⟨d1, x1⟩, s10, h10, h⟩ := M_bind_ok h
  obtain ⟨e10, f10⟩ := recycleTargets_ok hm h10
  have q10 := e10.trans q9
  obtain ⟨mem1, s11, h11, h⟩ := M_bind_ok h
  obtain ⟨e11, f11⟩ := recycleReadFlows_ok h11
  have q11 := e11.trans q10
  obtain ⟨⟨d2, x2⟩, s12, h12, h⟩ := M_bind_ok h
  obtain ⟨e12, f12, g12⟩ := recycleEdge_ok h12
  have q12 := e12.trans q11
  obtain ⟨⟨d3, x3⟩, s13, h13, h⟩ := M_bind_ok h
  obtain ⟨e13, f13, g13⟩ := recycleEdge_ok h13
  have q13 := e13.trans q12
  obtain ⟨s14, e14, h⟩ := set_bind_ok h
  obtain ⟨s15, e15, h⟩ := set_bind_ok h
  obtain ⟨-, rfl⟩ := pure_ok h
  rw [fc q9] at f10
  -- the members
  have hmem : fl.sol_recycle = true ∨ fl.pfr_recycle = true →
      mem1.particle = some (fieldOf st ch.source particleFlowX) ∧ mem1.energy = some (fieldOf st ch.source energyFlowX) := by
    intro hh
    obtain ⟨a, b⟩ := f11 hh
    obtain ⟨c, d⟩ := hf hh
    rw [q10, if_pos c, fc q10] at a
    rw [q10, if_pos d, fc q10] at b
    exact ⟨a, b⟩
  have hsolj : ∀ j, d2 j = d1 j + (if fl.sol_recycle = true ∧ j ∈ m.sol then solD m fl st ch j else 0) ∧
      x2 j = x1 j + (if fl.sol_recycle = true ∧ j ∈ m.sol then solE m fl st ch j else 0) := by
    intro j
    by_cases hs : fl.sol_recycle = true
    · obtain ⟨p, e, hp, he, hfold⟩ := g12 hs
      obtain ⟨m1, m2⟩ := hmem (Or.inl hs)
      rw [m1] at hp; rw [m2] at he
      obtain rfl := Option.some.inj hp
      obtain rfl := Option.some.inj he
      have := foldl_sources (sol_eq m fl ch (fieldOf st ch.dest .density) (fieldOf st ch.dest .temperature) (realOf st ch.dest .AA)
        (fieldOf st ch.source particleFlowX) (fieldOf st ch.source energyFlowX)) m.sol hsol (d1, x1) j
      rw [← hfold] at this
      simp only [hs, true_and]
      exact this
    · have := f12 (by simpa using hs)
      rw [Prod.mk.injEq] at this
      rw [this.1, this.2]
      simp [hs]
  have hpfrj : ∀ j, d3 j = d2 j + (if fl.pfr_recycle = true ∧ j ∈ m.pfr then pfrD m fl st ch j else 0) ∧
      x3 j = x2 j + (if fl.pfr_recycle = true ∧ j ∈ m.pfr then pfrE m fl st ch j else 0) := by
    intro j
    by_cases hs : fl.pfr_recycle = true
    · obtain ⟨p, e, hp, he, hfold⟩ := g13 hs
      obtain ⟨m1, m2⟩ := hmem (Or.inr hs)
      rw [m1] at hp; rw [m2] at he
      obtain rfl := Option.some.inj hp
      obtain rfl := Option.some.inj he
      have := foldl_sources (pfr_eq m fl ch (fieldOf st ch.dest .density) (fieldOf st ch.dest .temperature) (realOf st ch.dest .AA)
        (fieldOf st ch.source particleFlowX) (fieldOf st ch.source energyFlowX)) m.pfr hpfr (d2, x2) j
      rw [← hfold] at this
      simp only [hs, true_and]
      exact this
    · have := f13 (by simpa using hs)
      rw [Prod.mk.injEq] at this
      rw [this.1, this.2]
      simp [hs]
  rw [e15, e14, q13]
  have hd : d3 = fun j => fieldOf st ch.dest .density_source j + gainD m fl st ch j := by
    funext j
    have f := (f10 j).1
    dsimp only at f
    rw [(hpfrj j).1, (hsolj j).1, f]
    unfold gainD targetD
    ring
  have hx : x3 = fun j => fieldOf st ch.dest .energy_source j + gainE m fl st ch j := by
    funext j
    have f := (f10 j).2
    dsimp only at f
    rw [(hpfrj j).2, (hsolj j).2, f]
    unfold gainE targetE
    ring
  rw [hd, hx]

/-! ## All channels -/

/-- Nothing that the gains depend on is a density or energy source. -/
theorem gain_congr {m : RMesh ι} {fl : RecycleFlags} {st st' : Store Key (Value ι)} {ch : RecycleChannel}
    (h : ∀ n v, v ≠ .density_source → v ≠ .energy_source → vals st' (.sp n v) = vals st (.sp n v)) :
    gainD m fl st' ch = gainD m fl st ch ∧ gainE m fl st' ch = gainE m fl st ch := by
  have f : ∀ n v, v ≠ .density_source → v ≠ .energy_source → fieldOf st' n v = fieldOf st n v :=
    fun n v h1 h2 => fieldOf_congr (h n v h1 h2)
  have r : ∀ n v, v ≠ .density_source → v ≠ .energy_source → realOf st' n v = realOf st n v := by
    intro n v h1 h2; unfold realOf; rw [h n v h1 h2]
  constructor <;> funext j
  · unfold gainD targetD solD pfrD
    rw [f ch.source .density (by decide) (by decide), f ch.source .velocity (by decide) (by decide),
      f ch.source particleFlowX (by decide) (by decide), f ch.dest .density (by decide) (by decide),
      f ch.dest .temperature (by decide) (by decide), r ch.dest .AA (by decide) (by decide)]
  · unfold gainE targetE solE pfrE
    rw [f ch.source .density (by decide) (by decide), f ch.source .velocity (by decide) (by decide),
      f ch.source .energy_flow_ylow (by decide) (by decide), f ch.source energyFlowX (by decide) (by decide),
      f ch.source particleFlowX (by decide) (by decide), f ch.dest .density (by decide) (by decide),
      f ch.dest .temperature (by decide) (by decide), r ch.dest .AA (by decide) (by decide)]

/-- **C40, C42.**  What `recycling` does: each channel adds its gain to the sources of the species it recycles into, and
nothing else is changed. -/
theorem recycling_sources {m : RMesh ι} (hm : MeshOk m.toYMesh) (hsol : m.sol.Nodup) (hpfr : m.pfr.Nodup) {fl : RecycleFlags} :
    ∀ {channels : List RecycleChannel} {mem mem' : RecycleMem ι} {st st' : Store Key (Value ι)},
    (∀ ch ∈ channels, HasFlows fl st ch) → recycling m fl channels mem st = (.ok mem', st') →
    (∀ s j, fieldOf st' s .density_source j = fieldOf st s .density_source j
      + (channels.map fun ch => if ch.dest = s then gainD m fl st ch j else 0).sum) ∧
    (∀ s j, fieldOf st' s .energy_source j = fieldOf st s .energy_source j
      + (channels.map fun ch => if ch.dest = s then gainE m fl st ch j else 0).sum) ∧
    ∀ k, (∀ ch ∈ channels, k ≠ .sp ch.dest .density_source ∧ k ≠ .sp ch.dest .energy_source) → vals st' k = vals st k
  | [], mem, mem', st, st', _, h => by
    obtain ⟨-, rfl⟩ := pure_ok h
    exact ⟨fun s j => by simp, fun s j => by simp, fun _ _ => rfl⟩
  | ch :: l, mem, mem', st, st', hf, h => by
    unfold recycling at h
    rw [List.foldlM_cons] at h
    obtain ⟨mem1, s1, h1, h2⟩ := M_bind_ok h
    have e1 := recycleChannel_ok hm hsol hpfr (hf ch List.mem_cons_self) h1
    have keep : ∀ n v, v ≠ .density_source → v ≠ .energy_source → vals s1 (.sp n v) = vals st (.sp n v) := by
      intro n v hv1 hv2
      rw [e1, Function.update_of_ne (by intro e; exact hv2 (Key.sp.inj e).2),
        Function.update_of_ne (by intro e; exact hv1 (Key.sp.inj e).2)]
    have hf' : ∀ c ∈ l, HasFlows fl s1 c := by
      intro c hc hh
      rw [keep _ _ (by decide) (by decide), keep _ _ (by decide) (by decide)]
      exact hf c (List.mem_cons_of_mem _ hc) hh
    obtain ⟨a, b, c⟩ := recycling_sources hm hsol hpfr hf' h2
    have ne : Key.sp ch.dest Var.density_source ≠ .sp ch.dest .energy_source := by
      intro e; exact absurd (Key.sp.inj e).2 (by decide)
    refine ⟨fun s j => ?_, fun s j => ?_, fun k hk => ?_⟩
    · rw [a, List.map_cons, List.sum_cons, ← add_assoc]
      have hg : (l.map fun ch => if ch.dest = s then gainD m fl s1 ch j else 0) = l.map fun ch => if ch.dest = s then gainD m fl st ch j else 0 :=
        List.map_congr_left fun c _ => by rw [(gain_congr keep).1]
      rw [hg]
      congr 1
      by_cases hs : ch.dest = s
      · subst hs
        rw [if_pos rfl]
        have : vals s1 (.sp ch.dest .density_source) =
            some (.field fun j => fieldOf st ch.dest .density_source j + gainD m fl st ch j) := by
          rw [e1, Function.update_of_ne ne, Function.update_self]
        rw [fieldOf_some this]
      · rw [if_neg hs, add_zero]
        refine congrFun (fieldOf_congr ?_) j
        rw [e1, Function.update_of_ne (by intro e; exact hs (Key.sp.inj e).1.symm),
          Function.update_of_ne (by intro e; exact hs (Key.sp.inj e).1.symm)]
    · rw [b, List.map_cons, List.sum_cons, ← add_assoc]
      have hg : (l.map fun ch => if ch.dest = s then gainE m fl s1 ch j else 0) = l.map fun ch => if ch.dest = s then gainE m fl st ch j else 0 :=
        List.map_congr_left fun c _ => by rw [(gain_congr keep).2]
      rw [hg]
      congr 1
      by_cases hs : ch.dest = s
      · subst hs
        rw [if_pos rfl]
        have : vals s1 (.sp ch.dest .energy_source) =
            some (.field fun j => fieldOf st ch.dest .energy_source j + gainE m fl st ch j) := by
          rw [e1, Function.update_self]
        rw [fieldOf_some this]
      · rw [if_neg hs, add_zero]
        refine congrFun (fieldOf_congr ?_) j
        rw [e1, Function.update_of_ne (by intro e; exact hs (Key.sp.inj e).1.symm),
          Function.update_of_ne (by intro e; exact hs (Key.sp.inj e).1.symm)]
    · rw [c k fun ch' hc => hk ch' (List.mem_cons_of_mem _ hc), e1]
      obtain ⟨k1, k2⟩ := hk ch List.mem_cons_self
      rw [Function.update_of_ne k2, Function.update_of_ne k1]

end Hermes.Recycling
