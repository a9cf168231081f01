import Verif.Props.Recycling

/-!
# Recycling: particle balance, settings of each species, energy, both ends alike

C40, C41, C42 and the part of C39 about targets.
-/

set_option linter.unusedSectionVars false
set_option linter.unusedVariables false

namespace Hermes.Recycling
open Hermes.Closures Hermes.Sheath Hermes.ParOps Finset

variable {ι : Type} [DecidableEq ι]

/-! ## C40: the particles that come back -/

theorem targetArea_nonneg {m : RMesh ι} {i g : ι} (hJ : 0 ≤ m.J i ∧ 0 ≤ m.J g) (hx : 0 ≤ m.dx i ∧ 0 ≤ m.dx g)
    (hz : 0 ≤ m.dz i ∧ 0 ≤ m.dz g) : 0 ≤ targetArea m i g := by
  obtain ⟨h1, h2⟩ := hJ
  obtain ⟨h3, h4⟩ := hx
  obtain ⟨h5, h6⟩ := hz
  unfold targetArea
  positivity

/-- **C40.**  Whatever the plasma does, a target returns between nothing and everything that leaves through it. -/
theorem target_returns_at_most {m : RMesh ι} {ch : RecycleChannel} {N V : Fld ι} {u : Bool} {i g : ι} (hA : 0 ≤ targetArea m i g)
    (h0 : 0 ≤ ch.target_multiplier) (h1 : ch.target_multiplier ≤ 1) :
    0 ≤ fromTarget m ch N V u i g ∧ fromTarget m ch N V u i g ≤ max (out u * face N i g * face V i g * targetArea m i g) 0 := by
  unfold fromTarget
  have hm : 0 ≤ max (out u * face N i g * face V i g) 0 := le_max_right _ _
  have e : max (out u * face N i g * face V i g * targetArea m i g) 0 = max (out u * face N i g * face V i g) 0 * targetArea m i g := by
    rw [max_mul_of_nonneg _ _ hA, zero_mul]
  rw [e]
  have hp := mul_nonneg hm hA
  exact ⟨mul_nonneg h0 hp, by nlinarith⟩

/-- **C40.**  Flow into the plasma makes no source. -/
theorem target_inflow {m : RMesh ι} {ch : RecycleChannel} {N V : Fld ι} {u : Bool} {i g : ι}
    (h : out u * face N i g * face V i g ≤ 0) : fromTarget m ch N V u i g = 0 := by
  unfold fromTarget
  rw [max_eq_right h, zero_mul, mul_zero]

/-- A field line as a mesh with one lower and one upper target. -/
def lineMesh (g : Line) : YMesh ℤ :=
  ⟨fun j => j - 1, fun j => j + 1, [g.ystart], [g.yend], g.J, g.g22, g.dx, g.dy, g.dz⟩

/-- A line of at least two cells of positive size. -/
structure Proper (g : Line) : Prop where
  two : g.ystart < g.yend
  J_pos : ∀ i, 0 < g.J i
  dx_pos : ∀ i, 0 < g.dx i
  dy_pos : ∀ i, 0 < g.dy i
  dz_pos : ∀ i, 0 < g.dz i

theorem Proper.regular {g : Line} (h : Proper g) : Regular g :=
  ⟨h.two.le, fun i _ _ => (h.J_pos i).ne', fun i _ _ => (h.dy_pos i).ne'⟩

theorem lineMesh_ok {g : Line} (h : Proper g) : MeshOk (lineMesh g) := by
  have := h.two
  constructor
  · simp only [lineMesh, List.map_cons, List.map_nil, List.cons_append, List.nil_append, List.nodup_cons, List.mem_singleton,
      List.not_mem_nil, not_false_eq_true, List.nodup_nil, and_true]
    omega
  · intro x hx
    simp only [lineMesh, List.map_cons, List.map_nil, List.cons_append, List.nil_append, List.mem_cons, List.not_mem_nil, or_false] at hx ⊢
    omega

section
variable {g : Line} {m : RMesh ℤ} {ch : RecycleChannel} {st : Store Key (Value ℤ)} {fl : RecycleFlags}

theorem fromTarget_upper (hp : Proper g) (hu : UniformPerp g) (hc : Closed g) (hm : m.toYMesh = lineMesh g) (lim : Limiter)
    (N V w : ℤ → ℝ) :
    fromTarget m ch N V true g.yend (g.yend + 1) =
      ch.target_multiplier * max ((g.divParMod lim N V w true).flow (g.yend + 1)) 0 := by
  have hA : 0 ≤ targetArea m g.yend (g.yend + 1) := by
    refine targetArea_nonneg ?_ ?_ ?_ <;> rw [hm] <;>
      exact ⟨(by first | exact (hp.J_pos _).le | exact (hp.dx_pos _).le | exact (hp.dz_pos _).le),
        (by first | exact (hp.J_pos _).le | exact (hp.dx_pos _).le | exact (hp.dz_pos _).le)⟩
  unfold fromTarget
  have e : (g.divParMod lim N V w true).flow (g.yend + 1) = out true * face N g.yend (g.yend + 1) * face V g.yend (g.yend + 1)
      * targetArea m g.yend (g.yend + 1) := by
    rw [upper_end_flow_is_midpoint hc hp.two.le]
    unfold targetArea face out
    rw [hm]
    simp only [lineMesh, if_true]
    rw [(hu g.yend (g.yend + 1)).1, (hu g.yend (g.yend + 1)).2]
    ring
  rw [e]
  have := max_mul_of_nonneg (out true * face N g.yend (g.yend + 1) * face V g.yend (g.yend + 1)) 0 hA
  rw [zero_mul] at this
  rw [this]

theorem fromTarget_lower (hp : Proper g) (hu : UniformPerp g) (hc : Closed g) (hm : m.toYMesh = lineMesh g) (lim : Limiter)
    (N V w : ℤ → ℝ) :
    fromTarget m ch N V false g.ystart (g.ystart - 1) =
      ch.target_multiplier * max (-(g.divParMod lim N V w true).flow g.ystart) 0 := by
  have hA : 0 ≤ targetArea m g.ystart (g.ystart - 1) := by
    refine targetArea_nonneg ?_ ?_ ?_ <;> rw [hm] <;>
      exact ⟨(by first | exact (hp.J_pos _).le | exact (hp.dx_pos _).le | exact (hp.dz_pos _).le),
        (by first | exact (hp.J_pos _).le | exact (hp.dx_pos _).le | exact (hp.dz_pos _).le)⟩
  unfold fromTarget
  have e : -(g.divParMod lim N V w true).flow g.ystart = out false * face N g.ystart (g.ystart - 1) * face V g.ystart (g.ystart - 1)
      * targetArea m g.ystart (g.ystart - 1) := by
    rw [lower_end_flow_is_midpoint hc hp.two.le]
    unfold targetArea face out
    rw [hm]
    simp only [lineMesh, Bool.false_eq_true, if_false]
    rw [(hu g.ystart (g.ystart - 1)).1, (hu g.ystart (g.ystart - 1)).2, add_comm (g.J (g.ystart - 1)),
      add_comm (Real.sqrt (g.g22 (g.ystart - 1)))]
    ring
  rw [e]
  have := max_mul_of_nonneg (out false * face N g.ystart (g.ystart - 1) * face V g.ystart (g.ystart - 1)) 0 hA
  rw [zero_mul] at this
  rw [this]

/-- **C40.**  At both targets of a field line the particles per time that enter the neutral species are the multiplier times
the ion flow `divParMod` removes through that face, for every limiter and wave speed. -/
theorem target_returns_fraction (hp : Proper g) (hu : UniformPerp g) (hc : Closed g) (hm : m.toYMesh = lineMesh g) (lim : Limiter)
    (w : ℤ → ℝ) (ht : fl.target_recycle = true) (hs : fl.sol_recycle = false) (hf : fl.pfr_recycle = false) :
    let flow := (g.divParMod lim (fieldOf st ch.source .density) (fieldOf st ch.source .velocity) w true).flow
    gainD m fl st ch g.yend * volume g g.yend = ch.target_multiplier * max (flow (g.yend + 1)) 0 ∧
    gainD m fl st ch g.ystart * volume g g.ystart = ch.target_multiplier * max (-flow g.ystart) 0 ∧
    ∀ j, j ≠ g.yend → j ≠ g.ystart → gainD m fl st ch j = 0 := by
  intro flow
  have hv : ∀ i, cellVolume m i = volume g i := by intro i; unfold cellVolume volume; rw [hm]; rfl
  have hpos : ∀ i, volume g i ≠ 0 := by
    intro i; unfold volume
    have := hp.J_pos i; have := hp.dx_pos i; have := hp.dy_pos i; have := hp.dz_pos i
    positivity
  have hne := hp.two
  unfold gainD targetD
  simp only [hm, hv, ht, hs, hf, lineMesh, List.mem_singleton, Bool.false_eq_true, false_and, if_false, add_zero, true_and]
  refine ⟨?_, ?_, fun j h1 h2 => ?_⟩
  · rw [if_neg hne.ne', if_pos trivial, zero_add, div_mul_cancel₀ _ (hpos _), fromTarget_upper hp hu hc hm lim _ _ w]
  · rw [if_pos trivial, if_neg hne.ne, add_zero, div_mul_cancel₀ _ (hpos _), fromTarget_lower hp hu hc hm lim _ _ w]
  · rw [if_neg h2, if_neg h1, add_zero]

/-- **C40.**  Particle balance of a field line: the neutrals gain the multiplier times what the ions lose through the two ends. -/
theorem recycling_particle_balance (hp : Proper g) (hu : UniformPerp g) (hc : Closed g) (hm : m.toYMesh = lineMesh g) (lim : Limiter)
    (w : ℤ → ℝ) (ht : fl.target_recycle = true) (hs : fl.sol_recycle = false) (hf : fl.pfr_recycle = false) :
    let flow := (g.divParMod lim (fieldOf st ch.source .density) (fieldOf st ch.source .velocity) w true).flow
    content g (gainD m fl st ch) = ch.target_multiplier * (max (flow (g.yend + 1)) 0 + max (-flow g.ystart) 0) := by
  intro flow
  obtain ⟨h1, h2, h3⟩ := target_returns_fraction (st := st) (ch := ch) hp hu hc hm lim w ht hs hf
  unfold content
  have hne := hp.two
  rw [← Finset.sum_subset (s₁ := {g.yend, g.ystart}) (by intro x hx; simp only [Finset.mem_insert, Finset.mem_singleton] at hx; rw [mem_Icc]; omega),
    Finset.sum_pair hne.ne', h1, h2, mul_add]
  intro x _ hx
  simp only [Finset.mem_insert, Finset.mem_singleton, not_or] at hx
  rw [h3 x hx.1 hx.2, zero_mul]

/-- **C40.**  Full recycling of a plasma that flows out at both ends conserves particles: the neutrals gain exactly what the
divergence of the ion flow takes away; with any multiplier up to one, not more. -/
theorem full_recycling_conserves (hp : Proper g) (hu : UniformPerp g) (hc : Closed g) (hm : m.toYMesh = lineMesh g) (lim : Limiter)
    (w : ℤ → ℝ) (ht : fl.target_recycle = true) (hs : fl.sol_recycle = false) (hf : fl.pfr_recycle = false)
    (hup : 0 ≤ face (fieldOf st ch.source .density) g.yend (g.yend + 1) * face (fieldOf st ch.source .velocity) g.yend (g.yend + 1))
    (hlow : face (fieldOf st ch.source .density) g.ystart (g.ystart - 1) * face (fieldOf st ch.source .velocity) g.ystart (g.ystart - 1) ≤ 0) :
    let lost := content g (g.divParMod lim (fieldOf st ch.source .density) (fieldOf st ch.source .velocity) w true).result
    content g (gainD m fl st ch) = ch.target_multiplier * lost ∧
    (ch.target_multiplier = 1 → content g (gainD m fl st ch) = lost) ∧
    (ch.target_multiplier ≤ 1 → content g (gainD m fl st ch) ≤ lost) := by
  intro lost
  have key : content g (gainD m fl st ch) = ch.target_multiplier * lost ∧ 0 ≤ lost := by
    rw [recycling_particle_balance hp hu hc hm lim w ht hs hf]
    have e : lost = _ := content_changes_at_ends hp.regular hu lim _ _ w true
    rw [e]
    have u1 : 0 ≤ (g.divParMod lim (fieldOf st ch.source .density) (fieldOf st ch.source .velocity) w true).flow (g.yend + 1) := by
      rw [upper_end_flow_is_midpoint hc hp.two.le]
      have := hp.J_pos g.yend; have := hp.J_pos (g.yend + 1); have := hp.dx_pos (g.yend + 1); have := hp.dz_pos (g.yend + 1)
      unfold face at hup
      exact mul_nonneg (mul_nonneg (mul_nonneg hup (by positivity)) (by positivity)) (by positivity)
    have l1 : (g.divParMod lim (fieldOf st ch.source .density) (fieldOf st ch.source .velocity) w true).flow g.ystart ≤ 0 := by
      rw [lower_end_flow_is_midpoint hc hp.two.le]
      have := hp.J_pos g.ystart; have := hp.J_pos (g.ystart - 1); have := hp.dx_pos g.ystart; have := hp.dz_pos g.ystart
      unfold face at hlow
      exact mul_nonpos_of_nonpos_of_nonneg (mul_nonpos_of_nonpos_of_nonneg (mul_nonpos_of_nonpos_of_nonneg hlow (by positivity)) (by positivity)) (by positivity)
    rw [max_eq_left u1, max_eq_left (by linarith)]
    exact ⟨by ring, by linarith⟩
  refine ⟨key.1, fun h => by rw [key.1, h, one_mul], fun h => ?_⟩
  rw [key.1]
  nlinarith [key.2]

end

/-- **C40.**  Outer edge without pump: the fraction `sol_multiplier` of the outflow comes back, never more than leaves; inflow
makes no source. -/
theorem sol_returns_fraction {m : RMesh ι} {fl : RecycleFlags} {st : Store Key (Value ι)} {ch : RecycleChannel} {i : ι}
    (hv : cellVolume m i ≠ 0) (hp : ¬Pumped m fl i) :
    solD m fl st ch i * cellVolume m i = ch.sol_multiplier * max (fieldOf st ch.source particleFlowX (m.xp i)) 0 ∧
    (0 ≤ ch.sol_multiplier → ch.sol_multiplier ≤ 1 → 0 ≤ solD m fl st ch i * cellVolume m i ∧
      solD m fl st ch i * cellVolume m i ≤ max (fieldOf st ch.source particleFlowX (m.xp i)) 0) := by
  have hp' : ¬(m.is_pump i = 1 ∧ fl.neutral_pump = true) := hp
  have e : solD m fl st ch i * cellVolume m i = ch.sol_multiplier * max (fieldOf st ch.source particleFlowX (m.xp i)) 0 := by
    unfold solD pumping solFraction
    rw [if_neg hp', if_neg hp', sub_zero, div_mul_cancel₀ _ hv]
  refine ⟨e, fun h0 h1 => ?_⟩
  rw [e]
  have := le_max_right (fieldOf st ch.source particleFlowX (m.xp i)) 0
  exact ⟨mul_nonneg h0 this, by nlinarith⟩

/-- **C40.**  The same for the inner edge, where the outflow is the negative of the flow. -/
theorem pfr_returns_fraction {m : RMesh ι} {fl : RecycleFlags} {st : Store Key (Value ι)} {ch : RecycleChannel} {i : ι}
    (hv : cellVolume m i ≠ 0) (hp : ¬Pumped m fl i) :
    pfrD m fl st ch i * cellVolume m i = ch.pfr_multiplier * max (-fieldOf st ch.source particleFlowX i) 0 ∧
    (0 ≤ ch.pfr_multiplier → ch.pfr_multiplier ≤ 1 → 0 ≤ pfrD m fl st ch i * cellVolume m i ∧
      pfrD m fl st ch i * cellVolume m i ≤ max (-fieldOf st ch.source particleFlowX i) 0) := by
  have hp' : ¬(m.is_pump i = 1 ∧ fl.neutral_pump = true) := hp
  have e : pfrD m fl st ch i * cellVolume m i = ch.pfr_multiplier * max (-fieldOf st ch.source particleFlowX i) 0 := by
    unfold pfrD pumping pfrFraction
    rw [if_neg hp', if_neg hp', sub_zero, div_mul_cancel₀ _ hv]
  refine ⟨e, fun h0 h1 => ?_⟩
  rw [e]
  have := le_max_right (-fieldOf st ch.source particleFlowX i) 0
  exact ⟨mul_nonneg h0 this, by nlinarith⟩

/-- A pump only takes neutrals and their energy away. -/
theorem pump_removes {m : RMesh ι} {Nn Tn : Fld ι} {A mult : ℝ} {i is ig : ι} (hN : 0 ≤ Nn i ∧ 0 ≤ Nn is) (hT : 0 ≤ Tn i ∧ 0 ≤ Tn is)
    (hJ : 0 ≤ m.J i) (hx : 0 ≤ m.dx i) (hy : 0 ≤ m.dy i ∧ 0 ≤ m.dy ig) (hz : 0 ≤ m.dz i ∧ 0 ≤ m.dz ig) (hm : mult ≤ 1) :
    0 ≤ (pumpSinks m Nn Tn A mult i is ig).1 ∧ 0 ≤ (pumpSinks m Nn Tn A mult i is ig).2 := by
  obtain ⟨a, b⟩ := hN; obtain ⟨c, d⟩ := hT; obtain ⟨e, f⟩ := hy; obtain ⟨p, q⟩ := hz
  have : 0 ≤ 1 - mult := by linarith
  unfold pumpSinks
  constructor <;> dsimp only <;> positivity

/-- **C40.**  Pumped cell of the outer edge: the fraction `pump_multiplier` of the outflow comes back and the pump takes
neutrals away on top, so never more particles come back than leave. -/
theorem pumped_sol_returns_at_most {m : RMesh ι} {fl : RecycleFlags} {st : Store Key (Value ι)} {ch : RecycleChannel} {i : ι}
    (hp : Pumped m fl i) (h0 : 0 ≤ ch.pump_multiplier) (h1 : ch.pump_multiplier ≤ 1)
    (hN : ∀ j, 0 ≤ fieldOf st ch.dest .density j) (hT : ∀ j, 0 ≤ fieldOf st ch.dest .temperature j)
    (hJ : 0 < m.J i) (hx : 0 < m.dx i) (hy : 0 < m.dy i ∧ 0 ≤ m.dy (m.xp i)) (hz : 0 < m.dz i ∧ 0 ≤ m.dz (m.xp i)) :
    solD m fl st ch i * cellVolume m i ≤ ch.pump_multiplier * max (fieldOf st ch.source particleFlowX (m.xp i)) 0 ∧
    solD m fl st ch i * cellVolume m i ≤ max (fieldOf st ch.source particleFlowX (m.xp i)) 0 := by
  have hp' : m.is_pump i = 1 ∧ fl.neutral_pump = true := hp
  have hv : 0 < cellVolume m i := by unfold cellVolume; have := hy.1; have := hz.1; positivity
  have hs := (pump_removes (m := m) (Nn := fieldOf st ch.dest .density) (Tn := fieldOf st ch.dest .temperature)
    (A := realOf st ch.dest .AA) (mult := ch.pump_multiplier) (i := i) (is := m.xm i) (ig := m.xp i) ⟨hN _, hN _⟩ ⟨hT _, hT _⟩ hJ.le hx.le
    ⟨hy.1.le, hy.2⟩ ⟨hz.1.le, hz.2⟩ h1).1
  have e : solD m fl st ch i * cellVolume m i ≤ ch.pump_multiplier * max (fieldOf st ch.source particleFlowX (m.xp i)) 0 := by
    unfold solD pumping solFraction
    rw [if_pos hp', if_pos hp', sub_mul, div_mul_cancel₀ _ hv.ne']
    have := mul_nonneg hs hv.le
    linarith
  refine ⟨e, e.trans ?_⟩
  have := le_max_right (fieldOf st ch.source particleFlowX (m.xp i)) 0
  nlinarith

/-! ## C41: settings of each species -/

/-- The switches a species asks for. -/
def _root_.Hermes.RecycleSettings.flags (s : RecycleSettings) : RecycleFlags := ⟨s.target_recycle, s.sol_recycle, s.pfr_recycle, s.neutral_pump⟩

theorem construct_from {Tnorm : ℝ} {settings : String → RecycleSettings} : ∀ {species : List String}
    {a r : List RecycleChannel × Option RecycleFlags}, species.foldlM (recyclingStep Tnorm settings) a = .ok r →
    r.1 = a.1 ++ (species.filter (· ≠ "")).map (fun n => recycleChannelOf Tnorm n (settings n)) ∧
    r.2 = (((species.filter (· ≠ "")).getLast?).map fun n => (settings n).flags).or a.2 ∧
    ∀ n ∈ species, n ≠ "" → ¬(settings n).outOfRange
  | [], a, r, h => by
    obtain rfl : a = r := Except.ok.inj h
    simp
  | n :: l, a, r, h => by
    rw [List.foldlM_cons] at h
    unfold recyclingStep at h
    by_cases hn : n = ""
    · rw [if_pos hn] at h
      obtain ⟨h1, h2, h3⟩ := construct_from (show l.foldlM (recyclingStep Tnorm settings) a = .ok r from h)
      have : (n :: l).filter (· ≠ "") = l.filter (· ≠ "") := by simp [hn]
      rw [this]
      exact ⟨h1, h2, fun k hk hne => h3 k ((List.mem_cons.1 hk).resolve_left fun e => hne (e.trans hn)) hne⟩
    · rw [if_neg hn] at h
      by_cases ho : (settings n).outOfRange
      · rw [if_pos ho] at h; cases h
      · rw [if_neg ho] at h
        obtain ⟨h1, h2, h3⟩ := construct_from (show l.foldlM (recyclingStep Tnorm settings) _ = .ok r from h)
        have : (n :: l).filter (· ≠ "") = n :: l.filter (· ≠ "") := by simp [hn]
        rw [this]
        refine ⟨by rw [h1]; simp, ?_, ?_⟩
        · rw [h2, List.getLast?_cons]
          cases (List.filter (fun x => decide (x ≠ "")) l).getLast? <;> simp [RecycleSettings.flags]
        · intro k hk hne
          rcases List.mem_cons.1 hk with rfl | hk
          · exact ho
          · exact h3 k hk hne

/-- **C41.**  What the constructor makes of the settings: a channel for each named species in the order of the list, with its
own multipliers and energies, all multipliers between zero and one; but the four switches are those of the *last* species. -/
theorem construct_ok {Tnorm : ℝ} {settings : String → RecycleSettings} {species : List String} {chs : List RecycleChannel}
    {fl : Option RecycleFlags} (h : recyclingConstruct Tnorm settings species = .ok (chs, fl)) :
    chs = (species.filter (· ≠ "")).map (fun n => recycleChannelOf Tnorm n (settings n)) ∧
    fl = ((species.filter (· ≠ "")).getLast?).map (fun n => (settings n).flags) ∧
    ∀ ch ∈ chs, (0 ≤ ch.target_multiplier ∧ ch.target_multiplier ≤ 1) ∧ (0 ≤ ch.sol_multiplier ∧ ch.sol_multiplier ≤ 1) ∧
      (0 ≤ ch.pfr_multiplier ∧ ch.pfr_multiplier ≤ 1) ∧ (0 ≤ ch.pump_multiplier ∧ ch.pump_multiplier ≤ 1) := by
  obtain ⟨h1, h2, h3⟩ := construct_from h
  simp only [List.nil_append, Option.or_none] at h1 h2
  refine ⟨h1, h2, ?_⟩
  intro ch hch
  rw [h1, List.mem_map] at hch
  obtain ⟨n, hn, rfl⟩ := hch
  rw [List.mem_filter] at hn
  have := h3 n hn.1 (by simpa using hn.2)
  unfold RecycleSettings.outOfRange at this
  push Not at this
  obtain ⟨a, b, c, d, e, f, g, i⟩ := this
  exact ⟨⟨a, b⟩, ⟨c, d⟩, ⟨e, f⟩, ⟨g, i⟩⟩

/-- **C41.**  Each channel carries the settings its own species has for each of the three edges: the energy of the neutrals is
the one set for that edge (in eV, divided by the temperature unit), and so are the fractions and factors of fast recycling. -/
theorem channel_settings {Tnorm : ℝ} (hT : Tnorm ≠ 0) {settings : String → RecycleSettings} {species : List String}
    {chs : List RecycleChannel} {fl : Option RecycleFlags} (h : recyclingConstruct Tnorm settings species = .ok (chs, fl))
    {ch : RecycleChannel} (hch : ch ∈ chs) :
    ch.source ∈ species ∧ ch.dest = (settings ch.source).recycle_as ∧
    (ch.target_multiplier = (settings ch.source).target_recycle_multiplier ∧
      ch.sol_multiplier = (settings ch.source).sol_recycle_multiplier ∧
      ch.pfr_multiplier = (settings ch.source).pfr_recycle_multiplier ∧
      ch.pump_multiplier = (settings ch.source).pump_recycle_multiplier) ∧
    (ch.target_energy * Tnorm = (settings ch.source).target_recycle_energy ∧
      ch.sol_energy * Tnorm = (settings ch.source).sol_recycle_energy ∧
      ch.pfr_energy * Tnorm = (settings ch.source).pfr_recycle_energy) ∧
    (ch.target_fast_recycle_fraction = (settings ch.source).target_fast_recycle_fraction ∧
      ch.sol_fast_recycle_fraction = (settings ch.source).sol_fast_recycle_fraction ∧
      ch.pfr_fast_recycle_fraction = (settings ch.source).pfr_fast_recycle_fraction) ∧
    (ch.target_fast_recycle_energy_factor = (settings ch.source).target_fast_recycle_energy_factor ∧
      ch.sol_fast_recycle_energy_factor = (settings ch.source).sol_fast_recycle_energy_factor ∧
      ch.pfr_fast_recycle_energy_factor = (settings ch.source).pfr_fast_recycle_energy_factor) := by
  obtain ⟨h1, -, -⟩ := construct_ok h
  rw [h1, List.mem_map] at hch
  obtain ⟨n, hn, rfl⟩ := hch
  refine ⟨(List.mem_filter.1 hn).1, rfl, ⟨rfl, rfl, rfl, rfl⟩, ?_, ⟨rfl, rfl, rfl⟩, ⟨rfl, rfl, rfl⟩⟩
  simp only [recycleChannelOf]
  exact ⟨div_mul_cancel₀ _ hT, div_mul_cancel₀ _ hT, div_mul_cancel₀ _ hT⟩

/-- What species `n` gives to the density source of `s` if only its own settings count. -/
noncomputable def ownD (m : RMesh ι) (Tnorm : ℝ) (settings : String → RecycleSettings) (st : Store Key (Value ι)) (s : String) (j : ι)
    (n : String) : ℝ :=
  if (settings n).recycle_as = s then gainD m (settings n).flags st (recycleChannelOf Tnorm n (settings n)) j else 0

/-- C41, partial: proved when all species ask for the same switches (`different_switches` shows it fails otherwise).  Each
species then contributes what its own settings say and nothing else; the order of the list has no effect on the total. -/
theorem own_settings_partial {m : RMesh ι} (hm : MeshOk m.toYMesh) (hsol : m.sol.Nodup) (hpfr : m.pfr.Nodup) {Tnorm : ℝ}
    {settings : String → RecycleSettings} {species : List String} {chs : List RecycleChannel} {fl : RecycleFlags}
    (hsame : ∀ n ∈ species, ∀ k ∈ species, n ≠ "" → k ≠ "" → (settings n).flags = (settings k).flags)
    (hc : recyclingConstruct Tnorm settings species = .ok (chs, some fl)) {mem mem' : RecycleMem ι} {st st' : Store Key (Value ι)}
    (hf : ∀ ch ∈ chs, HasFlows fl st ch) (h : recycling m fl chs mem st = (.ok mem', st')) (s : String) (j : ι) :
    fieldOf st' s .density_source j = fieldOf st s .density_source j
      + ((species.filter (· ≠ "")).map (ownD m Tnorm settings st s j)).sum ∧
    ∀ species' : List String, species'.Perm species →
      ((species'.filter (· ≠ "")).map (ownD m Tnorm settings st s j)).sum = ((species.filter (· ≠ "")).map (ownD m Tnorm settings st s j)).sum := by
  obtain ⟨h1, h2, -⟩ := construct_ok hc
  refine ⟨?_, fun sp' hp => ((hp.filter _).map _).sum_eq⟩
  rw [(recycling_sources hm hsol hpfr hf h).1 s j]
  congr 2
  rw [h1, List.map_map]
  refine List.map_congr_left fun n hn => ?_
  simp only [Function.comp, ownD]
  have hfl : fl = (settings n).flags := by
    cases hl : (species.filter (· ≠ "")).getLast? with
    | none => rw [hl] at h2; cases h2
    | some k =>
      rw [hl] at h2
      obtain rfl := Option.some.inj h2
      have hk := List.mem_of_getLast? hl
      rw [List.mem_filter] at hk hn
      exact hsame k hk.1 n hn.1 (by simpa using hk.2) (by simpa using hn.2)
  rw [hfl]
  rfl

/-! ## C42: the energy that comes back -/

/-- **C42**, targets.  If the ions carry energy out, the neutrals get energy, and at most the fast share of what the ions carry
plus the set energy for each particle that comes back slowly. -/
theorem target_heat_bounds {m : RMesh ι} {ch : RecycleChannel} {N V flow : Fld ι} {u : Bool} {i g : ι} (hA : 0 ≤ targetArea m i g)
    (hm : 0 ≤ ch.target_multiplier ∧ ch.target_multiplier ≤ 1) (hf : 0 ≤ ch.target_fast_recycle_fraction ∧ ch.target_fast_recycle_fraction ≤ 1)
    (hx : 0 ≤ ch.target_fast_recycle_energy_factor ∧ ch.target_fast_recycle_energy_factor ≤ 1) (he : 0 ≤ ch.target_energy)
    (hflow : 0 ≤ out u * flow (if u then g else i)) :
    0 ≤ heatFromTarget m ch N V flow u i g ∧
    heatFromTarget m ch N V flow u i g ≤ ch.target_fast_recycle_fraction * (out u * flow (if u then g else i))
      + ch.target_energy * ((1 - ch.target_fast_recycle_fraction) * fromTarget m ch N V u i g) := by
  have h0 := (target_returns_at_most (m := m) (ch := ch) (N := N) (V := V) (u := u) (i := i) (g := g) hA hm.1 hm.2).1
  unfold heatFromTarget
  obtain ⟨a, b⟩ := hm; obtain ⟨c, d⟩ := hf; obtain ⟨e, f⟩ := hx
  have h1 : 0 ≤ 1 - ch.target_fast_recycle_fraction := by linarith
  refine ⟨by positivity, ?_⟩
  have h2 : ch.target_fast_recycle_energy_factor * ch.target_multiplier ≤ 1 := mul_le_one₀ f a b
  have h3 := mul_le_mul_of_nonneg_left h2 (mul_nonneg c hflow)
  nlinarith

/-- **C42**, edges, partial: in a cell without pump (`pump_returns_heat_without_particles` shows it fails in pumped cells), and
if the ions carry energy out (`inflow_takes_heat` shows it fails otherwise). -/
theorem edge_heat_bounds_partial {m : RMesh ι} {fl : RecycleFlags} {st : Store Key (Value ι)} {ch : RecycleChannel} {i : ι}
    (hv : 0 < cellVolume m i) (hp : ¬Pumped m fl i) :
    (0 ≤ ch.sol_multiplier ∧ ch.sol_multiplier ≤ 1 → 0 ≤ ch.sol_fast_recycle_fraction ∧ ch.sol_fast_recycle_fraction ≤ 1 →
      0 ≤ ch.sol_fast_recycle_energy_factor ∧ ch.sol_fast_recycle_energy_factor ≤ 1 → 0 ≤ ch.sol_energy →
      0 ≤ fieldOf st ch.source energyFlowX (m.xp i) →
      0 ≤ solE m fl st ch i * cellVolume m i ∧ solE m fl st ch i * cellVolume m i ≤
        ch.sol_fast_recycle_fraction * fieldOf st ch.source energyFlowX (m.xp i)
          + ch.sol_energy * ((1 - ch.sol_fast_recycle_fraction) * (solD m fl st ch i * cellVolume m i))) ∧
    (0 ≤ ch.pfr_multiplier ∧ ch.pfr_multiplier ≤ 1 → 0 ≤ ch.pfr_fast_recycle_fraction ∧ ch.pfr_fast_recycle_fraction ≤ 1 →
      0 ≤ ch.pfr_fast_recycle_energy_factor ∧ ch.pfr_fast_recycle_energy_factor ≤ 1 → 0 ≤ ch.pfr_energy →
      0 ≤ -fieldOf st ch.source energyFlowX i →
      0 ≤ pfrE m fl st ch i * cellVolume m i ∧ pfrE m fl st ch i * cellVolume m i ≤
        ch.pfr_fast_recycle_fraction * -fieldOf st ch.source energyFlowX i
          + ch.pfr_energy * ((1 - ch.pfr_fast_recycle_fraction) * (pfrD m fl st ch i * cellVolume m i))) := by
  have hp' : ¬(m.is_pump i = 1 ∧ fl.neutral_pump = true) := hp
  constructor
  · rintro ⟨a, b⟩ ⟨c, d⟩ ⟨e, f⟩ g hflow
    rw [(sol_returns_fraction hv.ne' hp).1]
    unfold solE pumping solFraction
    rw [if_neg hp', if_neg hp', sub_zero, div_mul_cancel₀ _ hv.ne']
    have h0 := le_max_right (fieldOf st ch.source particleFlowX (m.xp i)) 0
    have h1 : 0 ≤ 1 - ch.sol_fast_recycle_fraction := by linarith
    refine ⟨by positivity, ?_⟩
    have h3 := mul_le_mul_of_nonneg_left (mul_le_one₀ f a b) (mul_nonneg c hflow)
    nlinarith
  · rintro ⟨a, b⟩ ⟨c, d⟩ ⟨e, f⟩ g hflow
    rw [(pfr_returns_fraction hv.ne' hp).1]
    unfold pfrE pumping pfrFraction
    rw [if_neg hp', if_neg hp', sub_zero, div_mul_cancel₀ _ hv.ne']
    have h0 := le_max_right (-fieldOf st ch.source particleFlowX i) 0
    have h1 : 0 ≤ 1 - ch.pfr_fast_recycle_fraction := by linarith
    refine ⟨by positivity, ?_⟩
    have h3 := mul_le_mul_of_nonneg_left (mul_le_one₀ f a b) (mul_nonneg c hflow)
    nlinarith

/-! ## C39: both ends alike -/

/-- The mesh with the parallel direction reversed. -/
def _root_.Hermes.RMesh.mirror (m : RMesh ι) : RMesh ι := { m with toYMesh := m.toYMesh.mirror }

/-- The flow of energy through the face between a target cell and its guard cell, counted along the field. -/
def targetFlow (st : Store Key (Value ι)) (s : String) (u : Bool) (i g : ι) : ℝ :=
  fieldOf st s .energy_flow_ylow (if u then g else i)

theorem area_mirror (m : RMesh ι) (i g : ι) : targetArea m.mirror i g = targetArea m i g := rfl

theorem gain_mirror {m : RMesh ι} (hm : MeshOk m.toYMesh) {fl : RecycleFlags} {st st2 : Store Key (Value ι)} {ch : RecycleChannel}
    (hmir : Mirrored st st2)
    (hflow : ∀ u i g inn, Target m.toYMesh true true u i g inn → targetFlow st2 ch.source (!u) i g = -targetFlow st ch.source u i g) :
    gainD m.mirror fl st2 ch = gainD m fl st ch ∧ gainE m.mirror fl st2 ch = gainE m fl st ch := by
  have f : ∀ n v, v ≠ .energy_flow_ylow → directed v = false → fieldOf st2 n v = fieldOf st n v := by
    intro n v h1 h2
    refine fieldOf_congr ?_
    have := hmir.2 n v h1
    rw [h2] at this
    exact this
  have r : ∀ n v, v ≠ .energy_flow_ylow → directed v = false → realOf st2 n v = realOf st n v := by
    intro n v h1 h2
    have := hmir.2 n v h1
    rw [h2] at this
    unfold realOf
    rw [this]
    rfl
  have fv : ∀ n j, fieldOf st2 n .velocity j = -fieldOf st n .velocity j := by
    intro n j
    have := hmir.2 n .velocity (by decide)
    unfold fieldOf
    rw [this]
    cases vals st (.sp n .velocity) with
    | none => simp [directed]
    | some x => cases x <;> simp [directed, Value.rev, asField]
  have hD : ∀ u i g, targetD m.mirror st2 ch (!u) i g = targetD m st ch u i g := by
    intro u i g
    unfold targetD fromTarget
    rw [area_mirror, f ch.source .density (by decide) rfl]
    have e : face (fieldOf st2 ch.source .velocity) i g = -face (fieldOf st ch.source .velocity) i g := by
      unfold face; rw [fv, fv]; ring
    rw [e, out_not]
    have : -out u * face (fieldOf st ch.source .density) i g * -face (fieldOf st ch.source .velocity) i g =
        out u * face (fieldOf st ch.source .density) i g * face (fieldOf st ch.source .velocity) i g := by ring
    rw [this]
    rfl
  have hE : ∀ u i g inn, Target m.toYMesh true true u i g inn → targetE m.mirror st2 ch (!u) i g = targetE m st ch u i g := by
    intro u i g inn ht
    have hd := hD u i g
    have hfl := hflow u i g inn ht
    unfold targetFlow at hfl
    unfold targetE heatFromTarget
    unfold targetD at hd
    rw [hfl, out_not, neg_mul_neg, add_div, mul_div_assoc (_ * _) (fromTarget m.mirror ch _ _ _ i g), hd, add_div, mul_div_assoc (_ * _) (fromTarget m ch _ _ _ i g)]
    rfl
  constructor <;> funext j
  · have a := hD true j (m.yp j)
    have b := hD false j (m.ym j)
    unfold gainD
    show ((if fl.target_recycle = true ∧ j ∈ m.upper then targetD m.mirror st2 ch (!true) j (m.yp j) else 0)
      + (if fl.target_recycle = true ∧ j ∈ m.lower then targetD m.mirror st2 ch (!false) j (m.ym j) else 0)
      + (if fl.sol_recycle = true ∧ j ∈ m.sol then solD m.mirror fl st2 ch j else 0)
      + (if fl.pfr_recycle = true ∧ j ∈ m.pfr then pfrD m.mirror fl st2 ch j else 0)) = _
    rw [a, b]
    unfold solD pfrD
    rw [f ch.source particleFlowX (by decide) rfl, f ch.dest .density (by decide) rfl,
      f ch.dest .temperature (by decide) rfl, r ch.dest .AA (by decide) rfl]
    rw [add_comm (if fl.target_recycle = true ∧ j ∈ m.upper then targetD m st ch true j (m.yp j) else 0)]
    rfl
  · unfold gainE
    show ((if fl.target_recycle = true ∧ j ∈ m.upper then targetE m.mirror st2 ch (!true) j (m.yp j) else 0)
      + (if fl.target_recycle = true ∧ j ∈ m.lower then targetE m.mirror st2 ch (!false) j (m.ym j) else 0)
      + (if fl.sol_recycle = true ∧ j ∈ m.sol then solE m.mirror fl st2 ch j else 0)
      + (if fl.pfr_recycle = true ∧ j ∈ m.pfr then pfrE m.mirror fl st2 ch j else 0)) = _
    have a : (if fl.target_recycle = true ∧ j ∈ m.upper then targetE m.mirror st2 ch (!true) j (m.yp j) else 0) =
        if fl.target_recycle = true ∧ j ∈ m.upper then targetE m st ch true j (m.yp j) else 0 := by
      by_cases hh : fl.target_recycle = true ∧ j ∈ m.upper
      · rw [if_pos hh, if_pos hh]; exact hE true j (m.yp j) (m.ym j) (Target.upper rfl hh.2)
      · rw [if_neg hh, if_neg hh]
    have b : (if fl.target_recycle = true ∧ j ∈ m.lower then targetE m.mirror st2 ch (!false) j (m.ym j) else 0) =
        if fl.target_recycle = true ∧ j ∈ m.lower then targetE m st ch false j (m.ym j) else 0 := by
      by_cases hh : fl.target_recycle = true ∧ j ∈ m.lower
      · rw [if_pos hh, if_pos hh]; exact hE false j (m.ym j) (m.yp j) (Target.lower rfl hh.2)
      · rw [if_neg hh, if_neg hh]
    rw [a, b]
    unfold solE pfrE
    rw [f ch.source particleFlowX (by decide) rfl, f ch.source energyFlowX (by decide) rfl, f ch.dest .density (by decide) rfl,
      f ch.dest .temperature (by decide) rfl, r ch.dest .AA (by decide) rfl]
    rw [add_comm (if fl.target_recycle = true ∧ j ∈ m.upper then targetE m st ch true j (m.yp j) else 0)]
    rfl

/-- **C39**, recycling.  Reversing the parallel direction gives the same sources. -/
theorem recycling_mirror {m : RMesh ι} (hm : MeshOk m.toYMesh) (hsol : m.sol.Nodup) (hpfr : m.pfr.Nodup) {fl : RecycleFlags}
    {chs : List RecycleChannel} {mem mem' mem2 mem2' : RecycleMem ι} {st st' st2 st2' : Store Key (Value ι)} (hmir : Mirrored st st2)
    (hflow : ∀ ch ∈ chs, ∀ u i g inn, Target m.toYMesh true true u i g inn →
      targetFlow st2 ch.source (!u) i g = -targetFlow st ch.source u i g)
    (hf : ∀ ch ∈ chs, HasFlows fl st ch) (h : recycling m fl chs mem st = (.ok mem', st'))
    (h2 : recycling m.mirror fl chs mem2 st2 = (.ok mem2', st2')) (s : String) :
    fieldOf st2' s .density_source = fieldOf st' s .density_source ∧ fieldOf st2' s .energy_source = fieldOf st' s .energy_source := by
  have hf2 : ∀ ch ∈ chs, HasFlows fl st2 ch := by
    intro ch hch hh
    have a := hmir.2 ch.source particleFlowX (by decide)
    have b := hmir.2 ch.source energyFlowX (by decide)
    rw [a, b]
    exact hf ch hch hh
  obtain ⟨a1, a2, -⟩ := recycling_sources hm hsol hpfr hf h
  obtain ⟨b1, b2, -⟩ := recycling_sources (m := m.mirror) hm.mirror hsol hpfr hf2 h2
  have e : ∀ v, v ≠ .energy_flow_ylow → directed v = false → fieldOf st2 s v = fieldOf st s v := by
    intro v h1 h2
    refine fieldOf_congr ?_
    have := hmir.2 s v h1
    rw [h2] at this
    exact this
  constructor <;> funext j
  · rw [a1, b1, e .density_source (by decide) rfl]
    congr 2
    exact List.map_congr_left fun ch hch => by rw [(gain_mirror hm hmir (hflow ch hch)).1]
  · rw [a2, b2, e .energy_source (by decide) rfl]
    congr 2
    exact List.map_congr_left fun ch hch => by rw [(gain_mirror hm hmir (hflow ch hch)).2]

end Hermes.Recycling
