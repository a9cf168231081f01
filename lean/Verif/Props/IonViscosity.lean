import Verif.Model.IonViscosity
import Verif.Lemmas.Contrib
import Verif.Props.SheathClosure
import Verif.Props.Electromagnetic
import Mathlib.Algebra.BigOperators.Fin
import Mathlib.Algebra.BigOperators.Ring.Finset

/-!
# Energy in the ion viscosity (C56)
-/

set_option linter.unusedSectionVars false
set_option linter.unusedVariables false
set_option linter.unusedSimpArgs false

namespace Hermes.IonViscosities
open Hermes.Closures Hermes.Sheath Hermes.SheathClosure
noncomputable section

variable {ι : Type} [DecidableEq ι]

/-! ## Specification -/

/-- The species has viscosity: it is a charged species, not the electrons, with a pressure and a velocity. -/
def Viscous (st : Store Key (Value ι)) (s : String) : Prop :=
  s ≠ "e" ∧ (vals st (.sp s .pressure)).isSome ∧ (vals st (.sp s .velocity)).isSome ∧ (vals st (.sp s .charge)).isSome ∧ 1e-3 ≤ |realOf st s .charge|

/-- What is added to variable `v` of species `s`. -/
def gained (st st' : Store Key (Value ι)) (s : String) (v : Var) (i : ι) : ℝ := fieldOf st' s v i - fieldOf st s v i

/-- Rate at which the sum of kinetic energy of parallel flow and internal energy of species `s` changes. -/
def energyRate (st st' : Store Key (Value ι)) (s : String) (i : ι) : ℝ :=
  fieldOf st s .velocity i * gained st st' s .momentum_source i + gained st st' s .energy_source i

/-- The parallel viscous force on species `s`. -/
def parForce (o : IVOpts ι) (st : Store Key (Value ι)) (s : String) : Fld ι :=
  ivForcePar o (fieldOf st s .collision_frequency) (fieldOf st s .pressure) (fieldOf st s .velocity)

/-- The force by the stress of perpendicular flows. -/
def perpForce (o : IVOpts ι) (st : Store Key (Value ι)) (s : String) : Fld ι :=
  ivForcePerp o (fieldOf st s .collision_frequency) (fieldOf st s .pressure) (fieldOf st s .density) (fieldOf st s .temperature) (topField st "fields:phi")

/-- The viscous stress. -/
def stress (o : IVOpts ι) (st : Store Key (Value ι)) (s : String) : Fld ι :=
  ivPi o (fieldOf st s .collision_frequency) (fieldOf st s .pressure) (fieldOf st s .velocity) (fieldOf st s .density) (fieldOf st s .temperature)
    (topField st "fields:phi")

/-- Divergence of the viscous current of species `s`. -/
def current (o : IVOpts ι) (st : Store Key (Value ι)) (s : String) : Fld ι := fun i =>
  o.divCurv (fun i => 0.5 * stress o st s i) i - o.divBxGrad (1 / 3) (stress o st s) i

/-- The potential of the perpendicular ion flow, ExB and diamagnetic. -/
def flowPotential (o : IVOpts ι) (st : Store Key (Value ι)) (s : String) : Fld ι := fun i =>
  o.dc (topField st "fields:phi") i + o.dc (fieldOf st s .pressure) i

/-! ## What the component does -/

theorem perp_ok {o : IVOpts ι} {n : String} {nu P V : Fld ι} {st st' : Store Key (Value ι)} {u : Unit} (h : ivPerpendicular o n nu P V st = (.ok u, st')) :
    (∀ i, fieldOf st' n .momentum_source i = fieldOf st n .momentum_source i +
      ivForcePerp o nu P (fieldOf st n .density) (fieldOf st n .temperature) (topField st "fields:phi") i) ∧
    (∀ i, fieldOf st' n .energy_source i = fieldOf st n .energy_source i -
      o.dc V i * ivForcePerp o nu P (fieldOf st n .density) (fieldOf st n .temperature) (topField st "fields:phi") i -
      ivTransfer o nu P V (fieldOf st n .density) (fieldOf st n .temperature) (topField st "fields:phi") i) ∧
    (∀ i, fieldAt st' (.top "fields:DivJextra") i = fieldAt st (.top "fields:DivJextra") i +
      ivDivJ o nu P V (fieldOf st n .density) (fieldOf st n .temperature) (topField st "fields:phi") i) ∧
    ∀ k, k ≠ .sp n .momentum_source → k ≠ .sp n .energy_source → k ≠ .top "fields:DivJextra" → vals st' k = vals st k := by
  unfold ivPerpendicular at h
  obtain ⟨s1, e1, h⟩ := getTop_bind h
  obtain ⟨s2, e2, h⟩ := getF_bind h
  obtain ⟨s3, e3, h⟩ := getF_bind h
  rw [vals_fieldOf (by rw [e2, e1] : vals s2 = vals st), vals_fieldOf e1] at h
  have e3 : vals s3 = vals st := by rw [e3, e2, e1]
  obtain ⟨_, s4, h4, h⟩ := M_bind_ok h
  obtain ⟨a4, b4⟩ := add_at_ok h4
  obtain ⟨_, s5, h5, h⟩ := M_bind_ok h
  obtain ⟨a5, b5⟩ := sub_at_ok h5
  obtain ⟨_, s6, h6, h⟩ := M_bind_ok h
  obtain ⟨a6, b6⟩ := add_at_ok h6
  obtain ⟨a7, b7⟩ := sub_at_ok h
  simp only [← fieldAt_sp]
  have c3 : ∀ k, fieldAt s3 k = fieldAt st k := fun k => fieldAt_congr (by rw [e3])
  refine ⟨fun i => ?_, fun i => ?_, fun i => ?_, fun k k1 k2 k3 => ?_⟩
  · rw [fieldAt_congr (b7 (.sp n .momentum_source) (by simp)), fieldAt_congr (b6 (.sp n .momentum_source) (by simp)),
      fieldAt_congr (b5 (.sp n .momentum_source) (by simp)), a4, c3]
    simp only [fieldAt_sp]
  · rw [a7, fieldAt_congr (b6 (.sp n .energy_source) (by simp)), a5, fieldAt_congr (b4 (.sp n .energy_source) (by simp)), c3]
    simp only [fieldAt_sp]
  · rw [fieldAt_congr (b7 (.top "fields:DivJextra") (by simp)), a6, fieldAt_congr (b5 (.top "fields:DivJextra") (by simp)),
      fieldAt_congr (b4 (.top "fields:DivJextra") (by simp)), c3]
    simp only [fieldAt_sp]
  · rw [b7 k k2, b6 k k3, b5 k k2, b4 k k1, e3]

open Classical in
/-- One species: the force, the heat and the current added. -/
theorem species_ok {o : IVOpts ι} {n : String} {st st' : Store Key (Value ι)} {u : Unit} (h : ivSpecies o n st = (.ok u, st')) :
    (∀ i, fieldOf st' n .momentum_source i = fieldOf st n .momentum_source i +
      if Viscous st n then parForce o st n i + (if o.perpendicular then perpForce o st n i else 0) else 0) ∧
    (∀ i, fieldOf st' n .energy_source i = fieldOf st n .energy_source i -
      if Viscous st n then fieldOf st n .velocity i * parForce o st n i + (if o.perpendicular then o.dc (fieldOf st n .velocity) i * perpForce o st n i +
        0.5 * stress o st n i * o.curv (flowPotential o st n) i else 0) else 0) ∧
    (∀ i, fieldAt st' (.top "fields:DivJextra") i = fieldAt st (.top "fields:DivJextra") i +
      if Viscous st n ∧ o.perpendicular then current o st n i else 0) ∧
    ∀ k, k ≠ .sp n .momentum_source → k ≠ .sp n .energy_source → k ≠ .top "fields:DivJextra" → vals st' k = vals st k := by
  unfold ivSpecies at h
  have none' : ∀ {s : Store Key (Value ι)}, vals s = vals st → ¬ Viscous st n →
      (∀ i, fieldOf s n .momentum_source i = fieldOf st n .momentum_source i +
      if Viscous st n then parForce o st n i + (if o.perpendicular then perpForce o st n i else 0) else 0) ∧
    (∀ i, fieldOf s n .energy_source i = fieldOf st n .energy_source i -
      if Viscous st n then fieldOf st n .velocity i * parForce o st n i + (if o.perpendicular then o.dc (fieldOf st n .velocity) i * perpForce o st n i +
        0.5 * stress o st n i * o.curv (flowPotential o st n) i else 0) else 0) ∧
    (∀ i, fieldAt s (.top "fields:DivJextra") i = fieldAt st (.top "fields:DivJextra") i +
      if Viscous st n ∧ o.perpendicular then current o st n i else 0) ∧
    ∀ k, k ≠ .sp n .momentum_source → k ≠ .sp n .energy_source → k ≠ .top "fields:DivJextra" → vals s k = vals st k := by
    intro s e hv
    refine ⟨fun i => ?_, fun i => ?_, fun i => ?_, fun k _ _ _ => by rw [e]⟩
    · rw [if_neg hv, vals_fieldOf e, add_zero]
    · rw [if_neg hv, vals_fieldOf e, sub_zero]
    · rw [if_neg fun hh => hv hh.1, fieldAt_congr (by rw [e] : vals s _ = vals st _), add_zero]
  split at h
  · rename_i hn
    obtain ⟨-, rfl⟩ := pure_ok h
    exact none' rfl fun hh => hh.1 hn
  rename_i hn
  obtain ⟨s1, e1, h⟩ := isSetFinal_bind h
  split at h <;> rename_i hp
  swap
  · obtain ⟨-, rfl⟩ := pure_ok h
    exact none' e1 fun hh => hp hh.2.1
  obtain ⟨s2, e2, h⟩ := isSetFinal_bind h
  rw [e1] at e2 h
  split at h <;> rename_i hv
  swap
  · obtain ⟨-, rfl⟩ := pure_ok h
    exact none' e2 fun hh => hv hh.2.2.1
  obtain ⟨s3, e3, h⟩ := isSetFinal_bind h
  rw [e2] at e3 h
  split at h <;> rename_i hc
  swap
  · obtain ⟨-, rfl⟩ := pure_ok h
    exact none' e3 fun hh => hc hh.2.2.2.1
  obtain ⟨s4, e4, h⟩ := getR_bind h
  rw [e3] at e4
  rw [vals_realOf e3] at h
  split at h <;> rename_i hz
  · obtain ⟨-, rfl⟩ := pure_ok h
    exact none' e4 fun hh => absurd hh.2.2.2.2 (not_le.2 hz)
  have hvis : Viscous st n := ⟨hn, hp, hv, hc, not_lt.1 hz⟩
  simp only [if_pos hvis]
  unfold ivForces at h
  obtain ⟨s5, e5, h⟩ := getF_bind h
  obtain ⟨s6, e6, h⟩ := getF_bind h
  obtain ⟨s7, e7, h⟩ := getF_bind h
  rw [e4] at e5
  rw [e5] at e6
  rw [e6] at e7
  rw [vals_fieldOf e4, vals_fieldOf e5, vals_fieldOf e6] at h
  obtain ⟨_, s8, h8, h⟩ := M_bind_ok h
  obtain ⟨a8, b8⟩ := add_at_ok h8
  obtain ⟨_, s9, h9, h⟩ := M_bind_ok h
  obtain ⟨a9, b9⟩ := sub_at_ok h9
  simp only [← fieldAt_sp] at *
  have c7 : ∀ k, fieldAt s7 k = fieldAt st k := fun k => fieldAt_congr (by rw [e7])
  have k9 : ∀ k, k ≠ .sp n .momentum_source → k ≠ .sp n .energy_source → vals s9 k = vals st k := by
    intro k k1 k2
    rw [b9 k k2, b8 k k1, e7]
  have hm9 : ∀ i, fieldAt s9 (.sp n .momentum_source) i = fieldAt st (.sp n .momentum_source) i + parForce o st n i := by
    intro i
    rw [fieldAt_congr (b9 (.sp n .momentum_source) (by simp)), a8, c7]
    unfold parForce
    simp only [← fieldAt_sp]
  have he9 : ∀ i, fieldAt s9 (.sp n .energy_source) i = fieldAt st (.sp n .energy_source) i - fieldAt st (.sp n .velocity) i * parForce o st n i := by
    intro i
    rw [a9, fieldAt_congr (b8 (.sp n .energy_source) (by simp)), c7]
    unfold parForce
    simp only [← fieldAt_sp]
  split at h <;> rename_i hperp
  · obtain ⟨p1, p2, p3, p4⟩ := perp_ok h
    have eN : fieldOf s9 n .density = fieldOf st n .density := by
      rw [← fieldAt_sp, ← fieldAt_sp]; exact fieldAt_congr (k9 _ (by simp) (by simp))
    have eT : fieldOf s9 n .temperature = fieldOf st n .temperature := by
      rw [← fieldAt_sp, ← fieldAt_sp]; exact fieldAt_congr (k9 _ (by simp) (by simp))
    have eP : topField s9 "fields:phi" = topField st "fields:phi" := by
      unfold topField; rw [k9 _ (by simp) (by simp)]
    rw [eN, eT, eP] at p1 p2 p3
    simp only [← fieldAt_sp] at p1 p2 p3
    simp only [if_pos hperp]
    refine ⟨fun i => ?_, fun i => ?_, fun i => ?_, fun k k1 k2 k3 => by rw [p4 k k1 k2 k3, k9 k k1 k2]⟩
    · rw [p1, hm9]
      unfold perpForce
      simp only [← fieldAt_sp]
      ring
    · rw [p2, he9]
      unfold perpForce stress flowPotential ivTransfer
      simp only [← fieldAt_sp]
      norm_num
      ring
    · rw [p3, if_pos ⟨hvis, hperp⟩]
      rw [fieldAt_congr (k9 (.top "fields:DivJextra") (by simp) (by simp))]
      unfold ivDivJ current stress
      simp only [← fieldAt_sp]
  · obtain ⟨-, rfl⟩ := pure_ok h
    simp only [if_neg hperp]
    refine ⟨fun i => ?_, fun i => ?_, fun i => ?_, fun k k1 k2 k3 => k9 k k1 k2⟩
    · rw [hm9, add_zero]
    · rw [he9, add_zero]
    · rw [if_neg fun hh => hperp hh.2, add_zero]
      exact congrFun (fieldAt_congr (k9 _ (by simp) (by simp))) i

/-- The inputs of the calculation for species `s`. -/
def SameInputs (a b : Store Key (Value ι)) (s : String) : Prop :=
  (∀ v, v ≠ .momentum_source → v ≠ .energy_source → vals b (.sp s v) = vals a (.sp s v)) ∧ vals b (.top "fields:phi") = vals a (.top "fields:phi")

theorem SameInputs.all {a b : Store Key (Value ι)} {s : String} (h : SameInputs a b s) (o : IVOpts ι) :
    (Viscous b s = Viscous a s) ∧ parForce o b s = parForce o a s ∧ perpForce o b s = perpForce o a s ∧ stress o b s = stress o a s ∧
    current o b s = current o a s ∧ flowPotential o b s = flowPotential o a s ∧ fieldOf b s .velocity = fieldOf a s .velocity := by
  have f : ∀ v, v ≠ .momentum_source → v ≠ .energy_source → fieldOf b s v = fieldOf a s v := fun v h1 h2 => by
    unfold fieldOf; rw [h.1 v h1 h2]
  have p : topField b "fields:phi" = topField a "fields:phi" := by unfold topField; rw [h.2]
  have z : realOf b s .charge = realOf a s .charge := by unfold realOf; rw [h.1 _ (by simp) (by simp)]
  have hs : stress o b s = stress o a s := by
    unfold stress
    rw [p, f .collision_frequency (by simp) (by simp), f .pressure (by simp) (by simp), f .velocity (by simp) (by simp),
      f .density (by simp) (by simp), f .temperature (by simp) (by simp)]
  refine ⟨?_, ?_, ?_, hs, ?_, ?_, f .velocity (by simp) (by simp)⟩
  · unfold Viscous
    rw [z, h.1 .pressure (by simp) (by simp), h.1 .velocity (by simp) (by simp), h.1 .charge (by simp) (by simp)]
  · unfold parForce
    rw [f .collision_frequency (by simp) (by simp), f .pressure (by simp) (by simp), f .velocity (by simp) (by simp)]
  · unfold perpForce
    rw [p, f .collision_frequency (by simp) (by simp), f .pressure (by simp) (by simp), f .density (by simp) (by simp), f .temperature (by simp) (by simp)]
  · unfold current; rw [hs]
  · unfold flowPotential; rw [p, f .pressure (by simp) (by simp)]

open Classical in
/-- The whole component. -/
theorem iv_ok {o : IVOpts ι} {names : List String} {st st' : Store Key (Value ι)} {u : Unit} (hn : names.Nodup)
    (h : ionViscosity o names st = (.ok u, st')) :
    (∀ n ∈ names, (∀ i, gained st st' n .momentum_source i =
        if Viscous st n then parForce o st n i + (if o.perpendicular then perpForce o st n i else 0) else 0) ∧
      (∀ i, gained st st' n .energy_source i = -
        if Viscous st n then fieldOf st n .velocity i * parForce o st n i + (if o.perpendicular then o.dc (fieldOf st n .velocity) i * perpForce o st n i +
          0.5 * stress o st n i * o.curv (flowPotential o st n) i else 0) else 0)) ∧
    (∀ i, fieldAt st' (.top "fields:DivJextra") i = fieldAt st (.top "fields:DivJextra") i +
      (names.map fun n => if Viscous st n ∧ o.perpendicular then current o st n i else 0).sum) ∧
    ∀ k, (∀ n ∈ names, k ≠ .sp n .momentum_source ∧ k ≠ .sp n .energy_source) → k ≠ .top "fields:DivJextra" → vals st' k = vals st k := by
  unfold ionViscosity at h
  induction names generalizing st with
  | nil =>
    cases h
    exact ⟨(by intro n hm; cases hm), (by intro i; simp), fun k _ _ => rfl⟩
  | cons n l ih =>
    have h' : (ivSpecies o n >>= fun _ => l.forM (ivSpecies o)) st = (.ok u, st') := h
    obtain ⟨_, s1, h1, h2⟩ := M_bind_ok h'
    obtain ⟨m1, p1, c1, k1⟩ := species_ok h1
    rw [List.nodup_cons] at hn
    obtain ⟨hl, c2, k2⟩ := ih hn.2 h2
    have same : ∀ m, m ≠ n → SameInputs st s1 m := fun m hm =>
      ⟨fun v _ _ => k1 _ (by simp [hm]) (by simp [hm]) (by simp), k1 _ (by simp) (by simp) (by simp)⟩
    have hne : ∀ m ∈ l, m ≠ n := fun m hm e => hn.1 (e ▸ hm)
    have after : ∀ v, vals st' (.sp n v) = vals s1 (.sp n v) := fun v =>
      k2 _ (fun m hm => ⟨by simp [(hne m hm).symm], by simp [(hne m hm).symm]⟩) (by simp)
    refine ⟨?_, ?_, ?_⟩
    · intro m hm
      rcases List.mem_cons.1 hm with rfl | hm
      · refine ⟨fun i => ?_, fun i => ?_⟩ <;> unfold gained
        · rw [show fieldOf st' m .momentum_source = fieldOf s1 m .momentum_source by unfold fieldOf; rw [after], m1]; ring
        · rw [show fieldOf st' m .energy_source = fieldOf s1 m .energy_source by unfold fieldOf; rw [after], p1]; ring
      · obtain ⟨v1, v2, v3, v4, v5, v6, v7⟩ := (same m (hne m hm)).all o
        obtain ⟨q1, q2⟩ := hl m hm
        simp only [v1, v2, v3, v4, v6, v7] at q1 q2
        have pre : ∀ v, vals s1 (.sp m v) = vals st (.sp m v) := fun v => k1 _ (by simp [hne m hm]) (by simp [hne m hm]) (by simp)
        refine ⟨fun i => ?_, fun i => ?_⟩ <;> unfold gained at *
        · rw [← q1, show fieldOf s1 m .momentum_source = fieldOf st m .momentum_source by unfold fieldOf; rw [pre]]
        · rw [← q2, show fieldOf s1 m .energy_source = fieldOf st m .energy_source by unfold fieldOf; rw [pre]]
    · intro i
      rw [c2, c1, List.map_cons, List.sum_cons, add_assoc]
      congr 2
      apply congrArg
      apply List.map_congr_left
      intro m hm
      obtain ⟨v1, v2, v3, v4, v5, v6, v7⟩ := (same m (hne m hm)).all o
      rw [v1, v5]
    · intro k hk hD
      rw [k2 k (fun m hm => hk m (List.mem_cons_of_mem _ hm)) hD,
        k1 k (hk n List.mem_cons_self).1 (hk n List.mem_cons_self).2 hD]

/-! ## Theorems -/

/-- Parallel viscosity: what the force takes from the kinetic energy of a species is given to its internal energy, in each cell. -/
theorem parallel_conserves {o : IVOpts ι} {names : List String} {st st' : Store Key (Value ι)} {u : Unit} (hn : names.Nodup)
    (hpar : o.perpendicular = false) (h : ionViscosity o names st = (.ok u, st')) :
    (∀ n ∈ names, ∀ i, energyRate st st' n i = 0) ∧ fieldAt st' (.top "fields:DivJextra") = fieldAt st (.top "fields:DivJextra") := by
  classical
  obtain ⟨h1, h2, -⟩ := iv_ok hn h
  refine ⟨fun n hm i => ?_, ?_⟩
  · obtain ⟨a, b⟩ := h1 n hm
    unfold energyRate
    rw [a, b]
    by_cases hv : Viscous st n <;> simp [hv, hpar]
  · funext i
    rw [h2, hpar]
    simp

/-- Species without viscosity, among them electrons and neutrals, are left alone. -/
theorem others_untouched {o : IVOpts ι} {names : List String} {st st' : Store Key (Value ι)} {u : Unit} (hn : names.Nodup)
    (h : ionViscosity o names st = (.ok u, st')) {n : String} (hv : ¬ Viscous st n) :
    ∀ i, gained st st' n .momentum_source i = 0 ∧ gained st st' n .energy_source i = 0 := by
  classical
  obtain ⟨h1, h2, h3⟩ := iv_ok hn h
  intro i
  by_cases hm : n ∈ names
  · obtain ⟨a, b⟩ := h1 n hm
    rw [a, b, if_neg hv, if_neg hv, neg_zero]
    exact ⟨rfl, rfl⟩
  · have : ∀ v, vals st' (.sp n v) = vals st (.sp n v) := fun v =>
      h3 _ (fun m hm' => ⟨by rintro ⟨⟩; exact hm hm', by rintro ⟨⟩; exact hm hm'⟩) (by simp)
    unfold gained fieldOf
    rw [this, this, sub_self, sub_self]
    exact ⟨rfl, rfl⟩

/-- The stress is at most the averaged pressure in every cell of the domain. -/
theorem stress_limited (o : IVOpts ι) (Pav pi : Fld ι) (hP : ∀ i, 0 ≤ Pav i) (hb : ∀ f i, o.dom i → o.bndryPi f i = f i) (i : ι) (hi : o.dom i) :
    |ivLimit o Pav pi i| ≤ Pav i := by
  unfold ivLimit
  rw [hb _ _ hi]
  split_ifs with hc
  · unfold signOf
    split_ifs
    · rw [one_mul, abs_of_nonneg (hP i)]
    · rw [neg_one_mul, abs_neg, abs_of_nonneg (hP i)]
  · rw [not_and, not_lt] at hc
    exact hc hi

/-- **C56.**  The viscosity of the parallel flow.  Without the limiter it is `1.28` × pressure ⁄ collision frequency.  The limiter (a positive
`eta_limit_alpha`) never raises it, keeps it positive whatever the flow, and keeps the viscous flux of momentum below `eta_limit_alpha` × pressure. -/
theorem viscosity_limited (o : IVOpts ι) (nu P V : Fld ι) (i : ι) (hnu : 0 < nu i) (hP : 0 < P i) (hb : ∀ f, o.bndryEta f i = f i) :
    0 < ivEta o nu P V i ∧ ivEta o nu P V i ≤ 1.28 * P i / nu i ∧
    (o.eta_limit_alpha ≤ 0 ∨ o.gradPar V i = 0 → ivEta o nu P V i = 1.28 * P i / nu i) ∧
    (0 < o.eta_limit_alpha → |ivEta o nu P V i * o.gradPar V i| < o.eta_limit_alpha * P i) := by
  have hq : (1.28 * P i * (1 / nu i) : ℝ) = 1.28 * P i / nu i := by ring
  have he : (0:ℝ) < 1.28 * P i / nu i := by positivity
  simp only [ivEta]
  by_cases ha : o.eta_limit_alpha > 0
  · simp only [if_pos ha, hb, hq]
    generalize 1.28 * P i / nu i = e at he
    have hl : 0 < o.eta_limit_alpha * P i := mul_pos ha hP
    generalize o.gradPar V i = g
    have hd : 0 < 1 + |e * g / (o.eta_limit_alpha * P i)| := by positivity
    refine ⟨by positivity, ?_, ?_, fun _ => ?_⟩
    · rw [div_le_iff₀ hd]
      nlinarith [abs_nonneg (e * g / (o.eta_limit_alpha * P i))]
    · rintro (h | h)
      · exact absurd ha (not_lt.2 h)
      · rw [h]; simp
    · rw [div_mul_eq_mul_div, abs_div, abs_of_pos hd, div_lt_iff₀ hd, abs_div, abs_of_pos hl, mul_add, mul_div_cancel₀ _ hl.ne']
      linarith
  · simp only [if_neg ha, hq]
    exact ⟨he, le_rfl, fun _ => trivial, fun h => absurd h ha⟩

/-- The hypotheses can be met, with a limiter that acts. -/
example : ∃ o : IVOpts Bool, 0 < o.eta_limit_alpha ∧ o.gradPar (fun _ => 1) true ≠ 0 ∧ ∀ f, o.bndryEta f true = f true :=
  ⟨⟨0.5, false, fun _ => true, fun _ => 1, fun _ => 1, fun _ => 0, fun _ _ _ => 0, fun f => f, fun f => f, fun f => f, fun f => f, fun f => f,
    fun _ => 0, fun _ => 0, fun _ _ => 0, fun _ _ => 0⟩, by norm_num, by norm_num, fun _ => rfl⟩

/-! ## Which forces and stresses these are

The derivative along the field is taken to obey the rules of calculus, as it does in the limit of a fine grid. -/

/-- Rules of calculus for the derivative along the field, `sqrtB` being the root of the field strength. -/
structure Calculus (o : IVOpts ι) : Prop where
  product : ∀ (f g : Fld ι) i, o.gradPar (fun i => f i * g i) i = f i * o.gradPar g i + g i * o.gradPar f i
  scale : ∀ (c : ℝ) (f : Fld ι) i, o.gradPar (fun i => c * f i) i = c * o.gradPar f i
  pos : ∀ i, 0 < o.sqrtB i
  root : ∀ i, o.Bxy i = o.sqrtB i ^ 2
  rootGrad : ∀ i, o.gradPar o.sqrtB i = o.sqrtB i * o.gradLogB i / 2

/-- The force along the field of a stress `p (b b - I / 3)`: `-(2/3) B^(3/2) Grad_par (p / B^(3/2))`. -/
def stressForce (o : IVOpts ι) (p : Fld ι) : Fld ι := fun i => -(2 / 3) * o.sqrtB i ^ 3 * o.gradPar (fun i => p i / o.sqrtB i ^ 3) i

theorem Calculus.gradCube {o : IVOpts ι} (c : Calculus o) (i : ι) : o.gradPar (fun i => o.sqrtB i ^ 3) i = 3 / 2 * o.sqrtB i ^ 3 * o.gradLogB i := by
  have e : (fun i => o.sqrtB i ^ 3) = fun i => o.sqrtB i * (o.sqrtB i * o.sqrtB i) := by funext i; ring
  rw [e, c.product o.sqrtB (fun i => o.sqrtB i * o.sqrtB i), c.product o.sqrtB o.sqrtB, c.rootGrad]
  ring

theorem stressForce_eq {o : IVOpts ι} (c : Calculus o) (p : Fld ι) (i : ι) : stressForce o p i = -(2 / 3) * o.gradPar p i + p i * o.gradLogB i := by
  have e : p = fun i => o.sqrtB i ^ 3 * (p i / o.sqrtB i ^ 3) := by
    funext i
    have := (c.pos i).ne'
    field_simp
  have h := congrFun (congrArg o.gradPar e) i
  rw [c.product (fun i => o.sqrtB i ^ 3) (fun i => p i / o.sqrtB i ^ 3), c.gradCube] at h
  unfold stressForce
  rw [h]
  generalize o.gradPar (fun i => p i / o.sqrtB i ^ 3) i = x
  have := (c.pos i).ne'
  field_simp
  ring

/-- The perpendicular part of the force is the force of the perpendicular stress. -/
theorem perp_force_form {o : IVOpts ι} (c : Calculus o) (nu P N T phi : Fld ι) (i : ι) :
    ivForcePerp o nu P N T phi i = stressForce o (ivPiPerp o nu P N T phi) i := by
  rw [stressForce_eq c]
  rfl

/-- The stress is not limited anywhere and boundary conditions do not change it. -/
def NotLimited (o : IVOpts ι) (Pav pi : Fld ι) : Prop := o.bndryPi = id ∧ ∀ i, |pi i| ≤ Pav i

theorem ivLimit_of {o : IVOpts ι} {Pav pi : Fld ι} (h : NotLimited o Pav pi) : ivLimit o Pav pi = pi := by
  unfold ivLimit
  rw [h.1]
  funext i
  exact if_neg fun hc => absurd hc.2 (not_lt.2 (h.2 i))

/-- The parallel part of the force, without flux limit, is the force of the parallel stress that is used for the current: for axisymmetric
fields, with a divergence of the conductive form `B Grad_par (K / B Grad_par f)`, the viscous force is `-(2/3) B^(3/2) Grad_par (Pi / B^(3/2))`. -/
theorem parallel_force_form {o : IVOpts ι} (c : Calculus o) (lim : o.eta_limit_alpha ≤ 0)
    (conductive : ∀ K f i, o.divParK K f i = o.Bxy i * o.gradPar (fun i => K i / o.Bxy i * o.gradPar f i) i) {nu P V : Fld ι}
    (hP : o.dc P = P) (hV : o.dc V = V) (hnu : o.dc (fun i => 1 / nu i) = fun i => 1 / nu i)
    (small : NotLimited o P fun i => -0.96 * P i * (1 / nu i) * (2 * o.gradPar V i + V i * o.gradLogB i)) (i : ι) :
    ivForcePar o nu P V i = stressForce o (ivPiPar o nu P V) i := by
  unfold ivForcePar ivPiPar ivEta stressForce
  rw [hP, hV, hnu, ivLimit_of small, if_neg (not_lt.2 lim), conductive, c.root]
  have g : ∀ i, o.gradPar (fun i => o.sqrtB i * V i) i = o.sqrtB i * o.gradPar V i + V i * (o.sqrtB i * o.gradLogB i / 2) := fun i => by
    rw [c.product, c.rootGrad]
  have e1 : (fun i => 1.28 * P i * (1 / nu i) / o.Bxy i / o.Bxy i * o.gradPar (fun i => o.sqrtB i * V i) i) =
      fun i => 0.64 * (P i * (1 / nu i) * (2 * o.gradPar V i + V i * o.gradLogB i) / o.sqrtB i ^ 3) := by
    funext i
    rw [g, c.root]
    have := (c.pos i).ne'
    field_simp
    ring
  have e2 : (fun i => -0.96 * P i * (1 / nu i) * (2 * o.gradPar V i + V i * o.gradLogB i) / o.sqrtB i ^ 3) =
      fun i => -0.96 * (P i * (1 / nu i) * (2 * o.gradPar V i + V i * o.gradLogB i) / o.sqrtB i ^ 3) := by
    funext i
    ring
  rw [e1, e2, c.scale, c.scale]
  ring

/-- With no parallel flow the stress that drives current is the perpendicular one; with no perpendicular stress it is the parallel one. -/
theorem stress_parts {o : IVOpts ι} {nu P V N T phi : Fld ι} (hs : o.bndrySum = id) (i : ι) :
    ((∀ i, ivPiPar o nu P V i = 0) → ivPi o nu P V N T phi i = ivPiPerp o nu P N T phi i) ∧
    ((∀ i, ivPiPerp o nu P N T phi i = 0) → ivPi o nu P V N T phi i = ivPiPar o nu P V i) := by
  unfold ivPi
  rw [hs]
  exact ⟨fun h => by simp [h], fun h => by simp [h]⟩

/-- When the perpendicular stress is nothing: the drift by the potential, plus the heat flux term, is *equal* to the diamagnetic one
`Curlb_B · Grad P / N`, not opposite to it. -/
theorem perp_stress_zero_iff {o : IVOpts ι} {nu P N T phi : Fld ι}
    (small : NotLimited o (o.dc P) fun i => -0.5 * 0.96 * o.dc P i * o.dc (fun i => 1 / nu i) i *
      (o.curv (fun i => o.dc phi i + 1.61 * o.dc T i) i - o.curv (o.dc P) i / o.dc N i)) (i : ι) (hP : 0 < o.dc P i)
    (ht : 0 < o.dc (fun i => 1 / nu i) i) :
    ivPiPerp o nu P N T phi i = 0 ↔ o.curv (fun i => o.dc phi i + 1.61 * o.dc T i) i = o.curv (o.dc P) i / o.dc N i := by
  unfold ivPiPerp
  rw [ivLimit_of small]
  have k : -0.5 * 0.96 * o.dc P i * o.dc (fun i => 1 / nu i) i ≠ 0 := by
    have := mul_pos hP ht
    rw [mul_assoc]
    exact mul_ne_zero (by norm_num) this.ne'
  rw [mul_eq_zero, or_iff_right k, sub_eq_zero]

/-- Ions of uniform temperature at rest: the ExB drift and the diamagnetic drift cancel, `Grad phi + Grad P / N = 0` along the curvature.
The stress is then not zero, although the comment in the code says that it is that of the sum of the two drifts. -/
theorem rest_is_stressed {o : IVOpts ι} {nu P N T phi : Fld ι}
    (small : NotLimited o (o.dc P) fun i => -0.5 * 0.96 * o.dc P i * o.dc (fun i => 1 / nu i) i *
      (o.curv (fun i => o.dc phi i + 1.61 * o.dc T i) i - o.curv (o.dc P) i / o.dc N i)) (i : ι)
    (uniform : o.curv (fun i => o.dc phi i + 1.61 * o.dc T i) i = o.curv (o.dc phi) i)
    (rest : o.curv (o.dc phi) i + o.curv (o.dc P) i / o.dc N i = 0) :
    ivPiPerp o nu P N T phi i = 0.96 * o.dc P i * o.dc (fun i => 1 / nu i) i * (o.curv (o.dc P) i / o.dc N i) := by
  unfold ivPiPerp
  rw [ivLimit_of small]
  dsimp only
  rw [uniform]
  have : o.curv (o.dc phi) i = -(o.curv (o.dc P) i / o.dc N i) := by linarith
  rw [this]
  ring

/-- One cell whose curvature operator gives the value itself: pressure 1, density 1, potential −1, temperature 0. -/
example : ∃ (o : IVOpts Unit) (P N T phi : Fld Unit), o.curv (o.dc phi) () + o.curv (o.dc P) () / o.dc N () = 0 ∧
    o.curv (fun i => o.dc phi i + 1.61 * o.dc T i) () = o.curv (o.dc phi) () ∧
    (NotLimited o (o.dc P) fun i => -0.5 * 0.96 * o.dc P i * o.dc (fun i => 1 / (fun _ => (1 : ℝ)) i) i *
      (o.curv (fun i => o.dc phi i + 1.61 * o.dc T i) i - o.curv (o.dc P) i / o.dc N i)) ∧ ivPiPerp o (fun _ => 1) P N T phi () = 0.96 := by
  let o : IVOpts Unit := ⟨0, true, fun _ => true, fun _ => 1, fun _ => 1, fun _ => 0, fun _ _ _ => 0, fun f => f, fun f => f, id, fun f => f, fun f => f,
    fun f => f, fun _ => 0, fun _ _ => 0, fun _ _ => 0⟩
  have nl : NotLimited o (o.dc fun _ => 1) fun i => -0.5 * 0.96 * o.dc (fun _ => 1) i * o.dc (fun i => 1 / (fun _ => (1 : ℝ)) i) i *
      (o.curv (fun i => o.dc (fun _ => -1) i + 1.61 * o.dc (fun _ => 0) i) i - o.curv (o.dc fun _ => 1) i / o.dc (fun _ => 1) i) := by
    refine ⟨rfl, fun i => ?_⟩
    show |(-0.5 * 0.96 * 1 * (1 / 1) * ((-1 + 1.61 * 0) - 1 / 1) : ℝ)| ≤ 1
    rw [abs_le]
    constructor <;> norm_num
  refine ⟨o, fun _ => 1, fun _ => 1, fun _ => 0, fun _ => -1, ?_, ?_, nl, ?_⟩
  · show (-1 + 1 / 1 : ℝ) = 0
    norm_num
  · show (-1 + 1.61 * 0 : ℝ) = -1
    norm_num
  · unfold ivPiPerp
    rw [ivLimit_of nl]
    show (-0.5 * 0.96 * 1 * (1 / 1) * ((-1 + 1.61 * 0) - 1 / 1) : ℝ) = 0.96
    norm_num

/-- What is needed of integrals over the domain: linear, the average has the same integral against axisymmetric fields, and the operators are
integrated by parts without boundary terms. -/
structure ClosedDomain (o : IVOpts ι) (I : Fld ι → ℝ) : Prop where
  add : ∀ f g : Fld ι, I (fun i => f i + g i) = I f + I g
  smul : ∀ (c : ℝ) (f : Fld ι), I (fun i => c * f i) = c * I f
  average : ∀ f g : Fld ι, o.dc g = g → I (fun i => o.dc f i * g i) = I fun i => f i * g i
  curvature : ∀ f g : Fld ι, I (fun i => g i * o.divCurv f i) = -I fun i => f i * o.curv g i
  drift : ∀ (c : ℝ) (f g : Fld ι), I (fun i => g i * o.divBxGrad c f i) = -(c * I (o.bracket f g))

/-- Rate of change of energy by the viscosity of species `s` in the whole domain: parallel flow, internal energy, and the perpendicular flow that is
driven by the viscous current. -/
def totalRate (o : IVOpts ι) (I : Fld ι → ℝ) (st st' : Store Key (Value ι)) (s : String) : ℝ :=
  I (energyRate st st' s) - I fun i => flowPotential o st s i * current o st s i

/-- Energy with perpendicular viscosity.  The only imbalance is the bracket term, which has been lost because its factor `1 / 3` is zero. -/
theorem perpendicular_balance_partial {o : IVOpts ι} {I : Fld ι → ℝ} (hI : ClosedDomain o I) {names : List String} {st st' : Store Key (Value ι)} {u : Unit}
    (hn : names.Nodup) (hperp : o.perpendicular = true) (h : ionViscosity o names st = (.ok u, st')) {n : String} (hm : n ∈ names) (hv : Viscous st n)
    (haxi : o.dc (perpForce o st n) = perpForce o st n) :
    totalRate o I st st' n = -(1 / 3) * I (o.bracket (stress o st n) (flowPotential o st n)) := by
  classical
  obtain ⟨h1, h2, -⟩ := iv_ok hn h
  obtain ⟨a, b⟩ := h1 n hm
  have e1 : energyRate st st' n = fun i => (fieldOf st n .velocity i * perpForce o st n i + (-1) * (o.dc (fieldOf st n .velocity) i * perpForce o st n i)) +
      (-0.5) * (stress o st n i * o.curv (flowPotential o st n) i) := by
    funext i
    unfold energyRate
    rw [a, b, if_pos hv, if_pos hv, if_pos hperp, if_pos hperp]
    ring
  have e2 : (fun i => flowPotential o st n i * current o st n i) = fun i => flowPotential o st n i * o.divCurv (fun i => 0.5 * stress o st n i) i +
      (-1) * (flowPotential o st n i * o.divBxGrad (1 / 3) (stress o st n) i) := by
    funext i; unfold current; ring
  have e3 : I (fun i => 0.5 * stress o st n i * o.curv (flowPotential o st n) i) = 0.5 * I fun i => stress o st n i * o.curv (flowPotential o st n) i := by
    rw [← hI.smul]; congr 1; funext i; ring
  unfold totalRate
  rw [e1, e2, hI.add, hI.add, hI.smul, hI.smul, hI.add, hI.smul, hI.average _ _ haxi, hI.curvature, hI.drift, e3]
  ring

/-- Energy is conserved if the bracket of stress and flow potential has no integral. -/
theorem perpendicular_conserves_partial {o : IVOpts ι} {I : Fld ι → ℝ} (hI : ClosedDomain o I) {names : List String} {st st' : Store Key (Value ι)} {u : Unit}
    (hn : names.Nodup) (hperp : o.perpendicular = true) (h : ionViscosity o names st = (.ok u, st')) {n : String} (hm : n ∈ names) (hv : Viscous st n)
    (haxi : o.dc (perpForce o st n) = perpForce o st n) (hzero : I (o.bracket (stress o st n) (flowPotential o st n)) = 0) :
    totalRate o I st st' n = 0 := by
  rw [perpendicular_balance_partial hI hn hperp h hm hv haxi, hzero, mul_zero]

open Classical in
/-- The current in the vorticity equation is the sum of the currents of the viscous species. -/
theorem current_total {o : IVOpts ι} {names : List String} {st st' : Store Key (Value ι)} {u : Unit} (hn : names.Nodup)
    (hperp : o.perpendicular = true) (h : ionViscosity o names st = (.ok u, st')) (i : ι) :
    fieldAt st' (.top "fields:DivJextra") i = fieldAt st (.top "fields:DivJextra") i +
      (names.map fun n => if Viscous st n then current o st n i else 0).sum := by
  rw [(iv_ok hn h).2.1, hperp]
  simp

/-! ## Runs exist -/

open Hermes.Runs

/-- Density, temperature and collision frequency of each species and the potential are set. -/
def access (names : List String) : Access where
  found k := (∃ s ∈ names, k = .sp s .density ∨ k = .sp s .temperature ∨ k = .sp s .collision_frequency) ∨ k = .top "fields:phi"
  own k := (∃ s, k = .sp s .momentum_source) ∨ (∃ s, k = .sp s .energy_source) ∨ k = .top "fields:DivJextra"
  edge k := False
  num k := ∃ s, k = .sp s .charge

theorem iv_runs (o : IVOpts ι) (names : List String) : Runs (ι := ι) (access names) (ionViscosity o names) := by
  have no : ∀ s v, v ≠ .momentum_source → v ≠ .energy_source → ¬(access names).own (.sp s v) := by
    rintro s v h1 h2 (⟨_, e⟩ | ⟨_, e⟩ | e)
    · exact h1 (Key.sp.inj e).2
    · exact h2 (Key.sp.inj e).2
    · cases e
  have nn : ∀ s v, v ≠ .charge → ¬(access names).num (.sp s v) := by
    rintro s v h1 ⟨_, e⟩
    exact h1 (Key.sp.inj e).2
  unfold ionViscosity
  refine Runs.forM names fun s hs => ?_
  unfold ivSpecies
  refine Runs.ite (fun _ => Runs.pure _) fun _ => ?_
  refine Runs.ifSet (tests_isSetFinal (no _ _ (by decide) (by decide)) id) ?_ (Runs.pure _)
  refine Runs.ifSet (tests_isSetFinal (no _ _ (by decide) (by decide)) id) ?_ (Runs.pure _)
  refine Runs.ifSet (tests_isSetFinal (no _ _ (by decide) (by decide)) id) ?_ (Runs.pure _)
  refine Runs.bind (runs_getR (Or.inr rfl) ⟨_, rfl⟩ (no _ _ (by decide) (by decide)) id) fun Z => ?_
  refine Runs.ite (fun _ => Runs.pure _) fun _ => ?_
  unfold ivForces
  refine Runs.bind (runs_getF (Or.inl (Or.inl (Or.inl (Or.inl ⟨s, hs, Or.inr (Or.inr rfl)⟩)))) (no _ _ (by decide) (by decide)) id) fun nu => ?_
  refine Runs.bind (runs_getF (Or.inl (Or.inl (Or.inr rfl))) (no _ _ (by decide) (by decide)) id) fun P => ?_
  refine Runs.bind (runs_getF (Or.inl (Or.inr rfl)) (no _ _ (by decide) (by decide)) id) fun V => ?_
  refine Runs.bind (runs_add (Or.inl ⟨_, rfl⟩) (nn _ _ (by decide))) fun _ => ?_
  refine Runs.bind (runs_subtract (Or.inr (Or.inl ⟨_, rfl⟩)) (nn _ _ (by decide))) fun _ => ?_
  refine Runs.ite (fun _ => ?_) fun _ => Runs.pure _
  unfold ivPerpendicular
  refine Runs.bind (runs_get (Or.inl (Or.inl (Or.inl (Or.inr rfl)))) (by rintro (⟨_, e⟩ | ⟨_, e⟩ | e) <;> simp at e) id) fun phi => ?_
  refine Runs.bind (runs_getF (Or.inl (Or.inl (Or.inl (Or.inl ⟨s, hs, Or.inl rfl⟩)))) (no _ _ (by decide) (by decide)) id) fun N => ?_
  refine Runs.bind (runs_getF (Or.inl (Or.inl (Or.inl (Or.inl ⟨s, hs, Or.inr (Or.inl rfl)⟩)))) (no _ _ (by decide) (by decide)) id) fun T => ?_
  refine Runs.bind (runs_add (Or.inl ⟨_, rfl⟩) (nn _ _ (by decide))) fun _ => ?_
  refine Runs.bind (runs_subtract (Or.inr (Or.inl ⟨_, rfl⟩)) (nn _ _ (by decide))) fun _ => ?_
  refine Runs.bind (runs_add (Or.inr (Or.inr rfl)) (by rintro ⟨_, e⟩; cases e)) fun _ => ?_
  exact runs_subtract (Or.inr (Or.inl ⟨_, rfl⟩)) (nn _ _ (by decide))

/-- Two cells, gas, deuterium ions with a flow in the first cell, and electrons. -/
def plasma : Store Key (Value Bool) where
  ent
    | .sp s .density => { val := some (.field fun _ => 1), final := false, finalDomain := false }
    | .sp s .temperature => { val := some (.field fun _ => 1), final := false, finalDomain := false }
    | .sp s .pressure => { val := some (.field fun _ => 1), final := false, finalDomain := false }
    | .sp s .collision_frequency => { val := some (.field fun _ => 1), final := false, finalDomain := false }
    | .sp s .charge => { val := some (.real (if s = "e" then -1 else if s = "d+" then 1 else 0)), final := false, finalDomain := false }
    | .sp s .velocity => { val := some (.field fun i => if i then 1 else 0), final := false, finalDomain := false }
    | .top "fields:phi" => { val := some (.field fun _ => 0), final := false, finalDomain := false }
    | _ => { val := none, final := false, finalDomain := false }
  check := true

/-- Operators on two cells.  The bracket is antisymmetric, and `divBxGrad` is its adjoint. -/
def twoCells (perp : Bool) : IVOpts Bool where
  eta_limit_alpha := 0
  perpendicular := perp
  dom _ := true
  sqrtB _ := 1
  Bxy _ := 1
  gradLogB _ := 1
  divParK K f := fun i => K i * (f (!i) - f i)
  gradPar _ := 0
  bndryEta f := f
  bndryPi f := f
  bndrySum f := f
  dc f := f
  curv _ := 0
  divCurv _ := 0
  divBxGrad c f := fun i => if i then c * f false else -(c * f true)
  bracket f g := fun i => if i then f true * g false - f false * g true else 0

theorem plasma_run (perp : Bool) : ∃ st', ionViscosity (twoCells perp) ["d", "d+", "e"] plasma = (.ok (), st') := by
  obtain ⟨_, st', h, -⟩ := iv_runs (twoCells perp) ["d", "d+", "e"] plasma
    ⟨by
      rintro k ⟨s, rfl⟩ x hx; exact ⟨_, (Option.some.inj hx).symm⟩, by
      rintro k (⟨s, -, rfl | rfl | rfl⟩ | rfl) <;> rfl, by
      rintro k (⟨s, rfl⟩ | ⟨s, rfl⟩ | rfl)
      · exact ⟨rfl, rfl⟩
      · exact ⟨rfl, rfl⟩
      · exact ⟨rfl, rfl⟩, fun k hk => hk.elim⟩
  exact ⟨st', h⟩

theorem plasma_viscous : Viscous plasma "d+" ∧ ¬ Viscous plasma "d" ∧ ¬ Viscous plasma "e" := by
  have hc : ∀ s, realOf plasma s .charge = if s = "e" then -1 else if s = "d+" then 1 else 0 := fun s => rfl
  refine ⟨⟨by decide, rfl, rfl, rfl, ?_⟩, fun h => ?_, fun h => h.1 rfl⟩
  · rw [hc, if_neg (by decide), if_pos rfl]; norm_num
  · have := h.2.2.2.2
    rw [hc, if_neg (by decide), if_neg (by decide)] at this
    norm_num at this

theorem twoCells_closed (perp : Bool) : ClosedDomain (twoCells perp) fun f => f true + f false where
  add f g := by ring
  smul c f := by ring
  average f g _ := rfl
  curvature f g := by simp [twoCells]
  drift c f g := by simp [twoCells]; ring

/-- The hypotheses of `parallel_conserves` are met with a force that is not zero. -/
example : ∃ st', ionViscosity (twoCells false) ["d", "d+", "e"] plasma = (.ok (), st') ∧ parForce (twoCells false) plasma "d+" true ≠ 0 := by
  obtain ⟨st', h⟩ := plasma_run false
  refine ⟨st', h, ?_⟩
  show (1 : ℝ) * ((if (0 : ℝ) > 0 then _ else fun _ => 1.28 * 1 * (1 / 1)) true / 1 * (1 * 0 - 1 * 1)) ≠ 0
  rw [if_neg (lt_irrefl _)]
  norm_num

/-- Perpendicular viscosity does not conserve energy: the bracket term is missing in the energy equation because `1 / 3` is an integer division. -/
theorem bracket_term_lost : ∃ st', ionViscosity (twoCells true) ["d", "d+", "e"] plasma = (.ok (), st') ∧
    ClosedDomain (twoCells true) (fun f => f true + f false) ∧
    totalRate (twoCells true) (fun f => f true + f false) plasma st' "d+" = 0.32 := by
  obtain ⟨st', h⟩ := plasma_run true
  refine ⟨st', h, twoCells_closed true, ?_⟩
  rw [perpendicular_balance_partial (twoCells_closed true) (by decide) rfl h (by decide) plasma_viscous.1 rfl]
  have hpi : stress (twoCells true) plasma "d+" = fun i => if i then -0.96 else 0 := by
    funext i
    have e : stress (twoCells true) plasma "d+" i = (if True ∧ |(-0.96 * 1 * (1 / 1) * (2 * 0 + (if i then 1 else 0) * 1) : ℝ)| > 1 then
        signOf (-0.96 * 1 * (1 / 1) * (2 * 0 + (if i then 1 else 0) * 1)) * 1 else -0.96 * 1 * (1 / 1) * (2 * 0 + (if i then 1 else 0) * 1)) +
      (if True ∧ |(-0.5 * 0.96 * 1 * (1 / 1) * (0 - 0 / 1) : ℝ)| > 1 then
        signOf (-0.5 * 0.96 * 1 * (1 / 1) * (0 - 0 / 1)) * 1 else -0.5 * 0.96 * 1 * (1 / 1) * (0 - 0 / 1)) := by
      simp [stress, ivPi, ivPiPar, ivPiPerp, ivLimit, twoCells, fieldOf, plasma, vals, asField]
    rw [e]
    cases i <;> norm_num [abs_of_pos, abs_of_neg]
  have hfp : flowPotential (twoCells true) plasma "d+" = fun _ => 1 := by
    funext i
    show (0 : ℝ) + 1 = 1
    norm_num
  rw [hpi, hfp]
  simp [twoCells]
  norm_num

end
end Hermes.IonViscosities
