import Verif.Model.NeutralBoundary
import Verif.Props.RecyclingExamples

/-!
# `NeutralBoundary`: reflection of neutrals from walls (C43, C36, C39)
-/

set_option linter.unusedSectionVars false
set_option linter.unusedVariables false

namespace Hermes.NeutralBoundary
open Hermes.Closures Hermes.Sheath Hermes.Recycling

variable {ι : Type} [DecidableEq ι]

/-! ## Specification -/

/-- One-sided flux of a Maxwellian gas of density `n`, temperature `T` and mass `A` (per unit area). -/
noncomputable def hits (A n T : ℝ) : ℝ := n * (Real.sqrt (8 * T / (Real.pi * A)) / 4)

/-- Heat carried to the wall by that flux: `2 T` per particle. -/
noncomputable def incident (A n T : ℝ) : ℝ := 2 * T * hits A n T

/-- Heat which is returned: the fraction `f` of the particles keeps the fraction `R` of its energy, the others return
with the Franck-Condon energy `TFC`. -/
noncomputable def returned (A R f TFC n T : ℝ) : ℝ := R * (f * incident A n T) + TFC * ((1 - f) * hits A n T)

/-- Area of the radial face between `i` and `g`. -/
noncomputable def radialArea (m : RMesh ι) (i g : ι) : ℝ :=
  ((m.dy i + m.dy g) / 2) / ((Real.sqrt (m.g22up i) + Real.sqrt (m.g22up g)) / 2) *
    (((m.dz i + m.dz g) / 2) * ((Real.sqrt (m.g33 i) + Real.sqrt (m.g33 g)) / 2))

/-- A wall of area `area`, bounding the cell `i`: loses (power per volume of the cell) at most what arrives. -/
noncomputable def lossAt (m : RMesh ι) (A R f TFC area n T : ℝ) (i : ι) : ℝ :=
  (incident A n T - returned A R f TFC n T) * area / cellVolume m i

noncomputable def arrivesAt (m : RMesh ι) (A area n T : ℝ) (i : ι) : ℝ := incident A n T * area / cellVolume m i

/-- Franck-Condon energy, 3 eV. -/
noncomputable def _root_.Hermes.NeutralOpts.TFC (o : NeutralOpts) : ℝ := 3 / o.Tnorm

/-- The walls of the cell `j`: what `F R f area g` says about each wall that is switched on, added up. -/
noncomputable def overWalls (o : NeutralOpts) (m : RMesh ι) (F : ℝ → ℝ → ℝ → ι → ℝ) (j : ι) : ℝ :=
  (if o.lower_y = true ∧ j ∈ m.lower then
    F o.target_energy_refl_factor o.target_fast_refl_fraction (targetArea m j (m.ym j)) (m.ym j) else 0)
  + (if o.upper_y = true ∧ j ∈ m.upper then
    F o.target_energy_refl_factor o.target_fast_refl_fraction (targetArea m j (m.yp j)) (m.yp j) else 0)
  + (if o.sol = true ∧ j ∈ m.sol then
    F o.sol_energy_refl_factor o.sol_fast_refl_fraction (radialArea m j (m.xp j)) (m.xp j) else 0)
  + (if o.pfr = true ∧ j ∈ m.pfr then
    F o.pfr_energy_refl_factor o.pfr_fast_refl_fraction (radialArea m j (m.xm j)) (m.xm j) else 0)

/-! ## The loops -/

theorem neutralHeat_eq (Tn A R f n T : ℝ) :
    neutralHeat Tn A R f n T = incident A n T - returned A R f (3 / Tn) n T := by
  unfold neutralHeat returned incident hits
  ring

theorem neutralTargets_eq (o : NeutralOpts) (m : YMesh ι) (A : ℝ) (s : (ι → ICell) × Fld ι) :
    neutralTargets o m A s =
      bothEnds m o.lower_y o.upper_y (neutralTarget o m A m.ym) (neutralTarget o m A m.yp) s := rfl

theorem neutralTarget_eq (o : NeutralOpts) (m : RMesh ι) (A : ℝ) (guard : ι → ι) (i : ι) (c d : ICell) :
    neutralTarget o m.toYMesh A guard i c d =
      (⟨c.n, c.t, c.p, -c.v, -c.nv⟩, -lossAt m A o.target_energy_refl_factor o.target_fast_refl_fraction o.TFC
        (targetArea m i (guard i)) c.n c.t i) := by
  unfold neutralTarget lossAt NeutralOpts.TFC targetArea cellVolume
  dsimp only
  rw [neutralHeat_eq, show (0.5 : ℝ) * (c.n + c.n) = c.n by ring, show (0.5 : ℝ) * (c.t + c.t) = c.t by ring]
  congr 2
  congr 1
  · ring
  · ring

theorem neutralWall_eq (m : RMesh ι) (Tn A R f : ℝ) (guard : ι → ι) (c : ι → ICell) (e : Fld ι) (i : ι) :
    neutralWall m Tn A R f guard c e i = Function.update e i (e i + -lossAt m A R f (3 / Tn) (radialArea m i (guard i))
      (face (fun j => (c j).n) i (guard i)) (face (fun j => (c j).t) i (guard i)) i) := by
  unfold neutralWall lossAt radialArea cellVolume
  dsimp only
  rw [neutralHeat_eq]
  have e1 : (0.5 : ℝ) * ((c (guard i)).n + (c i).n) = face (fun j => (c j).n) i (guard i) := by unfold face; ring
  have e2 : (0.5 : ℝ) * ((c (guard i)).t + (c i).t) = face (fun j => (c j).t) i (guard i) := by unfold face; ring
  rw [e1, e2, sub_eq_add_neg]
  congr 3
  rw [show (0.5 : ℝ) * (Real.sqrt (m.g22up i) + Real.sqrt (m.g22up (guard i))) =
    (Real.sqrt (m.g22up i) + Real.sqrt (m.g22up (guard i))) / 2 by ring]
  congr 1
  ring

theorem neutralWalls_eq (o : NeutralOpts) (m : RMesh ι) (A : ℝ) (c : ι → ICell) (e : Fld ι) (hs : m.sol.Nodup) (hp : m.pfr.Nodup)
    (j : ι) : neutralWalls o m A c e j = e j
      - (if o.sol = true ∧ j ∈ m.sol then lossAt m A o.sol_energy_refl_factor o.sol_fast_refl_fraction o.TFC
          (radialArea m j (m.xp j)) (face (fun j => (c j).n) j (m.xp j)) (face (fun j => (c j).t) j (m.xp j)) j else 0)
      - (if o.pfr = true ∧ j ∈ m.pfr then lossAt m A o.pfr_energy_refl_factor o.pfr_fast_refl_fraction o.TFC
          (radialArea m j (m.xm j)) (face (fun j => (c j).n) j (m.xm j)) (face (fun j => (c j).t) j (m.xm j)) j else 0) := by
  have step : ∀ (on : Bool) (pts : List ι) (R f : ℝ) (guard : ι → ι) (e : Fld ι), pts.Nodup →
      (if on = true then pts.foldl (neutralWall m o.Tnorm A R f guard c) e else e) j = e j -
        (if on = true ∧ j ∈ pts then lossAt m A R f o.TFC (radialArea m j (guard j)) (face (fun j => (c j).n) j (guard j))
          (face (fun j => (c j).t) j (guard j)) j else 0) := by
    intro on pts R f guard e hn
    cases on
    · simp
    · rw [if_pos rfl, foldl_accum' (neutralWall_eq m o.Tnorm A R f guard c) _ _ hn]
      by_cases hj : j ∈ pts
      · simp only [hj, and_self, if_true]; unfold NeutralOpts.TFC; ring
      · simp [hj]
  unfold neutralWalls
  rw [step o.pfr _ _ _ _ _ hp, step o.sol _ _ _ _ _ hs]

/-! ## What the component does -/

/-- The record of the cell `j` before. -/
noncomputable def cellOf (st : Store Key (Value ι)) (name : String) (j : ι) : ICell :=
  ⟨fieldOf st name .density j, fieldOf st name .temperature j, fieldOf st name .pressure j,
    fieldOf st name .velocity j, fieldOf st name .momentum j⟩

theorem fieldOr_zero (st : Store Key (Value ι)) (s : String) (v : Var) : fieldOr st (.sp s v) 0 = fieldOf st s v := by
  unfold fieldOr fieldOf
  cases vals st (.sp s v) <;> rfl

theorem neutralBoundary_ok {o : NeutralOpts} {m : RMesh ι} {name : String} {st st' : Store Key (Value ι)}
    (h : neutralBoundary o m name st = (.ok (), st')) :
    let r := neutralTargets o m.toYMesh (realOf st name .AA) (cellOf st name, fieldOf st name .energy_source)
    vals st' (.sp name .density) = some (.field fun i => (r.1 i).n) ∧
    vals st' (.sp name .temperature) = some (.field fun i => (r.1 i).t) ∧
    vals st' (.sp name .pressure) = some (.field fun i => (r.1 i).p) ∧
    vals st' (.sp name .velocity) = ifSet (vals st (.sp name .velocity)) (fun i => (r.1 i).v) ∧
    vals st' (.sp name .momentum) = ifSet (vals st (.sp name .momentum)) (fun i => (r.1 i).nv) ∧
    vals st' (.sp name .energy_source) = some (.field (neutralWalls o m (realOf st name .AA) r.1 r.2)) ∧
    ∀ k, (∀ v ∈ [Var.density, .temperature, .pressure, .velocity, .momentum, .energy_source], k ≠ .sp name v) →
      vals st' k = vals st k := by
  intro r
  unfold neutralBoundary at h
  obtain ⟨s1, e1, h⟩ := getR_bind h
  obtain ⟨s2, e2, h⟩ := getNoBndryF_bind h
  obtain ⟨s3, e3, h⟩ := getNoBndryF_bind h
  obtain ⟨s4, e4, h⟩ := getNoBndryF_bind h
  obtain ⟨s5, e5, h⟩ := readNB_bind h
  obtain ⟨s6, e6, h⟩ := readNB_bind h
  obtain ⟨s7, e7, h⟩ := readSource_bind h
  rw [e1] at e2; rw [e2] at e3; rw [e3] at e4; rw [e4] at e5; rw [e5] at e6; rw [e6] at e7
  rw [fieldOr_zero, fieldOr_zero, fieldOr_zero] at h
  have c : ∀ {s : Store Key (Value ι)} (v : Var), vals s = vals st → fieldOf s name v = fieldOf st name v :=
    fun v hv => fieldOf_congr (by rw [hv])
  rw [c .density e1, c .pressure e2, c .temperature e3, c .velocity e4, c .momentum e5, c .energy_source e6] at h
  obtain ⟨s8, e8, h⟩ := setBoundary_bind_ok h
  obtain ⟨s9, e9, h⟩ := setBoundary_bind_ok h
  obtain ⟨s10, e10, h⟩ := setBoundary_bind_ok h
  obtain ⟨_, s11, h11, h⟩ := M_bind_ok h
  obtain ⟨_, s12, h12, h⟩ := M_bind_ok h
  have e11 := setBoundaryIfSetNB_ok h11
  have e12 := setBoundaryIfSetNB_ok h12
  have e13 := set_ok h
  have hr : r = neutralTargets o m.toYMesh (realOf st name .AA)
      (fun i => ⟨fieldOf st name .density i, fieldOf st name .temperature i, fieldOf st name .pressure i,
        fieldOf st name .velocity i, fieldOf st name .momentum i⟩, fieldOf st name .energy_source) := rfl
  rw [← hr] at e8 e9 e10 e11 e12 e13
  rw [e13, e12, e11, e10, e9, e8, e7]
  refine ⟨?_, ?_, ?_, ?_, ?_, ?_, fun k hk => ?_⟩
  · simp [Function.update_apply]
  · simp [Function.update_apply]
  · simp [Function.update_apply]
  · simp [Function.update_apply]
  · simp [Function.update_apply]
  · simp [Function.update_apply]
  · rw [Function.update_of_ne (hk _ (by decide)), Function.update_of_ne (hk _ (by decide)), Function.update_of_ne (hk _ (by decide)),
      Function.update_of_ne (hk _ (by decide)), Function.update_of_ne (hk _ (by decide)), Function.update_of_ne (hk _ (by decide))]

theorem fieldOf_val {st : Store Key (Value ι)} {s : String} {v : Var} {f : Fld ι} (h : vals st (.sp s v) = some (.field f)) :
    fieldOf st s v = f := by
  unfold fieldOf; rw [h]; rfl

/-- **C43, C36.**  No neutrals flow through a target: the velocity and the momentum vanish on the face; density, temperature
and pressure in the guard cell are those of the last cell.  All other cells keep their values. -/
theorem neutral_no_flow {o : NeutralOpts} {m : RMesh ι} {name : String} (hm : MeshOk m.toYMesh) {st st' : Store Key (Value ι)}
    (h : neutralBoundary o m name st = (.ok (), st')) :
    (∀ v ∈ [Var.density, .temperature, .pressure], ∀ {u i g inn}, Target m.toYMesh o.lower_y o.upper_y u i g inn →
      fieldOf st' name v g = fieldOf st' name v i ∧ fieldOf st' name v i = fieldOf st name v i) ∧
    (∀ v ∈ [Var.velocity, .momentum], ∀ {u i g inn}, Target m.toYMesh o.lower_y o.upper_y u i g inn →
      (vals st (.sp name v)).isSome → face (fieldOf st' name v) i g = 0 ∧ fieldOf st' name v i = fieldOf st name v i) ∧
    (∀ v ∈ [Var.density, .temperature, .pressure, .velocity, .momentum], ∀ j,
      (∀ u i inn, ¬ Target m.toYMesh o.lower_y o.upper_y u i j inn) → fieldOf st' name v j = fieldOf st name v j) ∧
    ∀ k, (∀ v ∈ [Var.density, .temperature, .pressure, .velocity, .momentum, .energy_source], k ≠ .sp name v) →
      vals st' k = vals st k := by
  obtain ⟨h1, h2, h3, h4, h5, -, h7⟩ := neutralBoundary_ok h
  rw [neutralTargets_eq] at h1 h2 h3 h4 h5
  have hv : ∀ v f, vals st' (.sp name v) = ifSet (vals st (.sp name v)) f → (vals st (.sp name v)).isSome →
      fieldOf st' name v = f := fun v f h hs => fieldOf_ifSet h hs
  have hun : ∀ v f, vals st' (.sp name v) = ifSet (vals st (.sp name v)) f → ¬(vals st (.sp name v)).isSome →
      fieldOf st' name v = fieldOf st name v := by
    intro v f h hs
    refine fieldOf_congr ?_
    rw [h]
    unfold ifSet
    rw [if_neg hs]
    cases e : vals st (.sp name v) with
    | none => rfl
    | some x => rw [e] at hs; exact absurd rfl hs
  have tgt : ∀ {u i g inn}, Target m.toYMesh o.lower_y o.upper_y u i g inn → ∀ x,
      (if u then neutralTarget o m.toYMesh (realOf st name .AA) m.yp else neutralTarget o m.toYMesh (realOf st name .AA) m.ym) i
        (cellOf st name i) x = (⟨(cellOf st name i).n, (cellOf st name i).t, (cellOf st name i).p, -(cellOf st name i).v,
          -(cellOf st name i).nv⟩, -lossAt m (realOf st name .AA) o.target_energy_refl_factor o.target_fast_refl_fraction o.TFC
            (targetArea m i g) (cellOf st name i).n (cellOf st name i).t i) := by
    intro u i g inn ht x
    cases ht <;> simp only [if_true, Bool.false_eq_true, if_false, neutralTarget_eq]
  refine ⟨fun v hmem u i g inn ht => ?_, fun v hmem u i g inn ht hs => ?_, fun v hmem j hj => ?_, h7⟩
  · have hg := (bothEnds_target (fl := neutralTarget o m.toYMesh (realOf st name .AA) m.ym)
      (fu := neutralTarget o m.toYMesh (realOf st name .AA) m.yp) (s := (cellOf st name, fieldOf st name .energy_source)) hm ht).1
    have hl := bothEnds_last (fl := neutralTarget o m.toYMesh (realOf st name .AA) m.ym)
      (fu := neutralTarget o m.toYMesh (realOf st name .AA) m.yp) (s := (cellOf st name, fieldOf st name .energy_source)) hm ht
    dsimp only at hg hl
    rw [tgt ht] at hg
    simp only [List.mem_cons, List.not_mem_nil, or_false] at hmem
    rcases hmem with rfl | rfl | rfl
    · rw [fieldOf_val h1]; dsimp only; rw [hg, hl]; exact ⟨rfl, rfl⟩
    · rw [fieldOf_val h2]; dsimp only; rw [hg, hl]; exact ⟨rfl, rfl⟩
    · rw [fieldOf_val h3]; dsimp only; rw [hg, hl]; exact ⟨rfl, rfl⟩
  · have hg := (bothEnds_target (fl := neutralTarget o m.toYMesh (realOf st name .AA) m.ym)
      (fu := neutralTarget o m.toYMesh (realOf st name .AA) m.yp) (s := (cellOf st name, fieldOf st name .energy_source)) hm ht).1
    have hl := bothEnds_last (fl := neutralTarget o m.toYMesh (realOf st name .AA) m.ym)
      (fu := neutralTarget o m.toYMesh (realOf st name .AA) m.yp) (s := (cellOf st name, fieldOf st name .energy_source)) hm ht
    dsimp only at hg hl
    rw [tgt ht] at hg
    simp only [List.mem_cons, List.not_mem_nil, or_false] at hmem
    rcases hmem with rfl | rfl
    · rw [hv _ _ h4 hs]; unfold face; dsimp only; rw [hg, hl]; exact ⟨by ring, rfl⟩
    · rw [hv _ _ h5 hs]; unfold face; dsimp only; rw [hg, hl]; exact ⟨by ring, rfl⟩
  · have ho := bothEnds_other (fl := neutralTarget o m.toYMesh (realOf st name .AA) m.ym)
      (fu := neutralTarget o m.toYMesh (realOf st name .AA) m.yp) (s := (cellOf st name, fieldOf st name .energy_source)) hj
    dsimp only at ho
    simp only [List.mem_cons, List.not_mem_nil, or_false] at hmem
    rcases hmem with rfl | rfl | rfl | rfl | rfl
    · rw [fieldOf_val h1]; dsimp only; rw [ho]; rfl
    · rw [fieldOf_val h2]; dsimp only; rw [ho]; rfl
    · rw [fieldOf_val h3]; dsimp only; rw [ho]; rfl
    · by_cases hs : (vals st (.sp name .velocity)).isSome
      · rw [hv _ _ h4 hs]; dsimp only; rw [ho]; rfl
      · rw [hun _ _ h4 hs]
    · by_cases hs : (vals st (.sp name .momentum)).isSome
      · rw [hv _ _ h5 hs]; dsimp only; rw [ho]; rfl
      · rw [hun _ _ h5 hs]

/-- **C43.**  Each wall that is switched on takes from its cell the heat which arrives minus the heat which is returned, for
the density and the temperature on the face; nothing else happens to the energy source. -/
theorem neutral_energy {o : NeutralOpts} {m : RMesh ι} {name : String} (hm : MeshOk m.toYMesh) (hs : m.sol.Nodup) (hp : m.pfr.Nodup)
    {st st' : Store Key (Value ι)} (h : neutralBoundary o m name st = (.ok (), st')) (j : ι) :
    fieldOf st' name .energy_source j = fieldOf st name .energy_source j
      - overWalls o m (fun R f area g => lossAt m (realOf st name .AA) R f o.TFC area (face (fieldOf st' name .density) j g)
          (face (fieldOf st' name .temperature) j g) j) j := by
  obtain ⟨hn, -⟩ := neutral_no_flow hm h
  obtain ⟨h1, h2, -, -, -, h6, -⟩ := neutralBoundary_ok h
  rw [fieldOf_val h6, neutralWalls_eq _ _ _ _ _ hs hp, ← fieldOf_val h1, ← fieldOf_val h2, neutralTargets_eq]
  have hf : ∀ {u i g inn} (v : Var), v ∈ [Var.density, .temperature, .pressure] → Target m.toYMesh o.lower_y o.upper_y u i g inn →
      face (fieldOf st' name v) i g = fieldOf st name v i := by
    intro u i g inn v hv ht
    obtain ⟨a, b⟩ := hn v hv ht
    unfold face; rw [a, b]; ring
  have key : (bothEnds m.toYMesh o.lower_y o.upper_y (neutralTarget o m.toYMesh (realOf st name .AA) m.ym)
        (neutralTarget o m.toYMesh (realOf st name .AA) m.yp) (cellOf st name, fieldOf st name .energy_source)).2 j =
      fieldOf st name .energy_source j
      - (if o.lower_y = true ∧ j ∈ m.lower then
          lossAt m (realOf st name .AA) o.target_energy_refl_factor o.target_fast_refl_fraction o.TFC (targetArea m j (m.ym j))
            (face (fieldOf st' name .density) j (m.ym j)) (face (fieldOf st' name .temperature) j (m.ym j)) j else 0)
      - (if o.upper_y = true ∧ j ∈ m.upper then
          lossAt m (realOf st name .AA) o.target_energy_refl_factor o.target_fast_refl_fraction o.TFC (targetArea m j (m.yp j))
            (face (fieldOf st' name .density) j (m.yp j)) (face (fieldOf st' name .temperature) j (m.yp j)) j else 0) := by
    by_cases hl : o.lower_y = true ∧ j ∈ m.lower
    · have ht : Target m.toYMesh o.lower_y o.upper_y false j (m.ym j) (m.yp j) := .lower hl.1 hl.2
      have hnu : ¬(o.upper_y = true ∧ j ∈ m.upper) := fun hu => hm.disjoint hl.2 hu.2
      rw [(bothEnds_target hm ht).2, if_pos hl, if_neg hnu, hf .density (by decide) ht, hf .temperature (by decide) ht]
      simp only [Bool.false_eq_true, if_false, neutralTarget_eq]
      unfold cellOf
      ring
    · by_cases hu : o.upper_y = true ∧ j ∈ m.upper
      · have ht : Target m.toYMesh o.lower_y o.upper_y true j (m.yp j) (m.ym j) := .upper hu.1 hu.2
        rw [(bothEnds_target hm ht).2, if_neg hl, if_pos hu, hf .density (by decide) ht, hf .temperature (by decide) ht]
        simp only [if_true, neutralTarget_eq]
        unfold cellOf
        ring
      · rw [if_neg hl, if_neg hu, bothEnds_src_other]
        · ring
        · intro u g inn ht
          cases ht with
          | lower e hi => exact hl ⟨e, hi⟩
          | upper e hi => exact hu ⟨e, hi⟩
  rw [key]
  unfold overWalls
  ring

/-! ## Bounds -/

theorem hits_nonneg {A n T : ℝ} (hn : 0 ≤ n) : 0 ≤ hits A n T := by
  unfold hits
  positivity

theorem incident_nonneg {A n T : ℝ} (hn : 0 ≤ n) (hT : 0 ≤ T) : 0 ≤ incident A n T :=
  mul_nonneg (by positivity) (hits_nonneg hn)

theorem returned_nonneg {A R f TFC n T : ℝ} (hn : 0 ≤ n) (hT : 0 ≤ T) (hR : 0 ≤ R) (hf0 : 0 ≤ f) (hf1 : f ≤ 1) (hFC : 0 ≤ TFC) :
    0 ≤ returned A R f TFC n T := by
  unfold returned
  have := incident_nonneg (A := A) hn hT
  have := hits_nonneg (A := A) (T := T) hn
  have : 0 ≤ 1 - f := by linarith
  positivity

/-- Not more is returned than arrives exactly if the gas is hot enough for the Franck-Condon particles to be colder. -/
theorem returned_le_iff {A R f TFC n T : ℝ} (hn : 0 < n) (hT : 0 < T) (hA : 0 < A) :
    returned A R f TFC n T ≤ incident A n T ↔ (1 - f) * TFC ≤ 2 * T * (1 - R * f) := by
  have hp : 0 < hits A n T := by
    unfold hits
    have := Real.pi_pos
    positivity
  unfold returned incident
  constructor
  · intro h
    by_contra hc
    push Not at hc
    nlinarith
  · intro h
    nlinarith

theorem returned_le {A R f TFC n T : ℝ} (hn : 0 ≤ n) (h : (1 - f) * TFC ≤ 2 * T * (1 - R * f)) :
    returned A R f TFC n T ≤ incident A n T := by
  have hp := hits_nonneg (A := A) (T := T) hn
  unfold returned incident
  nlinarith

/-- Metric, fractions and mass in their normal ranges, non-negative density and temperature. -/
structure Normal (o : NeutralOpts) (m : RMesh ι) (st : Store Key (Value ι)) (name : String) : Prop where
  Tnorm : 0 < o.Tnorm
  refl : ∀ R ∈ [o.target_energy_refl_factor, o.sol_energy_refl_factor, o.pfr_energy_refl_factor], 0 ≤ R ∧ R ≤ 1
  fast : ∀ f ∈ [o.target_fast_refl_fraction, o.sol_fast_refl_fraction, o.pfr_fast_refl_fraction], 0 ≤ f ∧ f ≤ 1
  metric : ∀ i, 0 < m.J i ∧ 0 < m.dx i ∧ 0 < m.dy i ∧ 0 < m.dz i
  n : ∀ i, 0 ≤ fieldOf st name .density i
  t : ∀ i, 0 ≤ fieldOf st name .temperature i

theorem radialArea_nonneg {m : RMesh ι} (h : ∀ i, 0 < m.J i ∧ 0 < m.dx i ∧ 0 < m.dy i ∧ 0 < m.dz i) (i g : ι) :
    0 ≤ radialArea m i g := by
  unfold radialArea
  have := (h i).2.2.1; have := (h g).2.2.1; have := (h i).2.2.2; have := (h g).2.2.2
  positivity

theorem targetArea_nonneg' {m : RMesh ι} (h : ∀ i, 0 < m.J i ∧ 0 < m.dx i ∧ 0 < m.dy i ∧ 0 < m.dz i) (i g : ι) :
    0 ≤ targetArea m i g := by
  unfold targetArea
  have := (h i).2.1; have := (h g).2.1; have := (h i).2.2.2; have := (h g).2.2.2; have := (h i).1; have := (h g).1
  positivity

theorem overWalls_mono {o : NeutralOpts} {m : RMesh ι} {F G : ℝ → ℝ → ℝ → ι → ℝ} {j : ι}
    (h : ∀ R ∈ [o.target_energy_refl_factor, o.sol_energy_refl_factor, o.pfr_energy_refl_factor],
      ∀ f ∈ [o.target_fast_refl_fraction, o.sol_fast_refl_fraction, o.pfr_fast_refl_fraction],
      ∀ area g, area ∈ [targetArea m j (m.ym j), targetArea m j (m.yp j), radialArea m j (m.xp j), radialArea m j (m.xm j)] →
        F R f area g ≤ G R f area g) : overWalls o m F j ≤ overWalls o m G j := by
  unfold overWalls
  refine add_le_add (add_le_add (add_le_add ?_ ?_) ?_) ?_ <;> split <;>
    first
      | exact le_refl _
      | exact h _ (by simp) _ (by simp) _ _ (by simp)

theorem overWalls_zero (o : NeutralOpts) (m : RMesh ι) (j : ι) : overWalls o m (fun _ _ _ _ => 0) j = 0 := by
  unfold overWalls; simp

/-- Values after the run are non-negative if they were before. -/
theorem neutral_nonneg {o : NeutralOpts} {m : RMesh ι} {name : String} (hm : MeshOk m.toYMesh) {st st' : Store Key (Value ι)}
    (h : neutralBoundary o m name st = (.ok (), st')) {v : Var} (hv : v ∈ [Var.density, .temperature, .pressure])
    (h0 : ∀ i, 0 ≤ fieldOf st name v i) (j : ι) : 0 ≤ fieldOf st' name v j := by
  obtain ⟨h1, -, h3, -⟩ := neutral_no_flow hm h
  by_cases hj : ∀ u i inn, ¬ Target m.toYMesh o.lower_y o.upper_y u i j inn
  · rw [h3 v (by simp only [List.mem_cons, List.not_mem_nil, or_false] at hv ⊢; tauto) j hj]; exact h0 j
  · push Not at hj
    obtain ⟨u, i, inn, ht⟩ := hj
    obtain ⟨a, b⟩ := h1 v hv ht
    rw [a, b]; exact h0 i

/-- **C43**, upper bound.  Not more energy is removed from a cell than the neutrals carry to its walls. -/
theorem neutral_removes_at_most {o : NeutralOpts} {m : RMesh ι} {name : String} (hm : MeshOk m.toYMesh) (hs : m.sol.Nodup)
    (hp : m.pfr.Nodup) {st st' : Store Key (Value ι)} (hok : Normal o m st name)
    (h : neutralBoundary o m name st = (.ok (), st')) (j : ι) :
    fieldOf st name .energy_source j - fieldOf st' name .energy_source j ≤
      overWalls o m (fun _ _ area g => arrivesAt m (realOf st name .AA) area (face (fieldOf st' name .density) j g)
        (face (fieldOf st' name .temperature) j g) j) j := by
  rw [neutral_energy hm hs hp h j, sub_sub_cancel]
  refine overWalls_mono fun R hR f hf area g ha => ?_
  have hV : 0 < cellVolume m j := by
    unfold cellVolume
    obtain ⟨a, b, c, d⟩ := hok.metric j
    positivity
  have hA : 0 ≤ area := by
    simp only [List.mem_cons, List.not_mem_nil, or_false] at ha
    rcases ha with rfl | rfl | rfl | rfl
    · exact targetArea_nonneg' hok.metric _ _
    · exact targetArea_nonneg' hok.metric _ _
    · exact radialArea_nonneg hok.metric _ _
    · exact radialArea_nonneg hok.metric _ _
  have hn : 0 ≤ face (fieldOf st' name .density) j g := by
    have := neutral_nonneg hm h (v := .density) (by decide) hok.n
    unfold face; linarith [this j, this g]
  have ht : 0 ≤ face (fieldOf st' name .temperature) j g := by
    have := neutral_nonneg hm h (v := .temperature) (by decide) hok.t
    unfold face; linarith [this j, this g]
  have hr := returned_nonneg (A := realOf st name .AA) (TFC := o.TFC) hn ht (hok.refl R hR).1 (hok.fast f hf).1 (hok.fast f hf).2
    (by have := hok.Tnorm; unfold NeutralOpts.TFC; positivity)
  unfold lossAt arrivesAt
  gcongr
  linarith

/-- The gas at the faces of the cell `j` is hot enough: reflected particles carry less than they brought. -/
def HotEnough (o : NeutralOpts) (m : RMesh ι) (T : Fld ι) (j : ι) : Prop :=
  ∀ R ∈ [o.target_energy_refl_factor, o.sol_energy_refl_factor, o.pfr_energy_refl_factor],
    ∀ f ∈ [o.target_fast_refl_fraction, o.sol_fast_refl_fraction, o.pfr_fast_refl_fraction],
      ∀ g, (1 - f) * o.TFC ≤ 2 * face T j g * (1 - R * f)

/-- **C43**, lower bound, partial: walls cool the gas, if it is hot enough.  (Missing: cold gas, for which the claim is false,
see `cold_gas_is_heated`.) -/
theorem neutral_cools_partial {o : NeutralOpts} {m : RMesh ι} {name : String} (hm : MeshOk m.toYMesh) (hs : m.sol.Nodup)
    (hp : m.pfr.Nodup) {st st' : Store Key (Value ι)} (hok : Normal o m st name)
    (h : neutralBoundary o m name st = (.ok (), st')) (j : ι) (hhot : HotEnough o m (fieldOf st' name .temperature) j) :
    fieldOf st' name .energy_source j ≤ fieldOf st name .energy_source j := by
  rw [neutral_energy hm hs hp h j, sub_le_self_iff, ← overWalls_zero o m j]
  refine overWalls_mono fun R hR f hf area g ha => ?_
  have hV : 0 < cellVolume m j := by
    unfold cellVolume
    obtain ⟨a, b, c, d⟩ := hok.metric j
    positivity
  have hA : 0 ≤ area := by
    simp only [List.mem_cons, List.not_mem_nil, or_false] at ha
    rcases ha with rfl | rfl | rfl | rfl
    · exact targetArea_nonneg' hok.metric _ _
    · exact targetArea_nonneg' hok.metric _ _
    · exact radialArea_nonneg hok.metric _ _
    · exact radialArea_nonneg hok.metric _ _
  have hn : 0 ≤ face (fieldOf st' name .density) j g := by
    have := neutral_nonneg hm h (v := .density) (by decide) hok.n
    unfold face; linarith [this j, this g]
  have hr := returned_le (A := realOf st name .AA) hn (hhot R hR f hf g)
  unfold lossAt
  have : 0 ≤ incident (realOf st name .AA) (face (fieldOf st' name .density) j g) (face (fieldOf st' name .temperature) j g) -
    returned (realOf st name .AA) R f o.TFC (face (fieldOf st' name .density) j g) (face (fieldOf st' name .temperature) j g) := by linarith
  positivity

/-- **C43.**  With complete reflection of the energy by fast reflection (`R = f = 1`) nothing is lost. -/
theorem perfect_reflection {m : RMesh ι} {A TFC area n T : ℝ} {i : ι} : lossAt m A 1 1 TFC area n T i = 0 := by
  unfold lossAt returned
  ring

/-- **C43.**  Cells without a wall that is switched on keep their energy source. -/
theorem neutral_elsewhere {o : NeutralOpts} {m : RMesh ι} {name : String} (hm : MeshOk m.toYMesh) (hs : m.sol.Nodup)
    (hp : m.pfr.Nodup) {st st' : Store Key (Value ι)} (h : neutralBoundary o m name st = (.ok (), st')) {j : ι}
    (h1 : j ∉ m.lower) (h2 : j ∉ m.upper) (h3 : j ∉ m.sol) (h4 : j ∉ m.pfr) :
    fieldOf st' name .energy_source j = fieldOf st name .energy_source j := by
  rw [neutral_energy hm hs hp h j]
  unfold overWalls
  simp [h1, h2, h3, h4]

/-! ## C39 -/

/-- The options with the two ends exchanged. -/
def _root_.Hermes.NeutralOpts.mirror (o : NeutralOpts) : NeutralOpts := { o with lower_y := o.upper_y, upper_y := o.lower_y }

/-- **C39.**  Running the component on the mirrored state, with the two ends of the mesh exchanged, gives the mirrored
result. -/
theorem neutral_mirror {o : NeutralOpts} {m : RMesh ι} {name : String} (hm : MeshOk m.toYMesh)
    {st st' st2 st2' : Store Key (Value ι)} (hmir : Mirrored st st2)
    (h : neutralBoundary o m name st = (.ok (), st')) (h2 : neutralBoundary o.mirror m.mirror name st2 = (.ok (), st2')) :
    Mirrored st' st2' := by
  have f : ∀ v, v ≠ .energy_flow_ylow → directed v = false → fieldOf st2 name v = fieldOf st name v := by
    intro v h1 h2
    refine fieldOf_congr ?_
    have := hmir.2 name v h1
    rw [h2] at this
    exact this
  have fr : ∀ v, v ≠ .energy_flow_ylow → directed v = true → ∀ j, fieldOf st2 name v j = -fieldOf st name v j := by
    intro v h1 h2 j
    have := hmir.2 name v h1
    rw [h2, if_pos rfl] at this
    unfold fieldOf
    rw [this]
    cases vals st (.sp name v) with
    | none => simp
    | some x => cases x <;> simp [Value.rev, asField]
  have hA : realOf st2 name .AA = realOf st name .AA := by
    have := hmir.2 name .AA (by decide)
    unfold realOf
    rw [this]
    rfl
  obtain ⟨a1, a2, a3, a4, a5, a6, a7⟩ := neutralBoundary_ok h
  obtain ⟨b1, b2, b3, b4, b5, b6, b7⟩ := neutralBoundary_ok h2
  have hb := bothEnds_mirror (m := m.toYMesh) (lo := o.lower_y) (up := o.upper_y) (R := ICell.rev)
    (fl := neutralTarget o m.toYMesh (realOf st name .AA) m.ym) (fu := neutralTarget o m.toYMesh (realOf st name .AA) m.yp)
    (fl' := neutralTarget o.mirror m.mirror.toYMesh (realOf st name .AA) m.mirror.ym)
    (fu' := neutralTarget o.mirror m.mirror.toYMesh (realOf st name .AA) m.mirror.yp) hm
    (s := (cellOf st name, fieldOf st name .energy_source)) (s' := (cellOf st2 name, fieldOf st2 name .energy_source))
    (by
      intro j
      unfold cellOf ICell.rev
      dsimp only
      rw [f .density (by decide) rfl, f .temperature (by decide) rfl, f .pressure (by decide) rfl, fr .velocity (by decide) rfl,
        fr .momentum (by decide) rfl])
    (f .energy_source (by decide) rfl) (fun i c d => rfl) (fun i c d => rfl)
  rw [hA] at b1 b2 b3 b4 b5 b6
  rw [neutralTargets_eq] at a1 a2 a3 a4 a5 a6 b1 b2 b3 b4 b5 b6
  set r := bothEnds m.toYMesh o.lower_y o.upper_y (neutralTarget o m.toYMesh (realOf st name .AA) m.ym)
    (neutralTarget o m.toYMesh (realOf st name .AA) m.yp) (cellOf st name, fieldOf st name .energy_source)
  set r2 := bothEnds m.mirror.toYMesh o.mirror.lower_y o.mirror.upper_y
    (neutralTarget o.mirror m.mirror.toYMesh (realOf st name .AA) m.mirror.ym)
    (neutralTarget o.mirror m.mirror.toYMesh (realOf st name .AA) m.mirror.yp) (cellOf st2 name, fieldOf st2 name .energy_source)
  have e1 : r2.1 = fun j => (r.1 j).rev := funext fun j => (hb j).1
  have e2 : r2.2 = r.2 := funext fun j => (hb j).2
  rw [e1] at b1 b2 b3 b4 b5 b6
  rw [e2] at b6
  refine ⟨fun n => ?_, fun s v hne => ?_⟩
  · rw [a7 _ (by intros; intro e; cases e), b7 _ (by intros; intro e; cases e), hmir.1]
  by_cases hk : s = name ∧ v ∈ [Var.density, .temperature, .pressure, .velocity, .momentum, .energy_source]
  · obtain ⟨rfl, hmem⟩ := hk
    simp only [List.mem_cons, List.not_mem_nil, or_false] at hmem
    rcases hmem with rfl | rfl | rfl | rfl | rfl | rfl
    · rw [a1, b1]; rfl
    · rw [a2, b2]; rfl
    · rw [a3, b3]; rfl
    · rw [a4, b4, hmir.2 _ _ hne]
      exact ifSet_rev _ _
    · rw [a5, b5, hmir.2 _ _ hne]
      exact ifSet_rev _ _
    · rw [a6, b6]
      show some (Value.field _) = some (Value.field _)
      congr 2
  · have hk' : ∀ w ∈ [Var.density, .temperature, .pressure, .velocity, .momentum, .energy_source], Key.sp s v ≠ .sp name w := by
      intro w hw e
      obtain ⟨rfl, rfl⟩ := Key.sp.inj e
      exact hk ⟨rfl, hw⟩
    rw [a7 _ hk', b7 _ hk', hmir.2 _ _ hne]

/-! ## Concrete runs -/

section
open Hermes.Runs

/-- What the component reads and sets. -/
def access (name : String) : Access where
  found k := k ∈ [Key.sp name .AA, .sp name .density, .sp name .pressure, .sp name .temperature]
  own k := k = .sp name .energy_source
  edge k := k ∈ [Key.sp name .density, .sp name .pressure, .sp name .temperature, .sp name .velocity, .sp name .momentum]
  num k := k = .sp name .AA

theorem runs_neutral (o : NeutralOpts) (m : RMesh ι) (name : String) : Runs (access name) (neutralBoundary o m name) := by
  have hnb : ∀ v, v ≠ .energy_source → ∀ d : Fld ι, Runs (access name) (readNB (.sp name v) d) := fun v hv d =>
    Runs.ifSet (tests_isSetNB (by intro e; exact hv (Key.sp.inj e).2))
      (runs_getNB (Or.inr rfl) (by intro e; exact hv (Key.sp.inj e).2)) (Runs.pure _)
  have hsb : ∀ v, v ∈ [Var.velocity, .momentum] → ∀ f : Fld ι, Runs (access name) (setBoundaryIfSetNB (.sp name v) f) := by
    intro v hv f
    have h1 : v ≠ .energy_source := by rintro rfl; revert hv; decide
    have h2 : v ≠ .AA := by rintro rfl; revert hv; decide
    refine Runs.ifSet (tests_isSetNB (by intro e; exact h1 (Key.sp.inj e).2)) (runs_setBoundary ?_ (by intro e; exact h2 (Key.sp.inj e).2))
      (Runs.pure _)
    simp only [List.mem_cons, List.not_mem_nil, or_false] at hv
    rcases hv with rfl | rfl <;> simp [access, Access.knowing]
  unfold neutralBoundary
  refine Runs.bind (runs_getR (by simp [access]) rfl (by simp [access]) (by simp [access])) fun AA => ?_
  refine Runs.bind (runs_getNB (by simp [access]) (by simp [access])) fun Nn => ?_
  refine Runs.bind (runs_getNB (by simp [access]) (by simp [access])) fun Pn => ?_
  refine Runs.bind (runs_getNB (by simp [access]) (by simp [access])) fun Tn => ?_
  refine Runs.bind (hnb _ (by decide) _) fun Vn => Runs.bind (hnb _ (by decide) _) fun NVn => Runs.bind runs_readSource fun es => ?_
  refine Runs.bind (runs_setBoundary (by simp [access]) (by simp [access])) fun _ => ?_
  refine Runs.bind (runs_setBoundary (by simp [access]) (by simp [access])) fun _ => ?_
  refine Runs.bind (runs_setBoundary (by simp [access]) (by simp [access])) fun _ => ?_
  refine Runs.bind (hsb _ (by decide) _) fun _ => Runs.bind (hsb _ (by decide) _) fun _ => ?_
  exact runs_set rfl (by simp [access])

/-- The default options (temperatures in eV). -/
noncomputable def defaults : NeutralOpts := ⟨true, true, false, false, 0.75, 0.75, 0.75, 0.8, 0.8, 0.8, 1⟩

/-- Gas of density 1 and temperature `T`, moving with velocity 1. -/
noncomputable def gas (T : ℝ) : Store Key (Value (Fin 3 × Fin 6)) := stateOf fun s x =>
  if s = "h" then
    match x with
    | .AA => some (.real 1)
    | .density => some (.field fun _ => 1)
    | .temperature => some (.field fun _ => T)
    | .pressure => some (.field fun _ => T)
    | .velocity => some (.field fun _ => 1)
    | _ => none
  else none

theorem gas_fit (T : ℝ) : Fit (access "h") (gas T) := by
  refine ⟨?_, ?_, fun k _ => ?_, fun k _ => ?_⟩
  · rintro k rfl x hx
    exact ⟨1, (Option.some.inj hx).symm⟩
  · intro k hk
    simp only [access, List.mem_cons, List.not_mem_nil, or_false] at hk
    rcases hk with rfl | rfl | rfl | rfl <;> rfl
  · cases k <;> exact ⟨rfl, rfl⟩
  · cases k <;> rfl

theorem gas_run (T : ℝ) : ∃ st', neutralBoundary defaults (box 0) "h" (gas T) = (.ok (), st') := by
  obtain ⟨_, st', h, -⟩ := runs_neutral defaults (box 0) "h" _ (gas_fit T)
  exact ⟨st', h⟩

/-- The hypotheses of the theorems above are met: with the default options, gas of 1 eV is cooled. -/
example : ∃ st', neutralBoundary defaults (box 0) "h" (gas 1) = (.ok (), st') ∧ Normal defaults (box 0) (gas 1) "h" ∧
    MeshOk (box 0).toYMesh ∧ HotEnough defaults (box 0) (fieldOf st' "h" .temperature) (1, 4) := by
  obtain ⟨st', h⟩ := gas_run 1
  refine ⟨st', h, ⟨by norm_num [defaults], ?_, ?_, fun i => by norm_num [box], fun i => ?_, fun i => ?_⟩, box_ok 0, ?_⟩
  · simp only [defaults, List.mem_cons, List.not_mem_nil, or_false]
    rintro R (rfl | rfl | rfl) <;> norm_num
  · simp only [defaults, List.mem_cons, List.not_mem_nil, or_false]
    rintro R (rfl | rfl | rfl) <;> norm_num
  · show (0 : ℝ) ≤ 1; norm_num
  · show (0 : ℝ) ≤ 1; norm_num
  · have ht : ∀ j, fieldOf st' "h" .temperature j = 1 := by
      intro j
      obtain ⟨h1, -, h3, -⟩ := neutral_no_flow (box_ok 0) h
      by_cases hj : ∀ u i inn, ¬ Target (box 0).toYMesh defaults.lower_y defaults.upper_y u i j inn
      · rw [h3 .temperature (by decide) j hj]; rfl
      · push Not at hj
        obtain ⟨u, i, inn, ht⟩ := hj
        obtain ⟨a, b⟩ := h1 .temperature (by decide) ht
        rw [a, b]; rfl
    simp only [HotEnough, defaults, List.mem_cons, List.not_mem_nil, or_false, face, ht, NeutralOpts.TFC]
    rintro R (rfl | rfl | rfl) f (rfl | rfl | rfl) g <;> norm_num

/-- C43 is violated: with the default options the wall heats gas which is colder than 0.75 eV, here 0.5 eV: the thermally
reflected particles get 3 eV whatever they brought. -/
theorem cold_gas_is_heated : ∃ st', neutralBoundary defaults (box 0) "h" (gas 0.5) = (.ok (), st') ∧
    fieldOf (gas 0.5) "h" .energy_source (1, 4) < fieldOf st' "h" .energy_source (1, 4) := by
  obtain ⟨st', h⟩ := gas_run 0.5
  refine ⟨st', h, ?_⟩
  rw [neutral_energy (box_ok 0) (box_edge 0).1 (box_edge 0).2 h]
  obtain ⟨h1, -⟩ := neutral_no_flow (box_ok 0) h
  have hl : ¬(((1 : Fin 3), (4 : Fin 6)) ∈ (box 0).lower) := by show ¬_ ∈ [((1 : Fin 3), (1 : Fin 6))]; decide
  have hu : ((1 : Fin 3), (4 : Fin 6)) ∈ (box 0).upper := List.mem_singleton.2 rfl
  have ht : Target (box 0).toYMesh defaults.lower_y defaults.upper_y true (1, 4) ((box 0).yp (1, 4)) ((box 0).ym (1, 4)) :=
    .upper rfl hu
  unfold overWalls
  rw [if_neg (fun hh => hl hh.2), if_pos ⟨rfl, hu⟩, if_neg (fun hh => by cases hh.1), if_neg (fun hh => by cases hh.1)]
  obtain ⟨a, b⟩ := h1 .density (by decide) ht
  obtain ⟨a', b'⟩ := h1 .temperature (by decide) ht
  have e1 : face (fieldOf st' "h" .density) (1, 4) ((box 0).yp (1, 4)) = 1 := by
    unfold face; rw [a, b]
    show ((1 : ℝ) + 1) / 2 = 1
    norm_num
  have e2 : face (fieldOf st' "h" .temperature) (1, 4) ((box 0).yp (1, 4)) = 0.5 := by
    unfold face; rw [a', b']
    show ((0.5 : ℝ) + 0.5) / 2 = 0.5
    norm_num
  have e3 : realOf (gas 0.5) "h" .AA = 1 := rfl
  dsimp only
  rw [e1, e2, e3]
  have hlt : ¬ returned 1 defaults.target_energy_refl_factor defaults.target_fast_refl_fraction defaults.TFC 1 0.5 ≤ incident 1 1 0.5 := by
    rw [returned_le_iff one_pos (by norm_num) one_pos]
    norm_num [defaults, NeutralOpts.TFC]
  have hta : targetArea (box 0) (1, 4) ((box 0).yp (1, 4)) = 1 := by unfold targetArea; norm_num [box]
  have hvol : cellVolume (box 0) (1, 4) = 1 := by unfold cellVolume; norm_num [box]
  unfold lossAt
  rw [hta, hvol]
  linarith

end

end Hermes.NeutralBoundary
