import Verif.Props.SheathMirror
import Verif.Model.SheathSimple

/-!
# `NoFlowBoundary`: nothing flows through the boundary (C11), guard values (C35) and mirror symmetry (C39)
-/

set_option linter.unusedSectionVars false

namespace Hermes.NoFlow
open Hermes.Closures Hermes.Sheath

variable {ι : Type} [DecidableEq ι]

theorem noFlowVar_ok {m : YMesh ι} {lo up : Bool} {name : String} {sign : ℝ} {v : Var} {st st' : Store Key (Value ι)} {x : Unit}
    (h : noFlowVar m lo up name sign v st = (.ok x, st')) :
    vals st' = Function.update (vals st) (.sp name v) (ifSet (vals st (.sp name v)) (noFlowField m lo up sign (fieldOf st name v))) := by
  unfold noFlowVar at h
  have h := isSet_bind h
  rw [← update_ifSet]
  split at h <;> rename_i hs
  · rw [if_pos hs]
    obtain ⟨s1, e1, h⟩ := getNoBndryF_bind h
    rw [setBoundary_ok h, e1]
  · rw [if_neg hs]
    obtain ⟨-, rfl⟩ := pure_ok h
    rfl

/-- Sign with which variable `v` is continued into the guard cell. -/
noncomputable def sign : Var → ℝ
  | .velocity => -1
  | .momentum => -1
  | _ => 1

/-- What the component does to the state. -/
theorem noFlowBoundary_ok {m : YMesh ι} {lo up : Bool} {name : String} {st st' : Store Key (Value ι)}
    (h : noFlowBoundary m lo up name st = (.ok (), st')) :
    (∀ v ∈ [Var.density, .temperature, .pressure, .velocity, .momentum],
      vals st' (.sp name v) = ifSet (vals st (.sp name v)) (noFlowField m lo up (sign v) (fieldOf st name v))) ∧
    ∀ k, (∀ v ∈ [Var.density, .temperature, .pressure, .velocity, .momentum], k ≠ .sp name v) → vals st' k = vals st k := by
  unfold noFlowBoundary at h
  simp only [List.forM_eq_forM, List.forM_cons, List.forM_nil] at h
  obtain ⟨_, s3, h123, h⟩ := M_bind_ok h
  obtain ⟨_, s1, h1, h123⟩ := M_bind_ok h123
  obtain ⟨_, s2, h2, h123⟩ := M_bind_ok h123
  obtain ⟨_, s3', h3, h123⟩ := M_bind_ok h123
  obtain ⟨-, rfl⟩ := pure_ok h123
  obtain ⟨_, s4, h4, h⟩ := M_bind_ok h
  obtain ⟨_, s5, h5, h⟩ := M_bind_ok h
  obtain ⟨-, rfl⟩ := pure_ok h
  have e1 := noFlowVar_ok h1
  have e2 := noFlowVar_ok h2
  have e3 := noFlowVar_ok h3
  have e4 := noFlowVar_ok h4
  have e5 := noFlowVar_ok h5
  have kne : ∀ {a b : Var}, a ≠ b → Key.sp name a ≠ Key.sp name b := fun hab e => hab (Key.sp.inj e).2
  have c2 : fieldOf s1 name .temperature = fieldOf st name .temperature :=
    fieldOf_congr (by rw [e1, Function.update_of_ne (kne (by decide))])
  have c3 : fieldOf s2 name .pressure = fieldOf st name .pressure :=
    fieldOf_congr (by rw [e2, Function.update_of_ne (kne (by decide)), e1, Function.update_of_ne (kne (by decide))])
  have c4 : fieldOf s3 name .velocity = fieldOf st name .velocity :=
    fieldOf_congr (by rw [e3, Function.update_of_ne (kne (by decide)), e2, Function.update_of_ne (kne (by decide)), e1,
      Function.update_of_ne (kne (by decide))])
  have c5 : fieldOf s4 name .momentum = fieldOf st name .momentum :=
    fieldOf_congr (by rw [e4, Function.update_of_ne (kne (by decide)), e3, Function.update_of_ne (kne (by decide)), e2,
      Function.update_of_ne (kne (by decide)), e1, Function.update_of_ne (kne (by decide))])
  rw [c2] at e2; rw [c3] at e3; rw [c4] at e4; rw [c5] at e5
  refine ⟨fun v hv => ?_, fun k hk => ?_⟩
  · simp only [List.mem_cons, List.not_mem_nil, or_false] at hv
    rw [e5, e4, e3, e2, e1]
    rcases hv with rfl | rfl | rfl | rfl | rfl
    all_goals simp only [Function.update_apply, Key.sp.injEq, reduceCtorEq, and_false, if_false, if_true, and_self, sign]
  · rw [e5, Function.update_of_ne (hk _ (by decide)), e4, Function.update_of_ne (hk _ (by decide)), e3,
      Function.update_of_ne (hk _ (by decide)), e2, Function.update_of_ne (hk _ (by decide)), e1,
      Function.update_of_ne (hk _ (by decide))]

/-! ## The loops -/

theorem noFlowField_sweep (m : YMesh ι) (lo up : Bool) (c : ℝ) (f g : Fld ι) :
    noFlowField m lo up c f = (bothEnds m lo up (fun _ x _ => (c * x, 0)) (fun _ x _ => (c * x, 0)) (f, g)).1 := by
  have key : ∀ (guard inner : ι → ι) (pts : List ι) (s : (ι → ℝ) × Fld ι),
      pts.foldl (fun f i => Function.update f (guard i) (c * f i)) s.1 = (sweep guard inner (fun _ x _ => (c * x, 0)) pts s).1 := by
    intro guard inner pts
    induction pts with
    | nil => intro s; rfl
    | cons a l ih =>
      intro s
      unfold sweep at ih ⊢
      rw [List.foldl_cons, List.foldl_cons, ← ih]
  unfold noFlowField bothEnds
  cases lo <;> cases up
  · rfl
  · exact key m.yp m.ym m.upper (f, g)
  · exact key m.ym m.yp m.lower (f, g)
  · show m.upper.foldl _ (m.lower.foldl _ f) = _
    rw [key m.ym m.yp m.lower (f, g)]
    exact key m.yp m.ym m.upper _

theorem noFlowField_target {m : YMesh ι} {lo up : Bool} {c : ℝ} {f : Fld ι} (hm : MeshOk m) {u : Bool} {i g inn : ι}
    (ht : Target m lo up u i g inn) : noFlowField m lo up c f g = c * f i := by
  rw [noFlowField_sweep m lo up c f 0, (bothEnds_target hm ht).1]
  cases u <;> rfl

theorem noFlowField_other {m : YMesh ι} {lo up : Bool} {c : ℝ} {f : Fld ι} {j : ι} (h : ∀ u i inn, ¬ Target m lo up u i j inn) :
    noFlowField m lo up c f j = f j := by
  rw [noFlowField_sweep m lo up c f 0, bothEnds_other h]

/-! ## The properties -/

/-- **C11, C35, C36.**  At every end that is switched on, density, temperature and pressure in the guard cell are those of
the last cell, and velocity and momentum vanish on the face; all other cells are unchanged. -/
theorem noFlow_values {m : YMesh ι} {lo up : Bool} {name : String} (hm : MeshOk m) {st st' : Store Key (Value ι)}
    (h : noFlowBoundary m lo up name st = (.ok (), st')) :
    (∀ v ∈ [Var.density, .temperature, .pressure], (vals st (.sp name v)).isSome →
      ∀ {u i g inn}, Target m lo up u i g inn → fieldOf st' name v g = fieldOf st' name v i) ∧
    (∀ v ∈ [Var.velocity, .momentum], (vals st (.sp name v)).isSome →
      ∀ {u i g inn}, Target m lo up u i g inn → face (fieldOf st' name v) i g = 0) ∧
    (∀ v ∈ [Var.density, .temperature, .pressure, .velocity, .momentum],
      ∀ j, (∀ u i inn, ¬ Target m lo up u i j inn) → fieldOf st' name v j = fieldOf st name v j) ∧
    ∀ k, (∀ v ∈ [Var.density, .temperature, .pressure, .velocity, .momentum], k ≠ .sp name v) → vals st' k = vals st k := by
  obtain ⟨hv, ho⟩ := noFlowBoundary_ok h
  have key : ∀ v ∈ [Var.density, .temperature, .pressure, .velocity, .momentum], (vals st (.sp name v)).isSome →
      fieldOf st' name v = noFlowField m lo up (sign v) (fieldOf st name v) := by
    intro v hmem hs
    exact fieldOf_ifSet (hv v hmem) hs
  have hi : ∀ {u i g inn}, Target m lo up u i g inn → ∀ c f, noFlowField m lo up c f i = f i := fun ht c f =>
    noFlowField_other fun _ _ _ h' => (h'.ne hm ht).1 rfl
  refine ⟨fun v hmem hs u i g inn ht => ?_, fun v hmem hs u i g inn ht => ?_, fun v hmem j hj => ?_, ho⟩
  · have hmem' : v ∈ [Var.density, .temperature, .pressure, .velocity, .momentum] := by
      simp only [List.mem_cons, List.not_mem_nil, or_false] at hmem ⊢; tauto
    rw [key v hmem' hs, noFlowField_target hm ht, hi ht]
    simp only [List.mem_cons, List.not_mem_nil, or_false] at hmem
    rcases hmem with rfl | rfl | rfl <;> simp [sign]
  · have hmem' : v ∈ [Var.density, .temperature, .pressure, .velocity, .momentum] := by
      simp only [List.mem_cons, List.not_mem_nil, or_false] at hmem ⊢; tauto
    unfold face
    rw [key v hmem' hs, noFlowField_target hm ht, hi ht]
    simp only [List.mem_cons, List.not_mem_nil, or_false] at hmem
    rcases hmem with rfl | rfl <;> simp [sign]
  · by_cases hs : (vals st (.sp name v)).isSome
    · rw [key v hmem hs, noFlowField_other hj]
    · have e := hv v hmem
      unfold ifSet at e
      rw [if_neg hs] at e
      have e' : vals st (.sp name v) = none := by
        cases hh : vals st (.sp name v) with
        | none => rfl
        | some x => rw [hh] at hs; exact absurd rfl hs
      exact congrFun (fieldOf_congr (by rw [e, e'])) j

theorem noFlowField_mirror {m : YMesh ι} {lo up : Bool} {c d : ℝ} (hm : MeshOk m) (f : Fld ι) :
    noFlowField m.mirror up lo c (fun j => d * f j) = fun j => d * noFlowField m lo up c f j := by
  funext j
  by_cases hj : ∀ u i inn, ¬ Target m lo up u i j inn
  · rw [noFlowField_other hj, noFlowField_other fun u i inn h' => hj _ _ _ (Target.of_mirror h')]
  · push Not at hj
    obtain ⟨u, i, inn, ht⟩ := hj
    rw [noFlowField_target hm ht, noFlowField_target hm.mirror ht.mirror]
    ring

/-- **C39.**  Running the component on the mirrored state, with the two ends of the mesh exchanged, gives the mirrored
result. -/
theorem noFlow_mirror {m : YMesh ι} {lo up : Bool} {name : String} (hm : MeshOk m) {st st2 st' st2' : Store Key (Value ι)}
    (hmir : Mirrored st st2) (h : noFlowBoundary m lo up name st = (.ok (), st'))
    (h2 : noFlowBoundary m.mirror up lo name st2 = (.ok (), st2')) : Mirrored st' st2' := by
  obtain ⟨hv, ho⟩ := noFlowBoundary_ok h
  obtain ⟨hv2, ho2⟩ := noFlowBoundary_ok h2
  refine ⟨fun n => ?_, fun s v hne => ?_⟩
  · rw [ho _ (by intros; intro e; cases e), ho2 _ (by intros; intro e; cases e), hmir.1]
  by_cases hk : s = name ∧ v ∈ [Var.density, .temperature, .pressure, .velocity, .momentum]
  · obtain ⟨rfl, hmem⟩ := hk
    rw [hv v hmem, hv2 v hmem]
    have hm2 := hmir.2 s v hne
    by_cases hd : directed v
    · rw [if_pos hd] at hm2 ⊢
      cases e : vals st (.sp s v) with
      | none => rw [e] at hm2; rw [hm2]; rfl
      | some x =>
        rw [e] at hm2
        have hf : fieldOf st2 s v = fun j => -1 * fieldOf st s v j := by
          funext j
          unfold fieldOf
          rw [hm2, e]
          cases x <;> simp [Value.rev, asField]
        rw [hm2, hf, noFlowField_mirror hm]
        unfold ifSet
        simp only [Option.map_some, Option.isSome_some, if_true, Value.rev, neg_mul, one_mul]
        rfl
    · rw [if_neg hd] at hm2 ⊢
      rw [hm2]
      have hf : fieldOf st2 s v = fieldOf st s v := fieldOf_congr hm2
      have := noFlowField_mirror (lo := lo) (up := up) (c := sign v) (d := 1) hm (fieldOf st s v)
      simp only [one_mul] at this
      rw [hf]
      congr 1
  · have hk' : ∀ w ∈ [Var.density, .temperature, .pressure, .velocity, .momentum], Key.sp s v ≠ .sp name w := by
      intro w hw e
      obtain ⟨rfl, rfl⟩ := Key.sp.inj e
      exact hk ⟨rfl, hw⟩
    rw [ho _ hk', ho2 _ hk', hmir.2 _ _ hne]

/-- The hypotheses are met: one field line, both ends. -/
example : ∃ st', noFlowBoundary (ι := Fin 6) ⟨fun i => i - 1, fun i => i + 1, [1], [4], 1, 1, 1, 1, 1⟩ true true "h"
    (stateOf fun s v => if s = "h" ∧ v = .velocity then some (.field fun i => i.val) else none) = (.ok (), st') := by
  exact ⟨_, rfl⟩

end Hermes.NoFlow
