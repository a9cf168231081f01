import Verif.Props.PIControllers
import Verif.Props.Detachment
import Verif.Props.Restart

/-!
# C84: what the time integrator tries

An implicit integrator evaluates the right-hand side at the same time for many states (iterations, columns of the Jacobian).  Components with a memory (controllers,
potentials with boundaries that relax) must not give other derivatives to the same state.
-/

namespace Hermes.Evaluations
open Hermes

/-! ## Specification -/

/-- Something with a memory that is evaluated again and again: `σ` is what one evaluation gets, `ρ` what it gives. -/
structure Stateful (σ ρ : Type) where
  Mem : Type
  step : Mem → σ → Mem × ρ

variable {σ ρ ρ' : Type}

/-- The memory after a list of evaluations. -/
def Stateful.after (c : Stateful σ ρ) (m : c.Mem) (l : List σ) : c.Mem := l.foldl (fun m y => (c.step m y).1) m

/-- What an evaluation gives. -/
def Stateful.value (c : Stateful σ ρ) (m : c.Mem) (y : σ) : ρ := (c.step m y).2

/-- Evaluating again gives the same, any number of times. -/
def Repeats (c : Stateful σ ρ) : Prop := ∀ m y n, c.value (c.after m (List.replicate n y)) y = c.value m y

/-- After the first evaluation at a time, evaluations at this time do not change what others at this time give. -/
def Settles (time : σ → ℝ) (c : Stateful σ ρ) : Prop :=
  ∀ m first l y, (∀ z ∈ l, time z = time first) → time y = time first → c.value (c.after m (first :: l)) y = c.value (c.after m [first]) y

/-- The value depends on the time and the state only, not on evaluations before. -/
def Memoryless (c : Stateful σ ρ) : Prop := ∀ m l y, c.value (c.after m l) y = c.value m y

/-! ## Compositions -/

/-- Without memory. -/
def plain (f : σ → ρ) : Stateful σ ρ := ⟨Unit, fun _ y => ((), f y)⟩

/-- `b` gets what `a` got and what it gave; both values are given. -/
def Stateful.andThen (a : Stateful σ ρ) (b : Stateful (σ × ρ) ρ') : Stateful σ (ρ × ρ') :=
  ⟨a.Mem × b.Mem, fun m y => (((a.step m.1 y).1, (b.step m.2 (y, a.value m.1 y)).1), (a.value m.1 y, b.value m.2 (y, a.value m.1 y)))⟩

/-- `b` gets part of the input. -/
def Stateful.of {σ' : Type} (f : σ' → σ) (c : Stateful σ ρ) : Stateful σ' ρ := ⟨c.Mem, fun m y => c.step m (f y)⟩

theorem plain_repeats (f : σ → ρ) : Repeats (plain f) := fun _ _ _ => rfl
theorem plain_settles (time : σ → ℝ) (f : σ → ρ) : Settles time (plain f) := fun _ _ _ _ _ _ => rfl

theorem of_after {σ' : Type} (f : σ' → σ) (c : Stateful σ ρ) (m : c.Mem) (l : List σ') : (c.of f).after m l = c.after m (l.map f) := by
  unfold Stateful.after
  rw [List.foldl_map]
  rfl

theorem of_repeats {σ' : Type} (f : σ' → σ) {c : Stateful σ ρ} (h : Repeats c) : Repeats (c.of f) := by
  intro m y n
  refine (congrArg (fun k => c.value k (f y)) (of_after f c m (List.replicate n y))).trans ?_
  rw [List.map_replicate]
  exact h m (f y) n

theorem of_settles {σ' : Type} (f : σ' → σ) {time : σ → ℝ} {c : Stateful σ ρ} (h : Settles time c) : Settles (fun y => time (f y)) (c.of f) := by
  intro m first l y hl hy
  refine (congrArg (fun k => c.value k (f y)) (of_after f c m (first :: l))).trans ?_
  refine Eq.trans ?_ (congrArg (fun k => c.value k (f y)) (of_after f c m [first])).symm
  refine h m (f first) (l.map f) (f y) (fun z hz => ?_) hy
  obtain ⟨z', hz', rfl⟩ := List.mem_map.1 hz
  exact hl z' hz'

/-- What `b` gets, when the evaluations `l` are made. -/
def Stateful.inputs (a : Stateful σ ρ) : a.Mem → List σ → List (σ × ρ)
  | _, [] => []
  | m, y :: l => (y, a.value m y) :: a.inputs (a.step m y).1 l

theorem andThen_after (a : Stateful σ ρ) (b : Stateful (σ × ρ) ρ') (m : a.Mem) (m' : b.Mem) (l : List σ) :
    (a.andThen b).after (m, m') l = (a.after m l, b.after m' (a.inputs m l)) := by
  induction l generalizing m m' with
  | nil => rfl
  | cons y l ih => exact ih _ _

theorem inputs_replicate (a : Stateful σ ρ) (h : Repeats a) (m : a.Mem) (y : σ) (n : ℕ) :
    a.inputs m (List.replicate n y) = List.replicate n (y, a.value m y) := by
  induction n generalizing m with
  | zero => rfl
  | succ n ih =>
    rw [List.replicate_succ, List.replicate_succ, Stateful.inputs, ih]
    have : a.value (a.step m y).1 y = a.value m y := h m y 1
    rw [this]

/-- **C84.**  A sequence of components that repeat repeats. -/
theorem andThen_repeats {a : Stateful σ ρ} {b : Stateful (σ × ρ) ρ'} (ha : Repeats a) (hb : Repeats b) : Repeats (a.andThen b) := by
  rintro ⟨m, m'⟩ y n
  rw [andThen_after, inputs_replicate a ha]
  show (a.value (a.after m _) y, b.value _ (y, a.value (a.after m _) y)) = (a.value m y, b.value m' (y, a.value m y))
  rw [ha m y n]
  exact congrArg (Prod.mk _) (hb _ _ _)

theorem inputs_time (a : Stateful σ ρ) (time : σ → ℝ) {t : ℝ} (l : List σ) (m : a.Mem) (h : ∀ z ∈ l, time z = t) :
    ∀ z ∈ a.inputs m l, time z.1 = t := by
  induction l generalizing m with
  | nil => exact fun z hz => absurd hz (List.not_mem_nil)
  | cons y l ih =>
    intro z hz
    rcases List.mem_cons.1 hz with rfl | hz
    · exact h _ List.mem_cons_self
    · exact ih _ (fun z hz => h z (List.mem_cons_of_mem _ hz)) z hz

/-- **C84.**  A sequence of components that settle settles. -/
theorem andThen_settles {time : σ → ℝ} {a : Stateful σ ρ} {b : Stateful (σ × ρ) ρ'} (ha : Settles time a) (hb : Settles (fun y => time y.1) b) :
    Settles time (a.andThen b) := by
  rintro ⟨m, m'⟩ first l y hl hy
  rw [andThen_after, andThen_after]
  show (a.value (a.after m (first :: l)) y, b.value _ (y, a.value (a.after m (first :: l)) y)) =
    (a.value (a.after m [first]) y, b.value _ (y, a.value (a.after m [first]) y))
  rw [ha m first l y hl hy]
  exact congrArg (Prod.mk _) (hb m' (first, a.value m first) (a.inputs (a.step m first).1 l) (y, _) (inputs_time a time l _ hl) hy)

/-- If evaluating twice gives the same and the component settles, it repeats. -/
theorem repeats_of_settles {time : σ → ℝ} {c : Stateful σ ρ} (hs : Settles time c) (h1 : ∀ m y, c.value (c.after m [y]) y = c.value m y) : Repeats c := by
  intro m y n
  cases n with
  | zero => rfl
  | succ n =>
    rw [List.replicate_succ, hs m y _ y (fun z hz => by rw [List.eq_of_mem_replicate hz]) rfl]
    exact h1 m y

/-! ## Controllers -/

/-- A proportional-integral controller: time and measured value, multiplier of the source. -/
noncomputable def piController (o : PIOpts) : Stateful (ℝ × ℝ) (Option ℝ) :=
  ⟨PI, fun c y => (piStep o c y.1 y.2, (piStep o c y.1 y.2).multiplier)⟩

theorem pi_integral (o : PIOpts) (c : PI) {t : ℝ} (v : ℝ) (l : List (ℝ × ℝ)) (hl : ∀ z ∈ l, z.1 = t) :
    ((piController o).after (piStep o c t v) l).integral = (piStep o c t v).integral := by
  induction l generalizing c v with
  | nil => rfl
  | cons z l ih =>
    obtain ⟨s, w⟩ := z
    obtain rfl : s = t := hl _ List.mem_cons_self
    have := ih (piStep o c s v) w fun z hz => hl z (List.mem_cons_of_mem _ hz)
    exact this.trans (Controllers.same_time_same_integral o c s v w)

theorem pi_last (o : PIOpts) (c : PI) {t : ℝ} (v : ℝ) (l : List (ℝ × ℝ)) (hl : ∀ z ∈ l, z.1 = t) :
    ((piController o).after (piStep o c t v) l).lasttime = t := by
  induction l generalizing c v with
  | nil => rfl
  | cons z l ih =>
    obtain ⟨s, w⟩ := z
    obtain rfl : s = t := hl _ List.mem_cons_self
    exact ih (piStep o c s v) w fun z hz => hl z (List.mem_cons_of_mem _ hz)

/-- The integral of a controller that was last evaluated at this time. -/
theorem pi_same_time (o : PIOpts) {c : PI} {t : ℝ} (h : c.lasttime = t) (v : ℝ) :
    (piStep o c t v).integral = if o.integral_positive = true then max c.integral 0 else c.integral := by
  rw [Controllers.piStep_integral]
  have : Controllers.raw o c t v = c.integral := by
    unfold Controllers.raw
    rw [h, sub_self]
    simp
  rw [this]

/-- **C84.**  Controllers of density and temperature settle. -/
theorem pi_settles (o : PIOpts) : Settles Prod.fst (piController o) := by
  rintro c ⟨t, v⟩ l ⟨t', w⟩ hl ht
  obtain rfl : t' = t := ht
  have key : ∀ d : PI, d.lasttime = t' → d.integral = (piStep o c t' v).integral →
      (piStep o d t' w).multiplier = (piStep o (piStep o c t' v) t' w).multiplier := by
    intro d h1 h2
    rw [Controllers.piStep_multiplier, Controllers.piStep_multiplier, pi_same_time o h1, pi_same_time o (Controllers.piStep_lasttime o c t' v), h2]
  exact key _ (pi_last o c v l hl) (pi_integral o c v l hl)

/-- **C84.**  They repeat. -/
theorem pi_repeats (o : PIOpts) : Repeats (piController o) :=
  repeats_of_settles (pi_settles o) fun c y => congrArg PI.multiplier (Controllers.same_evaluation o c y.1 y.2)

/-- Only the integral, without limits. -/
noncomputable def integralOnly : PIOpts := ⟨0, 0, 1, false, false⟩

theorem integralOnly_value (a b : ℝ) : (piStep integralOnly (piStep integralOnly (piStep integralOnly (piStep integralOnly .fresh 0 0) 1 a) 1 b) 1 0).multiplier =
    some (-a / 2) := by
  have i1 : (piStep integralOnly .fresh 0 0).integral = 0 := by
    rw [Controllers.piStep_integral]
    norm_num [Controllers.raw, PI.fresh, integralOnly]
  have i2 : (piStep integralOnly (piStep integralOnly .fresh 0 0) 1 a).integral = -a / 2 := by
    rw [Controllers.piStep_integral]
    unfold Controllers.raw
    rw [Controllers.piStep_lasttime, Controllers.piStep_last, i1]
    norm_num [integralOnly]
  rw [Controllers.piStep_multiplier, Controllers.same_time_same_integral, Controllers.same_time_same_integral, i2]
  simp [integralOnly]

theorem pi_three (o : PIOpts) (c : PI) (x y z w : ℝ × ℝ) : (piController o).value ((piController o).after c [x, y, z]) w =
    (piStep o (piStep o (piStep o (piStep o c x.1 x.2) y.1 y.2) z.1 z.2) w.1 w.2).multiplier := rfl

/-- **C84 without restriction fails**: what the controller gives at a time depends on the state that was tried first at that time.  Two histories with the
same evaluations at times 0 and 1, in another order at time 1. -/
theorem pi_depends_on_first_trial {a b : ℝ} (hab : a ≠ b) :
    (piController integralOnly).value ((piController integralOnly).after PI.fresh [(0, 0), (1, a), (1, b)]) (1, 0) ≠
    (piController integralOnly).value ((piController integralOnly).after PI.fresh [(0, 0), (1, b), (1, a)]) (1, 0) := by
  rw [pi_three, pi_three]
  dsimp only
  rw [integralOnly_value, integralOnly_value]
  intro h
  have := Option.some.inj h
  exact hab (by linarith)

/-- The detachment controller: time and position of the front, control (`none` if undefined). -/
noncomputable def detachController (o : DetachOpts) : Stateful (ℝ × ℝ) (Option ℝ) where
  Mem := Option Detach
  step c y := (c.bind fun c => detachStep o c y.1 y.2, (c.bind fun c => detachStep o c y.1 y.2).map Detach.control)

/-- When the controller has reacted at this time it does not react again. -/
theorem detach_once (o : DetachOpts) (ht : 0 < o.min_time_for_change) (he : o.min_error_for_change ≤ 0) {c c' : Detach} {t x : ℝ}
    (h : detachStep o c t x = some c') (y : ℝ) : detachStep o c' t y = some c' := by
  unfold detachStep at h
  split at h
  · rename_i hc
    have : c'.previous_time = t * o.time_normalisation := by
      unfold detachUpdate at h
      simp only at h
      split at h
      · cases h
      · cases h
        rfl
    unfold detachStep
    rw [if_neg]
    rintro ⟨-, h2, -⟩
    rw [this, sub_self] at h2
    linarith
  · rename_i hc
    cases h
    unfold detachStep
    rw [if_neg]
    rintro ⟨h1, h2, -⟩
    exact hc ⟨h1, h2, he.trans (abs_nonneg _)⟩

theorem detach_after (o : DetachOpts) (ht : 0 < o.min_time_for_change) (he : o.min_error_for_change ≤ 0) (c : Option Detach) {t x : ℝ} (l : List (ℝ × ℝ))
    (hl : ∀ z ∈ l, z.1 = t) : (detachController o).after (c.bind fun c => detachStep o c t x) l = c.bind fun c => detachStep o c t x := by
  induction l with
  | nil => rfl
  | cons z l ih =>
    obtain ⟨s, y⟩ := z
    obtain rfl : s = t := hl _ List.mem_cons_self
    have : ((c.bind fun c => detachStep o c s x).bind fun c => detachStep o c s y) = c.bind fun c => detachStep o c s x := by
      cases c with
      | none => rfl
      | some c =>
        show ((detachStep o c s x).bind fun c => detachStep o c s y) = detachStep o c s x
        cases h : detachStep o c s x with
        | none => rfl
        | some c' => exact detach_once o ht he h y
    show (detachController o).after ((c.bind fun c => detachStep o c s x).bind fun c => detachStep o c s y) l = _
    rw [this]
    exact ih fun z hz => hl z (List.mem_cons_of_mem _ hz)

/-- **C84.**  The detachment controller settles with a positive `min_time_for_change` and no `min_error_for_change` (the defaults). -/
theorem detach_settles (o : DetachOpts) (ht : 0 < o.min_time_for_change) (he : o.min_error_for_change ≤ 0) : Settles Prod.fst (detachController o) := by
  rintro c ⟨t, x⟩ l ⟨t', y⟩ hl h
  obtain rfl : t' = t := h
  unfold Stateful.value
  show ((detachController o).step ((detachController o).after (c.bind fun c => detachStep o c t' x) l) _).2 = _
  rw [detach_after o ht he c l hl]
  rfl

/-- **C84.**  It repeats if one of the two is positive. -/
theorem detach_repeats (o : DetachOpts) (h : 0 < o.min_time_for_change ∨ 0 < o.min_error_for_change) : Repeats (detachController o) := by
  rintro c ⟨t, x⟩ n
  have one : ((c.bind fun c => detachStep o c t x).bind fun c => detachStep o c t x) = c.bind fun c => detachStep o c t x := by
    cases c with
    | none => rfl
    | some c =>
      show ((detachStep o c t x).bind fun c => detachStep o c t x) = detachStep o c t x
      cases hs : detachStep o c t x with
      | none => rfl
      | some c' =>
        show detachStep o c' t x = some c'
        have hs' := hs
        unfold detachStep at hs'
        split at hs'
        · have : c'.previous_time = t * o.time_normalisation ∧ c'.previous_error = o.setpoint - x := by
            unfold detachUpdate at hs'
            simp only at hs'
            split at hs'
            · cases hs'
            · cases hs'
              exact ⟨rfl, rfl⟩
          unfold detachStep
          rw [if_neg]
          rintro ⟨-, h2, h3⟩
          rw [this.1, sub_self] at h2
          rw [this.2, sub_self, abs_zero] at h3
          rcases h with h | h <;> linarith
        · cases hs'
          exact hs
  have all : ∀ n, (detachController o).after c (List.replicate (n + 1) (t, x)) = c.bind fun c => detachStep o c t x := by
    intro n
    induction n with
    | zero => rfl
    | succ n ih =>
      rw [List.replicate_succ', Stateful.after, List.foldl_append]
      show ((detachController o).step ((detachController o).after c (List.replicate (n + 1) (t, x))) (t, x)).1 = _
      rw [ih]
      exact one
  cases n with
  | zero => rfl
  | succ n =>
    rw [all]
    exact congrArg (Option.map Detach.control) one

/-- **C84 fails with a `min_error_for_change`**: an evaluation that is held can be followed by one at the same time that is not, and then the first one would
give another control. -/
theorem detach_does_not_settle : ∃ o : DetachOpts, Detachment.Sensible o ∧ 0 < o.min_time_for_change ∧ 0 < o.min_error_for_change ∧
    ¬Settles Prod.fst (detachController o) := by
  let o : DetachOpts := { Detachment.demo with min_error_for_change := 1, min_time_for_change := 1 / 2, derivative_time := 0 }
  refine ⟨o, ⟨by simp [o, Detachment.demo], by simp [o, Detachment.demo], by simp [o, Detachment.demo]⟩, by simp [o], by simp [o], fun h => ?_⟩
  have h1 : detachStep o (.fresh o) 1 5 = some (.fresh o) := Detachment.held (by norm_num [Detachment.Updates, o, Detachment.demo, Detach.fresh])
  have hu : Detachment.Updates o (.fresh o) 1 3 := by norm_num [Detachment.Updates, o, Detachment.demo, Detach.fresh]
  obtain ⟨c', h2⟩ := Detachment.update_defined (o := o) ⟨by simp [o, Detachment.demo], by simp [o, Detachment.demo], by simp [o, Detachment.demo]⟩ (.fresh o) 1 3
  have h3 : c'.control = 2 := by
    rw [(Detachment.response hu h2).2.2.1 rfl]
    norm_num [Detachment.limited, Detachment.rate, o, Detachment.demo, Detach.fresh]
  have h4 : detachStep o c' 1 5 = some c' := by
    refine Detachment.held ?_
    have e : c'.previous_time = 1 * o.time_normalisation := by
      rw [Detachment.step_update hu] at h2
      unfold detachUpdate at h2
      dsimp only at h2
      split at h2
      · cases h2
      · cases h2
        rfl
    rintro ⟨-, h, -⟩
    rw [e, sub_self] at h
    norm_num [o] at h
  have := h (some (.fresh o)) (1, 5) [(1, 3)] (1, 5) (by simp) rfl
  have l : (detachController o).value ((detachController o).after (some (.fresh o)) [(1, 5), (1, 3)]) (1, 5) = some 2 := by
    show ((((some (Detach.fresh o)).bind fun c => detachStep o c 1 5).bind fun c => detachStep o c 1 3).bind fun c => detachStep o c 1 5).map Detach.control = _
    rw [Option.bind_some, h1, Option.bind_some, h2, Option.bind_some, h4, Option.map_some, h3]
  have r : (detachController o).value ((detachController o).after (some (.fresh o)) [(1, 5)]) (1, 5) = some 1 := by
    show (((some (Detach.fresh o)).bind fun c => detachStep o c 1 5).bind fun c => detachStep o c 1 5).map Detach.control = _
    rw [Option.bind_some, h1, Option.bind_some, h1]
    rfl
  rw [l, r] at this
  norm_num at this

/-! ## Potential -/

open PhiBoundary Restart

/-- An evaluation of the potential with a solver that sets the boundary values of the initial guess, and uses nothing else of it, at a time that is not negative. -/
structure PhiInput (m : XMesh) where
  call : PhiCall
  solver : SolverOk m call.solve
  guess : OnlyBoundary m call.solve
  time : 0 ≤ call.time

/-- The potential with relaxing boundaries. -/
noncomputable def potential (m : XMesh) (o : PhiOpts) (np : ℕ) : Stateful (PhiInput m) XYZ :=
  ⟨PhiState, fun s c => (phiCall m o np s c.call, (phiCall m o np s c.call).phi)⟩

/-- Same boundary values. -/
def SameEdges (m : XMesh) (f g : XYZ) : Prop := ∀ s, Has m s → ∀ j ∈ m.js, ∀ k, k < m.LocalNz → edge f s.g s.x j k = edge g s.g s.x j k

theorem solvePhi_congr {m : XMesh} (hm : MeshOk m) {solve : XYZ → XYZ} (hb : OnlyBoundary m solve) (Pi : XYZ) {f g : XYZ} (h : SameEdges m f g) :
    solvePhi m solve Pi f = solvePhi m solve Pi g := by
  have : solve (shiftBoundaries m fun x j k => f x j k + Pi x j k) = solve (shiftBoundaries m fun x j k => g x j k + Pi x j k) := by
    refine hb _ _ fun s hs j hj k hk => ?_
    rw [shiftBoundaries_ok hm _ hs hj hk, shiftBoundaries_ok hm _ hs hj hk]
    have := h s hs j hj k hk
    unfold edge at this ⊢
    linarith
  unfold solvePhi
  simp only
  rw [this]

theorem relaxPhi_held {m : XMesh} {o : PhiOpts} {np : ℕ} {others t : ℝ} {s : PhiState} (h0 : 0 ≤ s.last) (h : t ≤ s.last) :
    relaxPhi m o np others t s = s := by
  unfold relaxPhi
  rw [if_neg (not_lt.2 h0), if_neg (not_lt.2 h)]

theorem phi_last {m : XMesh} (o : PhiOpts) (np : ℕ) (s : PhiState) (c : PhiInput m) :
    0 ≤ (phiCall m o np s c.call).last ∧ c.call.time ≤ (phiCall m o np s c.call).last := by
  unfold phiCall relaxPhi
  dsimp only
  split
  · exact ⟨c.time, le_refl _⟩
  · rename_i h
    split
    · exact ⟨c.time, le_refl _⟩
    · rename_i h'
      exact ⟨not_lt.1 h, not_lt.1 h'⟩

theorem phi_after {m : XMesh} (hm : MeshOk m) (o : PhiOpts) (np : ℕ) {s : PhiState} (h0 : 0 ≤ s.last) (l : List (PhiInput m))
    (hl : ∀ z ∈ l, z.call.time ≤ s.last) :
    ((potential m o np).after s l).last = s.last ∧ SameEdges m ((potential m o np).after s l).phi s.phi := by
  induction l generalizing s with
  | nil => exact ⟨rfl, fun _ _ _ _ _ _ => rfl⟩
  | cons c l ih =>
    have e : ∀ sd, Has m sd → ∀ j ∈ m.js, ∀ k, k < m.LocalNz →
        (phiCall m o np s c.call).last = s.last ∧ edge (phiCall m o np s c.call).phi sd.g sd.x j k = edge s.phi sd.g sd.x j k :=
      fun sd hs j hj k hk => (call_ok hm o np s c.solver hs hj hk).2.1 h0 (hl c List.mem_cons_self)
    have e1 : (phiCall m o np s c.call).last = s.last := by
      unfold phiCall
      rw [relaxPhi_held h0 (hl c List.mem_cons_self)]
    obtain ⟨a, b⟩ := ih (s := phiCall m o np s c.call) (e1 ▸ h0) fun z hz => e1 ▸ hl z (List.mem_cons_of_mem _ hz)
    exact ⟨a.trans e1, fun sd hs j hj k hk => (b sd hs j hj k hk).trans (e sd hs j hj k hk).2⟩

/-- **C84.**  The potential settles. -/
theorem potential_settles {m : XMesh} (hm : MeshOk m) (o : PhiOpts) (np : ℕ) : Settles (fun c : PhiInput m => c.call.time) (potential m o np) := by
  intro s first l y hl hy
  obtain ⟨h0, h1⟩ := phi_last o np s first
  obtain ⟨a, b⟩ := phi_after hm o np h0 l fun z hz => (hl z hz).le.trans h1
  have key : ∀ d : PhiState, d.last = (phiCall m o np s first.call).last → SameEdges m d.phi (phiCall m o np s first.call).phi →
      (phiCall m o np d y.call).phi = (phiCall m o np (phiCall m o np s first.call) y.call).phi := by
    intro d hd he
    unfold phiCall
    rw [relaxPhi_held (by rw [hd]; exact h0) (by rw [hd]; exact hy.le.trans h1)]
    have := relaxPhi_held (m := m) (o := o) (np := np) (others := y.call.others) h0 (hy.le.trans h1)
    unfold phiCall at this he
    rw [this]
    exact solvePhi_congr hm y.guess _ he
  exact key _ a b

/-- **C84.**  It repeats. -/
theorem potential_repeats {m : XMesh} (hm : MeshOk m) (o : PhiOpts) (np : ℕ) : Repeats (potential m o np) := by
  refine repeats_of_settles (potential_settles hm o np) fun s y => ?_
  obtain ⟨h0, h1⟩ := phi_last o np s y
  have key : ∀ d p : PhiState, d.phi = solvePhi m y.call.solve y.call.Pi_hat p.phi → 0 ≤ d.last → y.call.time ≤ d.last →
      (phiCall m o np d y.call).phi = d.phi := by
    intro d p hd h0 h1
    unfold phiCall
    rw [relaxPhi_held h0 h1]
    dsimp only
    rw [hd]
    exact solvePhi_congr hm y.guess _ fun sd hs j hj k hk => solve_keeps_edge hm y.solver _ _ hs hj hk
  exact key _ (relaxPhi m o np y.call.others y.call.time s) rfl h0 h1

/-! ## Vector potential -/

/-- An evaluation of the vector potential, with a solver that gives the gradients asked for and does not depend on the initial guess. -/
structure AparInput (m : XMesh) (o : AparOpts) where
  call : AparCall
  solver : GradientSolver m o call.solve
  guess : ∀ rhs g g', call.solve rhs g = call.solve rhs g'

/-- The vector potential with `const_gradient`. -/
noncomputable def vectorPotential (m : XMesh) (o : AparOpts) : Stateful (AparInput m o) XYZ :=
  ⟨AparState, fun s c => (aparCall m o s c.call, (aparCall m o s c.call).Apar)⟩

/-- The same gradients are asked for. -/
def SameGradients (m : XMesh) (o : AparOpts) (w w' : ℝ) (A A' : XYZ) : Prop := ∀ s, Has m s → ∀ j ∈ m.js, ∀ k, k < m.LocalNz →
  w * gradient m o A s j k + (1 - w) * inside m o A s j k = w' * gradient m o A' s j k + (1 - w') * inside m o A' s j k

theorem aparRhs_congr {m : XMesh} (hm : MeshOk m) (o : AparOpts) {w w' : ℝ} {A A' : XYZ} (h : SameGradients m o w w' A A') (rhs : XYZ) :
    aparRhs m o w rhs A = aparRhs m o w' rhs A' := by
  have hx0 := hm.x0
  have h1 : m.xstart - 1 + 1 = m.xstart := by omega
  have h2 : m.xstart - 1 + 2 = m.xstart + 1 := by omega
  have h3 : m.xend + 1 - 1 = m.xend := by omega
  have h4 : m.xend + 1 - 2 = m.xend - 1 := by omega
  have loop : ∀ (x : ℕ) (v v' : ℕ → ℕ → ℝ) (f : XYZ), (∀ j ∈ m.js, ∀ k, k < m.LocalNz → v j k = v' j k) →
      m.js.foldl (fun rhs y => m.ks.foldl (fun rhs z => rhs.put x y z (v y z)) rhs) f =
      m.js.foldl (fun rhs y => m.ks.foldl (fun rhs z => rhs.put x y z (v' y z)) rhs) f := by
    intro x v v' f hv
    refine List.foldl_ext _ _ _ fun a j hj => List.foldl_ext _ _ _ fun b k hk => ?_
    rw [hv j hj k (mem_ks.1 hk)]
  unfold aparRhs
  simp only
  have e1 : (if m.firstX then m.js.foldl (fun rhs y => m.ks.foldl (fun rhs z => rhs.put (m.xstart - 1) y z
      ((w * (A (m.xstart - 1 + 1) y z - A (m.xstart - 1) y z) + (1 - w) * (A (m.xstart - 1 + 2) y z - A (m.xstart - 1 + 1) y z))
          / (Real.sqrt (o.g_11 (m.xstart - 1) y) * o.dx (m.xstart - 1) y))) rhs) rhs else rhs) =
      if m.firstX then m.js.foldl (fun rhs y => m.ks.foldl (fun rhs z => rhs.put (m.xstart - 1) y z
      ((w' * (A' (m.xstart - 1 + 1) y z - A' (m.xstart - 1) y z) + (1 - w') * (A' (m.xstart - 1 + 2) y z - A' (m.xstart - 1 + 1) y z))
          / (Real.sqrt (o.g_11 (m.xstart - 1) y) * o.dx (m.xstart - 1) y))) rhs) rhs else rhs := by
    split
    · rename_i hf
      refine loop _ _ _ _ fun j hj k hk => ?_
      have := h (inner m) (Or.inl ⟨rfl, hf⟩) j hj k hk
      simp only [gradient, inside, if_true] at this
      simp only [inner] at this
      rw [h1, h2]
      linear_combination this
    · rfl
  rw [e1]
  split
  · rename_i hl
    refine loop _ _ _ _ fun j hj k hk => ?_
    have := h (outer m) (Or.inr ⟨rfl, hl⟩) j hj k hk
    simp only [gradient, inside, if_neg (inner_ne_outer hm)] at this
    simp only [outer] at this
    rw [h3, h4, div_div, div_div]
    linear_combination this
  · rfl

theorem apar_same {m : XMesh} (hm : MeshOk m) (o : AparOpts) {s s' : AparState} (c : AparInput m o) (h : c.call.time ≤ s.last) (h' : c.call.time ≤ s'.last)
    (hg : ∀ sd, Has m sd → ∀ j ∈ m.js, ∀ k, k < m.LocalNz → gradient m o s.Apar sd j k = gradient m o s'.Apar sd j k) :
    (aparCall m o s c.call).Apar = (aparCall m o s' c.call).Apar := by
  simp only [aparCall]
  rw [if_neg (not_lt.2 h), if_neg (not_lt.2 h'), aparRhs_congr hm o (A := s.Apar) (A' := s'.Apar) (w := 1) (w' := 1) fun sd hs j hj k hk => ?_]
  · exact c.guess _ _ _
  · rw [hg sd hs j hj k hk]
    ring

theorem apar_after {m : XMesh} (hm : MeshOk m) (o : AparOpts) (s : AparState) (l : List (AparInput m o)) (hl : ∀ z ∈ l, z.call.time = s.last) :
    ((vectorPotential m o).after s l).last = s.last ∧ ∀ sd, Has m sd → ∀ j ∈ m.js, ∀ k, k < m.LocalNz →
      gradient m o ((vectorPotential m o).after s l).Apar sd j k = gradient m o s.Apar sd j k := by
  induction l generalizing s with
  | nil => exact ⟨rfl, fun _ _ _ _ _ _ => rfl⟩
  | cons c l ih =>
    have ht := hl c List.mem_cons_self
    obtain ⟨a, b⟩ := ih (aparCall m o s c.call) fun z hz => (hl z (List.mem_cons_of_mem _ hz)).trans ht.symm
    exact ⟨a.trans ht, fun sd hs j hj k hk => (b sd hs j hj k hk).trans ((apar_call hm o s c.solver hs hj hk).2.1 ht.le)⟩

/-- **C84.**  The vector potential settles. -/
theorem apar_settles {m : XMesh} (hm : MeshOk m) (o : AparOpts) : Settles (fun c : AparInput m o => c.call.time) (vectorPotential m o) := by
  intro s first l y hl hy
  obtain ⟨a, b⟩ := apar_after hm o (aparCall m o s first.call) l hl
  have key : ∀ d : AparState, d.last = first.call.time → (∀ sd, Has m sd → ∀ j ∈ m.js, ∀ k, k < m.LocalNz →
      gradient m o d.Apar sd j k = gradient m o (aparCall m o s first.call).Apar sd j k) →
      (aparCall m o d y.call).Apar = (aparCall m o (aparCall m o s first.call) y.call).Apar :=
    fun d hd hg => apar_same hm o y (by rw [hd]; exact hy.le) hy.le hg
  exact key _ a b

/-- **C84.**  It repeats. -/
theorem apar_repeats {m : XMesh} (hm : MeshOk m) (o : AparOpts) : Repeats (vectorPotential m o) := by
  refine repeats_of_settles (apar_settles hm o) fun s y => ?_
  have key : ∀ (d p : AparState) (w : ℝ), d.Apar = y.call.solve (aparRhs m o w y.call.source p.Apar) p.Apar → y.call.time ≤ d.last →
      (aparCall m o d y.call).Apar = d.Apar := by
    intro d p w hd ht
    simp only [aparCall]
    rw [if_neg (not_lt.2 ht), hd, y.guess _ _ p.Apar]
    refine congrArg (fun r => y.call.solve r p.Apar) (aparRhs_congr hm o (fun sd hs j hj k hk => ?_) _)
    rw [y.solver _ _ sd hs j hj k hk, rhs_guard hm o _ _ _ hs hj hk]
    ring
  exact key (aparCall m o s y.call) s _ rfl le_rfl

/-! ## All together -/

/-- A right-hand side with controllers, potential and vector potential.  `density`, `front`, `phiIn`, `aparIn` and `derivatives` are all the rest, which has no
memory: any functions of the state `y` and of what the components before gave. -/
noncomputable def rightHandSide {Y D : Type} (time : Y → ℝ) (o1 : PIOpts) (o2 : DetachOpts) (m : XMesh) (o3 : PhiOpts) (np : ℕ) (o4 : AparOpts)
    (density : Y → ℝ) (front : Y × Option ℝ → ℝ) (phiIn : Y × Option ℝ × Option ℝ → PhiInput m) (aparIn : Y × (Option ℝ × Option ℝ) × XYZ → AparInput m o4)
    (derivatives : Y × ((Option ℝ × Option ℝ) × XYZ) × XYZ → D) : Stateful Y ((((Option ℝ × Option ℝ) × XYZ) × XYZ) × D) :=
  (((((piController o1).of fun y => (time y, density y)).andThen ((detachController o2).of fun z => (time z.1, front z))).andThen
    ((potential m o3 np).of phiIn)).andThen ((vectorPotential m o4).of aparIn)).andThen (plain derivatives)

/-- **C84.**  After the first evaluation at a time the right-hand side depends only on the state until the next time is tried, whatever is evaluated; and
evaluating again always gives the same. -/
theorem right_hand_side {Y D : Type} (time : Y → ℝ) (o1 : PIOpts) (o2 : DetachOpts) (ht : 0 < o2.min_time_for_change) (he : o2.min_error_for_change ≤ 0)
    {m : XMesh} (hm : MeshOk m) (o3 : PhiOpts) (np : ℕ) (o4 : AparOpts) (density : Y → ℝ) (front : Y × Option ℝ → ℝ)
    (phiIn : Y × Option ℝ × Option ℝ → PhiInput m) (hphi : ∀ z, (phiIn z).call.time = time z.1)
    (aparIn : Y × (Option ℝ × Option ℝ) × XYZ → AparInput m o4) (hapar : ∀ z, (aparIn z).call.time = time z.1)
    (derivatives : Y × ((Option ℝ × Option ℝ) × XYZ) × XYZ → D) :
    Settles time (rightHandSide time o1 o2 m o3 np o4 density front phiIn aparIn derivatives) ∧
    Repeats (rightHandSide time o1 o2 m o3 np o4 density front phiIn aparIn derivatives) := by
  have e1 : (fun z => time z.1) = fun z => (phiIn z).call.time := funext fun z => (hphi z).symm
  have e2 : (fun z => time z.1) = fun z => (aparIn z).call.time := funext fun z => (hapar z).symm
  constructor
  · refine andThen_settles (andThen_settles (andThen_settles (andThen_settles (of_settles _ (pi_settles o1)) ?_) ?_) ?_) (plain_settles _ _)
    · exact of_settles (fun z : Y × Option ℝ => (time z.1, front z)) (detach_settles o2 ht he)
    · rw [e1]
      exact of_settles phiIn (potential_settles hm o3 np)
    · rw [e2]
      exact of_settles aparIn (apar_settles hm o4)
  · exact andThen_repeats (andThen_repeats (andThen_repeats (andThen_repeats (of_repeats _ (pi_repeats o1)) (of_repeats _ (detach_repeats o2 (.inl ht))))
      (of_repeats _ (potential_repeats hm o3 np))) (of_repeats _ (apar_repeats hm o4))) (plain_repeats _)

/-! ## Examples -/

/-- An input of the potential. -/
noncomputable def demoPhi (t : ℝ) (ht : 0 ≤ t) : PhiInput mesh := ⟨⟨t, fun _ _ _ => 1, cutSolver, 0⟩, cutSolver_ok.1, cutSolver_ok.2, ht⟩

/-- An input of the vector potential. -/
noncomputable def demoApar (t : ℝ) : AparInput mesh unitOpts := ⟨at_ t, stepSolver_ok, fun _ _ _ => rfl⟩

example : (demoPhi 1 zero_le_one).call.time = 1 ∧ (demoApar 1).call.time = 1 := ⟨rfl, rfl⟩

/-- The hypotheses can be met: states are a time and a density, the derivative is any function of the density, of what the controllers give and of the two
potentials. -/
example (derivatives : ({t : ℝ // 0 ≤ t} × ℝ) × ((Option ℝ × Option ℝ) × XYZ) × XYZ → ℝ) :=
  right_hand_side (fun y => y.1.1) integralOnly { Detachment.demo with min_time_for_change := 1 } one_pos le_rfl mesh_ok ⟨true, false, 1⟩ 1 unitOpts
    (fun y => y.2) (fun z => z.1.2) (fun z => demoPhi z.1.1.1 z.1.1.2) (fun _ => rfl) (fun z => demoApar z.1.1.1) (fun _ => rfl) derivatives

/-- **C84 without restriction fails**: a step that was tried and given up changes the vector potential at the time it is tried again. -/
theorem apar_depends_on_rejected_step : ¬Memoryless (vectorPotential mesh unitOpts) := by
  intro h
  have h1 : (aparAfter mesh unitOpts stepState ([1, 0, 1].map at_)).Apar = (aparAfter mesh unitOpts stepState ([1].map at_)).Apar :=
    h stepState [demoApar 1, demoApar 0] (demoApar 1)
  obtain ⟨a, b, c⟩ := rejected_step_counts
  rw [h1, b] at a
  exact absurd a c.ne'

end Hermes.Evaluations
