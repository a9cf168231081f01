import Verif.Model.Controllers
import Verif.Props.SheathClosure

/-!
# PI feedback controllers (C45, C46)
-/

set_option linter.unusedSectionVars false
set_option linter.unusedVariables false

namespace Hermes.Controllers
open Hermes.Closures Hermes.SheathClosure

/-! ## Specification -/

/-- Trapezium rule for samples `(time, error)`. -/
noncomputable def trapezium : List (ℝ × ℝ) → ℝ
  | a :: b :: l => (b.1 - a.1) * (a.2 + b.2) / 2 + trapezium (b :: l)
  | _ => 0

/-- The same, but an interval in which time does not advance counts nothing. -/
noncomputable def trapeziumForward : List (ℝ × ℝ) → ℝ
  | a :: b :: l => max (b.1 - a.1) 0 * (a.2 + b.2) / 2 + trapeziumForward (b :: l)
  | _ => 0

/-- A sequence of evaluations `(time, measured value)`. -/
noncomputable def evaluate (o : PIOpts) (c : PI) (hist : List (ℝ × ℝ)) : PI := hist.foldl (fun c p => piStep o c p.1 p.2) c

/-- The errors of a sequence of evaluations. -/
def errors (o : PIOpts) (hist : List (ℝ × ℝ)) : List (ℝ × ℝ) := hist.map fun p => (p.1, o.setpoint - p.2)

/-- Times never go back. -/
def Forward (hist : List (ℝ × ℝ)) : Prop := hist.IsChain fun a b => a.1 ≤ b.1

theorem forward_eq {l : List (ℝ × ℝ)} (h : Forward l) : trapeziumForward l = trapezium l := by
  induction l with
  | nil => rfl
  | cons a l ih =>
    cases l with
    | nil => rfl
    | cons b l =>
      unfold Forward at h
      rw [List.isChain_cons_cons] at h
      rw [trapeziumForward, trapezium, ih h.2, max_eq_left (by linarith [h.1])]

/-! ## One evaluation -/

theorem piStep_lasttime (o : PIOpts) (c : PI) (t v : ℝ) : (piStep o c t v).lasttime = t := rfl
theorem piStep_last (o : PIOpts) (c : PI) (t v : ℝ) : (piStep o c t v).last = o.setpoint - v := rfl

/-- The integral before the sign limit. -/
noncomputable def raw (o : PIOpts) (c : PI) (t v : ℝ) : ℝ :=
  if c.lasttime < 0 then c.integral else c.integral + max (t - c.lasttime) 0 * (c.last + (o.setpoint - v)) / 2

theorem piStep_integral (o : PIOpts) (c : PI) (t v : ℝ) :
    (piStep o c t v).integral = if o.integral_positive = true then max (raw o c t v) 0 else raw o c t v := by
  have h : (if t > (if c.lasttime < 0 then { c with lasttime := t, last := o.setpoint - v } else c).lasttime then
      { (if c.lasttime < 0 then { c with lasttime := t, last := o.setpoint - v } else c) with integral :=
        (if c.lasttime < 0 then { c with lasttime := t, last := o.setpoint - v } else c).integral +
        (t - (if c.lasttime < 0 then { c with lasttime := t, last := o.setpoint - v } else c).lasttime) * 0.5 *
        (o.setpoint - v + (if c.lasttime < 0 then { c with lasttime := t, last := o.setpoint - v } else c).last) }
      else (if c.lasttime < 0 then { c with lasttime := t, last := o.setpoint - v } else c) : PI).integral = raw o c t v := by
    unfold raw
    by_cases h1 : c.lasttime < 0
    · simp [h1]
    · simp only [h1, if_false]
      by_cases h2 : t > c.lasttime
      · simp only [h2, if_true]
        rw [max_eq_left (by linarith)]
        ring
      · simp only [h2, if_false]
        rw [max_eq_right (by linarith)]
        ring
  unfold piStep
  dsimp only
  rw [h]
  cases hp : o.integral_positive
  · simp [h]
  · by_cases h0 : raw o c t v < 0
    · rw [if_pos ⟨h0, rfl⟩, if_pos rfl, max_eq_right h0.le]
    · rw [if_neg (fun hh => h0 hh.1), if_pos rfl, max_eq_left (not_lt.1 h0), h]

theorem piStep_multiplier (o : PIOpts) (c : PI) (t v : ℝ) :
    (piStep o c t v).multiplier = some (if o.source_positive = true then
      max (o.p * (o.setpoint - v) + o.i * (piStep o c t v).integral) 0 else o.p * (o.setpoint - v) + o.i * (piStep o c t v).integral) := by
  show some _ = some _
  congr 1
  show (if o.p * (o.setpoint - v) + o.i * (piStep o c t v).integral < 0 ∧ o.source_positive = true then 0
    else o.p * (o.setpoint - v) + o.i * (piStep o c t v).integral) = _
  generalize o.p * (o.setpoint - v) + o.i * (piStep o c t v).integral = x
  cases o.source_positive
  · simp
  · by_cases h0 : x < 0
    · rw [if_pos ⟨h0, rfl⟩, if_pos rfl, max_eq_right h0.le]
    · rw [if_neg (fun hh => h0 hh.1), if_pos rfl, max_eq_left (not_lt.1 h0)]

/-! ## C45: the integral -/

theorem evaluate_from (o : PIOpts) (hp : o.integral_positive = false) (c : PI) (h0 : 0 ≤ c.lasttime) (hist : List (ℝ × ℝ))
    (ht : ∀ p ∈ hist, 0 ≤ p.1) :
    (evaluate o c hist).integral = c.integral + trapeziumForward ((c.lasttime, c.last) :: errors o hist) := by
  induction hist generalizing c with
  | nil => simp [evaluate, errors, trapeziumForward]
  | cons p l ih =>
    show (evaluate o (piStep o c p.1 p.2) l).integral = _
    rw [ih (piStep o c p.1 p.2) (ht p List.mem_cons_self) (fun q hq => ht q (List.mem_cons_of_mem _ hq)), piStep_integral, if_neg (by simp [hp]),
      piStep_lasttime, piStep_last]
    unfold raw
    rw [if_neg (not_lt.2 h0)]
    show _ = c.integral + trapeziumForward ((c.lasttime, c.last) :: (p.1, o.setpoint - p.2) :: errors o l)
    rw [trapeziumForward]
    ring

/-- **C45.**  For every sequence of evaluations of a new controller (times at least zero, in any order, repeated or not) the
integral is the sum of the trapezia over the steps in which time advances. -/
theorem integral_any_history (o : PIOpts) (hp : o.integral_positive = false) (c : PI) (hc : c.lasttime < 0) (hist : List (ℝ × ℝ))
    (ht : ∀ p ∈ hist, 0 ≤ p.1) : (evaluate o c hist).integral = c.integral + trapeziumForward (errors o hist) := by
  cases hist with
  | nil => simp [evaluate, errors, trapeziumForward]
  | cons p l =>
    show (evaluate o (piStep o c p.1 p.2) l).integral = _
    rw [evaluate_from o hp _ (ht p List.mem_cons_self) l (fun q hq => ht q (List.mem_cons_of_mem _ hq)), piStep_integral, if_neg (by simp [hp]),
      piStep_lasttime, piStep_last]
    unfold raw
    rw [if_pos hc]
    rfl

/-- **C45.**  If time never goes back, the integral is the trapezium-rule integral of the error. -/
theorem integral_is_trapezium (o : PIOpts) (hp : o.integral_positive = false) (c : PI) (hc : c.lasttime < 0) {hist : List (ℝ × ℝ)}
    (ht : ∀ p ∈ hist, 0 ≤ p.1) (hf : Forward hist) : (evaluate o c hist).integral = c.integral + trapezium (errors o hist) := by
  rw [integral_any_history o hp c hc hist ht, forward_eq]
  unfold Forward errors at *
  rw [List.isChain_map]
  exact hf

theorem trapezium_affine (a b : ℝ) (t : ℝ) (l : List ℝ) :
    trapezium ((t :: l).map fun t => (t, a + b * t)) =
      a * ((t :: l).getLast (List.cons_ne_nil _ _) - t) + b * ((t :: l).getLast (List.cons_ne_nil _ _) ^ 2 - t ^ 2) / 2 := by
  induction l generalizing t with
  | nil => simp [trapezium]
  | cons s l ih =>
    rw [List.map_cons, List.map_cons, trapezium]
    have := ih s
    rw [List.map_cons] at this
    rw [this, List.getLast_cons (List.cons_ne_nil _ _)]
    dsimp only
    ring

/-- **C45, the times of evaluation do not matter** as long as they do not go back: for a signal that is linear in time the
integral is exactly the integral of the error from the first to the last time, whatever evaluations are made in between. -/
theorem integral_independent_of_steps (o : PIOpts) (hp : o.integral_positive = false) (c : PI) (hc : c.lasttime < 0)
    {t : ℝ} {l : List ℝ} (ht : ∀ s ∈ t :: l, 0 ≤ s) (hf : (t :: l).IsChain (· ≤ ·)) (a b : ℝ) :
    (evaluate o c ((t :: l).map fun s => (s, o.setpoint - (a + b * s)))).integral =
      c.integral + (a * ((t :: l).getLast (List.cons_ne_nil _ _) - t) + b * ((t :: l).getLast (List.cons_ne_nil _ _) ^ 2 - t ^ 2) / 2) := by
  rw [integral_is_trapezium o hp c hc, ← trapezium_affine]
  · congr 2
    unfold errors
    rw [List.map_map]
    refine List.map_congr_left fun s _ => ?_
    simp
  · intro p hp
    obtain ⟨s, hs, rfl⟩ := List.mem_map.1 hp
    exact ht s hs
  · unfold Forward
    rw [List.isChain_map]
    exact hf

/-- **C45 fails if the integrator rejects a step.**  Evaluating at times 0, 2, 1, 2 instead of 0, 1, 2 (constant error 1) counts
the last unit of time twice: the integral is 3 instead of 2. -/
theorem rejected_step_counts_twice : ∃ (o : PIOpts), o.integral_positive = false ∧
    (evaluate o .fresh [(0, o.setpoint - 1), (1, o.setpoint - 1), (2, o.setpoint - 1)]).integral = 2 ∧
    (evaluate o .fresh [(0, o.setpoint - 1), (2, o.setpoint - 1), (1, o.setpoint - 1), (2, o.setpoint - 1)]).integral = 3 := by
  refine ⟨⟨1, 1, 1, false, true⟩, rfl, ?_, ?_⟩
  · rw [integral_any_history _ rfl _ (by norm_num [PI.fresh])]
    · norm_num [errors, trapeziumForward, PI.fresh]
    · intro p hp
      simp only [List.mem_cons, List.not_mem_nil, or_false] at hp
      rcases hp with rfl | rfl | rfl <;> norm_num
  · rw [integral_any_history _ rfl _ (by norm_num [PI.fresh])]
    · norm_num [errors, trapeziumForward, PI.fresh]
    · intro p hp
      simp only [List.mem_cons, List.not_mem_nil, or_false] at hp
      rcases hp with rfl | rfl | rfl | rfl <;> norm_num

/-- **C45, repeated evaluation.**  Evaluating again at the same time, also with another measured value, does not change the
integral. -/
theorem same_time_same_integral (o : PIOpts) (c : PI) (t v w : ℝ) :
    (piStep o (piStep o c t v) t w).integral = (piStep o c t v).integral := by
  rw [piStep_integral]
  have h : raw o (piStep o c t v) t w = (piStep o c t v).integral := by
    unfold raw
    rw [piStep_lasttime, sub_self]
    simp
  rw [h]
  split
  · rename_i hp
    rw [piStep_integral, if_pos hp, max_eq_left (le_max_right _ _)]
  · rfl

/-- Evaluating again with the same value changes nothing at all. -/
theorem same_evaluation (o : PIOpts) (c : PI) (t v : ℝ) : piStep o (piStep o c t v) t v = piStep o c t v := by
  have h1 := same_time_same_integral o c t v v
  have h2 : (piStep o (piStep o c t v) t v).multiplier = (piStep o c t v).multiplier := by
    rw [piStep_multiplier, piStep_multiplier, h1]
  have h3 : (piStep o (piStep o c t v) t v).integral_term = (piStep o c t v).integral_term := by
    show some (o.i * (piStep o (piStep o c t v) t v).integral) = some (o.i * (piStep o c t v).integral)
    rw [h1]
  generalize hx : piStep o (piStep o c t v) t v = x at *
  generalize hy : piStep o c t v = y at *
  have e1 : x.lasttime = y.lasttime := by rw [← hx, ← hy]; rfl
  have e2 : x.last = y.last := by rw [← hx, ← hy]; rfl
  have e3 : x.proportional_term = y.proportional_term := by rw [← hx, ← hy]; rfl
  cases x; cases y
  simp_all

/-- **C45, `integral_positive`.**  After any evaluations the integral is not negative. -/
theorem integral_not_negative (o : PIOpts) (hp : o.integral_positive = true) (c : PI) (hist : List (ℝ × ℝ)) (hne : hist ≠ []) :
    0 ≤ (evaluate o c hist).integral := by
  obtain ⟨l, p, rfl⟩ : ∃ l p, hist = l ++ [p] := ⟨hist.dropLast, hist.getLast hne, (List.dropLast_append_getLast hne).symm⟩
  unfold evaluate
  rw [List.foldl_append]
  show 0 ≤ (piStep o _ p.1 p.2).integral
  rw [piStep_integral, if_pos hp]
  exact le_max_right _ _

/-- **C45.**  The sign limit does nothing as long as the trapezium integral is not negative. -/
theorem integral_positive_inactive (o : PIOpts) (c : PI) (hist : List (ℝ × ℝ))
    (h : ∀ l, l <+: hist → 0 ≤ (evaluate { o with integral_positive := false } c l).integral) :
    (evaluate { o with integral_positive := true } c hist).integral = (evaluate { o with integral_positive := false } c hist).integral := by
  suffices hs : ∀ (l : List (ℝ × ℝ)), l <+: hist →
      (evaluate { o with integral_positive := true } c l).integral = (evaluate { o with integral_positive := false } c l).integral ∧
      (evaluate { o with integral_positive := true } c l).lasttime = (evaluate { o with integral_positive := false } c l).lasttime ∧
      (evaluate { o with integral_positive := true } c l).last = (evaluate { o with integral_positive := false } c l).last from
    (hs hist (List.prefix_refl _)).1
  intro l
  induction l using List.reverseRecOn with
  | nil => exact fun _ => ⟨rfl, rfl, rfl⟩
  | append_singleton l p ih =>
    intro hl
    obtain ⟨i1, i2, i3⟩ := ih ((List.prefix_append l [p]).trans hl)
    have hnn := h _ hl
    unfold evaluate at *
    rw [List.foldl_append] at hnn ⊢
    rw [List.foldl_append]
    simp only [List.foldl_cons, List.foldl_nil] at hnn ⊢
    refine ⟨?_, rfl, rfl⟩
    rw [piStep_integral, if_neg (by simp)] at hnn
    rw [piStep_integral, piStep_integral, if_pos rfl, if_neg (by simp)]
    have e : raw { o with integral_positive := true } (l.foldl (fun c p => piStep { o with integral_positive := true } c p.1 p.2) c) p.1 p.2 =
        raw { o with integral_positive := false } (l.foldl (fun c p => piStep { o with integral_positive := false } c p.1 p.2) c) p.1 p.2 := by
      unfold raw
      rw [i1, i2, i3]
    rw [e, max_eq_left hnn]

/-! ## C45: several processors -/

/-- **C45.**  The processor with the upstream end is the first: all processors use its multiplier, in every evaluation. -/
theorem all_processors_agree (o : PIOpts) (time v : ℝ) (others : List (Option ℝ)) (c : PI) (cs : List PI) :
    ∃ cs', piRanks o 0 time (some v :: others) (c :: cs) = some ((piStep o c time v).multiplier.getD 0, cs') ∧
      ∀ r ∈ cs', r.multiplier = (piStep o c time v).multiplier := by
  unfold piRanks
  simp only [List.zipWith_cons_cons, List.getElem?_cons_zero, piLocal]
  rw [piStep_multiplier]
  refine ⟨_, rfl, ?_⟩
  intro r hr
  obtain ⟨x, -, rfl⟩ := List.mem_map.1 hr
  rfl

/-- **C45 fails for `control_target_temperature` on several processors.**  The loop runs on the processor with the lower end, but the
value is taken from the last one, which has never computed one: the source multiplier is an uninitialised variable. -/
theorem target_control_undefined (o : PIOpts) (time v : ℝ) (n : ℕ) :
    piRanks o (n + 1) time (some v :: List.replicate (n + 1) none) (List.replicate (n + 2) .fresh) = none := by
  unfold piRanks
  have h : List.zipWith (piLocal o time)
      (some v :: List.replicate (n + 1) none) (List.replicate (n + 2) PI.fresh) =
      piStep o .fresh time v :: List.replicate (n + 1) .fresh := by
    rw [List.replicate_succ (n := n + 1) (a := PI.fresh), List.zipWith_cons_cons, List.zipWith_replicate]
    simp [piLocal]
  simp only [h]
  have h2 : (piStep o .fresh time v :: List.replicate (n + 1) PI.fresh)[n + 1]? = some PI.fresh := by
    rw [List.getElem?_cons_succ, List.getElem?_replicate]
    simp
  rw [h2]
  rfl

/-! ## C45: the sources -/

section
variable {ι : Type} [DecidableEq ι]

/-- The time in the state. -/
noncomputable def timeOf (st : Store Key (Value ι)) : ℝ := ((vals st (.top "time")).bind asReal).getD 0

theorem getTime_bind {β : Type} {f : ℝ → Prog ι β} {st st'' : Store Key (Value ι)} {b : β}
    (h : (get asReal (.top "time") >>= f) st = (.ok b, st'')) : ∃ st', vals st' = vals st ∧ f (timeOf st) st' = (.ok b, st'') := by
  obtain ⟨a, s', h1, h2, h3⟩ := (den_get asReal _).bind_ok h
  refine ⟨s', h2, ?_⟩
  have : timeOf st = a := by
    have e1 := readVal_asReal h1
    unfold timeOf
    rw [e1]
    rfl
  rw [this]; exact h3

theorem densityEnergy_ok {name : String} {source : Fld ι} {st st' : Store Key (Value ι)} {u : Unit}
    (h : densityFeedbackEnergy name source st = (.ok u, st')) :
    (∀ i, fieldOf st' name .energy_source i = fieldOf st name .energy_source i +
      if (vals st (.sp name .velocity)).isSome = true ∧ (vals st (.sp name .AA)).isSome = true then
        1 / 2 * realOf st name .AA * fieldOf st name .velocity i ^ 2 * source i else 0) ∧
    ∀ k, k ≠ .sp name .energy_source → vals st' k = vals st k := by
  unfold densityFeedbackEnergy at h
  obtain ⟨s1, e1, h⟩ := isSetFinalNB_bind h
  split at h
  · rename_i hv
    obtain ⟨s2, e2, h⟩ := isSetFinal_bind h
    rw [e1] at h e2
    split at h
    · rename_i ha
      obtain ⟨s3, e3, h⟩ := getNoBndryF_bind h
      obtain ⟨s4, e4, h⟩ := getR_bind h
      obtain ⟨b1, b2⟩ := add_field_ok h
      rw [e2] at e3; rw [e3] at e4
      refine ⟨fun i => ?_, fun k hk => by rw [b2 k hk, e4]⟩
      rw [b1, if_pos ⟨hv, ha⟩, fieldOf_congr (st := st) (v := .energy_source) (by rw [e4]), fieldOf_congr (st := st) (v := .velocity) (by rw [e2]),
        realOf_congr' (st := st) (by rw [e3])]
      norm_num
    · rename_i ha
      obtain ⟨-, rfl⟩ := pure_ok h
      refine ⟨fun i => ?_, fun k _ => by rw [e2]⟩
      rw [if_neg (fun hh => ha hh.2), add_zero, fieldOf_congr (st := st) (by rw [e2])]
  · rename_i hv
    obtain ⟨-, rfl⟩ := pure_ok h
    refine ⟨fun i => ?_, fun k _ => by rw [e1]⟩
    rw [if_neg (fun hh => hv hh.1), add_zero, fieldOf_congr (st := st) (by rw [e1])]

/-- **C45.**  What `upstream_density_feedback` does to the state. -/
theorem density_feedback {o : PIOpts} {name : String} {shape : Fld ι} {cell : ι} {c c' : PI} {st st' : Store Key (Value ι)}
    (h : densityFeedback o name shape cell c st = (.ok c', st')) :
    c' = piStep o c (timeOf st) (fieldOf st name .density cell) ∧
    ∃ m, c'.multiplier = some m ∧ (o.source_positive = true → 0 ≤ m) ∧
      (∀ i, fieldOf st' name .density_source i = fieldOf st name .density_source i + m * shape i) ∧
      (∀ i, fieldOf st' name .energy_source i = fieldOf st name .energy_source i +
        if (vals st (.sp name .velocity)).isSome = true ∧ (vals st (.sp name .AA)).isSome = true then
          1 / 2 * realOf st name .AA * fieldOf st name .velocity i ^ 2 * (m * shape i) else 0) ∧
      ∀ k, k ≠ .sp name .density_source → k ≠ .sp name .energy_source → vals st' k = vals st k := by
  unfold densityFeedback at h
  obtain ⟨s1, e1, h⟩ := getNoBndryF_bind h
  obtain ⟨s2, e2, h⟩ := getTime_bind h
  rw [e1] at e2
  have ht : timeOf s1 = timeOf st := by unfold timeOf; rw [e1]
  rw [ht] at h
  obtain ⟨_, s3, h3, h⟩ := M_bind_ok h
  obtain ⟨b1, b2⟩ := add_field_ok h3
  obtain ⟨_, s4, h4, h⟩ := M_bind_ok h
  obtain ⟨d1, d2⟩ := densityEnergy_ok h4
  obtain ⟨hc, rfl⟩ := pure_ok h
  refine ⟨hc, _, by rw [hc]; exact piStep_multiplier _ _ _ _, ?_, fun i => ?_, fun i => ?_, fun k hk1 hk2 => by rw [d2 k hk2, b2 k hk1, e2]⟩
  · intro hs
    rw [if_pos hs]
    exact le_max_right _ _
  · rw [fieldOf_congr (st := s3) (d2 _ (by simp)), b1, fieldOf_congr (st := st) (by rw [e2]), piStep_multiplier]
    rfl
  · have f3 : ∀ v, v ≠ .density_source → vals s3 (.sp name v) = vals st (.sp name v) := fun v hv => by
      rw [b2 _ (by intro e; exact hv (Key.sp.inj e).2), e2]
    rw [d1, f3 .velocity (by decide), f3 .AA (by decide), fieldOf_congr (f3 .energy_source (by decide)), fieldOf_congr (f3 .velocity (by decide)),
      realOf_congr' (f3 .AA (by decide)), piStep_multiplier]
    rfl

theorem addAll_ok {targets : List (String × ℝ)} {v : Var} {g : ℝ → ι → ℝ} {st st' : Store Key (Value ι)} {u : PUnit}
    (h : (targets.forM fun t => addF t.1 v fun i => g t.2 i) st = (.ok u, st')) :
    (∀ s i, fieldOf st' s v i = fieldOf st s v i + (targets.map fun t => if t.1 = s then g t.2 i else 0).sum) ∧
    ∀ k, (∀ s, k ≠ .sp s v) → vals st' k = vals st k := by
  induction targets generalizing st with
  | nil => cases h; exact ⟨fun s i => by simp, fun k _ => rfl⟩
  | cons t l ih =>
    simp only [List.forM_eq_forM, List.forM_cons] at h
    obtain ⟨_, s1, h1, h⟩ := M_bind_ok h
    obtain ⟨b1, b2⟩ := add_field_ok h1
    obtain ⟨i1, i2⟩ := ih h
    refine ⟨fun s i => ?_, fun k hk => by rw [i2 k hk, b2 k (hk _)]⟩
    rw [i1, List.map_cons, List.sum_cons]
    by_cases hs : t.1 = s
    · subst hs
      rw [b1, if_pos rfl]
      ring
    · rw [if_neg hs, fieldOf_congr (st := st) (b2 _ (by intro e; exact hs (Key.sp.inj e).1.symm))]
      ring

/-- **C45.**  What `temperature_feedback` does to the state: each listed species gets its factor times the multiplier times the
shape. -/
theorem temperature_feedback {o : PIOpts} {name : String} {target : Bool} {ystart yend : ι} {targets : List (String × ℝ)} {shape : Fld ι}
    {c c' : PI} {st st' : Store Key (Value ι)} (h : temperatureFeedback o name target ystart yend targets shape c st = (.ok c', st')) :
    c' = piStep o c (timeOf st) (fieldOf st name .temperature (if target then yend else ystart)) ∧
    ∃ m, c'.multiplier = some m ∧ (o.source_positive = true → 0 ≤ m) ∧
      (∀ s i, fieldOf st' s .energy_source i = fieldOf st s .energy_source i +
        (targets.map fun t => if t.1 = s then t.2 * m * shape i else 0).sum) ∧
      ∀ k, (∀ s, k ≠ .sp s .energy_source) → vals st' k = vals st k := by
  unfold temperatureFeedback at h
  obtain ⟨s1, e1, h⟩ := getNoBndryF_bind h
  obtain ⟨s2, e2, h⟩ := getTime_bind h
  rw [e1] at e2
  have ht : timeOf s1 = timeOf st := by unfold timeOf; rw [e1]
  rw [ht] at h
  obtain ⟨_, s3, h3, h⟩ := M_bind_ok h
  obtain ⟨b1, b2⟩ := addAll_ok (g := fun x i => x * _ * shape i) h3
  obtain ⟨hc, rfl⟩ := pure_ok h
  refine ⟨by rw [hc]; congr 1; split <;> rfl, _, by rw [hc]; exact piStep_multiplier _ _ _ _, ?_, fun s i => ?_, fun k hk => by rw [b2 k hk, e2]⟩
  · intro hs
    rw [if_pos hs]
    exact le_max_right _ _
  · rw [b1, fieldOf_congr (st := st) (by rw [e2]), piStep_multiplier]
    rfl

end

/-! ## C46 -/

/-- **C46.**  One controller of its class: a restarted run gets the integral that was saved.  (The save writes the integral if the
restart options did not hold the variable before or if it is not the first such call, see `second_call_resets`.)  *Missing for the
full property*: more than one controller, see `restart_loses_others`. -/
theorem restart_one_partial (var : String) (c : PI) (first : Bool) (file0 : RestartFile) (hfirst : first = false ∨ file0 var = none) :
    ∀ file, (piRestartAll first [(var, c)] file0).2.2 = file →
      ((piRestartAll true [(var, .fresh)] file).2.1.map fun r => r.2.integral) = [c.integral] := by
  rintro file rfl
  rcases hfirst with rfl | h
  · simp [piRestartAll, piRestart]
  · cases first <;> simp [piRestartAll, piRestart, h]

/-- In a run that is not restarted the flag survives the first call, so that the second call that gets the same options reads back
the value stored by the first: whatever was accumulated in between is lost.  (Harmless only if no time passes between the two.) -/
theorem second_call_resets (var : String) (c c2 : PI) (file0 : RestartFile) (h0 : file0 var = none) :
    (piRestart var (piRestart var true c file0).1 c2 (piRestart var true c file0).2.2).2.1.integral = c.integral := by
  simp [piRestart, h0]

/-- **C46.**  After the restart the controller goes on exactly as if it had not been stopped: if the first evaluation of the
restarted run is at the time of the stop with the same measured value, then the states agree after it, and so after any
further evaluations. -/
theorem resume_exact (o : PIOpts) (c : PI) {t v : ℝ} (ht : 0 ≤ t) (more : List (ℝ × ℝ)) :
    evaluate o (piStep o { PI.fresh with integral := (piStep o c t v).integral } t v) more = evaluate o (piStep o c t v) more := by
  have e : piStep o { PI.fresh with integral := (piStep o c t v).integral } t v = piStep o c t v := by
    have h1 : (piStep o { PI.fresh with integral := (piStep o c t v).integral } t v).integral = (piStep o c t v).integral := by
      rw [piStep_integral]
      have : raw o { PI.fresh with integral := (piStep o c t v).integral } t v = (piStep o c t v).integral := by
        unfold raw
        rw [if_pos (by norm_num [PI.fresh])]
      rw [this]
      split
      · rename_i hp
        rw [piStep_integral, if_pos hp, max_eq_left (le_max_right _ _)]
      · rfl
    generalize hz : ({ PI.fresh with integral := (piStep o c t v).integral } : PI) = z at *
    have h2 : (piStep o z t v).multiplier = (piStep o c t v).multiplier := by
      rw [piStep_multiplier, piStep_multiplier, h1]
    have h3 : (piStep o z t v).integral_term = (piStep o c t v).integral_term := by
      show some (o.i * (piStep o z t v).integral) = some (o.i * (piStep o c t v).integral)
      rw [h1]
    clear hz
    generalize hx : piStep o z t v = x at *
    generalize hy : piStep o c t v = y at *
    have e1 : x.lasttime = y.lasttime := by rw [← hx, ← hy]; rfl
    have e2 : x.last = y.last := by rw [← hx, ← hy]; rfl
    have e3 : x.proportional_term = y.proportional_term := by rw [← hx, ← hy]; rfl
    cases x; cases y
    simp_all
  rw [e]

theorem restartAll_cons (first : Bool) (p : String × PI) (l : List (String × PI)) (file : RestartFile) :
    (piRestartAll first (p :: l) file).2.1 = (p.1, (piRestart p.1 first p.2 file).2.1) ::
      (piRestartAll (piRestart p.1 first p.2 file).1 l (piRestart p.1 first p.2 file).2.2).2.1 := by
  suffices h : ∀ (l : List (String × PI)) (b : Bool) (acc : List (String × PI)) (f : RestartFile),
      (l.foldl (fun a c => let r := piRestart c.1 a.1 c.2 a.2.2; (r.1, a.2.1 ++ [(c.1, r.2.1)], r.2.2)) (b, acc, f)).2.1 =
      acc ++ (l.foldl (fun a c => let r := piRestart c.1 a.1 c.2 a.2.2; (r.1, a.2.1 ++ [(c.1, r.2.1)], r.2.2)) (b, [], f)).2.1 by
    unfold piRestartAll
    rw [List.foldl_cons]
    rw [h]
    rfl
  intro l
  induction l with
  | nil => intro b acc f; simp
  | cons q l ih =>
    intro b acc f
    simp only [List.foldl_cons]
    rw [ih, ih _ ([] ++ _)]
    simp

theorem restartAll_false (l : List (String × PI)) (file : RestartFile) : (piRestartAll false l file).2.1 = l := by
  induction l generalizing file with
  | nil => rfl
  | cons p l ih =>
    rw [restartAll_cons]
    simp only [piRestart]
    rw [ih]

/-- **C46 fails for more than one controller of the same kind.**  Whatever the restart file holds, only the first controller gets
its integral back: the flag that marks the first call is one variable for all of them. -/
theorem restart_loses_others (var : String) (x : ℝ) (others : List String) (file : RestartFile) (hx : file var = some x) :
    (piRestartAll true ((var, .fresh) :: others.map fun v => (v, .fresh)) file).2.1 =
      (var, { PI.fresh with integral := x }) :: others.map fun v => (v, .fresh) := by
  rw [restartAll_cons]
  simp only [piRestart, hx]
  rw [restartAll_false]

/-- Two species with density feedback and saved integrals 3 and 4: the second starts again from zero. -/
example : ∃ file : RestartFile, file "d+_density_error_integral" = some 3 ∧ file "t+_density_error_integral" = some 4 ∧
    (piRestartAll true [("d+_density_error_integral", .fresh), ("t+_density_error_integral", .fresh)] file).2.1.map (fun r => r.2.integral) =
      [3, 0] := by
  refine ⟨fun k => if k = "d+_density_error_integral" then some 3 else some 4, by simp, by simp, ?_⟩
  have h := restart_loses_others "d+_density_error_integral" 3 ["t+_density_error_integral"]
    (fun k => if k = "d+_density_error_integral" then some 3 else some 4) (by simp)
  simp only [List.map_cons, List.map_nil] at h
  rw [h]
  simp [PI.fresh]

/-! ## A concrete case -/

section
open Hermes.Runs

/-- Deuterium ions that flow, at time 7. -/
noncomputable def ions : Store Key (Value Unit) where
  ent
    | .top "time" => { val := some (.real 7), final := false, finalDomain := false }
    | .sp "d+" .density => { val := some (.field fun _ => 1), final := false, finalDomain := false }
    | .sp "d+" .temperature => { val := some (.field fun _ => 2), final := false, finalDomain := false }
    | .sp "d+" .velocity => { val := some (.field fun _ => 1), final := false, finalDomain := false }
    | .sp "d+" .AA => { val := some (.real 2), final := false, finalDomain := false }
    | _ => { val := none, final := false, finalDomain := false }
  check := true

example : ∃ c' st', densityFeedback ⟨2, 1, 1, false, true⟩ "d+" (fun _ => 1) () .fresh ions = (.ok c', st') ∧
    fieldOf st' "d+" .density_source () = 1 ∧ fieldOf st' "d+" .energy_source () = 1 := by
  refine ⟨_, _, rfl, ?_⟩
  obtain ⟨h1, m, h2, -, h3, h4, -⟩ := density_feedback (o := ⟨2, 1, 1, false, true⟩) (name := "d+") (shape := fun _ : Unit => 1) (cell := ())
    (c := .fresh) (st := ions) rfl
  have hm : m = 1 := by
    rw [h1, piStep_multiplier, piStep_integral] at h2
    have hN : fieldOf ions "d+" .density () = 1 := rfl
    rw [hN] at h2
    have hr : raw ⟨2, 1, 1, false, true⟩ .fresh (timeOf ions) 1 = 0 := by
      unfold raw
      rw [if_pos (by norm_num [PI.fresh])]
      rfl
    rw [hr] at h2
    rw [← Option.some.inj h2]
    norm_num
  refine ⟨?_, ?_⟩
  · rw [h3, hm]
    have : fieldOf ions "d+" .density_source () = 0 := rfl
    rw [this]; norm_num
  · rw [h4, hm, if_pos ⟨rfl, rfl⟩]
    have a : fieldOf ions "d+" .energy_source () = 0 := rfl
    have b : fieldOf ions "d+" .velocity () = 1 := rfl
    have d : realOf ions "d+" .AA = 2 := rfl
    rw [a, b, d]; norm_num

example : ∃ c' st', temperatureFeedback ⟨3, 1, 1, false, true⟩ "d+" false () () [("d+", 1), ("e", 2)] (fun _ => 1) .fresh ions = (.ok c', st') :=
  ⟨_, _, rfl⟩

end

end Hermes.Controllers
