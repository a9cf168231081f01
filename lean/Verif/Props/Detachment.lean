import Verif.Model.Controllers
import Verif.Props.PIControllers

/-!
# Detachment controller (C46, C47, C48)
-/

set_option linter.unusedSectionVars false
set_option linter.unusedVariables false

namespace Hermes.Detachment

/-! ## C47: limits, hold, crossings, buffer -/

/-- The conditions under which the control is computed again. -/
def Updates (o : DetachOpts) (c : Detach) (t front : ℝ) : Prop :=
  o.settling_time < t * o.time_normalisation ∧ o.min_time_for_change ≤ t * o.time_normalisation - c.previous_time ∧
    o.min_error_for_change ≤ |o.setpoint - front - c.previous_error|

/-- Between the limits. -/
def InLimits (o : DetachOpts) (x : ℝ) : Prop := (∀ l, o.minval = some l → l ≤ x) ∧ ∀ h, o.maxval = some h → x ≤ h

/-- The options make sense. -/
structure Sensible (o : DetachOpts) : Prop where
  limits : ∀ l h, o.minval = some l → o.maxval = some h → l ≤ h
  buffer : 1 ≤ o.buffer_size
  int : o.buffer_size ≤ 2147483647

theorem limitControl_in {o : DetachOpts} (hl : ∀ l h, o.minval = some l → o.maxval = some h → l ≤ h) (x : ℝ) :
    InLimits o (limitControl o.minval o.maxval x) := by
  unfold InLimits limitControl
  cases h1 : o.minval with
  | none =>
    cases h2 : o.maxval with
    | none => simp
    | some h =>
      refine ⟨by simp, fun h' e => ?_⟩
      cases e
      dsimp only
      split
      · exact le_refl _
      · exact not_lt.1 ‹_›
  | some l =>
    cases h2 : o.maxval with
    | none =>
      refine ⟨fun l' e => ?_, by simp⟩
      cases e
      dsimp only
      split
      · exact le_refl _
      · exact not_lt.1 ‹_›
    | some h =>
      have := hl l h h1 h2
      refine ⟨fun l' e => ?_, fun h' e => ?_⟩ <;> cases e <;> dsimp only <;> split_ifs <;> linarith

theorem limitControl_id {o : DetachOpts} {x : ℝ} (h : InLimits o x) : limitControl o.minval o.maxval x = x := by
  unfold limitControl
  obtain ⟨h1, h2⟩ := h
  cases e1 : o.minval with
  | none =>
    cases e2 : o.maxval with
    | none => rfl
    | some u => exact if_neg (not_lt.2 (h2 u e2))
  | some l =>
    have a : ¬x < l := not_lt.2 (h1 l e1)
    cases e2 : o.maxval with
    | none => exact if_neg a
    | some u =>
      dsimp only
      rw [if_neg a]
      exact if_neg (not_lt.2 (h2 u e2))

/-- **C47.**  Outside updates everything is held. -/
theorem held {o : DetachOpts} {c : Detach} {t front : ℝ} (h : ¬Updates o c t front) : detachStep o c t front = some c := by
  unfold detachStep
  exact if_neg h

theorem step_update {o : DetachOpts} {c : Detach} {t front : ℝ} (h : Updates o c t front) :
    detachStep o c t front = detachUpdate o c (t * o.time_normalisation) (o.setpoint - front) := by
  unfold detachStep
  exact if_pos h

theorem bufferFull_eq {o : DetachOpts} (h : Sensible o) (n : ℕ) : bufferFull o.buffer_size n = true ↔ o.buffer_size ≤ n := by
  unfold bufferFull
  rw [decide_eq_true_iff, Int.emod_eq_of_lt (by linarith [h.buffer]) (by linarith [h.int])]
  have := h.buffer
  omega

/-- **C47.**  One update. -/
theorem update_ok {o : DetachOpts} (hl : ∀ l h, o.minval = some l → o.maxval = some h → l ≤ h) {c c' : Detach} {t front : ℝ}
    (hu : Updates o c t front) (h : detachStep o c t front = some c') :
    InLimits o c'.control ∧ c'.previous_control = c'.control ∧
    c'.number_of_crossings = c.number_of_crossings +
      (if (o.setpoint - front < 0 ∧ 0 < c.previous_error) ∨ (0 < o.setpoint - front ∧ c.previous_error < 0) then 1 else 0) ∧
    c'.previous_time = t * o.time_normalisation ∧ c'.previous_error = o.setpoint - front ∧ c'.first_step = false ∧ c'.initialise = c.initialise ∧
    c'.time_buffer = (if bufferFull o.buffer_size c.time_buffer.length = true then c.time_buffer.tail else c.time_buffer) ++ [t * o.time_normalisation] ∧
    c'.error_buffer = (if bufferFull o.buffer_size c.time_buffer.length = true then c.error_buffer.tail else c.error_buffer) ++ [o.setpoint - front] := by
  rw [step_update hu] at h
  unfold detachUpdate at h
  dsimp only at h
  split at h
  · cases h
  · cases h
    refine ⟨limitControl_in hl _, rfl, ?_, rfl, rfl, rfl, rfl, rfl, rfl⟩
    dsimp only
    split
    · rfl
    · rw [add_zero]

/-- One over `integral_time`; zero if it is infinite. -/
noncomputable def rate (o : DetachOpts) : ℝ := (o.integral_time.map fun τ => τ⁻¹).getD 0

/-- Limits applied: first the lower, then the upper one. -/
noncomputable def limited (o : DetachOpts) (x : ℝ) : ℝ :=
  let y := (o.minval.map fun l => max l x).getD x
  (o.maxval.map fun u => min u y).getD y

theorem limited_eq (o : DetachOpts) (x : ℝ) : limitControl o.minval o.maxval x = limited o x := by
  have h1 : ∀ l y : ℝ, (if y < l then l else y) = max l y := by
    intro l y
    split
    · rename_i h; exact (max_eq_left h.le).symm
    · rename_i h; exact (max_eq_right (not_lt.1 h)).symm
  have h2 : ∀ u y : ℝ, (if u < y then u else y) = min u y := by
    intro u y
    split
    · rename_i h; exact (min_eq_left h.le).symm
    · rename_i h; exact (min_eq_right (not_lt.1 h)).symm
  unfold limitControl limited
  cases o.minval <;> cases o.maxval <;> simp only [h1, h2, Option.map_none, Option.map_some, Option.getD_none, Option.getD_some]

theorem overTime_eq (o : DetachOpts) (x : ℝ) : overTime x o.integral_time = x * rate o := by
  unfold overTime rate
  cases o.integral_time with
  | none => simp
  | some τ => simp [div_eq_mul_inv]

/-- **C47.**  The response of one update: proportional, integral and derivative term, in velocity form added to the control before, in position form to the
offset.  In the first step there is no change of the error and of its derivative, and no integral. -/
theorem response {o : DetachOpts} {c c' : Detach} {t front : ℝ} (hu : Updates o c t front) (h : detachStep o c t front = some c') :
    let error := o.setpoint - front
    let dt := t * o.time_normalisation - c.previous_time
    let gain := o.response_sign * o.controller_gain
    let integral := if c.first_step = true then 0 else c.error_integral + dt * ((error + c.previous_error) / 2)
    c'.previous_derivative = calculateGradient c'.time_buffer c'.error_buffer ∧
    (o.velocity_form = true → c'.control = limited o (c.previous_control + gain *
      ((if c.first_step = true then 0 else error - c.previous_error) + dt * rate o * error
        + o.derivative_time * (if c.first_step = true then 0 else c'.previous_derivative - c.previous_derivative)))) ∧
    (o.velocity_form = false → c'.control = limited o (o.control_offset + gain * (error + integral * rate o + o.derivative_time * c'.previous_derivative))) ∧
    c'.error_integral = if ((error < 0 ∧ 0 < c.previous_error) ∨ (0 < error ∧ c.previous_error < 0)) ∧ c.number_of_crossings < 1 ∧
      o.reset_integral_on_first_crossing = true then 0 else integral := by
  rw [step_update hu] at h
  unfold detachUpdate at h
  dsimp only at h
  split at h
  · cases h
  · cases h
    have half : ∀ a b : ℝ, a * 0.5 * b = a * (b / 2) := fun a b => by ring
    refine ⟨rfl, fun hv => ?_, fun hv => ?_, ?_⟩
    · dsimp only
      rw [limited_eq, if_pos hv, overTime_eq]
      congr 1
      ring
    · dsimp only
      rw [limited_eq, if_neg (by rw [hv]; decide), overTime_eq, half]
      congr 1
      ring
    · dsimp only
      rw [half]

/-- **C47.**  The first update of a new controller (`ignore_restart`, see `first_step_cleared`) has no memory of an error: only the integral term acts in velocity
form; there is no integral in position form. -/
theorem first_response {o : DetachOpts} {c' : Detach} {t front : ℝ} (hu : Updates o (.fresh o) t front) (h : detachStep o (.fresh o) t front = some c') :
    (o.velocity_form = true → c'.control = limited o (o.initial_control + o.response_sign * o.controller_gain *
      (t * o.time_normalisation * rate o * (o.setpoint - front)))) ∧
    (o.velocity_form = false → c'.control = limited o (o.control_offset + o.response_sign * o.controller_gain *
      (o.setpoint - front + o.derivative_time * c'.previous_derivative))) ∧
    c'.error_integral = 0 := by
  obtain ⟨-, h1, h2, h3⟩ := response hu h
  refine ⟨fun hv => ?_, fun hv => ?_, ?_⟩
  · rw [h1 hv]
    congr 1
    simp only [Detach.fresh, if_true]
    ring
  · rw [h2 hv]
    congr 1
    simp only [Detach.fresh, if_true]
    ring
  · rw [h3]
    simp [Detach.fresh]

/-- With sensible options an update is always defined. -/
theorem update_defined {o : DetachOpts} (h : Sensible o) (c : Detach) (t front : ℝ) : ∃ c', detachStep o c t front = some c' := by
  unfold detachStep
  split
  · unfold detachUpdate
    dsimp only
    split
    · rename_i hb
      rw [bufferFull_eq h, hb.2] at hb
      have := h.buffer
      have := hb.1
      simp at this
      omega
    · exact ⟨_, rfl⟩
  · exact ⟨_, rfl⟩

/-- A sequence of evaluations `(time, front)`. -/
noncomputable def run (o : DetachOpts) (c : Detach) (hist : List (ℝ × ℝ)) : Option Detach := hist.foldlM (fun c p => detachStep o c p.1 p.2) c

/-- What is kept in every history. -/
structure Inv (o : DetachOpts) (c : Detach) : Prop where
  control : c.control = o.initial_control ∨ InLimits o c.control
  same : c.error_buffer.length = c.time_buffer.length
  size : (c.time_buffer.length : ℤ) ≤ o.buffer_size

theorem inv_step {o : DetachOpts} (ho : Sensible o) {c c' : Detach} (hc : Inv o c) {t front : ℝ} (h : detachStep o c t front = some c') :
    Inv o c' ∧ c.number_of_crossings ≤ c'.number_of_crossings := by
  by_cases hu : Updates o c t front
  · obtain ⟨a1, -, a3, -, -, -, -, a8, a9⟩ := update_ok ho.limits hu h
    refine ⟨⟨Or.inr a1, ?_, ?_⟩, ?_⟩
    · rw [a8, a9]
      have := hc.same
      split <;> simp [this]
    · rw [a8]
      have h1 := hc.size
      have h2 := ho.buffer
      split
      · rename_i hf
        rw [bufferFull_eq ho] at hf
        simp only [List.length_append, List.length_tail, List.length_cons, List.length_nil]
        omega
      · rename_i hf
        rw [bufferFull_eq ho] at hf
        simp only [List.length_append, List.length_cons, List.length_nil]
        push_cast
        omega
    · rw [a3]
      split <;> linarith
  · rw [held hu] at h
    cases h
    exact ⟨hc, le_refl _⟩

/-- **C47.**  In every history of evaluations: the controller is always defined, the control is the initial value or within the
limits, the crossing counter never decreases, and the buffers never exceed the configured size. -/
theorem every_history {o : DetachOpts} (ho : Sensible o) (c : Detach) (hc : Inv o c) (hist : List (ℝ × ℝ)) :
    ∃ c', run o c hist = some c' ∧ (c'.control = o.initial_control ∨ InLimits o c'.control) ∧
      c.number_of_crossings ≤ c'.number_of_crossings ∧
      (c'.time_buffer.length : ℤ) ≤ o.buffer_size ∧ (c'.error_buffer.length : ℤ) ≤ o.buffer_size := by
  suffices h : ∃ c', run o c hist = some c' ∧ Inv o c' ∧ c.number_of_crossings ≤ c'.number_of_crossings by
    obtain ⟨c', h1, h2, h3⟩ := h
    exact ⟨c', h1, h2.control, h3, h2.size, by rw [h2.same]; exact h2.size⟩
  induction hist generalizing c with
  | nil => exact ⟨c, rfl, hc, le_refl _⟩
  | cons p l ih =>
    obtain ⟨c1, h1⟩ := update_defined ho c p.1 p.2
    obtain ⟨i1, m1⟩ := inv_step ho hc h1
    obtain ⟨c', h2, i2, m2⟩ := ih c1 i1
    refine ⟨c', ?_, i2, m1.trans m2⟩
    unfold run at *
    rw [List.foldlM_cons, h1]
    exact h2

theorem inv_fresh {o : DetachOpts} (ho : Sensible o) : Inv o (.fresh o) :=
  ⟨Or.inl rfl, rfl, by have := ho.buffer; simp [Detach.fresh]; omega⟩

/-- **C47.**  If the initial value is within the limits, then the control always is. -/
theorem always_in_limits {o : DetachOpts} (ho : Sensible o) (h0 : InLimits o o.initial_control) (hist : List (ℝ × ℝ)) :
    ∃ c', run o (.fresh o) hist = some c' ∧ InLimits o c'.control := by
  obtain ⟨c', h1, h2, -⟩ := every_history ho (.fresh o) (inv_fresh ho) hist
  refine ⟨c', h1, ?_⟩
  rcases h2 with h2 | h2
  · rw [h2]; exact h0
  · exact h2

/-- Options for the examples. -/
noncomputable def demo : DetachOpts :=
  { time_normalisation := 1, connection_length := 10, setpoint := 5, velocity_form := false, min_time_for_change := 0,
    min_error_for_change := 0, minval := none, maxval := none, response_sign := 1, initial_control := 1, control_offset := 0,
    settling_time := 0, ignore_restart := false, reset_integral_on_first_crossing := true, controller_gain := 1,
    integral_time := none, derivative_time := 1, buffer_size := 10 }

example : Sensible demo := ⟨by simp [demo], by simp [demo], by simp [demo]⟩
example : ∃ c t front, Updates demo c t front := ⟨.fresh demo, 1, 2, by norm_num [Updates, demo, Detach.fresh]⟩

/-- **C47 fails at the start** if the initial control is outside the limits: it is applied as it is until the first update. -/
theorem initial_control_not_limited : ∃ o : DetachOpts, Sensible o ∧ ¬InLimits o (Detach.fresh o).control :=
  ⟨{ demo with minval := some 2 }, ⟨by simp [demo], by simp [demo], by simp [demo]⟩, fun h => by
    have := h.1 2 rfl
    norm_num [demo, Detach.fresh] at this⟩

/-- **C47 fails for `buffer_size = 0`**: the first update erases from an empty vector (undefined behaviour). -/
theorem zero_buffer_undefined {o : DetachOpts} (hb : o.buffer_size = 0) {t front : ℝ} (hu : Updates o (.fresh o) t front) :
    detachStep o (.fresh o) t front = none := by
  rw [step_update hu]
  unfold detachUpdate
  dsimp only
  rw [if_pos]
  rw [hb]
  exact ⟨rfl, rfl⟩

/-- **C47 fails for a negative `buffer_size`**: the comparison is unsigned, so that the buffer is never full. -/
theorem negative_buffer_never_full {b : ℤ} (h1 : -2147483648 ≤ b) (h2 : b < 0) {n : ℕ} (hn : n < 9223372036854775808) :
    bufferFull b n = false := by
  unfold bufferFull
  rw [decide_eq_false_iff_not]
  have : b % 18446744073709551616 = b + 18446744073709551616 := by
    rw [← Int.add_emod_right, Int.emod_eq_of_lt (by omega) (by omega)]
  rw [this]
  omega

/-- **C47.**  The source that is applied: for every listed species its factor times the control times the shape, to the energy source
(`power`) or the density source (`particles`); nothing else changes. -/
theorem applied_source {ι : Type} [DecidableEq ι] {power : Bool} {targets : List (String × ℝ)} {shape : Fld ι} {control : ℝ} {st st' : Store Key (Value ι)}
    (h : detachApply power targets shape control st = (.ok (), st')) :
    (∀ s i, Closures.fieldOf st' s (if power then .energy_source else .density_source) i =
      Closures.fieldOf st s (if power then .energy_source else .density_source) i +
        (targets.map fun t => if t.1 = s then t.2 * (control * shape i) else 0).sum) ∧
    ∀ k, (∀ s, k ≠ .sp s (if power then .energy_source else .density_source)) → vals st' k = vals st k :=
  Controllers.addAll_ok (g := fun x i => x * (control * shape i)) h

/-! ### The derivative -/

theorem foldl_add (l : List ℝ) (a : ℝ) : l.foldl (· + ·) a = a + l.sum := by
  induction l generalizing a with
  | nil => simp
  | cons x l ih => rw [List.foldl_cons, ih, List.sum_cons]; ring

theorem foldl_sums (l : List (ℝ × ℝ)) (a : ℝ × ℝ) :
    l.foldl (fun a p => (a.1 + p.1 * p.2, a.2 + p.1 * p.1)) a = (a.1 + (l.map fun p => p.1 * p.2).sum, a.2 + (l.map fun p => p.1 * p.1).sum) := by
  induction l generalizing a with
  | nil => simp
  | cons x l ih =>
    rw [List.foldl_cons, ih]
    simp only [List.map_cons, List.sum_cons]
    ext <;> simp <;> ring

/-- **C47.**  For errors on a straight line the derivative is its slope (for times that are not all equal). -/
theorem gradient_of_line (a b : ℝ) (x : List ℝ) (hd : (x.length : ℝ) * (x.map fun s => s * s).sum - x.sum * x.sum ≠ 0) :
    calculateGradient x (x.map fun s => a + b * s) = b := by
  unfold calculateGradient
  dsimp only
  rw [foldl_add, foldl_add, foldl_sums, zero_add, zero_add]
  have hz : x.zip (x.map fun s => a + b * s) = x.map fun s => (s, a + b * s) := by
    clear hd
    induction x with
    | nil => rfl
    | cons s l ih => rw [List.map_cons, List.zip_cons_cons, ih, List.map_cons]
  have e1 : (x.map fun s => a + b * s).sum = x.length * a + b * x.sum := by
    clear hd hz
    induction x with
    | nil => simp
    | cons s l ih => simp only [List.map_cons, List.sum_cons, List.length_cons, ih]; push_cast; ring
  have e2 : ((x.zip (x.map fun s => a + b * s)).map fun p => p.1 * p.2).sum = a * x.sum + b * (x.map fun s => s * s).sum := by
    rw [hz, List.map_map]
    clear hd hz e1
    induction x with
    | nil => simp
    | cons s l ih => simp only [List.map_cons, List.sum_cons, Function.comp_apply] at *; rw [ih]; ring
  have e3 : ((x.zip (x.map fun s => a + b * s)).map fun p => p.1 * p.1).sum = (x.map fun s => s * s).sum := by
    rw [hz, List.map_map]
    rfl
  dsimp only
  rw [e1, e2, e3, zero_add, zero_add, if_neg hd, div_eq_iff hd]
  ring

/-! ## C46 -/

/-- **C46.**  A restarted controller has the saved control, integral, time, error, derivative and crossing count, but empty buffers.
*Missing for the full property*: the buffers, see `restart_changes_control`. -/
theorem restart_partial {o : DetachOpts} (ho : o.ignore_restart = false) {c : Detach} (hc : c.initialise = false) (file0 : RestartFile) :
    (detachRestart o (.fresh o) (detachRestart o c file0).2).1 =
      { c with time_buffer := [], error_buffer := [], first_step := false } := by
  simp [detachRestart, ho, hc, Detach.fresh]

/-- The members that matter without derivative term. -/
structure Same (c d : Detach) : Prop where
  control : c.control = d.control
  integral : c.error_integral = d.error_integral
  time : c.previous_time = d.previous_time
  error : c.previous_error = d.previous_error
  previous : c.previous_control = d.previous_control
  crossings : c.number_of_crossings = d.number_of_crossings
  first1 : c.first_step = false
  first2 : d.first_step = false

theorem same_step {o : DetachOpts} (ho : Sensible o) (h0 : o.derivative_time = 0) {c d c' d' : Detach} (hs : Same c d) {t front : ℝ}
    (h1 : detachStep o c t front = some c') (h2 : detachStep o d t front = some d') : Same c' d' := by
  obtain ⟨s1, s2, s3, s4, s5, s6, s7, s8⟩ := hs
  by_cases hu : Updates o c t front
  · have hu' : Updates o d t front := by unfold Updates at *; rw [← s3, ← s4]; exact hu
    rw [step_update hu] at h1
    rw [step_update hu'] at h2
    unfold detachUpdate at h1 h2
    dsimp only at h1 h2
    split at h1
    · cases h1
    · split at h2
      · cases h2
      · cases h1; cases h2
        constructor <;> simp [s2, s3, s4, s5, s6, s7, s8, h0]
  · have hu' : ¬Updates o d t front := by unfold Updates at *; rw [← s3, ← s4]; exact hu
    rw [held hu] at h1
    rw [held hu'] at h2
    cases h1; cases h2
    exact ⟨s1, s2, s3, s4, s5, s6, s7, s8⟩

/-- **C46.**  Without derivative term the restarted controller gives the same control as one that was not stopped, for every
continuation. -/
theorem resume_partial {o : DetachOpts} (ho : Sensible o) (h0 : o.derivative_time = 0) (hi : o.ignore_restart = false) {c : Detach}
    (hc : c.initialise = false) (hf : c.first_step = false) (file0 : RestartFile) (more : List (ℝ × ℝ)) :
    ∃ c' d', run o c more = some c' ∧ run o (detachRestart o (.fresh o) (detachRestart o c file0).2).1 more = some d' ∧ c'.control = d'.control := by
  rw [restart_partial hi hc]
  suffices h : ∀ (l : List (ℝ × ℝ)) (c d : Detach), Same c d → ∃ c' d', run o c l = some c' ∧ run o d l = some d' ∧ Same c' d' by
    obtain ⟨c', d', a, b, s⟩ := h more c { c with time_buffer := [], error_buffer := [], first_step := false } ⟨rfl, rfl, rfl, rfl, rfl, rfl, hf, rfl⟩
    exact ⟨c', d', a, b, s.control⟩
  intro l
  induction l with
  | nil => intro c d h; exact ⟨c, d, rfl, rfl, h⟩
  | cons p l ih =>
    intro c d h
    obtain ⟨c1, h1⟩ := update_defined ho c p.1 p.2
    obtain ⟨d1, h2⟩ := update_defined ho d p.1 p.2
    obtain ⟨c', d', a, b, s⟩ := ih c1 d1 (same_step ho h0 h h1 h2)
    refine ⟨c', d', ?_, ?_, s⟩
    · unfold run at *; rw [List.foldlM_cons, h1]; exact a
    · unfold run at *; rw [List.foldlM_cons, h2]; exact b

/-- **C46 fails with derivative term**: the buffers are not saved.  A controller that has seen error 0 at time 1 gives control 2 for
error 1 at time 2; restarted in between it gives 1. -/
theorem restart_changes_control : ∃ (o : DetachOpts) (c c' d' : Detach) (file0 : RestartFile) (t front : ℝ), Sensible o ∧
    o.ignore_restart = false ∧ c.initialise = false ∧ c.first_step = false ∧
    detachStep o c t front = some c' ∧ detachStep o (detachRestart o (.fresh o) (detachRestart o c file0).2).1 t front = some d' ∧
    c'.control = 2 ∧ d'.control = 1 := by
  have ho : Sensible demo := ⟨by simp [demo], by simp [demo], by simp [demo]⟩
  let c : Detach := { Detach.fresh demo with initialise := false, first_step := false, previous_time := 1, time_buffer := [1], error_buffer := [0] }
  obtain ⟨c', h1⟩ := update_defined ho c 2 4
  have hr := restart_partial (o := demo) rfl (c := c) rfl (fun _ => none)
  obtain ⟨d', h2⟩ := update_defined ho (detachRestart demo (.fresh demo) (detachRestart demo c fun _ => none).2).1 2 4
  refine ⟨demo, c, c', d', fun _ => none, 2, 4, ho, rfl, rfl, rfl, h1, h2, ?_, ?_⟩
  · have hu : Updates demo c 2 4 := by norm_num [Updates, demo, c, Detach.fresh]
    rw [step_update hu] at h1
    unfold detachUpdate at h1
    dsimp only at h1
    split at h1
    · cases h1
    · cases h1
      norm_num [demo, c, Detach.fresh, bufferFull, calculateGradient, limitControl, overTime]
  · rw [hr] at h2
    have hu : Updates demo { c with time_buffer := [], error_buffer := [], first_step := false } 2 4 := by norm_num [Updates, demo, c, Detach.fresh]
    rw [step_update hu] at h2
    unfold detachUpdate at h2
    dsimp only at h2
    split at h2
    · cases h2
    · cases h2
      norm_num [demo, c, Detach.fresh, bufferFull, calculateGradient, limitControl, overTime]

/-- The special treatment of the first step never happens unless `ignore_restart` is set: the call of `restartVars` at the start of every
run, restarted or not, clears the flag. -/
theorem first_step_cleared {o : DetachOpts} (ho : o.ignore_restart = false) (file : RestartFile) :
    (detachRestart o (.fresh o) file).1.first_step = false := by
  simp [detachRestart, ho, Detach.fresh]

/-! ## C48 -/

/-- The points with their distances from upstream; `x` is the distance of `prev`. -/
noncomputable def positions : ℝ → YPoint → List YPoint → List (ℝ × YPoint)
  | x, prev, [] => [(x, prev)]
  | x, prev, q :: l => (x, prev) :: positions (x + 0.5 * prev.dy + 0.5 * q.dy) q l

theorem positions_ne (x : ℝ) (p : YPoint) (l : List YPoint) : positions x p l ≠ [] := by
  cases l <;> simp [positions]

/-- Where the straight lines through the two points cross. -/
noncomputable def crossing (x1 : ℝ) (p : YPoint) (x2 : ℝ) (q : YPoint) : ℝ :=
  x1 + (x2 - x1) * ((p.Ne - p.Nn) / ((p.Ne - p.Nn) + (q.Nn - q.Ne)))

theorem crossing_between {x1 x2 : ℝ} {p q : YPoint} (hx : x1 < x2) (hp : p.Nn ≤ p.Ne) (hq : q.Ne < q.Nn) :
    x1 ≤ crossing x1 p x2 q ∧ crossing x1 p x2 q < x2 := by
  unfold crossing
  have h1 : 0 ≤ (p.Ne - p.Nn) / ((p.Ne - p.Nn) + (q.Nn - q.Ne)) := div_nonneg (by linarith) (by linarith)
  have h2 : (p.Ne - p.Nn) / ((p.Ne - p.Nn) + (q.Nn - q.Ne)) < 1 := (div_lt_one (by linarith)).2 (by linarith)
  have h3 : 0 < x2 - x1 := by linarith
  constructor
  · have := mul_nonneg h3.le h1
    linarith
  · have := mul_lt_mul_of_pos_left h2 h3
    linarith

/-- At the crossing the linearly interpolated densities are equal. -/
theorem crossing_equal {x1 x2 : ℝ} {p q : YPoint} (hx : x1 < x2) (hp : p.Nn ≤ p.Ne) (hq : q.Ne < q.Nn) :
    p.Nn + (q.Nn - p.Nn) * ((crossing x1 p x2 q - x1) / (x2 - x1)) = p.Ne + (q.Ne - p.Ne) * ((crossing x1 p x2 q - x1) / (x2 - x1)) := by
  have h : (crossing x1 p x2 q - x1) / (x2 - x1) = (p.Ne - p.Nn) / ((p.Ne - p.Nn) + (q.Nn - q.Ne)) := by
    unfold crossing
    have : x2 - x1 ≠ 0 := by linarith
    field_simp
    ring
  rw [h]
  have : (p.Ne - p.Nn) + (q.Nn - q.Ne) ≠ 0 := by linarith
  field_simp
  ring

/-- What the loop gives. -/
theorem frontLoop_ok {check2 : Bool} {L x : ℝ} {prev : YPoint} {l : List YPoint} {d : ℝ} (h : frontLoop check2 L x prev l = .ok d) :
    ((∀ q ∈ l, q.Nn ≤ q.Ne) ∧ d = ((positions x prev l).getLast (positions_ne _ _ _)).1) ∨
    ∃ pre x1 p x2 q post, positions x prev l = pre ++ (x1, p) :: (x2, q) :: post ∧ q.Ne < q.Nn ∧
      (∀ r ∈ (pre ++ [(x1, p)]).tail, r.2.Nn ≤ r.2.Ne) ∧ ((p.Nn - q.Nn) - (p.Ne - q.Ne) ≠ 0 → d = crossing x1 p x2 q) := by
  induction l generalizing x prev with
  | nil => cases h; exact Or.inl ⟨by simp, rfl⟩
  | cons q l ih =>
    unfold frontLoop at h
    dsimp only at h
    split at h
    · rename_i hq
      right
      refine ⟨[], x, prev, x + 0.5 * prev.dy + 0.5 * q.dy, q, (positions (x + 0.5 * prev.dy + 0.5 * q.dy) q l).tail, ?_, hq, by simp, fun hne => ?_⟩
      · cases l <;> simp [positions]
      · split at h
        · cases h
        · cases h
          unfold crossing
          have hne' : (prev.Ne - prev.Nn) + (q.Nn - q.Ne) ≠ 0 := by
            intro e; apply hne; linarith
          field_simp
          have e : prev.Nn - q.Nn - (prev.Ne - q.Ne) = -((prev.Ne - prev.Nn) + (q.Nn - q.Ne)) := by ring
          rw [e]
          field_simp
          ring
    · rename_i hq
      rcases ih h with ⟨h1, h2⟩ | ⟨pre, x1, p, x2, r, post, h1, h2, h3, h4⟩
      · left
        refine ⟨?_, ?_⟩
        · intro r hr
          rcases List.mem_cons.1 hr with rfl | hr
          · exact not_lt.1 hq
          · exact h1 r hr
        · rw [h2]
          simp only [positions]
          rw [List.getLast_cons (positions_ne _ _ _)]
      · right
        refine ⟨(x, prev) :: pre, x1, p, x2, r, post, by simp [positions, h1], h2, ?_, h4⟩
        intro a ha
        simp only [List.cons_append, List.tail_cons] at ha
        -- the first of the remaining points is `q`
        cases pre with
        | nil =>
          have : a = (x1, p) := by simpa using ha
          subst this
          have e : positions (x + 0.5 * prev.dy + 0.5 * q.dy) q l = (x1, p) :: (x2, r) :: post := h1
          have : p = q := by
            cases l <;> simp [positions] at e
            exact e.1.2.symm
          rw [this]
          exact not_lt.1 hq
        | cons b pre =>
          rcases List.mem_cons.1 ha with rfl | ha
          · have : a.2 = q := by
              cases l <;> simp [positions] at h1
              rw [← h1.1]
            rw [this]
            exact not_lt.1 hq
          · exact h3 a (by simpa using ha)

/-- **C48.**  The reported position is between 0 (the target) and the connection length, for every profile. -/
theorem front_in_domain {check2 : Bool} {L : ℝ} (hL : 0 ≤ L) {guard p : YPoint} {l : List YPoint} {f : ℝ}
    (h : detachmentFront check2 L guard p l = .ok f) : 0 ≤ f ∧ f ≤ L := by
  unfold detachmentFront at h
  split at h
  · cases h
  · dsimp only at h
    cases h
    split_ifs <;> constructor <;> linarith

/-- Distance limited to the domain. -/
noncomputable def within (L d : ℝ) : ℝ := min (max d 0) L

theorem front_within {check2 : Bool} {L : ℝ} {guard p : YPoint} {l : List YPoint} {f : ℝ}
    (h : detachmentFront check2 L guard p l = .ok f) :
    ∃ d, frontLoop check2 L (-(guard.dy + p.dy) / 4) guard (p :: l) = .ok d ∧ f = L - within L d := by
  unfold detachmentFront at h
  split at h
  · cases h
  · rename_i d hd
    cases h
    refine ⟨d, hd, ?_⟩
    unfold within
    congr 1
    rcases lt_or_ge d 0 with h0 | h0
    · rw [if_pos h0, max_eq_right h0.le]
      rcases lt_or_ge L 0 with h1 | h1
      · rw [if_pos h1, min_eq_right h1.le]
      · rw [if_neg (not_lt.2 h1), min_eq_left h1]
    · rw [if_neg (not_lt.2 h0), max_eq_left h0]
      rcases lt_or_ge L d with h1 | h1
      · rw [if_pos h1, min_eq_right h1.le]
      · rw [if_neg (not_lt.2 h1), min_eq_left h1]

/-- **C48.**  If there is a point with `Nn > Ne` that is not the first of the domain, the position is where the densities cross between the
first such point and the point before.  *Missing for the full property*: a crossing before the first cell centre (`front_outside`) and
no crossing (`front_not_at_target`). -/
theorem front_at_crossing_partial {check2 : Bool} {L : ℝ} {guard p : YPoint} {l : List YPoint} {f : ℝ}
    (hdy : 0 < guard.dy ∧ ∀ q ∈ p :: l, 0 < q.dy) (hp : p.Nn ≤ p.Ne) (hcross : ∃ q ∈ l, q.Ne < q.Nn)
    (h : detachmentFront check2 L guard p l = .ok f) :
    ∃ pre x1 a x2 b post, positions (-(guard.dy + p.dy) / 4) guard (p :: l) = pre ++ (x1, a) :: (x2, b) :: post ∧
      a.Nn ≤ a.Ne ∧ b.Ne < b.Nn ∧ (∀ r ∈ pre.tail, r.2.Nn ≤ r.2.Ne) ∧
      f = L - within L (crossing x1 a x2 b) ∧ x1 ≤ crossing x1 a x2 b ∧ crossing x1 a x2 b < x2 := by
  obtain ⟨d, hd, rfl⟩ := front_within h
  have step : ∀ (l : List YPoint) (x : ℝ) (prev : YPoint), 0 < prev.dy → (∀ q ∈ l, 0 < q.dy) →
      ∀ pre x1 a x2 b post, positions x prev l = pre ++ (x1, a) :: (x2, b) :: post → x1 < x2 := by
    intro l
    induction l with
    | nil =>
      intro x prev _ _ pre x1 a x2 b post e
      have := congrArg List.length e
      simp [positions] at this
      omega
    | cons q l ih =>
      intro x prev h1 h2 pre x1 a x2 b post e
      simp only [positions] at e
      cases pre with
      | nil =>
        simp only [List.nil_append, List.cons.injEq, Prod.mk.injEq] at e
        obtain ⟨⟨rfl, rfl⟩, e⟩ := e
        have hq := h2 q List.mem_cons_self
        have : x2 = x + 0.5 * prev.dy + 0.5 * q.dy := by
          cases l <;> simp [positions] at e
          · exact e.1.1.symm
          · exact e.1.1.symm
        rw [this]
        linarith
      | cons c pre =>
        simp only [List.cons_append, List.cons.injEq] at e
        exact ih _ q (h2 q List.mem_cons_self) (fun r hr => h2 r (List.mem_cons_of_mem _ hr)) pre x1 a x2 b post e.2
  rcases frontLoop_ok hd with ⟨h1, -⟩ | ⟨pre, x1, a, x2, b, post, h1, h2, h3, h4⟩
  · obtain ⟨q, hq, hlt⟩ := hcross
    exact absurd (h1 q (List.mem_cons_of_mem _ hq)) (not_le.2 hlt)
  · have hlt := step _ _ _ hdy.1 hdy.2 _ _ _ _ _ _ h1
    have ha : a.Nn ≤ a.Ne := by
      cases pre with
      | nil =>
        exfalso
        simp only [positions, List.nil_append, List.cons.injEq, Prod.mk.injEq] at h1
        have : b = p := by
          cases l <;> simp [positions] at h1
          · exact h1.2.1.2.symm
          · exact h1.2.1.2.symm
        rw [this] at h2
        linarith
      | cons c pre => exact h3 (x1, a) (by simp)
    have hd' := h4 (by intro e; linarith)
    refine ⟨pre, x1, a, x2, b, post, h1, ha, h2, ?_, by rw [hd'], crossing_between hlt ha h2⟩
    intro r hr
    refine h3 r ?_
    cases pre with
    | nil => simp at hr
    | cons c pre => simp at hr ⊢; exact Or.inl hr

/-- **C48.**  If the neutral density nowhere exceeds the electron density the position is that of the centre of the last cell. -/
theorem front_if_attached {check2 : Bool} {L : ℝ} {guard p : YPoint} {l : List YPoint} {f : ℝ} (hall : ∀ q ∈ p :: l, q.Nn ≤ q.Ne)
    (h : detachmentFront check2 L guard p l = .ok f) :
    f = L - within L ((positions (-(guard.dy + p.dy) / 4) guard (p :: l)).getLast (positions_ne _ _ _)).1 := by
  obtain ⟨d, hd, rfl⟩ := front_within h
  rcases frontLoop_ok hd with ⟨-, h1⟩ | ⟨pre, x1, a, x2, b, post, h1, h2, -, -⟩
  · rw [h1]
  · exfalso
    have sub : ∀ (l : List YPoint) (x : ℝ) (prev : YPoint) (r : ℝ × YPoint), r ∈ (positions x prev l).tail → r.2 ∈ l := by
      intro l
      induction l with
      | nil => intro x prev r hr; simp [positions] at hr
      | cons q l ih =>
        intro x prev r hr
        simp only [positions, List.tail_cons] at hr
        have hcases : r = (x + 0.5 * prev.dy + 0.5 * q.dy, q) ∨ r ∈ (positions (x + 0.5 * prev.dy + 0.5 * q.dy) q l).tail := by
          cases l <;> simpa [positions] using hr
        rcases hcases with rfl | hr
        · exact List.mem_cons_self
        · exact List.mem_cons_of_mem _ (ih _ _ _ hr)
    have hb : (x2, b) ∈ (positions (-(guard.dy + p.dy) / 4) guard (p :: l)).tail := by
      rw [h1]
      cases pre <;> simp
    have := hall b (sub _ _ _ _ hb)
    linarith

/-- **C48 fails without a crossing.**  On a uniform grid of three cells of length 1 and connection length 3, with electrons only, the front is
reported half a cell in front of the target instead of at 0. -/
theorem front_not_at_target : detachmentFront true 3 ⟨1, 0, 1⟩ ⟨1, 0, 1⟩ [⟨1, 0, 1⟩, ⟨1, 0, 1⟩] = .ok (1 / 2) := by
  norm_num [detachmentFront, frontLoop]

/-- **C48 fails if the first cell is detached.**  The interpolation with the guard cell gives a point outside the interval: here 1 beyond the
centre of the first cell, on a grid whose first two points are at -1/2 and 1/2. -/
theorem front_outside : detachmentFront false 3 ⟨1, 3, 1⟩ ⟨1, 2, 1⟩ [⟨1, 2, 1⟩, ⟨1, 2, 1⟩] = .ok (3 / 2) ∧
    detachmentFront true 3 ⟨1, 3, 1⟩ ⟨1, 2, 1⟩ [⟨1, 2, 1⟩, ⟨1, 2, 1⟩] = .error .custom := by
  constructor <;> norm_num [detachmentFront, frontLoop]

/-- If the densities are equal at a grid point the assertion stops the run (with `CHECK >= 2`), although the crossing is well defined. -/
theorem front_on_grid_point_throws : detachmentFront true 3 ⟨1, 0, 1⟩ ⟨1, 1, 1⟩ [⟨1, 2, 1⟩] = .error .custom ∧
    detachmentFront false 3 ⟨1, 0, 1⟩ ⟨1, 1, 1⟩ [⟨1, 2, 1⟩] = .ok (5 / 2) := by
  constructor <;> norm_num [detachmentFront, frontLoop]

example : detachmentFront true 4 ⟨1, 0, 1⟩ ⟨1, 0, 1⟩ [⟨1, 0, 1⟩, ⟨1, 2, 1⟩, ⟨1, 3, 1⟩] = .ok 2 := by
  norm_num [detachmentFront, frontLoop]

end Hermes.Detachment
