import Verif.Model.Sheath

/-!
# Feedback controllers

`src/upstream_density_feedback.cxx`, `include/upstream_density_feedback.hxx`, `src/temperature_feedback.cxx`,
`include/temperature_feedback.hxx`, `src/detachment_controller.cxx`, `include/detachment_controller.hxx`.

The two PI controllers have the same algorithm; `piStep` models both.  Members without an initialiser that no statement has
assigned yet are `none`.  Infinite options (`INFINITY`) are `none`.  Debug output and diagnostics are left out.
-/

namespace Hermes

/-! ## PI controllers -/

/-- Options: `include/upstream_density_feedback.hxx:30-47`, `include/temperature_feedback.hxx:36-57`. -/
structure PIOpts where
  setpoint : ℝ
  p : ℝ
  i : ℝ
  integral_positive : Bool
  source_positive : Bool

/-- Members: `include/upstream_density_feedback.hxx:147-164`, `include/temperature_feedback.hxx:171-189`. -/
structure PI where
  integral : ℝ
  lasttime : ℝ
  last : ℝ
  multiplier : Option ℝ
  proportional_term : Option ℝ
  integral_term : Option ℝ

/-- A new controller. -/
def PI.fresh : PI := ⟨0, -1, 0, none, none, none⟩

/-- The body of the loop, `src/upstream_density_feedback.cxx:16-48`, `src/temperature_feedback.cxx:16-53`. -/
noncomputable def piStep (o : PIOpts) (c : PI) (time value : ℝ) : PI :=
  let error := o.setpoint - value
  let c1 : PI := if c.lasttime < 0 then { c with lasttime := time, last := error } else c
  let c2 : PI := if time > c1.lasttime then
      { c1 with integral := c1.integral + (time - c1.lasttime) * 0.5 * (error + c1.last) } else c1
  let c3 : PI := if c2.integral < 0 ∧ o.integral_positive = true then { c2 with integral := 0 } else c2
  let integral_term := o.i * c3.integral
  let proportional_term := o.p * error
  let source_multiplier := proportional_term + integral_term
  let source_multiplier := if source_multiplier < 0 ∧ o.source_positive = true then 0 else source_multiplier
  { c3 with
    multiplier := some source_multiplier
    proportional_term := some proportional_term
    integral_term := some integral_term
    last := error
    lasttime := time }

/-- The loop on one processor: `value` is the value in the first cell of its lower Y boundary, `none` if it has no such cell (then
the loop is skipped). -/
noncomputable def piLocal (o : PIOpts) (time : ℝ) (value : Option ℝ) (c : PI) : PI :=
  match value with
  | some v => piStep o c time v
  | none => c

/-- One evaluation on all processors.  `values` has the `value` for each processor.  Then `MPI_Bcast` from processor `root`:
`src/upstream_density_feedback.cxx:54-56` (`root = 0`), `src/temperature_feedback.cxx:59-67` (`root = size - 1` if
`control_target_temperature`).  Broadcasting or using a multiplier that was never assigned is undefined: `none`. -/
noncomputable def piRanks (o : PIOpts) (root : ℕ) (time : ℝ) (values : List (Option ℝ)) (cs : List PI) : Option (ℝ × List PI) :=
  let cs' := List.zipWith (piLocal o time) values cs
  match cs'[root]? with
  | none => none
  | some r =>
    match r.multiplier with
    | none => none
    | some m => some (m, cs'.map fun c =>
        { c with multiplier := some m, proportional_term := r.proportional_term, integral_term := r.integral_term })

section
variable {ι : Type}

/-- Energy that the added particles bring, `src/upstream_density_feedback.cxx:64-69`. -/
noncomputable def densityFeedbackEnergy (name : String) (source : Fld ι) : Prog ι Unit := do
  let v ← isSetFinalNoBoundary (.sp name .velocity)
  if v then do
    let a ← isSetFinal (.sp name .AA)
    if a then do
      let V ← getNoBndryF name .velocity
      let Mi ← getR name .AA
      addF name .energy_source fun i => 0.5 * Mi * V i ^ 2 * source i
    else pure ()
  else pure ()

/-- `UpstreamDensityFeedback::transform`, `src/upstream_density_feedback.cxx:6-71`, on the processor that has the first cell of
the lower boundary.  Returns the members after the call. -/
noncomputable def densityFeedback (o : PIOpts) (name : String) (shape : Fld ι) (cell : ι) (c : PI) : Prog ι PI := do
  let N ← getNoBndryF name .density
  let time ← get asReal (.top "time")
  let c' := piStep o c time (N cell)
  addF name .density_source fun i => c'.multiplier.getD 0 * shape i
  densityFeedbackEnergy name fun i => c'.multiplier.getD 0 * shape i
  pure c'

/-- `TemperatureFeedback::transform`, `src/temperature_feedback.cxx:6-109`, on one processor: `ystart` and `yend` are the first
and the last cell.  `targets` are the pairs of the two option lists after `trim`, without the pairs with an empty member. -/
noncomputable def temperatureFeedback (o : PIOpts) (name : String) (control_target_temperature : Bool) (ystart yend : ι)
    (targets : List (String × ℝ)) (shape : Fld ι) (c : PI) : Prog ι PI := do
  let T ← getNoBndryF name .temperature
  let time ← get asReal (.top "time")
  let c' := piStep o c time (if control_target_temperature then T yend else T ystart)
  targets.forM fun t => addF t.1 .energy_source fun i => t.2 * c'.multiplier.getD 0 * shape i
  pure c'

end

/-- A restart file or the restart options. -/
abbrev RestartFile := String → Option ℝ

/-- One call of `restartVars`, `include/upstream_density_feedback.hxx:124-142`, `include/temperature_feedback.hxx:148-166`.
`first` is the local `static` variable of the function: one for all objects of the class.  `var` is
`name + "_density_error_integral"` or `name + "_temperature_error_integral"`. -/
def piRestart (var : String) (first : Bool) (c : PI) (file : RestartFile) : Bool × PI × RestartFile :=
  match first, file var with
  | true, some x => (false, { c with integral := x }, Function.update file var (some x))
  | first, _ => (first, c, Function.update file var (some c.integral))

/-- `restartVars` of all controllers of the class in turn (`ComponentScheduler`). -/
def piRestartAll (first : Bool) (cs : List (String × PI)) (file : RestartFile) : Bool × List (String × PI) × RestartFile :=
  cs.foldl (fun a c =>
    let r := piRestart c.1 a.1 c.2 a.2.2
    (r.1, a.2.1 ++ [(c.1, r.2.1)], r.2.2)) (first, [], file)

/-! ## Detachment controller -/

/-- Options, `include/detachment_controller.hxx:22-122`; `time_normalisation` line 19. -/
structure DetachOpts where
  time_normalisation : ℝ
  connection_length : ℝ
  setpoint : ℝ
  velocity_form : Bool
  min_time_for_change : ℝ
  min_error_for_change : ℝ
  minval : Option ℝ
  maxval : Option ℝ
  response_sign : ℝ
  initial_control : ℝ
  control_offset : ℝ
  settling_time : ℝ
  ignore_restart : Bool
  reset_integral_on_first_crossing : Bool
  controller_gain : ℝ
  integral_time : Option ℝ
  derivative_time : ℝ
  buffer_size : ℤ

/-- Members that keep their value between calls, `include/detachment_controller.hxx:262-298`. -/
structure Detach where
  control : ℝ
  error_integral : ℝ
  previous_time : ℝ
  previous_error : ℝ
  previous_control : ℝ
  previous_derivative : ℝ
  initialise : Bool
  first_step : Bool
  number_of_crossings : ℝ
  time_buffer : List ℝ
  error_buffer : List ℝ

/-- A new controller, `include/detachment_controller.hxx:81-84, 262-298`. -/
def Detach.fresh (o : DetachOpts) : Detach :=
  { control := o.initial_control, error_integral := 0, previous_time := 0, previous_error := 0, previous_control := o.initial_control,
    previous_derivative := 0, initialise := true, first_step := true, number_of_crossings := 0, time_buffer := [], error_buffer := [] }

/-- `calculateGradient`, `src/detachment_controller.cxx:10-30`. -/
noncomputable def calculateGradient (x y : List ℝ) : ℝ :=
  let N : ℝ := x.length
  let sum_x := x.foldl (· + ·) 0
  let sum_y := y.foldl (· + ·) 0
  let sums := (x.zip y).foldl (fun a p => (a.1 + p.1 * p.2, a.2 + p.1 * p.1)) ((0 : ℝ), (0 : ℝ))
  let numerator := N * sums.1 - sum_x * sum_y
  let denominator := N * sums.2 - sum_x * sum_x
  if denominator = 0 then 0 else numerator / denominator

/-- `time_buffer.size() >= buffer_size`: a comparison of `size_t` (64 bits) with `int`, which is converted to `size_t`. -/
def bufferFull (buffer_size : ℤ) (size : ℕ) : Bool := decide ((buffer_size % 18446744073709551616).toNat ≤ size)

/-- `x / integral_time`, zero for infinite `integral_time`. -/
noncomputable def overTime (x : ℝ) : Option ℝ → ℝ
  | none => 0
  | some τ => x / τ

/-- `std::max(control, minval)` and `std::min(control, maxval)`, lines 151-152. -/
noncomputable def limitControl (lo hi : Option ℝ) (x : ℝ) : ℝ :=
  let x := match lo with | none => x | some l => if x < l then l else x
  match hi with | none => x | some h => if h < x then h else x

/-- Part 2, the response, when the conditions for a change are met: `src/detachment_controller.cxx:119-200`.
`erase` on an empty buffer is undefined: `none`. -/
noncomputable def detachUpdate (o : DetachOpts) (c : Detach) (time error : ℝ) : Option Detach :=
  let change_in_time := time - c.previous_time
  let full := bufferFull o.buffer_size c.time_buffer.length
  if full = true ∧ c.time_buffer = [] then none else
  let time_buffer := (if full then c.time_buffer.tail else c.time_buffer) ++ [time]
  let error_buffer := (if full then c.error_buffer.tail else c.error_buffer) ++ [error]
  let derivative := calculateGradient time_buffer error_buffer
  let change_in_error := if c.first_step then 0 else error - c.previous_error
  let change_in_derivative := if c.first_step then 0 else derivative - c.previous_derivative
  let error_integral := if c.first_step then 0 else c.error_integral + change_in_time * 0.5 * (error + c.previous_error)
  let control :=
    if o.velocity_form then
      c.previous_control + (o.response_sign * o.controller_gain * change_in_error
        + o.response_sign * o.controller_gain * overTime change_in_time o.integral_time * error
        + o.response_sign * o.controller_gain * o.derivative_time * change_in_derivative)
    else
      o.control_offset + o.response_sign * o.controller_gain * error
        + overTime (o.response_sign * o.controller_gain * error_integral) o.integral_time
        + o.response_sign * o.controller_gain * o.derivative_time * derivative
  let control := limitControl o.minval o.maxval control
  let crossed := (error < 0 ∧ c.previous_error > 0) ∨ (error > 0 ∧ c.previous_error < 0)
  some
    { c with
      control := control
      error_integral := if crossed ∧ c.number_of_crossings < 1 ∧ o.reset_integral_on_first_crossing = true then 0 else error_integral
      number_of_crossings := if crossed then c.number_of_crossings + 1 else c.number_of_crossings
      previous_time := time
      previous_error := error
      previous_control := control
      previous_derivative := derivative
      first_step := false
      time_buffer := time_buffer
      error_buffer := error_buffer }

/-- Part 2: `src/detachment_controller.cxx:100-200`.  `state_time` is `state["time"]`, `front` the position of the front. -/
noncomputable def detachStep (o : DetachOpts) (c : Detach) (state_time front : ℝ) : Option Detach :=
  if state_time * o.time_normalisation > o.settling_time ∧ state_time * o.time_normalisation - c.previous_time ≥ o.min_time_for_change ∧
      |o.setpoint - front - c.previous_error| ≥ o.min_error_for_change then
    detachUpdate o c (state_time * o.time_normalisation) (o.setpoint - front)
  else some c

/-- One Y point: cell length, neutral and electron density. -/
structure YPoint where
  dy : ℝ
  Nn : ℝ
  Ne : ℝ

/-- The loop of `src/detachment_controller.cxx:50-91`: `prev` is the point before, `dist` the variable `distance_from_upstream`.
`check2` is `CHECK >= 2`, with which the `ASSERT2` throw. -/
noncomputable def frontLoop (check2 : Bool) (L : ℝ) : ℝ → YPoint → List YPoint → Except Err ℝ
  | dist, _, [] => .ok dist
  | x1, prev, q :: l =>
    let x2 := x1 + 0.5 * prev.dy + 0.5 * q.dy
    if q.Nn > q.Ne then
      let d := ((x1 * q.Ne - prev.Ne * x2) - (x1 * q.Nn - prev.Nn * x2)) / ((prev.Nn - q.Nn) - (prev.Ne - q.Ne))
      if check2 = true ∧ ¬((x1 < d ∧ d < x2) ∧ (0 < d ∧ d < L)) then .error .custom else .ok d
    else frontLoop check2 L x2 q l

/-- Part 1: `src/detachment_controller.cxx:34-98`.  `guard` is the point before `ystart`, `p :: l` the points of the domain.  Returns
`detachment_front_location`. -/
noncomputable def detachmentFront (check2 : Bool) (L : ℝ) (guard p : YPoint) (l : List YPoint) : Except Err ℝ :=
  match frontLoop check2 L (-(guard.dy + p.dy) / 4) guard (p :: l) with
  | .error e => .error e
  | .ok d =>
    let d := if d < 0 then 0 else d
    let d := if L < d then L else d
    .ok (L - d)

section
variable {ι : Type}

/-- Part 3: `src/detachment_controller.cxx:203-231`.  `power` is `control_mode == control_power`, otherwise `control_particles`;
`targets` as in `temperatureFeedback`. -/
noncomputable def detachApply (power : Bool) (targets : List (String × ℝ)) (shape : Fld ι) (control : ℝ) : Prog ι Unit :=
  targets.forM fun t => addF t.1 (if power then .energy_source else .density_source) fun i => t.2 * (control * shape i)

end

/-- `restartVars`, `include/detachment_controller.hxx:193-230`. -/
def detachRestart (o : DetachOpts) (c : Detach) (file : RestartFile) : Detach × RestartFile :=
  let c : Detach :=
    if c.initialise = true ∧ o.ignore_restart = false then
      { c with
        control := (file "detachment_control_src_mult").getD c.control
        previous_control := (file "detachment_control_previous_control").getD c.previous_control
        error_integral := (file "detachment_control_error_integral").getD c.error_integral
        previous_time := (file "detachment_control_previous_time").getD c.previous_time
        previous_error := (file "detachment_control_previous_error").getD c.previous_error
        previous_derivative := (file "detachment_control_previous_derivative").getD c.previous_derivative
        number_of_crossings := (file "detachment_control_number_of_crossings").getD c.number_of_crossings
        initialise := false
        first_step := false }
    else c
  (c, fun k =>
    if k = "detachment_control_src_mult" then some c.control
    else if k = "detachment_control_previous_control" then some c.previous_control
    else if k = "detachment_control_error_integral" then some c.error_integral
    else if k = "detachment_control_previous_time" then some c.previous_time
    else if k = "detachment_control_previous_error" then some c.previous_error
    else if k = "detachment_control_previous_derivative" then some c.previous_derivative
    else if k = "detachment_control_number_of_crossings" then some c.number_of_crossings
    else file k)

end Hermes
