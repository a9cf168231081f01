import Verif.Props.DriftExamples

/-!
# C104: the damping options of the vorticity equation damp
-/

namespace Hermes.Drifts
open Hermes.Closures Hermes.Effects

noncomputable section

variable {ι : Type} {st st1 st2 : Store Key (Value ι)}

/-- The same options without damping of the vorticity. -/
def vortUndamped (p : VortOpts ι) : VortOpts ι :=
  { p with viscosity := fun _ => 0, vort_dissipation := false, hyper_z := -1, damp_core_vorticity := false }

/-- The same options without damping of the potential. -/
def phiUndamped (p : VortOpts ι) : VortOpts ι := { p with phi_dissipation := false, phi_sheath_dissipation := false }

/-- What is expected of the operators: each one takes from the integral of the square. -/
structure Damping (o : DriftOps ι) (v : VortOps ι) (vol : ι → ℝ) (D : Finset ι) : Prop where
  perp : Dissipates o vol D
  none : ∀ f i, o.divAGrad (fun _ => 0) f i = 0
  par : ∀ f c, (∀ i, 0 ≤ c i) → 0 ≤ ∑ i ∈ D, vol i * (f i * v.parDiss f c i)
  z : ∀ f, 0 ≤ ∑ i ∈ D, vol i * (f i * v.d4dz4 f i)
  core : ∀ f, 0 ≤ ∑ i ∈ D, vol i * (f i * v.coreAvg f i)

theorem sum_when (vol : ι → ℝ) (D : Finset ι) (f : Fld ι) (q : Prop) (x : ℝ) (F : Fld ι) :
    ∑ i ∈ D, vol i * (f i * when q (x * F i)) = when q (x * ∑ i ∈ D, vol i * (f i * F i)) := by
  by_cases h : q
  · simp only [when_pos h]
    rw [Finset.mul_sum]
    exact Finset.sum_congr rfl fun i _ => by ring
  · simp only [when_neg h]
    simp

theorem when_nonneg {q : Prop} {x : ℝ} (h : q → 0 ≤ x) : 0 ≤ when q x := by
  by_cases hq : q
  · rw [when_pos hq]; exact h hq
  · rw [when_neg hq]

variable {o : DriftOps ι} {v : VortOps ι} {p : VortOpts ι} {Vort r r0 : Fld ι} {a : VortState ι} {names : List String} {vol : ι → ℝ} {D : Finset ι}

/-- **C104.**  Viscosity, `vort_dissipation`, `hyper_z` and `damp_core_vorticity`, each on or off, never increase the integral of the square of the vorticity: compared
with the same state without them. -/
theorem vorticity_damped (h : vorticityFinally o v p Vort a names st = (.ok r, st1)) (h0 : vorticityFinally o v (vortUndamped p) Vort a names st = (.ok r0, st2))
    (hd : Damping o v vol D) (hv : ∀ i, 0 ≤ p.viscosity i) (hc : ∀ i, 0 ≤ topField st "sound_speed" i) :
    ∑ i ∈ D, vol i * (Vort i * (r i - r0 i)) ≤ 0 := by
  have e : ∀ i, r i - r0 i = o.divAGrad p.viscosity Vort i - when (p.vort_dissipation = true) (1 * v.parDiss Vort (topField st "sound_speed") i)
      - when (p.hyper_z > 0) (p.hyper_z * v.d4dz4 Vort i) - when (p.damp_core_vorticity = true) (0.01 * v.coreAvg Vort i) := fun i => by
    rw [(vorticity_rhs h).1 i, (vorticity_rhs h0).1 i]
    have z1 : o.divAGrad (vortUndamped p).viscosity Vort i = 0 := hd.none Vort i
    have z2 : when ((vortUndamped p).hyper_z > 0) ((vortUndamped p).hyper_z * v.d4dz4 Vort i) = 0 := when_neg (by norm_num [vortUndamped]) _
    have z3 : when ((vortUndamped p).damp_core_vorticity = true) (0.01 * v.coreAvg Vort i) = 0 := when_neg (by simp [vortUndamped]) _
    have z4 : parDissipation v (vortUndamped p) Vort (topField st "fields:phi") (vals st) i =
        when (p.phi_dissipation = true) (v.parDiss (fun i => -topField st "fields:phi" i) (topAt (vals st) "sound_speed") i) := by
      unfold parDissipation
      rw [when_neg (p := (vortUndamped p).vort_dissipation = true) (by simp [vortUndamped]), zero_add]
      rfl
    have z5 : vortExB o v (vortUndamped p) Vort a.Pi (topField st "fields:phi") i = vortExB o v p Vort a.Pi (topField st "fields:phi") i := rfl
    have z6 : when ((vortUndamped p).phi_sheath_dissipation = true) (sheathDamping v (topField st "fields:phi") i) =
      when (p.phi_sheath_dissipation = true) (sheathDamping v (topField st "fields:phi") i) := rfl
    rw [z1, z2, z3, z4, z5, z6]
    unfold parDissipation
    rw [one_mul, show topField st "sound_speed" = topAt (vals st) "sound_speed" from rfl]
    ring
  have s : ∑ i ∈ D, vol i * (Vort i * (r i - r0 i)) = ∑ i ∈ D, vol i * (Vort i * o.divAGrad p.viscosity Vort i)
      - ∑ i ∈ D, vol i * (Vort i * when (p.vort_dissipation = true) (1 * v.parDiss Vort (topField st "sound_speed") i))
      - ∑ i ∈ D, vol i * (Vort i * when (p.hyper_z > 0) (p.hyper_z * v.d4dz4 Vort i))
      - ∑ i ∈ D, vol i * (Vort i * when (p.damp_core_vorticity = true) (0.01 * v.coreAvg Vort i)) := by
    rw [← Finset.sum_sub_distrib, ← Finset.sum_sub_distrib, ← Finset.sum_sub_distrib]
    exact Finset.sum_congr rfl fun i _ => by rw [e i]; ring
  rw [s, sum_when, sum_when, sum_when]
  have a1 := hd.perp p.viscosity Vort hv
  have a2 := when_nonneg (q := p.vort_dissipation = true) fun _ => mul_nonneg zero_le_one (hd.par Vort (topField st "sound_speed") hc)
  have a3 := when_nonneg (q := p.hyper_z > 0) fun hz => mul_nonneg (le_of_lt hz) (hd.z Vort)
  have a4 := when_nonneg (q := p.damp_core_vorticity = true) fun _ => mul_nonneg (show (0 : ℝ) ≤ 0.01 by norm_num) (hd.core Vort)
  linarith

/-- What the options that damp the potential add. -/
theorem phi_terms (h : vorticityFinally o v p Vort a names st = (.ok r, st1)) (h0 : vorticityFinally o v (phiUndamped p) Vort a names st = (.ok r0, st2)) (i : ι) :
    r i - r0 i = - when (p.phi_dissipation = true) (v.parDiss (fun i => -topField st "fields:phi" i) (topField st "sound_speed") i)
      + when (p.phi_sheath_dissipation = true) (sheathDamping v (topField st "fields:phi") i) := by
  rw [(vorticity_rhs h).1 i, (vorticity_rhs h0).1 i]
  have z3 : when ((phiUndamped p).phi_sheath_dissipation = true) (sheathDamping v (topField st "fields:phi") i) = 0 := when_neg (by simp [phiUndamped]) _
  have z4 : parDissipation v (phiUndamped p) Vort (topField st "fields:phi") (vals st) i =
      when (p.vort_dissipation = true) (v.parDiss Vort (topAt (vals st) "sound_speed") i) := by
    unfold parDissipation
    rw [when_neg (p := (phiUndamped p).phi_dissipation = true) (by simp [phiUndamped]), add_zero]
    rfl
  have z5 : vortExB o v (phiUndamped p) Vort a.Pi (topField st "fields:phi") i = vortExB o v p Vort a.Pi (topField st "fields:phi") i := rfl
  have z6 : when ((phiUndamped p).hyper_z > 0) ((phiUndamped p).hyper_z * v.d4dz4 Vort i) = when (p.hyper_z > 0) (p.hyper_z * v.d4dz4 Vort i) := rfl
  have z7 : when ((phiUndamped p).damp_core_vorticity = true) (0.01 * v.coreAvg Vort i) = when (p.damp_core_vorticity = true) (0.01 * v.coreAvg Vort i) := rfl
  have z8 : o.divAGrad (phiUndamped p).viscosity Vort i = o.divAGrad p.viscosity Vort i := rfl
  rw [z3, z4, z5, z6, z7, z8]
  unfold parDissipation
  rw [show topField st "sound_speed" = topAt (vals st) "sound_speed" from rfl]
  ring

/-- **C104, part.**  `phi_dissipation` and `phi_sheath_dissipation` take energy from the flow if the flow is the ExB flow alone, and cells in front of a negative
sheath have a negative potential.  Missing: the flow with the diamagnetic drift (`phi_dissipation_drives_flow`). -/
theorem potential_damped_partial (h : vorticityFinally o v p Vort a names st = (.ok r, st1)) (h0 : vorticityFinally o v (phiUndamped p) Vort a names st = (.ok r0, st2))
    (hd : Damping o v vol D) (hvol : ∀ i, 0 ≤ vol i) (hc : ∀ i, 0 ≤ topField st "sound_speed" i) (hPi : ∀ i, a.Pi i = 0) (hfa : ∀ f, v.fromFA f = f)
    (hs : ∀ i x, v.sheathPhi (topField st "fields:phi") i = some x → x < 0 → topField st "fields:phi" i ≤ 0) :
    flowPower vol D (topField st "fields:phi") a.Pi (fun i => r i - r0 i) ≤ 0 := by
  set phi := topField st "fields:phi" with hphi
  unfold flowPower
  have s : ∑ i ∈ D, vol i * ((phi i + a.Pi i) * (r i - r0 i)) =
      ∑ i ∈ D, vol i * ((fun i => -phi i) i * when (p.phi_dissipation = true) (1 * v.parDiss (fun i => -phi i) (topField st "sound_speed") i))
      + ∑ i ∈ D, vol i * (phi i * when (p.phi_sheath_dissipation = true) (sheathDamping v phi i)) := by
    rw [← Finset.sum_add_distrib]
    exact Finset.sum_congr rfl fun i _ => by rw [phi_terms h h0 i, hPi i, one_mul]; ring
  rw [s, sum_when]
  have a1 := when_nonneg (q := p.phi_dissipation = true) fun _ => mul_nonneg zero_le_one (hd.par (fun i => -phi i) (topField st "sound_speed") hc)
  have a2 : 0 ≤ ∑ i ∈ D, vol i * (phi i * when (p.phi_sheath_dissipation = true) (sheathDamping v phi i)) := by
    refine Finset.sum_nonneg fun i _ => mul_nonneg (hvol i) ?_
    by_cases q : p.phi_sheath_dissipation = true
    · rw [when_pos q, sheath_damping hfa]
      cases hx : v.sheathPhi phi i with
      | none => simp
      | some x =>
        rcases lt_or_ge x 0 with hn | hn
        · exact mul_nonneg_of_nonpos_of_nonpos (hs i x hx hn) (min_le_right _ _)
        · simp [min_eq_right hn]
    · rw [when_neg q, mul_zero]
  linarith

/-! ## On the ring -/

theorem ring_damping : Damping ring3 vort3 (fun _ => 1) Finset.univ := by
  refine ⟨ring_dissipates, fun f i => by simp [ring3], fun f c hc => ?_, fun f => ?_, fun f => by simp [vort3]⟩
  · simp only [Fin.sum_univ_three, vort3, nxt, prv, Matrix.cons_val]
    have a1 := mul_nonneg (add_nonneg (hc 0) (hc 1)) (sq_nonneg (f 1 - f 0))
    have a2 := mul_nonneg (add_nonneg (hc 1) (hc 2)) (sq_nonneg (f 2 - f 1))
    have a3 := mul_nonneg (add_nonneg (hc 2) (hc 0)) (sq_nonneg (f 0 - f 2))
    nlinarith
  · simp only [Fin.sum_univ_three, vort3, nxt, prv, Matrix.cons_val]
    nlinarith [sq_nonneg (f 1 - f 0), sq_nonneg (f 2 - f 1), sq_nonneg (f 0 - f 2)]

/-- Ions with a hump of pressure, and a sound speed. -/
def humped : Store Key (Value (Fin 3)) := pair 1 (fun _ => 1) (fun _ => 0) ![0, 2, 0] (fun _ => 0) (fun _ => 0) fun k => if k = "sound_speed" then some fun _ => 1 else none

/-- A run of both halves of the component with any options, and again with other options in the second half. -/
theorem ring_runs (p q : VortOpts (Fin 3)) (solve : Fld (Fin 3) → Fld (Fin 3)) (Vort : Fld (Fin 3)) : ∃ a s1 r s2 r0 s3,
    vorticityTransform ring3 p solve Vort ["e", "d+"] humped = (.ok a, s1) ∧ vorticityFinally ring3 vort3 p Vort a ["e", "d+"] s1 = (.ok r, s2) ∧
    vorticityFinally ring3 vort3 q Vort a ["e", "d+"] s1 = (.ok r0, s3) ∧ (∀ i, topField s1 "sound_speed" i = 1) ∧
    a.Pi = vortPi ring3 p (vals humped) ["e", "d+"] ∧ topField s1 "fields:phi" = vortPhi ring3 p solve (vals humped) ["e", "d+"] := by
  obtain ⟨a, s1, h1, f1⟩ := vorticity_runs (.refl) ring3 p solve Vort ["e", "d+"] trivial trivial trivial trivial _
    (pair_fits (K := fun k => k = "sound_speed") (T := drifting) 1 (fun _ => 1) (fun _ => 0) ![0, 2, 0] (fun _ => 0) (fun _ => 0)
      (top := fun k => if k = "sound_speed" then some fun _ => 1 else none) (by rintro k rfl; rfl))
  obtain ⟨hPi, -, -, -, -, hphi, -, -, -, hk⟩ := vorticity_transform ring_once (by decide) h1
  have f2 := Fit.find (K' := fun k => k = "sound_speed" ∨ k = "fields:phi") (Fit.forget f1) (by
    rintro k (rfl | rfl)
    · rw [hk _ (by decide) (by decide) (fun _ => by decide) fun _ => by decide]; rfl
    · rw [hphi]; rfl)
  obtain ⟨r, s2, h2, -⟩ := finally_runs (K := fun k => k = "sound_speed" ∨ k = "fields:phi") (.refl) ring3 vort3 p Vort a ["e", "d+"] (fun _ h => h) (Or.inr rfl) (Or.inl rfl) _ f2
  obtain ⟨r0, s3, h3, -⟩ := finally_runs (K := fun k => k = "sound_speed" ∨ k = "fields:phi") (.refl) ring3 vort3 q Vort a ["e", "d+"] (fun _ h => h) (Or.inr rfl) (Or.inl rfl) _ f2
  refine ⟨a, s1, r, s2, r0, s3, h1, h2, h3, fun i => ?_, hPi, ?_⟩
  · unfold topField
    rw [hk _ (by decide) (by decide) (fun _ => by decide) fun _ => by decide]
    rfl
  · unfold topField
    rw [hphi]
    rfl

/-- The hypotheses of `vorticity_damped` and `potential_damped_partial` are met, with all options on. -/
example : ∃ (p : VortOpts (Fin 3)) (a : VortState (Fin 3)) (s1 s2 s3 s4 : Store Key (Value (Fin 3))) (r r0 r1 : Fld (Fin 3)),
    vorticityFinally ring3 vort3 p ![1, -1, 0] a ["e", "d+"] s1 = (.ok r, s2) ∧ vorticityFinally ring3 vort3 (vortUndamped p) ![1, -1, 0] a ["e", "d+"] s1 = (.ok r0, s3) ∧
    vorticityFinally ring3 vort3 (phiUndamped p) ![1, -1, 0] a ["e", "d+"] s1 = (.ok r1, s4) ∧
    p.phi_dissipation = true ∧ p.phi_sheath_dissipation = true ∧ p.vort_dissipation = true ∧ p.hyper_z > 0 ∧
    (∀ i, p.viscosity i = 1) ∧ (∀ i, 0 ≤ topField s1 "sound_speed" i) ∧ (∀ i, a.Pi i = 0) ∧
    (∀ i x, vort3.sheathPhi (topField s1 "fields:phi") i = some x → x < 0 → topField s1 "fields:phi" i ≤ 0) := by
  let p : VortOpts (Fin 3) := { exb_advection := false, viscosity := fun _ => 1, vort_dissipation := true, phi_dissipation := true, hyper_z := 1, phi_sheath_dissipation := true, diamagnetic_polarisation := false }
  obtain ⟨a, s1, r, s2, r0, s3, h1, h2, h3, hc, hPi, hphi⟩ := ring_runs p (vortUndamped p) (fun _ => ![-1, 0, 1]) ![1, -1, 0]
  obtain ⟨a', s1', -, -, r1, s4, h1', -, h4, -⟩ := ring_runs p (phiUndamped p) (fun _ => ![-1, 0, 1]) ![1, -1, 0]
  rw [h1] at h1'
  cases h1'
  refine ⟨p, a, s1, s2, s3, s4, r, r0, r1, h2, h3, h4, rfl, rfl, rfl, by norm_num [p], fun _ => rfl, fun i => by rw [hc i]; norm_num, fun i => ?_, fun i x hx hn => ?_⟩
  · rw [hPi]
    exact when_neg (by simp [p]) _
  · simp only [vort3] at hx
    split_ifs at hx with hi
    cases hx
    rw [hi]
    exact hn.le

/-- **C104 (fails with `diamagnetic_polarisation`, both are defaults).**  `phi_dissipation` acts on the potential, not on the potential and the ion pressure that drive the flow:
it gives energy to a flow. -/
theorem phi_dissipation_drives_flow : ∃ (p : VortOpts (Fin 3)) (a : VortState (Fin 3)) (s1 s2 s3 : Store Key (Value (Fin 3))) (r r0 : Fld (Fin 3)),
    p.phi_dissipation = true ∧ p.diamagnetic_polarisation = true ∧ p.phi_sheath_dissipation = false ∧
    vorticityTransform ring3 p (fun _ => ![0, -1, 0]) ![1, -1, 0] ["e", "d+"] humped = (.ok a, s1) ∧
    vorticityFinally ring3 vort3 p ![1, -1, 0] a ["e", "d+"] s1 = (.ok r, s2) ∧ vorticityFinally ring3 vort3 (phiUndamped p) ![1, -1, 0] a ["e", "d+"] s1 = (.ok r0, s3) ∧
    0 < flowPower (fun _ => 1) Finset.univ (topField s1 "fields:phi") a.Pi (fun i => r i - r0 i) := by
  let p : VortOpts (Fin 3) := { exb_advection := false, viscosity := fun _ => 0 }
  obtain ⟨a, s1, r, s2, r0, s3, h1, h2, h3, hc, hPi, hphi⟩ := ring_runs p (phiUndamped p) (fun _ => ![0, -1, 0]) ![1, -1, 0]
  refine ⟨p, a, s1, s2, s3, r, r0, rfl, rfl, rfl, h1, h2, h3, ?_⟩
  have ePhi : topField s1 "fields:phi" = ![0, -1, 0] := by
    rw [hphi]
    unfold vortPhi
    split <;> rfl
  have ePi : ∀ i, a.Pi i = (![0, 2, 0] : Fld (Fin 3)) i := fun i => by
    rw [hPi]
    show when _ (ionPressure 2 (vals humped) ["e", "d+"] i) = _
    rw [when_pos rfl]
    unfold ionPressure total
    rw [List.map_cons, List.map_cons, List.map_nil, when_pos ⟨rfl, rfl, pair_charged 1 (by norm_num) _ _ _ _ _ _ _⟩,
      when_pos ⟨rfl, rfl, pair_charged 1 (by norm_num) _ _ _ _ _ _ _⟩]
    show [0 * (masses "e" / 2 / charges 1 "e"), (![0, 2, 0] : Fld (Fin 3)) i * (masses "d+" / 2 / charges 1 "d+")].sum = _
    unfold masses charges
    rw [if_neg (show ¬("d+" = "e") by decide), if_neg (show ¬("d+" = "e") by decide)]
    simp
  have c : topField s1 "sound_speed" = fun _ => 1 := funext hc
  unfold flowPower
  simp only [phi_terms h2 h3, ePhi, ePi, c, when_neg (show ¬(p.phi_sheath_dissipation = true) by simp [p]), when_pos (show p.phi_dissipation = true from rfl)]
  simp only [Fin.sum_univ_three, vort3, nxt, prv, Matrix.cons_val]
  norm_num

end

end Hermes.Drifts
