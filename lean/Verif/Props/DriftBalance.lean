import Verif.Props.Drifts

/-!
# What the drifts conserve (C67, C69)
-/

set_option linter.unusedSectionVars false

namespace Hermes.Drifts
open Hermes.Closures Hermes.Effects

noncomputable section

variable {ι : Type} {st st' st1 st2 st3 : Store Key (Value ι)}

/-- Amount in the domain `D` of a density, with volumes `vol`. -/
def amount (vol : ι → ℝ) (D : Finset ι) (f : Fld ι) : ℝ := ∑ i ∈ D, vol i * f i

/-- A linear operator. -/
structure Linear (L : Fld ι → Fld ι) : Prop where
  add : ∀ f g i, L (fun i => f i + g i) i = L f i + L g i
  smul : ∀ (c : ℝ) f i, L (fun i => c * f i) i = c * L f i

theorem Linear.zero {L : Fld ι → Fld ι} (h : Linear L) (i : ι) : L (fun _ => 0) i = 0 := by
  have := h.smul 0 (fun _ => 0) i
  simpa using this

theorem Linear.total {L : Fld ι → Fld ι} (h : Linear L) (f : String → Fld ι) (i : ι) : ∀ names : List String,
    L (fun i => total names fun n => f n i) i = total names fun n => L (f n) i
  | [] => by
    show L (fun _ => 0) i = 0
    exact h.zero i
  | n :: l => by
    have e : (fun i => Drifts.total (n :: l) fun n => f n i) = fun i => f n i + Drifts.total l fun n => f n i := by
      funext i; unfold Drifts.total; rw [List.map_cons, List.sum_cons]
    rw [e, h.add, Linear.total h f i l]
    unfold Drifts.total
    rw [List.map_cons, List.sum_cons]

theorem Linear.when {L : Fld ι → Fld ι} (h : Linear L) (p : Prop) (f : Fld ι) (i : ι) : L (fun i => when p (f i)) i = Effects.when p (L f i) := by
  by_cases hp : p
  · simp only [when_pos hp]
  · simp only [when_neg hp]; exact h.zero i

theorem total_congr {names : List String} {f g : String → ℝ} (h : ∀ n ∈ names, f n = g n) : total names f = total names g := by
  unfold total; rw [List.map_congr_left h]

theorem total_mul_right (names : List String) (f : String → ℝ) (c : ℝ) : total names (fun n => f n * c) = total names f * c := by
  unfold total
  induction names with
  | nil => simp
  | cons n l ih => simp only [List.map_cons, List.sum_cons, ih, add_mul]

theorem total_add (names : List String) (f g : String → ℝ) : total names (fun n => f n + g n) = total names f + total names g := by
  unfold total
  induction names with
  | nil => simp
  | cons n l ih => simp only [List.map_cons, List.sum_cons, ih]; ring

theorem total_neg (names : List String) (f : String → ℝ) : total names (fun n => -f n) = -total names f := by
  unfold total
  induction names with
  | nil => simp
  | cons n l ih => simp only [List.map_cons, List.sum_cons, ih]; ring

theorem charged_ne {w : View ι} {n : String} (h : Charged w n) : rAt w n .charge ≠ 0 := by
  intro e
  have := h.2
  rw [e, abs_zero] at this
  norm_num at this

/-! ## Diamagnetic drift -/

/-- Pressure `N T` of the charged species. -/
def driftPressure (w : View ι) (names : List String) : Fld ι := fun i =>
  total names fun n => when (Charged w n ∧ Has w n .temperature ∧ Has w n .density) (fAt w n .density i * fAt w n .temperature i)

/-- **C67.**  The charge the diamagnetic drift gathers, in gradient form: minus the divergence of the current `Σ N T ∇×(b/B)`, without any of the charges. -/
theorem drift_charge {o : DriftOps ι} {form : Fld ι} {names : List String} {u : Unit} (hn : names.Nodup) (hL : Linear o.curv)
    (h : diamagneticDrift o form names st = (.ok u, st')) {i : ι} (hf : form i = 0) :
    total names (fun n => realOf st n .charge * grew st st' n .density_source i) = -o.curv (driftPressure (vals st) names) i := by
  obtain ⟨-, hs, h0⟩ := drift_sources hn h
  have e : o.curv (driftPressure (vals st) names) i = total names fun n =>
      when (Charged (vals st) n ∧ Has (vals st) n .temperature ∧ Has (vals st) n .density) (o.curv (fun i => fieldOf st n .density i * fieldOf st n .temperature i) i) := by
    refine (hL.total (fun n i => when (Charged (vals st) n ∧ Has (vals st) n .temperature ∧ Has (vals st) n .density)
      (fieldOf st n .density i * fieldOf st n .temperature i)) i names).trans (total_congr fun n _ => hL.when _ _ i)
  rw [e, ← total_neg]
  refine total_congr fun n hm => ?_
  by_cases hc : Charged (vals st) n ∧ Has (vals st) n .temperature
  · rw [(hs n hm hc.1 hc.2 i).1]
    by_cases hd : Has (vals st) n .density
    · rw [when_pos hd, when_pos ⟨hc.1, hc.2, hd⟩]
      unfold diaDiv
      rw [hf]
      have q : realOf st n .charge ≠ 0 := charged_ne hc.1
      have e' : (fun i => fieldOf st n .density i * fieldOf st n .temperature i / realOf st n .charge) =
          fun i => (1 / realOf st n .charge) * (fieldOf st n .density i * fieldOf st n .temperature i) := by funext i; ring
      rw [e', hL.smul]
      field_simp
      ring
    · rw [when_neg hd, when_neg fun hh => hd hh.2.2]; ring
  · rw [h0 n (fun hh => hc hh.2) _ rfl i, when_neg fun hh => hc ⟨hh.1, hh.2.1⟩]; ring

/-- **C67.**  In divergence form, on a domain through whose boundary nothing drifts, the drift keeps the particles, the momentum and the heat of every species. -/
theorem drift_conserves {o : DriftOps ι} {form : Fld ι} {names : List String} {u : Unit} (hn : names.Nodup) (h : diamagneticDrift o form names st = (.ok u, st'))
    {vol : ι → ℝ} {D : Finset ι} (hf : ∀ i ∈ D, form i = 1) (hD : ∀ f a, amount vol D (o.divFlow f a) = 0) (n : String) {v : Var} (hv : isSource v = true) :
    amount vol D (fieldOf st' n v) = amount vol D (fieldOf st n v) := by
  obtain ⟨-, hs, h0⟩ := drift_sources hn h
  have key : amount vol D (grew st st' n v) = 0 := by
    by_cases hc : n ∈ names ∧ Charged (vals st) n ∧ Has (vals st) n .temperature
    · have one : ∀ (f : Fld ι) (c : ℝ), ∑ i ∈ D, vol i * (c * diaDiv o form st n f i) = 0 := by
        intro f c
        have : ∑ i ∈ D, vol i * (c * diaDiv o form st n f i) = c * amount vol D (o.divFlow f fun i => fieldOf st n .temperature i / realOf st n .charge) := by
          unfold amount
          rw [Finset.mul_sum]
          refine Finset.sum_congr rfl fun i hi => ?_
          unfold diaDiv
          rw [hf i hi]
          ring
        rw [this, hD, mul_zero]
      have wh : ∀ (p : Prop) (c : ℝ) (f : Fld ι), ∑ i ∈ D, vol i * when p (c * diaDiv o form st n f i) = 0 := by
        intro p c f
        by_cases hp : p
        · simp only [when_pos hp]; exact one f c
        · simp only [when_neg hp, mul_zero, Finset.sum_const_zero]
      have g := hs n hc.1 hc.2.1 hc.2.2
      unfold amount
      cases v <;> first | (exfalso; exact Bool.false_ne_true hv) | skip
      · rw [Finset.sum_congr rfl fun i _ => by rw [(g i).1, ← neg_one_mul]]
        exact wh _ _ _
      · rw [Finset.sum_congr rfl fun i _ => by rw [(g i).2.2, ← neg_one_mul]]
        exact wh _ _ _
      · rw [Finset.sum_congr rfl fun i _ => by rw [(g i).2.1, ← neg_mul]]
        exact wh _ _ _
    · unfold amount
      refine Finset.sum_eq_zero fun i _ => ?_
      rw [h0 n hc v hv i, mul_zero]
  unfold amount grew at *
  have : ∑ i ∈ D, vol i * fieldOf st' n v i - ∑ i ∈ D, vol i * fieldOf st n v i = 0 := by
    rw [← Finset.sum_sub_distrib, ← key]
    exact Finset.sum_congr rfl fun i _ => by ring
  linarith

/-! ## Polarisation drift -/

/-- **C67.**  The charge the polarisation drift gathers, whatever is used for the mass density in the equation for its potential. -/
theorem polarisation_charge {o : DriftOps ι} {p : PolOpts} {solve : Fld ι → Fld ι → Fld ι} {names : List String} {u : Unit} (hn : names.Nodup)
    (h : polarisationDrift o p solve names st = (.ok u, st')) (ha : p.advection = true) (hL : ∀ phi, Linear fun a => o.divAGrad a phi)
    (hall : ∀ n ∈ names, Charged (vals st) n → Has (vals st) n .density) (i : ι) :
    total names (fun n => realOf st n .charge * grew st st' n .density_source i) =
      o.divAGrad (fun i => massDensity (vals st) names i / o.Bsq i) (polPhi o p solve (vals st) names) i := by
  obtain ⟨-, hs, -⟩ := polarisation_sources hn h
  generalize polPhi o p solve (vals st) names = phi at *
  have e1 : (fun i => massDensity (vals st) names i / o.Bsq i) = fun i => total names fun n =>
      when (Has (vals st) n .AA ∧ Charged (vals st) n) (realOf st n .AA * fieldOf st n .density i / o.Bsq i) := by
    funext i
    unfold massDensity
    rw [div_eq_mul_inv, ← total_mul_right]
    refine total_congr fun n _ => ?_
    by_cases hp : Has (vals st) n .AA ∧ Charged (vals st) n
    · rw [when_pos hp, when_pos hp, div_eq_mul_inv]; rfl
    · rw [when_neg hp, when_neg hp, zero_mul]
  rw [e1]
  refine Eq.trans ?_ ((hL phi).total (fun n i => when (Has (vals st) n .AA ∧ Charged (vals st) n) (realOf st n .AA * fieldOf st n .density i / o.Bsq i)) i names).symm
  refine total_congr fun n hm => ?_
  rw [(hs n hm i).1]
  refine Eq.trans ?_ ((hL phi).when _ _ i).symm
  by_cases hp : Has (vals st) n .AA ∧ Charged (vals st) n
  · rw [when_pos ⟨ha, hp, hall n hm hp.2⟩, when_pos hp]
    have q : realOf st n .charge ≠ 0 := charged_ne hp.2
    unfold polFlow
    rw [← (hL phi).smul]
    congr 1
    funext i
    show realOf st n .charge * (fieldOf st n .density i * (realOf st n .AA / realOf st n .charge / o.Bsq i)) = _
    field_simp
  · rw [when_neg fun hh => hp hh.2.1, when_neg hp, mul_zero]

/-- The solver solves its equation with coefficient `C`: with the boundary conditions on its result, `∇·(C ∇ x) = C b` in the domain. -/
def Solves (o : DriftOps ι) (solve : Fld ι → Fld ι → Fld ι) (C : Fld ι) (D : Finset ι) : Prop :=
  ∀ b, ∀ i ∈ D, o.divAGrad C (o.neumann (solve C b)) i = C i * b i

/-- **C67.**  The charge the polarisation drift gathers is the charge that all the other currents carry away, times the ratio of the mass density of the plasma to the one in
the equation for its potential, if that ratio is uniform. -/
theorem polarisation_current {o : DriftOps ι} {p : PolOpts} {solve : Fld ι → Fld ι → Fld ι} {names : List String} {u : Unit} (hn : names.Nodup)
    (h : polarisationDrift o p solve names st = (.ok u, st')) (ha : p.advection = true) (hL : ∀ phi, Linear fun a => o.divAGrad a phi)
    (hall : ∀ n ∈ names, Charged (vals st) n → Has (vals st) n .density) {D : Finset ι} (hs : Solves o solve (fun i => polDensity p (vals st) names i / o.Bsq i) D) {c : ℝ}
    (hm : ∀ i, massDensity (vals st) names i = c * polDensity p (vals st) names i) {i : ι} (hi : i ∈ D) (hB : o.Bsq i ≠ 0) (h0 : polDensity p (vals st) names i ≠ 0) :
    total names (fun n => realOf st n .charge * grew st st' n .density_source i) = c * allJ o (vals st) names i := by
  rw [polarisation_charge hn h ha hL hall i]
  have e : (fun i => massDensity (vals st) names i / o.Bsq i) = fun i => c * (polDensity p (vals st) names i / o.Bsq i) := by
    funext i; rw [hm, mul_div_assoc]
  rw [e, (hL _).smul]
  congr 1
  unfold polPhi
  rw [hs _ i hi]
  field_simp

/-- **C67.**  The polarisation drift closes the currents: it gathers exactly the charge that all the other currents carry away, when the mass density in the
equation for its potential is that of the plasma. -/
theorem polarisation_closes_current {o : DriftOps ι} {p : PolOpts} {solve : Fld ι → Fld ι → Fld ι} {names : List String} {u : Unit} (hn : names.Nodup)
    (h : polarisationDrift o p solve names st = (.ok u, st')) (ha : p.advection = true) (hL : ∀ phi, Linear fun a => o.divAGrad a phi)
    (hall : ∀ n ∈ names, Charged (vals st) n → Has (vals st) n .density) {D : Finset ι} (hs : Solves o solve (fun i => massDensity (vals st) names i / o.Bsq i) D)
    (hm : ∀ i, polDensity p (vals st) names i = massDensity (vals st) names i) {i : ι} (hi : i ∈ D) (hB : o.Bsq i ≠ 0) (h0 : massDensity (vals st) names i ≠ 0) :
    total names (fun n => realOf st n .charge * grew st st' n .density_source i) = allJ o (vals st) names i := by
  have := polarisation_current hn h ha hL hall (c := 1) (by simpa only [hm] using hs) (fun i => by rw [hm, one_mul]) hi hB (by rw [hm]; exact h0)
  rw [this, one_mul]

/-- The condition on the mass density holds without the Boussinesq approximation where the floor is not reached. -/
theorem polDensity_eq {p : PolOpts} (hb : p.boussinesq = false) {names : List String} {i : ι} (h : p.density_floor ≤ massDensity (vals st) names i) :
    polDensity p (vals st) names i = massDensity (vals st) names i := by
  unfold polDensity
  rw [hb, if_neg (by decide), floorTo_of_le h]

/-- **C67.**  Advection by the polarisation drift keeps the particles and the momentum of every species on a domain through whose boundary nothing flows. -/
theorem polarisation_conserves {o : DriftOps ι} {p : PolOpts} {solve : Fld ι → Fld ι → Fld ι} {names : List String} {u : Unit} (hn : names.Nodup)
    (h : polarisationDrift o p solve names st = (.ok u, st')) {vol : ι → ℝ} {D : Finset ι} (hD : ∀ a f, amount vol D (o.divAGrad a (o.neumann f)) = 0)
    (n : String) :
    amount vol D (fieldOf st' n .density_source) = amount vol D (fieldOf st n .density_source) ∧
    amount vol D (fieldOf st' n .momentum_source) = amount vol D (fieldOf st n .momentum_source) := by
  obtain ⟨-, hs, h0⟩ := polarisation_sources hn h
  have fin : ∀ v, amount vol D (grew st st' n v) = 0 → amount vol D (fieldOf st' n v) = amount vol D (fieldOf st n v) := by
    intro v hv
    unfold amount grew at *
    have : ∑ i ∈ D, vol i * fieldOf st' n v i - ∑ i ∈ D, vol i * fieldOf st n v i = 0 := by
      rw [← Finset.sum_sub_distrib, ← hv]
      exact Finset.sum_congr rfl fun i _ => by ring
    linarith
  have wh : ∀ (q : Prop) (f : Fld ι), ∑ i ∈ D, vol i * when q (polFlow o (polPhi o p solve (vals st) names) (vals st) n f i) = 0 := by
    intro q f
    by_cases hp : q
    · simp only [when_pos hp]; exact hD _ _
    · simp only [when_neg hp, mul_zero, Finset.sum_const_zero]
  by_cases hm : n ∈ names
  · refine ⟨fin _ ?_, fin _ ?_⟩
    · unfold amount
      rw [Finset.sum_congr rfl fun i _ => by rw [(hs n hm i).1]]
      exact wh _ _
    · unfold amount
      rw [Finset.sum_congr rfl fun i _ => by rw [(hs n hm i).2.1]]
      exact wh _ _
  · refine ⟨fin _ ?_, fin _ ?_⟩
    · unfold amount
      exact Finset.sum_eq_zero fun i _ => by rw [h0 n hm _ rfl i, mul_zero]
    · unfold amount
      exact Finset.sum_eq_zero fun i _ => by rw [h0 n hm _ rfl i, mul_zero]

/-! ## Energy -/

/-- **C67.**  What the compression of the ion diamagnetic flow gives to all species together: `p̂ ∇·J`, with the `p̂` of the vorticity equation.  (Advection aside.) -/
theorem polarisation_energy {o : DriftOps ι} {p : PolOpts} {solve : Fld ι → Fld ι → Fld ι} {names : List String} {u : Unit} (hn : names.Nodup)
    (h : polarisationDrift o p solve names st = (.ok u, st')) (ha : p.advection = false) (hp : p.diamagnetic_polarisation = true) (i : ι) :
    total names (fun n => grew st st' n .energy_source i) = ionPressure p.average_atomic_mass (vals st) names i * polJ o (vals st) names i := by
  obtain ⟨-, hs, -⟩ := polarisation_sources hn h
  unfold ionPressure
  rw [← total_mul_right]
  refine total_congr fun n hm => ?_
  rw [(hs n hm i).2.2, when_neg (p := p.advection = true ∧ _) (fun hh => by rw [ha] at hh; cases hh.1), add_zero]
  by_cases hc : Has (vals st) n .pressure ∧ Has (vals st) n .AA ∧ Charged (vals st) n
  · rw [when_pos ⟨hp, hc⟩, when_pos hc]; rfl
  · rw [when_neg fun hh => hc hh.2, when_neg hc, zero_mul]

/-- `∇·(f ∇×(b/B))` and `∇×(b/B)·∇` are adjoint up to sign: nothing flows through the boundary. -/
def Adjoint (o : DriftOps ι) (vol : ι → ℝ) (D : Finset ι) : Prop := ∀ f g, ∑ i ∈ D, vol i * (f i * o.divCurv g i + g i * o.curv f i) = 0

/-- Rate of change of the energy `½ Ā/B² |∇(φ + p̂)|²` of the flow when the vorticity changes at rate `r`. -/
def flowPower (vol : ι → ℝ) (D : Finset ι) (phi Pi r : Fld ι) : ℝ := -∑ i ∈ D, vol i * ((phi i + Pi i) * r i)

/-- The conditions on the boundaries change only guard cells. -/
def GuardsOnly (o : DriftOps ι) (D : Finset ι) : Prop := ∀ f, ∀ i ∈ D, o.neumann f i = f i ∧ o.freePhi f i = f i ∧ o.freeP f i = f i

/-- **C69.**  The energy `vorticity` takes from the species for the diamagnetic current is the energy this current gives to the flow, except for the part
`p̂ ∇·J` that `polarisation_drift` gives back. -/
theorem vorticity_energy {o : DriftOps ι} (ho : FreeOnce o) {p : VortOpts ι} {solve : Fld ι → Fld ι} {Vort : Fld ι} {names : List String} (hn : names.Nodup)
    {r : VortState ι} (h : vorticityTransform o p solve Vort names st = (.ok r, st')) (hd : p.diamagnetic = true) (hf : p.collisional_friction = false)
    {vol : ι → ℝ} {D : Finset ι} (hA : Adjoint o vol D) (hG : GuardsOnly o D) :
    ∑ i ∈ D, vol i * total names (fun n => grew st st' n .energy_source i) + flowPower vol D (topField st' "fields:phi") r.Pi r.ddt =
      -∑ i ∈ D, vol i * (r.Pi i * topField st' "fields:DivJdia" i) := by
  obtain ⟨hPi, hddt, -, he, -, hphi, -, hJ, -, -⟩ := vorticity_transform ho hn h
  have e1 : topField st' "fields:phi" = vortPhi o p solve (vals st) names := by unfold topField; rw [hphi]; rfl
  have e2 : topField st' "fields:DivJdia" = o.divCurv (chargedPressure o.freeP (vals st) names) := by unfold topField; rw [hJ hd]; rfl
  have e3 : ∀ i ∈ D, vortPhi o p solve (vals st) names i = o.freePhi (solve (vortPi o p (vals st) names)) i := by
    intro i hi
    unfold vortPhi
    split
    · rfl
    · exact (hG _ i hi).2.1.symm
  have e4 : ∀ i, total names (fun n => grew st st' n .energy_source i) =
      -(chargedPressure o.freeP (vals st) names i * o.curv (o.freePhi (solve (vortPi o p (vals st) names))) i) := by
    intro i
    unfold chargedPressure
    rw [← total_mul_right, ← total_neg]
    refine total_congr fun n hm => ?_
    rw [he n hm i, when_pos hd]
    unfold jdiaWork
    by_cases hc : Has (vals st) n .pressure ∧ Charged (vals st) n
    · rw [when_pos hc, when_pos hc]
    · rw [when_neg hc, when_neg hc, zero_mul, neg_zero]
  have a := hA (o.freePhi (solve (vortPi o p (vals st) names))) (chargedPressure o.freeP (vals st) names)
  unfold flowPower
  rw [e1, e2, ← sub_eq_add_neg, ← Finset.sum_sub_distrib, ← Finset.sum_neg_distrib]
  have b : ∀ i ∈ D, vol i * total names (fun n => grew st st' n .energy_source i) - vol i * ((vortPhi o p solve (vals st) names i + r.Pi i) * r.ddt i) =
      -(vol i * (r.Pi i * o.divCurv (chargedPressure o.freeP (vals st) names) i))
      - vol i * (o.freePhi (solve (vortPi o p (vals st) names)) i * o.divCurv (chargedPressure o.freeP (vals st) names) i
        + chargedPressure o.freeP (vals st) names i * o.curv (o.freePhi (solve (vortPi o p (vals st) names))) i) := by
    intro i hi
    rw [e3 i hi, e4, hddt i, when_pos hd, when_neg (p := p.collisional_friction = true) (by rw [hf]; decide)]
    ring
  rw [Finset.sum_congr rfl b, Finset.sum_sub_distrib, a, sub_zero]

/-- **C67, C69.**  `vorticity` and then `polarisation_drift`, with the same average mass: the energy of the species and of the flow together changes only by
the work of the parallel current against the potential, which the parallel electric field returns to the particles. -/
theorem drift_energy_conserved {o : DriftOps ι} (ho : FreeOnce o) {p : VortOpts ι} {q : PolOpts} {solve : Fld ι → Fld ι} {solve' : Fld ι → Fld ι → Fld ι}
    {Vort : Fld ι} {names : List String} (hn : names.Nodup) {r : VortState ι} {u : Unit}
    (h1 : vorticityTransform o p solve Vort names st = (.ok r, st1)) (h2 : polarisationDrift o q solve' names st1 = (.ok u, st2))
    (hd : p.diamagnetic = true) (hp : p.diamagnetic_polarisation = true) (hf : p.collisional_friction = false)
    (hq : q.diamagnetic_polarisation = true) (ha : q.advection = false) (hav : q.average_atomic_mass = p.avg)
    {vol : ι → ℝ} {D : Finset ι} (hA : Adjoint o vol D) (hG : GuardsOnly o D) :
    ∑ i ∈ D, vol i * total names (fun n => grew st st2 n .energy_source i)
      + flowPower vol D (topField st1 "fields:phi") r.Pi (fun i => r.ddt i + divJpar o (vals st) names i) =
    -∑ i ∈ D, vol i * (topField st1 "fields:phi" i * divJpar o (vals st) names i) := by
  have e1 := vorticity_energy ho hn h1 hd hf hA hG
  obtain ⟨hPi, hddt, hsp, -, -, -, -, hJ, -, -⟩ := vorticity_transform ho hn h1
  have eJ : divJpar o (vals st1) names = divJpar o (vals st) names := by
    funext i
    unfold divJpar Charged Has rAt fAt
    simp only [hsp _ .momentum rfl, hsp _ .charge rfl, hsp _ .AA rfl]
  have eP : ionPressure q.average_atomic_mass (vals st1) names = ionPressure p.avg (vals st) names := by
    funext i
    unfold ionPressure Charged Has rAt fAt
    simp only [hsp _ .pressure rfl, hsp _ .charge rfl, hsp _ .AA rfl, hav]
  have e2 : ∀ i ∈ D, total names (fun n => grew st1 st2 n .energy_source i) = r.Pi i * (topField st1 "fields:DivJdia" i + divJpar o (vals st) names i) := by
    intro i hi
    rw [polarisation_energy hn h2 ha hq i, eP, hPi]
    unfold vortPi polJ
    rw [(hG _ i hi).1, when_pos hp, eJ]
    rfl
  have e3 : ∀ i, total names (fun n => grew st st2 n .energy_source i) =
      total names (fun n => grew st st1 n .energy_source i) + total names (fun n => grew st1 st2 n .energy_source i) := by
    intro i
    rw [← total_add]
    exact total_congr fun n _ => by unfold grew; ring
  unfold flowPower at *
  have c : ∑ i ∈ D, vol i * total names (fun n => grew st st2 n .energy_source i) =
      ∑ i ∈ D, vol i * total names (fun n => grew st st1 n .energy_source i)
      + ∑ i ∈ D, vol i * (r.Pi i * topField st1 "fields:DivJdia" i) + ∑ i ∈ D, vol i * (r.Pi i * divJpar o (vals st) names i) := by
    rw [← Finset.sum_add_distrib, ← Finset.sum_add_distrib]
    refine Finset.sum_congr rfl fun i hi => ?_
    rw [e3, e2 i hi]; ring
  have d : ∑ i ∈ D, vol i * ((topField st1 "fields:phi" i + r.Pi i) * (r.ddt i + divJpar o (vals st) names i)) =
      ∑ i ∈ D, vol i * ((topField st1 "fields:phi" i + r.Pi i) * r.ddt i) + ∑ i ∈ D, vol i * (topField st1 "fields:phi" i * divJpar o (vals st) names i)
      + ∑ i ∈ D, vol i * (r.Pi i * divJpar o (vals st) names i) := by
    rw [← Finset.sum_add_distrib, ← Finset.sum_add_distrib]
    exact Finset.sum_congr rfl fun i hi => by ring
  rw [c, d]
  linarith

end
end Hermes.Drifts
