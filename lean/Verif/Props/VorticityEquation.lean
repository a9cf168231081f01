import Verif.Props.DriftBalance

/-!
# The vorticity equation (C69)
-/

set_option linter.unusedSectionVars false

namespace Hermes.Drifts
open Hermes.Closures Hermes.Effects

noncomputable section

variable {ι : Type} {st st' st1 st2 st3 : Store Key (Value ι)}

/-- A variable of the tree that does not belong to a species is set. -/
def HasTop (w : View ι) (k : String) : Prop := (w (.top k)).isSome = true

/-- Magnetic flutter of the parallel current of all species. -/
def flutterJ (v : VortOps ι) (w : View ι) (names : List String) : Fld ι := fun i =>
  total names fun n => when ((Has w n .momentum ∧ Charged w n) ∧ HasTop w "fields:Apar_flutter")
    (v.B i * v.bracket (fun i => rAt w n .charge / rAt w n .AA * fAt w n .momentum i / v.B i) (topAt w "fields:Apar_flutter") i)

theorem eff_jparTerm (o : DriftOps ι) (v : VortOps ι) (J : Fld ι) (n : String) : Effect (jparTerm o v J n)
    (fun w i => J i + (when (Has w n .momentum ∧ Charged w n) (o.divPar (fun i => rAt w n .charge / rAt w n .AA * fAt w n .momentum i) i)
      + when ((Has w n .momentum ∧ Charged w n) ∧ HasTop w "fields:Apar_flutter")
        (v.B i * v.bracket (fun i => rAt w n .charge / rAt w n .AA * fAt w n .momentum i / v.B i) (topAt w "fields:Apar_flutter") i))) (fun _ _ _ _ => 0) := by
  have h := eff_ifSet (k := .sp n .momentum) (skip := J) rfl (eff_ifCharged (n := n) (skip := J) fun Z =>
    (eff_getF (ι := ι) (n := n) (v := .density) rfl).bind0 fun _ => (eff_getF (ι := ι) (n := n) (v := .momentum) rfl).bind0 fun NV =>
      (eff_getR (ι := ι) (n := n) (v := .AA) rfl).bind0 fun A =>
        eff_if (skip := (fun i => J i + o.divPar (fun i => Z / A * NV i) i : Fld ι)) (eff_isSet (ι := ι) (k := .top "fields:Apar_flutter") rfl)
          ((eff_getTop (ι := ι) (k := "fields:Apar_flutter")).bind0 fun Apar =>
            Effect.pure (fun i => J i + o.divPar (fun i => Z / A * NV i) i + v.B i * v.bracket (fun i => Z / A * NV i / v.B i) Apar i : Fld ι)))
  refine Effect.congr (m := jparTerm o v J n) h (fun w => ?_) fun w m x i => by simp
  rw [ite_and']
  by_cases h1 : Has w n .momentum ∧ Charged w n
  · rw [if_pos (show (w (.sp n .momentum)).isSome = true ∧ Charged w n from h1)]
    by_cases h2 : HasTop w "fields:Apar_flutter"
    · rw [if_pos (show (w (.top "fields:Apar_flutter")).isSome = true from h2)]
      funext i
      rw [when_pos h1, when_pos ⟨h1, h2⟩, add_assoc]
    · rw [if_neg (show ¬(w (.top "fields:Apar_flutter")).isSome = true from h2)]
      funext i
      rw [when_pos h1, when_neg fun h => h2 h.2, add_zero]
  · rw [if_neg (show ¬((w (.sp n .momentum)).isSome = true ∧ Charged w n) from h1)]
    funext i
    rw [when_neg h1, when_neg fun h => h1 h.1, add_zero, add_zero]

theorem eff_jpar (o : DriftOps ι) (v : VortOps ι) (J : Fld ι) (names : List String) :
    Effect (names.foldlM (jparTerm o v) J) (fun w i => J i + (divJpar o w names i + flutterJ v w names i)) (fun _ _ _ _ => 0) := by
  refine (eff_foldlM0 (eff_jparTerm o v) names J).congr (fun w => (foldl_add_fields _ names J).trans ?_) fun _ _ _ _ => rfl
  funext i
  congr 1
  exact total_add names _ _

theorem eff_divJextra : Effect divJextra (fun w : View ι => topAt w "fields:DivJextra") (fun _ _ _ _ => 0) := by
  have h := eff_if (skip := (fun _ : ι => (0 : ℝ))) (eff_isSet (ι := ι) (k := .top "fields:DivJextra") rfl) (eff_getTop (ι := ι) (k := "fields:DivJextra"))
  refine Effect.congr (m := divJextra) h (fun w => ?_) fun w m x i => by simp
  by_cases h1 : (w (.top "fields:DivJextra")).isSome = true
  · rw [if_pos h1]
  · rw [if_neg h1]
    unfold topAt
    rw [Option.not_isSome_iff_eq_none.1 h1]
    rfl

/-- Dissipation along the field. -/
def parDissipation (v : VortOps ι) (p : VortOpts ι) (Vort phi : Fld ι) (w : View ι) : Fld ι := fun i =>
  when (p.vort_dissipation = true) (v.parDiss Vort (topAt w "sound_speed") i) + when (p.phi_dissipation = true) (v.parDiss (fun i => -phi i) (topAt w "sound_speed") i)

theorem eff_vortParDiss (v : VortOps ι) (p : VortOpts ι) (Vort phi d : Fld ι) :
    Effect (vortParDiss v p Vort phi d) (fun w i => d i - parDissipation v p Vort phi w i) (fun _ _ _ _ => 0) := by
  have h := (Effect.ite (p := p.vort_dissipation = true) (dp := inferInstance)
      ((eff_getTop (ι := ι) (k := "sound_speed")).bind0 fun cs => Effect.pure (fun i => d i - v.parDiss Vort cs i : Fld ι)) (Effect.pure d)).bind fun d' =>
    Effect.ite (p := p.phi_dissipation = true) (dp := inferInstance)
      ((eff_getTop (ι := ι) (k := "sound_speed")).bind0 fun cs => Effect.pure (fun i => d' i - v.parDiss (fun i => -phi i) cs i : Fld ι)) (Effect.pure d')
  refine Effect.congr (m := vortParDiss v p Vort phi d) h (fun w => ?_) fun w m x i => ?_
  · unfold parDissipation
    by_cases h1 : p.vort_dissipation = true <;> by_cases h2 : p.phi_dissipation = true <;>
      simp only [if_pos, if_neg, h1, h2, when_pos, when_neg, not_false_eq_true, if_true, if_false, Bool.false_eq_true] <;> funext i <;> (try ring)
  · by_cases h1 : p.vort_dissipation = true <;> by_cases h2 : p.phi_dissipation = true <;> simp [h1, h2]

/-- **C69.**  The right-hand side of the vorticity equation, in full.  It reads the tree and changes nothing in it. -/
theorem vorticity_rhs {o : DriftOps ι} {v : VortOps ι} {p : VortOpts ι} {Vort r : Fld ι} {a : VortState ι} {names : List String}
    (h : vorticityFinally o v p Vort a names st = (.ok r, st')) :
    (∀ i, r i = a.ddt i + vortExB o v p Vort a.Pi (topField st "fields:phi") i + topField st "fields:DivJextra" i
      + (divJpar o (vals st) names i + flutterJ v (vals st) names i) + o.divAGrad p.viscosity Vort i
      - parDissipation v p Vort (topField st "fields:phi") (vals st) i
      - when (p.hyper_z > 0) (p.hyper_z * v.d4dz4 Vort i)
      + when (p.phi_sheath_dissipation = true) (sheathDamping v (topField st "fields:phi") i)
      - when (p.damp_core_vorticity = true) (0.01 * v.coreAvg Vort i)) ∧
    OnlySources st st' ∧ ∀ n x, isSource x = true → ∀ i, grew st st' n x i = 0 := by
  have e : Effect (vorticityFinally o v p Vort a names) _ _ := (eff_getTop (ι := ι) (k := "fields:phi")).bind0 fun phi => (eff_divJextra (ι := ι)).bind0 fun J =>
    (eff_jpar o v (fun i => a.ddt i + vortExB o v p Vort a.Pi phi i + J i) names).bind0 fun d =>
      (eff_vortParDiss v p Vort phi fun i => d i + o.divAGrad p.viscosity Vort i).bind0 fun d' =>
        Effect.pure (fun i => d' i - (if p.hyper_z > 0 then p.hyper_z * v.d4dz4 Vort i else 0)
          + (if p.phi_sheath_dissipation then sheathDamping v phi i else 0) - (if p.damp_core_vorticity then 0.01 * v.coreAvg Vort i else 0) : Fld ι)
  obtain ⟨h1, h2, h3⟩ := e _ _ _ h
  refine ⟨fun i => ?_, only_sources h2, fun n x hx i => ?_⟩
  · rw [h1]
    have e : ∀ (q : Prop) (_ : Decidable q) (y : ℝ), (if q then y else 0) = when q y := fun q _ y => by unfold when; congr
    simp only [e]
    rfl
  · unfold grew
    rw [h3 n x hx i]; ring

/-- **C69.**  The currents whose divergence changes the vorticity are those whose charge the polarisation drift gathers, and the current along the fluctuating part of
the magnetic field. -/
theorem same_currents_and_flutter {o : DriftOps ι} (ho : FreeOnce o) {v : VortOps ι} {p : VortOpts ι} {solve : Fld ι → Fld ι} {Vort r : Fld ι} {a : VortState ι} {names : List String}
    (hn : names.Nodup) (h1 : vorticityTransform o p solve Vort names st = (.ok a, st1)) (h2 : vorticityFinally o v p Vort a names st1 = (.ok r, st2))
    (hd : p.diamagnetic = true ∨ topField st "fields:DivJdia" = fun _ => 0) (hf : p.collisional_friction = true ∨ topField st "fields:DivJcol" = fun _ => 0)
    (he : p.exb_advection = false) (hv : ∀ i, o.divAGrad p.viscosity Vort i = 0) (h3 : p.vort_dissipation = false)
    (h4 : p.phi_dissipation = false) (h5 : p.hyper_z ≤ 0) (h6 : p.phi_sheath_dissipation = false) (h7 : p.damp_core_vorticity = false) (i : ι) :
    r i = allJ o (vals st1) names i + flutterJ v (vals st1) names i := by
  obtain ⟨-, hddt, hsp, -, -, hphi, hvort, hJ, hC, hk⟩ := vorticity_transform ho hn h1
  obtain ⟨hr, -, -⟩ := vorticity_rhs h2
  have jd : topAt (vals st1) "fields:DivJdia" = fun i => when (p.diamagnetic = true) (o.divCurv (chargedPressure o.freeP (vals st) names) i) := by
    by_cases h : p.diamagnetic = true
    · unfold topAt; rw [hJ h]; simp only [when_pos h]; rfl
    · unfold topAt
      rw [hk "fields:DivJdia" (by decide) (by decide) (fun hh => absurd hh h) (fun _ => by decide)]
      simp only [when_neg h]
      exact hd.resolve_left h
  have jc : topAt (vals st1) "fields:DivJcol" = fun i => when (p.collisional_friction = true)
      (divJcol o p.avg (vortPhi o p solve (vals st) names) (vortPi o p (vals st) names) (vals st) names i) := by
    by_cases h : p.collisional_friction = true
    · unfold topAt; rw [hC h]; simp only [when_pos h]; rfl
    · unfold topAt
      rw [hk "fields:DivJcol" (by decide) (by decide) (fun _ => by decide) (fun hh => absurd hh h)]
      simp only [when_neg h]
      exact hf.resolve_left h
  have ex : vortExB o v p Vort a.Pi (topField st1 "fields:phi") i = 0 := by
    unfold vortExB; rw [if_neg (by rw [he]; decide)]
  have pd : parDissipation v p Vort (topField st1 "fields:phi") (vals st1) i = 0 := by
    unfold parDissipation; rw [h3, h4, when_neg (by decide), when_neg (by decide), add_zero]
  rw [hr i, hddt i, ex, pd, hv, when_neg (not_lt.2 h5), when_neg (p := p.phi_sheath_dissipation = true) (by rw [h6]; decide),
    when_neg (p := p.damp_core_vorticity = true) (by rw [h7]; decide)]
  unfold allJ polJ
  rw [jd, jc]
  show _ + _ + 0 + topAt (vals st1) "fields:DivJextra" i + _ + _ - _ - _ + _ - _ = _
  ring

/-- Without magnetic flutter this is all. -/
theorem no_flutter (v : VortOps ι) {w : View ι} (h : ¬HasTop w "fields:Apar_flutter") (names : List String) (i : ι) : flutterJ v w names i = 0 := by
  unfold flutterJ total
  rw [List.map_congr_left (g := fun _ => (0 : ℝ))]
  · simp
  · intro n _
    exact when_neg (fun hh => h hh.2) _

/-- Every operator of the equation is a divergence: it moves charge about. -/
structure Conservative (o : DriftOps ι) (v : VortOps ι) (vol : ι → ℝ) (D : Finset ι) : Prop where
  divCurv : ∀ f, amount vol D (o.divCurv f) = 0
  divAGrad : ∀ a f, amount vol D (o.divAGrad a f) = 0
  divPar : ∀ f, amount vol D (o.divPar f) = 0
  exb : ∀ n f, amount vol D (v.exb n f) = 0
  parDiss : ∀ f c, amount vol D (v.parDiss f c) = 0
  d4dz4 : ∀ f, amount vol D (v.d4dz4 f) = 0

theorem amount_add (vol : ι → ℝ) (D : Finset ι) (f g : Fld ι) : amount vol D (fun i => f i + g i) = amount vol D f + amount vol D g := by
  unfold amount; rw [← Finset.sum_add_distrib]; exact Finset.sum_congr rfl fun i _ => by ring

theorem amount_sub (vol : ι → ℝ) (D : Finset ι) (f g : Fld ι) : amount vol D (fun i => f i - g i) = amount vol D f - amount vol D g := by
  unfold amount; rw [← Finset.sum_sub_distrib]; exact Finset.sum_congr rfl fun i _ => by ring

theorem amount_mul (vol : ι → ℝ) (D : Finset ι) (c : ℝ) (f : Fld ι) : amount vol D (fun i => c * f i) = c * amount vol D f := by
  unfold amount; rw [Finset.mul_sum]; exact Finset.sum_congr rfl fun i _ => by ring

theorem amount_neg (vol : ι → ℝ) (D : Finset ι) (f : Fld ι) : amount vol D (fun i => -f i) = -amount vol D f := by
  unfold amount; rw [← Finset.sum_neg_distrib]; exact Finset.sum_congr rfl fun i _ => by ring

theorem amount_when (vol : ι → ℝ) (D : Finset ι) (q : Prop) (f : Fld ι) : amount vol D (fun i => when q (f i)) = when q (amount vol D f) := by
  by_cases h : q
  · simp only [when_pos h]
  · simp only [when_neg h]; unfold amount; simp

theorem amount_total (vol : ι → ℝ) (D : Finset ι) (f : String → Fld ι) : ∀ names : List String,
    amount vol D (fun i => total names fun n => f n i) = total names fun n => amount vol D (f n)
  | [] => by unfold amount total; simp
  | n :: l => by
    have e : (fun i => total (n :: l) fun n => f n i) = fun i => f n i + total l fun n => f n i := by
      funext i; unfold total; rw [List.map_cons, List.sum_cons]
    rw [e, amount_add, amount_total vol D f l]
    unfold total
    rw [List.map_cons, List.sum_cons]

theorem total_zero (names : List String) {f : String → ℝ} (h : ∀ n ∈ names, f n = 0) : total names f = 0 := by
  rw [total_congr (g := fun _ => 0) h]; unfold total; simp

theorem amount_divJpar {o : DriftOps ι} {v : VortOps ι} {vol : ι → ℝ} {D : Finset ι} (hc : Conservative o v vol D) (w : View ι) (names : List String) :
    amount vol D (divJpar o w names) = 0 := by
  refine (amount_total vol D _ names).trans (total_zero names fun n _ => ?_)
  refine (amount_when vol D _ _).trans ?_
  rw [hc.divPar]
  unfold when; split <;> rfl

/-- **C69.**  The total vorticity changes only by the current that is put in from outside, `DivJextra`: no other term creates or destroys net charge, without
flutter and without the two terms that act on the cells at the sheath and at the core on purpose. -/
theorem vorticity_conserved {o : DriftOps ι} (ho : FreeOnce o) {v : VortOps ι} {p : VortOpts ι} {solve : Fld ι → Fld ι} {Vort r : Fld ι} {a : VortState ι}
    {names : List String} (hn : names.Nodup) (h1 : vorticityTransform o p solve Vort names st = (.ok a, st1)) (h2 : vorticityFinally o v p Vort a names st2 = (.ok r, st3))
    {vol : ι → ℝ} {D : Finset ι} (hc : Conservative o v vol D) (hflut : ¬HasTop (vals st2) "fields:Apar_flutter")
    (h6 : p.phi_sheath_dissipation = false) (h7 : p.damp_core_vorticity = false) :
    amount vol D r = amount vol D (topField st2 "fields:DivJextra") := by
  obtain ⟨-, hddt, -⟩ := vorticity_transform ho hn h1
  obtain ⟨hr, -, -⟩ := vorticity_rhs h2
  have f0 : ∀ i, flutterJ v (vals st2) names i = 0 := fun i => total_zero names fun n _ => when_neg (fun hh => hflut hh.2) _
  have w0 : ∀ (q : Prop), when q 0 = 0 := fun q => by unfold when; split <;> rfl
  have A1 : amount vol D a.ddt = 0 := by
    rw [show a.ddt = _ from funext hddt, amount_add, amount_when, amount_when, hc.divCurv]
    have : amount vol D (divJcol o p.avg (vortPhi o p solve (vals st) names) (vortPi o p (vals st) names) (vals st) names) = 0 := by
      unfold divJcol
      rw [amount_neg, hc.divAGrad, neg_zero]
    rw [this, w0, w0, add_zero]
  have A2 : amount vol D (vortExB o v p Vort a.Pi (topField st2 "fields:phi")) = 0 := by
    unfold vortExB
    split
    · split
      · rw [amount_neg, hc.exb, neg_zero]
      · dsimp only
        rw [amount_sub, amount_sub, amount_neg, hc.exb, hc.divAGrad, hc.exb]; ring
    · unfold amount; simp
  have A3 : amount vol D (parDissipation v p Vort (topField st2 "fields:phi") (vals st2)) = 0 := by
    unfold parDissipation
    rw [amount_add, amount_when, amount_when, hc.parDiss, hc.parDiss, w0, w0, add_zero]
  have A4 : amount vol D (fun i => when (p.hyper_z > 0) (p.hyper_z * v.d4dz4 Vort i)) = 0 := by
    rw [amount_when, amount_mul, hc.d4dz4, mul_zero, w0]
  have e : r = fun i => a.ddt i + vortExB o v p Vort a.Pi (topField st2 "fields:phi") i + topField st2 "fields:DivJextra" i + divJpar o (vals st2) names i
      + o.divAGrad p.viscosity Vort i - parDissipation v p Vort (topField st2 "fields:phi") (vals st2) i - when (p.hyper_z > 0) (p.hyper_z * v.d4dz4 Vort i) := by
    funext i
    rw [hr i, f0, when_neg (p := p.phi_sheath_dissipation = true) (by rw [h6]; decide), when_neg (p := p.damp_core_vorticity = true) (by rw [h7]; decide)]
    ring
  rw [e, amount_sub, amount_sub, amount_add, amount_add, amount_add, amount_add, A1, A2, A3, A4, amount_divJpar hc, hc.divAGrad]
  ring

/-! ## Friction -/

theorem total_le {names : List String} {f g : String → ℝ} (h : ∀ n ∈ names, f n ≤ g n) : total names f ≤ total names g := by
  induction names with
  | nil => unfold total; simp
  | cons n l ih =>
    unfold total at *
    simp only [List.map_cons, List.sum_cons]
    exact add_le_add (h n List.mem_cons_self) (ih fun m hm => h m (List.mem_cons_of_mem _ hm))

/-- **C69.**  The collision frequency that damps the flow is an average: it is not above any bound of the frequencies of the charged species, not below zero, and
not below any bound from below if they all have one. -/
theorem friction_frequency_bounds {w : View ι} {names : List String} {i : ι} (hA : ∀ n ∈ names, Has w n .AA ∧ Charged w n → 0 ≤ rAt w n .AA * fAt w n .density i)
    (hm : 0 < massDensity w names i) {lo hi : ℝ} (hlo : ∀ n ∈ names, Has w n .AA ∧ Charged w n → Has w n .collision_frequency → lo ≤ fAt w n .collision_frequency i)
    (hhi : ∀ n ∈ names, Has w n .AA ∧ Charged w n → Has w n .collision_frequency → fAt w n .collision_frequency i ≤ hi) (h0 : 0 ≤ hi) :
    weightedNu w names i / massDensity w names i ≤ hi ∧ (0 ≤ lo → 0 ≤ weightedNu w names i / massDensity w names i) ∧
    ((∀ n ∈ names, Has w n .AA ∧ Charged w n → Has w n .collision_frequency) → lo ≤ weightedNu w names i / massDensity w names i) := by
  refine ⟨?_, fun hl => ?_, fun hall => ?_⟩
  · rw [div_le_iff₀ hm, mul_comm]
    unfold massDensity
    rw [← total_mul_right]
    refine total_le fun n hn => ?_
    by_cases h1 : Has w n .AA ∧ Charged w n
    · rw [when_pos h1]
      have := hA n hn h1
      by_cases h2 : Has w n .collision_frequency
      · rw [when_pos ⟨h1.1, h1.2, h2⟩]
        exact mul_le_mul_of_nonneg_left (hhi n hn h1 h2) this
      · rw [when_neg fun h => h2 h.2.2]
        exact mul_nonneg this h0
    · rw [when_neg h1, when_neg fun h => h1 ⟨h.1, h.2.1⟩, zero_mul]
  · refine div_nonneg ?_ hm.le
    have : total names (fun _ => 0) ≤ weightedNu w names i := total_le fun n hn => by
      by_cases h1 : Has w n .AA ∧ Charged w n ∧ Has w n .collision_frequency
      · rw [when_pos h1]
        exact mul_nonneg (hA n hn ⟨h1.1, h1.2.1⟩) (hl.trans (hlo n hn ⟨h1.1, h1.2.1⟩ h1.2.2))
      · rw [when_neg h1]
    rwa [total_zero names fun _ _ => rfl] at this
  · rw [le_div_iff₀ hm, mul_comm]
    unfold massDensity
    rw [← total_mul_right]
    refine total_le fun n hn => ?_
    by_cases h1 : Has w n .AA ∧ Charged w n
    · rw [when_pos h1, when_pos ⟨h1.1, h1.2, hall n hn h1⟩]
      exact mul_le_mul_of_nonneg_left (hlo n hn h1 (hall n hn h1)) (hA n hn h1)
    · rw [when_neg h1, when_neg fun h => h1 ⟨h.1, h.2.1⟩, zero_mul]

/-- `∇·(a ∇f)` takes energy from `f` when `a` is not negative. -/
def Dissipates (o : DriftOps ι) (vol : ι → ℝ) (D : Finset ι) : Prop := ∀ a f, (∀ i, 0 ≤ a i) → ∑ i ∈ D, vol i * (f i * o.divAGrad a f i) ≤ 0

/-- **C69.**  Friction slows the flow down: with a collision frequency that is nowhere negative it takes energy from the flow. -/
theorem friction_damps {o : DriftOps ι} {avg : ℝ} (havg : 0 ≤ avg) {phi Pi : Fld ι} {w : View ι} {names : List String} {vol : ι → ℝ} {D : Finset ι}
    (hd : Dissipates o vol D) (hB : ∀ i, 0 < o.Bsq i) (hnu : ∀ i, 0 ≤ o.neumann (fun i => weightedNu w names i / massDensity w names i) i) :
    flowPower vol D phi Pi (divJcol o avg phi Pi w names) ≤ 0 := by
  have := hd (fun i => o.neumann (fun i => weightedNu w names i / massDensity w names i) i * avg / o.Bsq i) (fun i => phi i + Pi i)
    fun i => div_nonneg (mul_nonneg (hnu i) havg) (hB i).le
  unfold flowPower divJcol
  rw [← Finset.sum_neg_distrib]
  refine le_trans (le_of_eq (Finset.sum_congr rfl fun i _ => ?_)) this
  ring

/-- **C67, C69.**  Diamagnetic drift in gradient form, then `vorticity`, then polarisation drift without the Boussinesq approximation: the charge of the diamagnetic
current cancels, and what is gathered is what the parallel current, the current from outside and the friction current carry away. -/
theorem drifts_close_current {o : DriftOps ι} (ho : FreeOnce o) {form : Fld ι} {p : VortOpts ι} {q : PolOpts} {solve : Fld ι → Fld ι} {solve' : Fld ι → Fld ι → Fld ι}
    {Vort : Fld ι} {names : List String} (hn : names.Nodup) {a : VortState ι} {u u' : Unit}
    (h1 : diamagneticDrift o form names st = (.ok u, st1)) (h2 : vorticityTransform o p solve Vort names st1 = (.ok a, st2))
    (h3 : polarisationDrift o q solve' names st2 = (.ok u', st3)) (hd : p.diamagnetic = true) (ha : q.advection = true) (hc : Linear o.curv)
    (hL : ∀ phi, Linear fun a => o.divAGrad a phi) (hall : ∀ n ∈ names, Charged (vals st) n → Has (vals st) n .density) {D : Finset ι}
    (hs : Solves o solve' (fun i => massDensity (vals st) names i / o.Bsq i) D) (hm : ∀ i, polDensity q (vals st) names i = massDensity (vals st) names i)
    {i : ι} (hi : i ∈ D) (hB : o.Bsq i ≠ 0) (h0 : massDensity (vals st) names i ≠ 0) (hf : form i = 0)
    (hP : o.divCurv (chargedPressure o.freeP (vals st) names) i = o.curv (driftPressure (vals st) names) i) :
    total names (fun n => realOf st n .charge * grew st st3 n .density_source i) =
      divJpar o (vals st) names i + topField st2 "fields:DivJextra" i + topField st2 "fields:DivJcol" i := by
  obtain ⟨k1, -, -⟩ := drift_sources hn h1
  obtain ⟨-, -, hsp, -, hz, -, -, hJ, -, -⟩ := vorticity_transform ho hn h2
  have s1 : ∀ n v, isSource v = false → vals st1 (.sp n v) = vals st (.sp n v) := fun n v hv => k1 _ hv
  have s2 : ∀ n v, isSource v = false → vals st2 (.sp n v) = vals st (.sp n v) := fun n v hv => (hsp n v hv).trans (s1 n v hv)
  have eM : massDensity (vals st2) names = massDensity (vals st) names := by
    funext i; unfold massDensity Charged Has rAt fAt
    simp only [s2 _ .AA rfl, s2 _ .charge rfl, s2 _ .density rfl]
  have ePD : polDensity q (vals st2) names = polDensity q (vals st) names := by
    funext i; unfold polDensity; rw [eM]
  have ePar : divJpar o (vals st2) names = divJpar o (vals st) names := by
    funext i; unfold divJpar Charged Has rAt fAt
    simp only [s2 _ .momentum rfl, s2 _ .charge rfl, s2 _ .AA rfl]
  have eCP : chargedPressure o.freeP (vals st1) names = chargedPressure o.freeP (vals st) names := by
    funext i; unfold chargedPressure Charged Has rAt fAt
    simp only [s1 _ .pressure rfl, s1 _ .charge rfl]
  have q2 : ∀ n, realOf st2 n .charge = realOf st n .charge := fun n => Closures.realOf_congr (s2 n .charge rfl)
  have A1 := drift_charge hn hc h1 hf
  have A3 := polarisation_closes_current hn h3 ha hL (fun n hm hch => by
      have : Charged (vals st) n := by unfold Charged Has rAt at *; simpa only [s2 _ .charge rfl] using hch
      have := hall n hm this
      unfold Has at *
      rwa [s2 _ .density rfl]) (by rw [eM]; exact hs) (fun i => by rw [ePD, eM]; exact hm i) hi hB (by rw [eM]; exact h0)
  have e : total names (fun n => realOf st n .charge * grew st st3 n .density_source i) =
      total names (fun n => realOf st n .charge * grew st st1 n .density_source i) + total names (fun n => realOf st2 n .charge * grew st2 st3 n .density_source i) := by
    rw [← total_add]
    refine total_congr fun n _ => ?_
    have := hz n .density_source rfl (Or.inr (by decide)) i
    rw [q2]
    unfold grew at *
    linear_combination realOf st n .charge * this
  have jd : topAt (vals st2) "fields:DivJdia" i = o.divCurv (chargedPressure o.freeP (vals st) names) i := by
    unfold topAt; rw [hJ hd, eCP]; rfl
  rw [e, A1, A3]
  unfold allJ polJ
  rw [jd, hP, ePar]
  show _ + (_ + _ + topAt (vals st2) "fields:DivJextra" i + topAt (vals st2) "fields:DivJcol" i) = _ + topAt (vals st2) "fields:DivJextra" i + topAt (vals st2) "fields:DivJcol" i
  ring

/-- **C69.**  Damping at the sheath acts where the potential at the sheath is negative, and there it is that potential. -/
theorem sheath_damping {v : VortOps ι} (hv : ∀ f, v.fromFA f = f) (phi : Fld ι) (i : ι) :
    sheathDamping v phi i = match v.sheathPhi phi i with
      | some x => min x 0
      | none => 0 := by
  unfold sheathDamping
  rw [hv]
  cases v.sheathPhi phi i with
  | none => rfl
  | some x =>
    show -floorTo (-x) 0 = min x 0
    unfold floorTo
    by_cases h : -x < 0
    · rw [if_pos h, min_eq_right (by linarith)]; ring
    · rw [if_neg h, min_eq_left (by linarith)]; ring

end
end Hermes.Drifts
