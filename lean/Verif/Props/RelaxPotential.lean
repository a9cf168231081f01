import Verif.Props.VorticityEquation

/-!
# Relaxation of the potential (C68)
-/

set_option linter.unusedSectionVars false

namespace Hermes.Drifts
open Hermes.Closures Hermes.Effects

noncomputable section

variable {ι : Type} {st st' st1 st2 st3 : Store Key (Value ι)}

/-- The species whose pressure makes the diamagnetic current: its charge is set and is not exactly zero. -/
def Carries (w : View ι) (n : String) : Prop := Has w n .pressure ∧ Has w n .charge ∧ rAt w n .charge ≠ 0

/-- Pressure of the species that carry the current. -/
def relaxP (w : View ι) (names : List String) : Fld ι := fun i => total names fun n => when (Carries w n) (fAt w n .pressure i)

theorem eff_relaxJdia (o : DriftOps ι) (phi J : Fld ι) (n : String) : Effect (relaxJdia o phi J n)
    (fun w i => J i + when (Carries w n) (fAt w n .pressure i))
    (fun w m x i => if m = n then when (x = .energy_source) (when (Carries w n) (-(fAt w n .pressure i * o.curv phi i))) else 0) := by
  have h := eff_ifSetNB (k := .sp n .pressure) (skip := J) rfl (eff_ifSetFinal (k := .sp n .charge) (skip := J) rfl
    ((eff_getR (ι := ι) (n := n) (v := .charge) rfl).bind0 fun q => Effect.ite (p := q ≠ 0) (dp := @instDecidableNot _ (Classical.propDecidable _))
      ((eff_getNB (ι := ι) (n := n) (v := .pressure) rfl).bind0 fun P =>
        (eff_sub (m := n) (v := .energy_source) rfl fun i => P i * o.curv phi i).bind fun _ => Effect.pure (fun i => J i + P i : Fld ι)) (Effect.pure J)))
  refine Effect.congr (m := relaxJdia o phi J n) h (fun w => ?_) fun w m x i => ?_
  · unfold Carries Has
    by_cases h1 : (w (.sp n .pressure)).isSome = true <;> by_cases h2 : (w (.sp n .charge)).isSome = true <;> by_cases h3 : rAt w n .charge ≠ 0 <;>
      simp [h1, h2, h3, when]
  · unfold Carries Has one
    by_cases h1 : (w (.sp n .pressure)).isSome = true <;> by_cases h2 : (w (.sp n .charge)).isSome = true <;> by_cases h3 : rAt w n .charge ≠ 0 <;>
      by_cases h4 : m = n <;> by_cases h5 : x = .energy_source <;> simp [h1, h2, h3, h4, h5, when]

theorem relaxJdia_sum (o : DriftOps ι) (phi : Fld ι) (w : View ι) (n : String) (x : Var) (i : ι) : ∀ (names : List String) (J : Fld ι),
    foldDelta (fun J n w i => J i + when (Carries w n) (fAt w n .pressure i))
      (fun _ n w m x i => if m = n then when (x = .energy_source) (when (Carries w n) (-(fAt w n .pressure i * o.curv phi i))) else 0) names J w n x i =
    (names.map fun m => if n = m then when (x = .energy_source) (when (Carries w m) (-(fAt w m .pressure i * o.curv phi i))) else 0).sum
  | [], J => rfl
  | m :: l, J => by
    rw [List.map_cons, List.sum_cons]
    show _ + foldDelta _ _ l _ w n x i = _
    rw [relaxJdia_sum o phi w n x i l]

theorem eff_relaxEnergy (J : Fld ι) (n : String) : Effect (relaxEnergy J n) (fun _ => ())
    (fun w m x i => if m = n then when (x = .energy_source) (when (Has w n .pressure ∧ Has w n .charge ∧ Has w n .AA) (3 / 2 * fAt w n .pressure i * J i)) else 0) := by
  have h := eff_ifSetNB (k := .sp n .pressure) (skip := ()) rfl (eff_ifSetFinal (k := .sp n .charge) (skip := ()) rfl (eff_ifSetFinal (k := .sp n .AA) (skip := ()) rfl
    ((eff_getNB (ι := ι) (n := n) (v := .pressure) rfl).bind0 fun P => eff_add (m := n) (v := .energy_source) rfl fun i => 3 / 2 * P i * J i)))
  refine Effect.congr (m := relaxEnergy J n) h (fun w => rfl) fun w m x i => ?_
  unfold Has one
  by_cases h1 : (w (.sp n .pressure)).isSome = true <;> by_cases h2 : (w (.sp n .charge)).isSome = true <;> by_cases h3 : (w (.sp n .AA)).isSome = true <;>
    by_cases h4 : m = n <;> by_cases h5 : x = .energy_source <;> simp [h1, h2, h3, h4, h5, when]

/-- What a species gets in total. -/
def relaxGain (o : DriftOps ι) (p : RelaxOpts) (phi : Fld ι) (w : View ι) (names : List String) (n : String) : Fld ι := fun i =>
  when (Carries w n) (-(fAt w n .pressure i * o.curv phi i))
  + when (p.diamagnetic_polarisation = true ∧ Has w n .pressure ∧ Has w n .charge ∧ Has w n .AA) (3 / 2 * fAt w n .pressure i * o.divCurv (relaxP w names) i)

theorem relaxDiamagnetic_ok {o : DriftOps ι} {p : RelaxOpts} {phi r : Fld ι} {names : List String} (hn : names.Nodup)
    (h : relaxDiamagnetic o p phi names st = (.ok r, st')) :
    r = o.divCurv (relaxP (vals st) names) ∧ (∀ n v, isSource v = false → vals st' (.sp n v) = vals st (.sp n v)) ∧
    (∀ n ∈ names, ∀ i, grew st st' n .energy_source i = relaxGain o p phi (vals st) names n i) ∧
    (∀ n v, isSource v = true → (n ∉ names ∨ v ≠ .energy_source) → ∀ i, grew st st' n v i = 0) ∧
    vals st' (.top "fields:DivJdia") = some (.field r) ∧ ∀ k, k ≠ "fields:DivJdia" → vals st' (.top k) = vals st (.top k) := by
  obtain ⟨a, s1, h1, h2⟩ := M_bind_ok h
  obtain ⟨e1, e2, e3⟩ := eff_foldlM (eff_relaxJdia o phi) names _ _ _ _ h1
  obtain ⟨u, s2, h3, h4⟩ := M_bind_ok h2
  obtain ⟨s3, h5, h6⟩ := set_bind_ok h4
  obtain ⟨h7, h8⟩ := pure_ok h6
  have b1 : a = relaxP (vals st) names := by
    rw [e1]
    refine (foldl_add_fields _ names _).trans ?_
    funext i
    exact zero_add _
  have g1 : ∀ n v, isSource v = true → ∀ i, grew st s1 n v i =
      (names.map fun m => if n = m then when (v = .energy_source) (when (Carries (vals st) m) (-(fAt (vals st) m .pressure i * o.curv phi i))) else 0).sum := by
    intro n v hv i
    unfold grew
    rw [e3 n v hv i, relaxJdia_sum]
    show _ + (names.map fun m => if n = m then when (v = .energy_source) (when (Carries (vals st) m) (-(fAt (vals st) m .pressure i * o.curv phi i))) else 0).sum - _ = _
    ring
  have S : world s2 = world s1 ∧ (∀ n ∈ names, ∀ v, isSource v = true → ∀ i, grew s1 s2 n v i = when (v = .energy_source)
        (when (p.diamagnetic_polarisation = true ∧ Has (vals st) n .pressure ∧ Has (vals st) n .charge ∧ Has (vals st) n .AA)
          (3 / 2 * fAt (vals st) n .pressure i * o.divCurv (relaxP (vals st) names) i))) ∧ ∀ n, n ∉ names → ∀ v, isSource v = true → ∀ i, grew s1 s2 n v i = 0 := by
    by_cases hp : p.diamagnetic_polarisation = true
    · rw [if_pos hp] at h3
      obtain ⟨w1, w2, w3⟩ := forM_own (eff_relaxEnergy (o.divCurv a)) hn h3
      refine ⟨w1, fun n hm v hv i => ?_, fun n hm v hv i => w3 n hm v hv i⟩
      refine (w2 n hm v hv i).trans ?_
      rw [e2, b1]
      show when (v = .energy_source) (when (Has (world st) n .pressure ∧ Has (world st) n .charge ∧ Has (world st) n .AA) _) = _
      congr 1
      by_cases hc : Has (world st) n .pressure ∧ Has (world st) n .charge ∧ Has (world st) n .AA
      · rw [when_pos hc, when_pos ⟨hp, hc⟩]; rfl
      · rw [when_neg hc, when_neg fun hh => hc hh.2]
    · rw [if_neg hp] at h3
      obtain ⟨-, w1⟩ := pure_ok h3
      subst w1
      refine ⟨rfl, fun n hm v hv i => ?_, fun n hm v hv i => by unfold grew; ring⟩
      rw [when_neg (p := p.diamagnetic_polarisation = true ∧ _) fun hh => hp hh.1]
      unfold grew when
      rw [ite_self, sub_self]
  obtain ⟨S1, S2, S3⟩ := S
  have src : ∀ n v i, grew st st' n v i = grew st s1 n v i + grew s1 s2 n v i := fun n v i => by
    unfold grew
    rw [h8, Closures.fieldOf_congr (same_of_set h5 n v)]; ring
  refine ⟨by rw [h7, b1], fun n v hv => ?_, fun n hm i => ?_, fun n v hv hc i => ?_, ?_, fun k hk => ?_⟩
  · rw [h8, same_of_set h5, same_of_world S1 hv, same_of_world e2 hv]
  · rw [src, g1 n _ rfl i, S2 n hm _ rfl i, when_pos rfl]
    unfold relaxGain
    congr 1
    exact (sum_own (d := fun m w x => when (x = .energy_source) (when (Carries w m) (-(fAt w m .pressure i * o.curv phi i)))) hn (w := vals st)
      (x := .energy_source) hm).trans (when_pos rfl _)
  · rw [src, g1 n v hv i]
    by_cases hm : n ∈ names
    · have hv' : v ≠ .energy_source := hc.resolve_left fun h => h hm
      rw [S2 n hm v hv i, when_neg hv', add_zero]
      exact (sum_own (d := fun m w x => when (x = .energy_source) (when (Carries w m) (-(fAt w m .pressure i * o.curv phi i)))) hn (w := vals st) (x := v) hm).trans
        (when_neg hv' _)
    · rw [S3 n hm v hv i, add_zero]
      exact sum_others (d := fun m w x => when (x = .energy_source) (when (Carries w m) (-(fAt w m .pressure i * o.curv phi i)))) (w := vals st) (x := v) hm
  · rw [h8, h5, h7, Function.update_self]
  · rw [h8, h5, Function.update_of_ne (by simpa using hk), only_sources S1 _ rfl, only_sources e2 _ rfl]

/-- **C68.**  What `relax_potential` does to the tree before the species are advanced: the potential is the scaled evolving variable, every species that carries
diamagnetic current does work against it, and with `diamagnetic_polarisation` every species with a pressure, a charge and a mass gets `3/2 P ∇·J`. -/
theorem relax_transform {o : DriftOps ι} {p : RelaxOpts} {phi1 Vort r : Fld ι} {names : List String} (hn : names.Nodup)
    (h : relaxTransform o p phi1 Vort names st = (.ok r, st')) :
    (∀ i, r i = when (p.diamagnetic = true) (o.divCurv (relaxP (vals st) names) i)) ∧
    (∀ n v, isSource v = false → vals st' (.sp n v) = vals st (.sp n v)) ∧
    (∀ n ∈ names, ∀ i, grew st st' n .energy_source i =
      when (p.diamagnetic = true) (relaxGain o p (o.neumann fun i => phi1 i / p.lambda_2) (vals st) names n i)) ∧
    (∀ n v, isSource v = true → (n ∉ names ∨ v ≠ .energy_source) → ∀ i, grew st st' n v i = 0) ∧
    topField st' "fields:phi" = o.neumann (fun i => phi1 i / p.lambda_2) ∧ topField st' "fields:vorticity" = o.neumann Vort ∧
    (p.diamagnetic = true → topField st' "fields:DivJdia" = o.divCurv (relaxP (vals st) names)) ∧
    ∀ k, k ≠ "fields:phi" → k ≠ "fields:vorticity" → (p.diamagnetic = true → k ≠ "fields:DivJdia") → vals st' (.top k) = vals st (.top k) := by
  obtain ⟨a, s1, h1, h2⟩ := M_bind_ok h
  obtain ⟨s2, h3, h4⟩ := set_bind_ok h2
  obtain ⟨s3, h5, h6⟩ := set_bind_ok h4
  obtain ⟨h7, h8⟩ := pure_ok h6
  subst h7 h8
  have sp : ∀ n v, vals st' (.sp n v) = vals s1 (.sp n v) := fun n v => by rw [same_of_set h5 n v, same_of_set h3 n v]
  have gs : ∀ n v i, grew st st' n v i = grew st s1 n v i := fun n v i => by unfold grew; rw [Closures.fieldOf_congr (sp n v)]
  have tp : ∀ k, k ≠ "fields:phi" → k ≠ "fields:vorticity" → vals st' (.top k) = vals s1 (.top k) := fun k a b => by
    rw [h5, Function.update_of_ne (by simpa using a), h3, Function.update_of_ne (by simpa using b)]
  have ph : topField st' "fields:phi" = o.neumann (fun i => phi1 i / p.lambda_2) := by
    unfold topField; rw [h5, Function.update_self]; rfl
  have vo : topField st' "fields:vorticity" = o.neumann Vort := by
    unfold topField; rw [h5, Function.update_of_ne (by decide), h3, Function.update_self]; rfl
  by_cases hd : p.diamagnetic = true
  · rw [if_pos hd] at h1
    obtain ⟨b1, b2, b3, b4, b5, b6⟩ := relaxDiamagnetic_ok hn h1
    refine ⟨fun i => by rw [b1, when_pos hd], fun n v hv => by rw [sp, b2 n v hv], fun n hm i => by rw [gs, b3 n hm i, when_pos hd],
      fun n v hv hc i => by rw [gs, b4 n v hv hc i], ph, vo, fun _ => ?_, fun k k1 k2 k3 => by rw [tp k k1 k2, b6 k (k3 hd)]⟩
    unfold topField
    rw [tp _ (by decide) (by decide), b5, ← b1]; rfl
  · rw [if_neg hd] at h1
    obtain ⟨b1, b2⟩ := pure_ok h1
    subst b2
    refine ⟨fun i => by rw [b1, when_neg hd], fun n v hv => sp n v, fun n hm i => by rw [gs, when_neg hd]; unfold grew; ring,
      fun n v hv hc i => by rw [gs]; unfold grew; ring, ph, vo, fun hh => absurd hh hd, fun k k1 k2 k3 => tp k k1 k2⟩

/-- **C68.**  Energy of the diamagnetic current: what the species lose the flow gains, and nothing is left over but the `3/2 P ∇·J` of `diamagnetic_polarisation`. -/
theorem relax_energy {o : DriftOps ι} {p : RelaxOpts} {phi1 Vort r : Fld ι} {names : List String} (hn : names.Nodup)
    (h : relaxTransform o p phi1 Vort names st = (.ok r, st')) (hd : p.diamagnetic = true) {vol : ι → ℝ} {D : Finset ι} (hA : Adjoint o vol D) :
    ∑ i ∈ D, vol i * total names (fun n => grew st st' n .energy_source i) + flowPower vol D (topField st' "fields:phi") (fun _ => 0) r =
    ∑ i ∈ D, vol i * (total names (fun n => when (p.diamagnetic_polarisation = true ∧ Has (vals st) n .pressure ∧ Has (vals st) n .charge ∧ Has (vals st) n .AA)
      (3 / 2 * fieldOf st n .pressure i)) * topField st' "fields:DivJdia" i) := by
  obtain ⟨hr, -, he, -, hphi, -, hJ, -⟩ := relax_transform hn h
  rw [hphi, hJ hd]
  generalize hph : (o.neumann fun i => phi1 i / p.lambda_2) = phi at *
  have e : ∀ i, total names (fun n => grew st st' n .energy_source i) = -(relaxP (vals st) names i * o.curv phi i)
      + total names (fun n => when (p.diamagnetic_polarisation = true ∧ Has (vals st) n .pressure ∧ Has (vals st) n .charge ∧ Has (vals st) n .AA)
        (3 / 2 * fieldOf st n .pressure i)) * o.divCurv (relaxP (vals st) names) i := by
    intro i
    unfold relaxP
    rw [← total_mul_right, ← total_mul_right, ← total_neg, ← total_add]
    refine total_congr fun n hm => ?_
    rw [he n hm i, when_pos hd]
    unfold relaxGain
    congr 1
    · by_cases hc : Carries (vals st) n
      · rw [when_pos hc, when_pos hc]
      · rw [when_neg hc, when_neg hc]; ring
    · by_cases hc : p.diamagnetic_polarisation = true ∧ Has (vals st) n .pressure ∧ Has (vals st) n .charge ∧ Has (vals st) n .AA
      · rw [when_pos hc, when_pos hc]; rfl
      · rw [when_neg hc, when_neg hc, zero_mul]
  have a := hA phi (relaxP (vals st) names)
  unfold flowPower
  rw [← sub_eq_add_neg, ← Finset.sum_sub_distrib]
  have b : ∀ i ∈ D, vol i * total names (fun n => grew st st' n .energy_source i) - vol i * ((phi i + 0) * r i) =
      vol i * (total names (fun n => when (p.diamagnetic_polarisation = true ∧ Has (vals st) n .pressure ∧ Has (vals st) n .charge ∧ Has (vals st) n .AA)
        (3 / 2 * fieldOf st n .pressure i)) * o.divCurv (relaxP (vals st) names) i)
      - vol i * (phi i * o.divCurv (relaxP (vals st) names) i + relaxP (vals st) names i * o.curv phi i) := by
    intro i _
    rw [e, hr i, when_pos hd]; ring
  rw [Finset.sum_congr rfl b, Finset.sum_sub_distrib, a, sub_zero]

/-- **C68.**  Without `diamagnetic_polarisation` the diamagnetic current keeps the energy of species and flow together. -/
theorem relax_energy_conserved {o : DriftOps ι} {p : RelaxOpts} {phi1 Vort r : Fld ι} {names : List String} (hn : names.Nodup)
    (h : relaxTransform o p phi1 Vort names st = (.ok r, st')) (hd : p.diamagnetic = true) (hp : p.diamagnetic_polarisation = false) {vol : ι → ℝ} {D : Finset ι}
    (hA : Adjoint o vol D) :
    ∑ i ∈ D, vol i * total names (fun n => grew st st' n .energy_source i) + flowPower vol D (topField st' "fields:phi") (fun _ => 0) r = 0 := by
  rw [relax_energy hn h hd hA]
  refine Finset.sum_eq_zero fun i _ => ?_
  rw [total_zero names fun n _ => when_neg (fun hh => by rw [hp] at hh; cases hh.1) _]
  ring

/-! ## The equations -/

theorem eff_relaxJpar (o : DriftOps ι) (J : Fld ι) (n : String) : Effect (relaxJpar o J n)
    (fun w i => J i + when (Has w n .momentum ∧ Charged w n) (o.divPar (fun i => rAt w n .charge / rAt w n .AA * fAt w n .momentum i) i)) (fun _ _ _ _ => 0) := by
  have h := eff_ifSet (k := .sp n .momentum) (skip := J) rfl (eff_ifCharged (n := n) (skip := J) fun Z =>
    (eff_getF (ι := ι) (n := n) (v := .density) rfl).bind0 fun _ => (eff_getF (ι := ι) (n := n) (v := .momentum) rfl).bind0 fun NV =>
      (eff_getR (ι := ι) (n := n) (v := .AA) rfl).bind0 fun A => Effect.pure (fun i => J i + o.divPar (fun i => Z / A * NV i) i : Fld ι))
  refine Effect.congr (m := relaxJpar o J n) h (fun w => ?_) fun w m x i => by simp
  rw [ite_and']
  exact ite_field J _

/-- Vorticity of the ion pressure in the equation for the potential. -/
def relaxPress (o : DriftOps ι) (w : View ι) (names : List String) : Fld ι := fun i =>
  total names fun n => when (Charged w n ∧ Has w n .pressure) (o.divAGrad (fun i => rAt w n .AA / o.Bsq i) (fAt w n .pressure) i)

/-- Vorticity of the ExB flow with the mass density of the charged species. -/
def relaxFlow (o : DriftOps ι) (phi : Fld ι) (w : View ι) (names : List String) : Fld ι := fun i =>
  total names fun n => when (Charged w n) (o.divAGrad (fun i => rAt w n .AA / o.Bsq i * fAt w n .density i) phi i)

theorem eff_relaxPressure (o : DriftOps ι) (J : Fld ι) (n : String) : Effect (relaxPressure o J n)
    (fun w i => J i + when (Charged w n ∧ Has w n .pressure) (o.divAGrad (fun i => rAt w n .AA / o.Bsq i) (fAt w n .pressure) i)) (fun _ _ _ _ => 0) := by
  have h := eff_ifCharged (n := n) (skip := J) fun _ => eff_ifSet (k := .sp n .pressure) (skip := J) rfl
    ((eff_getR (ι := ι) (n := n) (v := .AA) rfl).bind0 fun A => (eff_getF (ι := ι) (n := n) (v := .pressure) rfl).bind0 fun P =>
      Effect.pure (fun i => J i + o.divAGrad (fun i => A / o.Bsq i) P i : Fld ι))
  refine Effect.congr (m := relaxPressure o J n) h (fun w => ?_) fun w m x i => by simp
  rw [ite_and']
  exact ite_field J _

theorem eff_relaxMass (o : DriftOps ι) (p : RelaxOpts) (phi J : Fld ι) (n : String) : Effect (relaxMass o p phi J n)
    (fun w i => J i + (when (Charged w n) (o.divAGrad (fun i => rAt w n .AA / o.Bsq i * fAt w n .density i) phi i)
      + when (p.diamagnetic_polarisation = true ∧ Charged w n ∧ Has w n .pressure) (o.divAGrad (fun i => rAt w n .AA / o.Bsq i) (fAt w n .pressure) i)))
    (fun _ _ _ _ => 0) := by
  have h := eff_ifCharged (n := n) (skip := J) fun _ => (eff_getR (ι := ι) (n := n) (v := .AA) rfl).bind0 fun A =>
    (eff_getF (ι := ι) (n := n) (v := .density) rfl).bind0 fun N => Effect.ite (p := p.diamagnetic_polarisation = true) (dp := inferInstance)
      (eff_ifSet (k := .sp n .pressure) (skip := (fun i => J i + o.divAGrad (fun i => A / o.Bsq i * N i) phi i : Fld ι)) rfl
        ((eff_getF (ι := ι) (n := n) (v := .pressure) rfl).bind0 fun P =>
          Effect.pure (fun i => J i + o.divAGrad (fun i => A / o.Bsq i * N i) phi i + o.divAGrad (fun i => A / o.Bsq i) P i : Fld ι)))
      (Effect.pure (fun i => J i + o.divAGrad (fun i => A / o.Bsq i * N i) phi i : Fld ι))
  refine Effect.congr (m := relaxMass o p phi J n) h (fun w => ?_) fun w m x i => ?_
  · unfold Has
    by_cases h1 : Charged w n <;> by_cases h2 : p.diamagnetic_polarisation = true <;> by_cases h3 : (w (.sp n .pressure)).isSome = true <;>
      simp [h1, h2, h3, when, add_assoc]
  · by_cases h1 : Charged w n <;> by_cases h2 : p.diamagnetic_polarisation = true <;> simp [h1, h2]

/-- Right-hand side of the equation for the potential. -/
def relaxRhs (o : DriftOps ι) (p : RelaxOpts) (phi Vort : Fld ι) (w : View ι) (names : List String) : Fld ι := fun i =>
  p.lambda_1 * ((if p.boussinesq = true then o.divAGrad (fun i => p.average_atomic_mass / o.Bsq i) phi i else relaxFlow o phi w names i)
    + when (p.diamagnetic_polarisation = true) (relaxPress o w names i) - Vort i)

theorem eff_relaxPhi1 (o : DriftOps ι) (p : RelaxOpts) (phi Vort : Fld ι) (names : List String) :
    Effect (relaxPhi1 o p phi Vort names) (fun w => relaxRhs o p phi Vort w names) (fun _ _ _ _ => 0) := by
  unfold relaxPhi1
  by_cases hb : p.boussinesq = true
  · rw [if_pos hb]
    by_cases hp : p.diamagnetic_polarisation = true
    · rw [if_pos hp]
      have h := (eff_foldlM0 (eff_relaxPressure o) names fun _ => 0).bind0 fun a =>
        Effect.pure (fun i => p.lambda_1 * (o.divAGrad (fun i => p.average_atomic_mass / o.Bsq i) phi i - Vort i) + p.lambda_1 * a i : Fld ι)
      refine h.congr (fun w => ?_) fun _ _ _ _ => rfl
      rw [foldl_add_fields (fun n i => when (Charged w n ∧ Has w n .pressure) (o.divAGrad (fun i => rAt w n .AA / o.Bsq i) (fAt w n .pressure) i)) names]
      unfold relaxRhs relaxPress total
      funext i
      rw [if_pos hb, when_pos hp]; ring
    · rw [if_neg hp]
      have h := (Effect.pure (ι := ι) (fun _ => 0 : Fld ι)).bind0 fun a =>
        Effect.pure (fun i => p.lambda_1 * (o.divAGrad (fun i => p.average_atomic_mass / o.Bsq i) phi i - Vort i) + p.lambda_1 * a i : Fld ι)
      refine h.congr (fun w => ?_) fun _ _ _ _ => rfl
      unfold relaxRhs
      funext i
      rw [if_pos hb, when_neg hp]; ring
  · rw [if_neg hb]
    have h := (eff_foldlM0 (eff_relaxMass o p phi) names fun _ => 0).bind0 fun a => Effect.pure (fun i => p.lambda_1 * (a i - Vort i) : Fld ι)
    refine h.congr (fun w => ?_) fun _ _ _ _ => rfl
    rw [foldl_add_fields (fun n i => when (Charged w n) (o.divAGrad (fun i => rAt w n .AA / o.Bsq i * fAt w n .density i) phi i)
      + when (p.diamagnetic_polarisation = true ∧ Charged w n ∧ Has w n .pressure) (o.divAGrad (fun i => rAt w n .AA / o.Bsq i) (fAt w n .pressure) i)) names]
    unfold relaxRhs relaxPress relaxFlow
    funext i
    rw [if_neg hb]
    show p.lambda_1 * (0 + total names _ - Vort i) = _
    rw [total_add]
    by_cases hp : p.diamagnetic_polarisation = true
    · rw [when_pos hp, total_congr (f := fun n => when (p.diamagnetic_polarisation = true ∧ _) _)
        (g := fun n => when (Charged w n ∧ Has w n .pressure) (o.divAGrad (fun i => rAt w n .AA / o.Bsq i) (fAt w n .pressure) i)) fun n _ => ?_]
      · ring
      · beta_reduce
        by_cases hc : Charged w n ∧ Has w n .pressure
        · rw [when_pos ⟨hp, hc⟩]; exact (when_pos hc _).symm
        · rw [when_neg fun h => hc h.2]; exact (when_neg hc _).symm
    · rw [when_neg hp, total_zero (f := fun n => when (p.diamagnetic_polarisation = true ∧ _) _) names fun n _ => when_neg (fun h => hp h.1) _]
      ring

/-- **C68.**  The two equations, where the behaviour is defined. -/
theorem relax_rhs {o : DriftOps ι} {p : RelaxOpts} {exb : Bool → Fld ι → Fld ι → Fld ι} {ddt : Fld ι} {names : List String} {r : Fld ι × Fld ι}
    (h : relaxFinally o p exb ddt names st = (.ok (some r), st')) :
    (∀ i, r.1 i = ddt i + topField st "fields:DivJextra" i + divJpar o (vals st) names i
      - when (p.exb_advection = true) (exb (p.bndry_flux = some true) (topField st "fields:vorticity") (topField st "fields:phi") i)) ∧
    (p.exb_advection = true → p.bndry_flux ≠ none) ∧
    r.2 = relaxRhs o p (topField st "fields:phi") (topField st "fields:vorticity") (vals st) names := by
  obtain ⟨phi, s1, h1, h2⟩ := M_bind_ok h
  obtain ⟨a1, a2, -⟩ := eff_getTop _ _ _ h1
  obtain ⟨V, s2, h3, h4⟩ := M_bind_ok h2
  obtain ⟨b1, b2, -⟩ := eff_getTop _ _ _ h3
  rw [a2] at b1 b2
  cases e : relaxExB p exb V phi with
  | none =>
    rw [e] at h4
    obtain ⟨h5, -⟩ := pure_ok h4
    cases h5
  | some x =>
    rw [e] at h4
    have ef : Effect _ _ _ := (eff_divJextra (ι := ι)).bind0 fun J => (eff_foldlM0 (eff_relaxJpar o) names fun i => ddt i + x i + J i).bind0 fun d =>
      (eff_relaxPhi1 o p phi V names).bind0 fun d' => Effect.pure (some (d, d'))
    obtain ⟨c1, -, -⟩ := ef _ _ _ h4
    rw [b2] at c1
    injection c1 with c1
    have c2 : r.1 = _ := congrArg Prod.fst c1
    have c3 : r.2 = _ := congrArg Prod.snd c1
    dsimp only at c2 c3
    rw [foldl_add_fields (fun n i => when (Has (world st) n .momentum ∧ Charged (world st) n)
      (o.divPar (fun i => rAt (world st) n .charge / rAt (world st) n .AA * fAt (world st) n .momentum i) i)) names] at c2
    have hx : p.exb_advection = true → p.bndry_flux ≠ none := by
      intro he hb
      unfold relaxExB at e
      rw [if_pos he, hb] at e
      cases e
    refine ⟨fun i => ?_, hx, ?_⟩
    · rw [c2]
      have ex : x i = -when (p.exb_advection = true) (exb (p.bndry_flux = some true) V phi i) := by
        unfold relaxExB at e
        by_cases he : p.exb_advection = true
        · rw [if_pos he] at e
          rw [when_pos he]
          cases hb : p.bndry_flux with
          | none => exact absurd hb (hx he)
          | some b =>
            rw [hb] at e
            cases e
            cases b <;> rfl
        · rw [if_neg he] at e
          cases e
          rw [when_neg he, neg_zero]
      show ddt i + x i + topAt (world st) "fields:DivJextra" i + divJpar o (world st) names i = _
      rw [ex, b1, a1]
      show _ = ddt i + topAt (world st) "fields:DivJextra" i + divJpar o (world st) names i - when (p.exb_advection = true)
        (exb (p.bndry_flux = some true) (topAt (world st) "fields:vorticity") (topAt (world st) "fields:phi") i)
      ring
    · rw [c3, b1, a1]; rfl

/-- Without `exb_advection` the behaviour is defined. -/
theorem relax_defined {o : DriftOps ι} {p : RelaxOpts} (hp : p.exb_advection = false) {exb : Bool → Fld ι → Fld ι → Fld ι} {ddt : Fld ι} {names : List String}
    {r : Option (Fld ι × Fld ι)} (h : relaxFinally o p exb ddt names st = (.ok r, st')) : ∃ r', r = some r' := by
  obtain ⟨phi, s1, h1, h2⟩ := M_bind_ok h
  obtain ⟨V, s2, h3, h4⟩ := M_bind_ok h2
  have e : relaxExB p exb V phi = some fun _ => 0 := by unfold relaxExB; rw [if_neg (by rw [hp]; decide)]
  rw [e] at h4
  obtain ⟨J, s3, h5, h6⟩ := M_bind_ok h4
  obtain ⟨d, s4, h7, h8⟩ := M_bind_ok h6
  obtain ⟨d', s5, h9, h10⟩ := M_bind_ok h8
  obtain ⟨h11, -⟩ := pure_ok h10
  exact ⟨_, h11⟩

/-- Potential and vorticity are in the tree for the other components. -/
theorem relax_sets {o : DriftOps ι} {p : RelaxOpts} {phi1 Vort r : Fld ι} {names : List String} (h : relaxTransform o p phi1 Vort names st = (.ok r, st')) :
    ∀ k, k = "fields:vorticity" ∨ k = "fields:phi" → (vals st' (.top k)).isSome = true := by
  obtain ⟨a, s1, h1, h2⟩ := M_bind_ok h
  obtain ⟨s2, h3, h4⟩ := set_bind_ok h2
  obtain ⟨s3, h5, h6⟩ := set_bind_ok h4
  obtain ⟨-, h8⟩ := pure_ok h6
  rintro k (rfl | rfl)
  · rw [h8, h5, Function.update_of_ne (by decide), h3, Function.update_self]; rfl
  · rw [h8, h5, Function.update_self]; rfl

/-- **C68 (violated).**  With `exb_advection`, the default, the behaviour of every time step is undefined: the constructor never assigns `bndry_flux`. -/
theorem relax_undefined {o : DriftOps ι} {diamagnetic dp boussinesq poloidal : Bool} {avg l1 l2 : ℝ} {exb : Bool → Fld ι → Fld ι → Fld ι} {ddt : Fld ι}
    {names : List String} {r : Option (Fld ι × Fld ι)}
    (h : relaxFinally o (relaxConstructor true diamagnetic dp boussinesq avg poloidal l1 l2) exb ddt names st = (.ok r, st')) : r = none := by
  cases r with
  | none => rfl
  | some r => exact absurd rfl ((relax_rhs h).2.1 rfl)

/-- **C68.**  The total vorticity changes only by the current put in from outside. -/
theorem relax_conserved {o : DriftOps ι} {v : VortOps ι} {p : RelaxOpts} {exb : Bool → Fld ι → Fld ι → Fld ι} {phi1 Vort ddt : Fld ι} {names : List String}
    {r : Fld ι × Fld ι} (hn : names.Nodup) (h1 : relaxTransform o p phi1 Vort names st = (.ok ddt, st1)) (h2 : relaxFinally o p exb ddt names st2 = (.ok (some r), st3))
    {vol : ι → ℝ} {D : Finset ι} (hc : Conservative o v vol D) (hexb : ∀ b n f, amount vol D (exb b n f) = 0) :
    amount vol D r.1 = amount vol D (topField st2 "fields:DivJextra") := by
  obtain ⟨hd, -⟩ := relax_transform hn h1
  obtain ⟨hr, -, -⟩ := relax_rhs h2
  have w0 : ∀ (q : Prop), when q 0 = 0 := fun q => by unfold when; split <;> rfl
  rw [show r.1 = _ from funext hr, amount_sub, amount_add, amount_add, amount_divJpar hc, amount_when, hexb, w0, show ddt = _ from funext hd, amount_when, hc.divCurv, w0]
  ring

/-- `p̂` in the equation of the potential. -/
def relaxPi (avg : ℝ) (w : View ι) (names : List String) : Fld ι := fun i =>
  total names fun n => when (Charged w n ∧ Has w n .pressure) (rAt w n .AA / avg * fAt w n .pressure i)

/-- **C68.**  The steady state of the potential, in the Boussinesq approximation: the vorticity is that of `φ + p̂`, but `p̂` is a sum over all charged species, without
the charge of `vorticity`'s. -/
theorem relax_steady {o : DriftOps ι} {p : RelaxOpts} {phi Vort : Fld ι} {w : View ι} {names : List String} (hl : p.lambda_1 ≠ 0) (hb : p.boussinesq = true)
    (hp : p.diamagnetic_polarisation = true) (havg : p.average_atomic_mass ≠ 0) (hL : ∀ a, Linear (o.divAGrad a)) (hS : ∀ (c : ℝ) a f i, o.divAGrad (fun i => c * a i) f i = c * o.divAGrad a f i)
    (i : ι) :
    relaxRhs o p phi Vort w names i = 0 ↔
      o.divAGrad (fun i => p.average_atomic_mass / o.Bsq i) (fun i => phi i + relaxPi p.average_atomic_mass w names i) i = Vort i := by
  have e : o.divAGrad (fun i => p.average_atomic_mass / o.Bsq i) (relaxPi p.average_atomic_mass w names) i = relaxPress o w names i := by
    refine ((hL _).total (fun n i => when (Charged w n ∧ Has w n .pressure) (rAt w n .AA / p.average_atomic_mass * fAt w n .pressure i)) i names).trans ?_
    refine total_congr fun n _ => ?_
    refine ((hL _).when _ _ i).trans ?_
    congr 1
    rw [(hL _).smul, ← hS]
    congr 1
    funext i
    field_simp
  rw [(hL _).add, e]
  unfold relaxRhs
  rw [if_pos hb, when_pos hp, mul_eq_zero, or_iff_right hl, sub_eq_zero]

end
end Hermes.Drifts
