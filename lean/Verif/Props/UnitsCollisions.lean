import Verif.Props.Units

/-!
# C75 — collisions and the thermal force in any units
-/

namespace Hermes.Units
open Hermes

variable {ι : Type}

theorem floorTo_scale {k : ℝ} (hk : 0 < k) {x : ℝ} (h : 1e-5 * k ≤ x) : floorTo (x * k⁻¹) 1e-5 = x * k⁻¹ := by
  unfold floorTo
  rw [if_neg]
  rw [not_lt, ← div_eq_mul_inv, le_div_iff₀ hk]
  exact h

section
variable {c : Consts} (hc : Physical c) {u u' : Normalisation} (hu : Good u) (hu' : Good u') {W : World ι}
include hc hu hu'

theorem heatExchange_same (s1 s2 : String) {x : Fld ι} {nu nu' : Fld ι} (h : ∀ i, nu i * u.Omega_ci c = x i) (h' : ∀ i, nu' i * u'.Omega_ci c = x i)
    (A1 A2 : ℝ) (n1 : Fld ι) :
    Same c u u' (heatExchange s1 s2 nu A1 A2 (fun i => n1 i * (u.conversion c .density)⁻¹) (inUnits c u W))
      (heatExchange s1 s2 nu' A1 A2 (fun i => n1 i * (u'.conversion c .density)⁻¹) (inUnits c u' W)) := by
  unfold heatExchange
  simp only [inUnits_isSetF]
  by_cases hs : (W.isSetF s1 .temperature || W.isSetF s2 .temperature) = true
  · simp only [if_pos hs]
    refine Same.field fun T1 _ => Same.field fun T2 _ => Same.ok ?_
    have e : ∀ (u : Normalisation), Good u → ∀ (nu : Fld ι), (∀ i, nu i * u.Omega_ci c = x i) → ∀ i, nu i * 3 * (n1 i * (u.conversion c .density)⁻¹)
        * (A1 / (A1 + A2)) * (T2 i * (u.conversion c .temperature)⁻¹ - T1 i * (u.conversion c .temperature)⁻¹) * u.conversion c .energy_source
        = x i * 3 * n1 i * (A1 / (A1 + A2)) * (T2 i - T1 i) * c.qe := by
      intro u hu nu h i
      rw [← h i]
      have h1 := hu.N.ne'
      have h2 := hu.T.ne'
      simp only [Normalisation.conversion]
      generalize A1 / (A1 + A2) = r
      field_simp
    exact si_cons (fun i => (e u hu nu h i).trans (e u' hu' nu' h' i).symm) (si_cons (fun i => (e u hu nu h i).trans (e u' hu' nu' h' i).symm) si_nil)
  · simp only [if_neg hs]
    exact Same.nil

theorem collide_same (hd : Dense u W) (hd' : Dense u' W) (fh : Bool) (s1 s2 : String) {x : Fld ι} {nu nu' : Fld ι} (h : ∀ i, nu i * u.Omega_ci c = x i)
    (h' : ∀ i, nu' i * u'.Omega_ci c = x i) (coef : ℝ) :
    Same c u u' (collide fh s1 s2 nu coef (inUnits c u W)) (collide fh s1 s2 nu' coef (inUnits c u' W)) := by
  unfold collide
  have hν : ∀ i, nu i * u.Omega_ci c = nu' i * u'.Omega_ci c := fun i => (h i).trans (h' i).symm
  by_cases hs : s1 = s2
  · simp only [if_pos hs]
    exact Same.ok (si_cons hν si_nil)
  · simp only [if_neg hs]
    refine Same.real fun A1 _ => Same.real fun A2 _ => Same.field fun n1 hn1 => Same.field fun n2 hn2 => ?_
    have hq := heatExchange_same hc hu hu' (W := W) s1 s2 h h' A1 A2 n1
    revert hq
    generalize heatExchange s1 s2 nu A1 A2 (fun i => n1 i * (u.conversion c .density)⁻¹) (inUnits c u W) = q
    generalize heatExchange s1 s2 nu' A1 A2 (fun i => n1 i * (u'.conversion c .density)⁻¹) (inUnits c u' W) = q'
    intro hq
    have hcoll : contribsSI c u ([(.sp s1 Var.collision_frequency, nu, true), (.sp s2 Var.collision_frequency,
          (fun i => nu i * (A1 / A2) * (n1 i * (u.conversion c .density)⁻¹) / floorTo (n2 i * (u.conversion c .density)⁻¹) 1e-5), true)]
        ++ (if (inUnits c u W).isSetF s1 Var.velocity || (inUnits c u W).isSetF s2 Var.velocity then
          frictionOf fh s1 s2 nu coef A1 A2 (fun i => n1 i * (u.conversion c .density)⁻¹) ((inUnits c u W).fieldOr0 s1 Var.velocity)
            ((inUnits c u W).fieldOr0 s2 Var.velocity) else []))
        = contribsSI c u' ([(.sp s1 Var.collision_frequency, nu', true), (.sp s2 Var.collision_frequency,
          (fun i => nu' i * (A1 / A2) * (n1 i * (u'.conversion c .density)⁻¹) / floorTo (n2 i * (u'.conversion c .density)⁻¹) 1e-5), true)]
        ++ (if (inUnits c u' W).isSetF s1 Var.velocity || (inUnits c u' W).isSetF s2 Var.velocity then
          frictionOf fh s1 s2 nu' coef A1 A2 (fun i => n1 i * (u'.conversion c .density)⁻¹) ((inUnits c u' W).fieldOr0 s1 Var.velocity)
            ((inUnits c u' W).fieldOr0 s2 Var.velocity) else [])) := by
      simp only [inUnits_isSetF]
      refine si_append (si_cons hν (si_cons (fun i => ?_) si_nil)) (si_if (fun _ => ?_) fun _ => si_nil)
      · have e : ∀ (u : Normalisation), Good u → Dense u W → ∀ (nu : Fld ι), (∀ i, nu i * u.Omega_ci c = x i) →
            nu i * (A1 / A2) * (n1 i * (u.conversion c .density)⁻¹) / floorTo (n2 i * (u.conversion c .density)⁻¹) 1e-5
              * u.conversion c .collision_frequency = x i * (A1 / A2) * (n1 i / n2 i) := by
          intro u hu hd nu h
          have hk : 0 < u.conversion c .density := hu.N
          rw [floorTo_scale hk (hd s2 n2 hn2 i), ← h i, mul_div_assoc, mul_div_mul_right _ _ (inv_pos.2 hk).ne']
          simp only [Normalisation.conversion]
          ring
        exact (e u hu hd nu h).trans (e u' hu' hd' nu' h').symm
      · unfold frictionOf
        have hv : ∀ (u : Normalisation) s, (inUnits c u W).fieldOr0 s .velocity = fun i => W.fieldOr0 s .velocity i * (u.conversion c .velocity)⁻¹ :=
          fun u s => funext fun i => inUnits_fieldOr0 W s .velocity i
        simp only [hv]
        generalize W.fieldOr0 s1 .velocity = v1
        generalize W.fieldOr0 s2 .velocity = v2
        have eF : ∀ (u : Normalisation), Good u → ∀ (nu : Fld ι), (∀ i, nu i * u.Omega_ci c = x i) → ∀ i,
            coef * nu i * A1 * (n1 i * (u.conversion c .density)⁻¹) * (v2 i * (u.conversion c .velocity)⁻¹ - v1 i * (u.conversion c .velocity)⁻¹)
              * u.conversion c .momentum_source = coef * x i * A1 * n1 i * (v2 i - v1 i) * c.Mp := by
          intro u hu nu h i
          rw [← h i]
          have h1 := hu.N.ne'
          have h2 := (Cs0_pos hc hu).ne'
          simp only [Normalisation.conversion]
          field_simp
        have eE : ∀ (u : Normalisation), Good u → ∀ (nu : Fld ι), (∀ i, nu i * u.Omega_ci c = x i) → ∀ i (r : ℝ),
            r * (v2 i * (u.conversion c .velocity)⁻¹ - v1 i * (u.conversion c .velocity)⁻¹)
              * (coef * nu i * A1 * (n1 i * (u.conversion c .density)⁻¹) * (v2 i * (u.conversion c .velocity)⁻¹ - v1 i * (u.conversion c .velocity)⁻¹))
              * u.conversion c .energy_source = r * (v2 i - v1 i) * (coef * x i * A1 * n1 i * (v2 i - v1 i)) * c.Mp := by
          intro u hu nu h i r
          rw [← h i, energy_source_eq hc hu]
          have h1 := hu.N.ne'
          have h2 := (Cs0_pos hc hu).ne'
          simp only [Normalisation.conversion]
          field_simp
        have dF := fun i => (eF u hu nu h i).trans (eF u' hu' nu' h' i).symm
        have dE := fun i r => (eE u hu nu h i r).trans (eE u' hu' nu' h' i r).symm
        exact si_append (si_cons dF (si_cons dF si_nil)) (si_if (fun _ => si_cons (fun i => dE i _) (si_cons (fun i => dE i _) si_nil)) fun _ => si_nil)
    unfold Same at hq ⊢
    rcases q with e | q <;> rcases q' with e' | q' <;> simp only [Except.map, Except.ok.injEq, Except.error.injEq, reduceCtorEq] at hq
    · subst hq; rfl
    · show Except.ok _ = Except.ok _
      exact congrArg Except.ok (si_append hcoll hq)
end

/-! ## The frequencies -/

section
variable {c : Consts} (hc : Physical c) {u : Normalisation} (hu : Good u)
include hc hu

theorem vth_si (x : ℝ) : Real.sqrt (x / u.Tnorm) * u.rho_s0 c * u.Omega_ci c = Real.sqrt (c.qe * x / c.Mp) := by
  rw [mul_assoc, rho_Omega hc hu, mul_comm]
  unfold Normalisation.Cs0
  rw [← Real.sqrt_mul (div_pos (mul_pos hc.qe hu.T) hc.Mp).le]
  congr 1
  have h1 := hu.T.ne'
  field_simp

theorem nuEN_si (Te Nn : ℝ) : nuEN (u.collNorms c) Te (Nn * (u.conversion c .density)⁻¹) * u.Omega_ci c
    = Real.sqrt (c.qe * (c.Mp / c.Me * Te) / c.Mp) * Nn * 5e-19 := by
  unfold nuEN
  simp only [Normalisation.collNorms, Normalisation.conversion]
  rw [← vth_si hc hu]
  have h1 := hu.N.ne'
  field_simp

theorem hard_arg (A1 A2 T1 T2 : ℝ) : T1 / (u.Tnorm * A1) + T2 / (u.Tnorm * A2) = (T1 / A1 + T2 / A2) / u.Tnorm := by
  rw [add_div, div_div, div_div, mul_comm u.Tnorm, mul_comm u.Tnorm]

theorem nuHard_si (a0 A1 A2 T1 T2 N2 : ℝ) : nuHard (u.collNorms c) a0 A1 A2 T1 T2 N2 * u.Omega_ci c
    = Real.sqrt (c.qe * (T1 / A1 + T2 / A2) / c.Mp) * N2 * a0 := by
  unfold nuHard
  simp only [Normalisation.collNorms]
  rw [hard_arg hc hu, ← vth_si hc hu]
  ring

theorem nonneg_units (x : ℝ) : 0 ≤ x / u.Tnorm ↔ 0 ≤ x := by
  rw [le_div_iff₀ hu.T, zero_mul]

theorem coulomb_si (x : ℝ) : x / (u.collNorms c).Omega_ci * u.Omega_ci c = x := by
  simp only [Normalisation.collNorms, one_div_one_div]
  exact div_mul_cancel₀ _ (Omega_pos hc hu).ne'

theorem readHeavy_si (W : World ι) (n : String) : readHeavy (u.collNorms c) (inUnits c u W) n = (do
    let N ← W.field n .density
    let A ← W.real n .AA
    return { T := W.fieldOr0 n .temperature, N := N, A := A }) := by
  have hT := hu.T.ne'
  have hN := hu.N.ne'
  have e1 : (inUnits c u W).field n .density = (W.field n .density).map fun f i => f i * (u.conversion c .density)⁻¹ := by
    unfold World.field
    have : ((inUnits c u W).st.ent (.sp n .density)).val = (W.st.ent (.sp n .density)).val.map fun x i => x i * (u.conversion c .density)⁻¹ := rfl
    rw [this]
    cases (W.st.ent (.sp n .density)).val <;> rfl
  have e2 : (inUnits c u W).real n .AA = W.real n .AA := rfl
  unfold readHeavy
  rw [e1, e2]
  rcases W.field n .density with e | N
  · rfl
  · rcases W.real n .AA with e | A
    · rfl
    · show Except.ok _ = Except.ok _
      have h1 : (fun i => (inUnits c u W).fieldOr0 n .temperature i * (u.collNorms c).Tnorm) = W.fieldOr0 n .temperature := by
        funext i
        rw [inUnits_fieldOr0]
        exact inv_mul_cancel_right₀ hT _
      have h2 : (fun i => N i * (u.conversion c .density)⁻¹ * (u.collNorms c).Nnorm) = N := by
        funext i
        exact inv_mul_cancel_right₀ hN _
      rw [h1, h2]
end

/-! ## The loops -/

section
variable {c : Consts} (hc : Physical c) {u u' : Normalisation} (hu : Good u) (hu' : Good u') {W : World ι} (hd : Dense u W) (hd' : Dense u' W)
include hc hu hu' hd hd'

theorem electronWith_same (o : CollOpts) (Te Ne : Fld ι) (n : String) :
    Same c u u' (electronWith (u.collNorms c) o (inUnits c u W) Te Ne n) (electronWith (u'.collNorms c) o (inUnits c u' W) Te Ne n) := by
  classical
  unfold electronWith
  have hp : ∀ (u : Normalisation), (inUnits c u W).positive n = W.positive n := fun _ => rfl
  have hn : ∀ (u : Normalisation), (inUnits c u W).negative n = W.negative n := fun _ => rfl
  simp only [hp, hn]
  by_cases h1 : n = "e"
  · simp only [if_pos h1]
    by_cases h2 : o.electron_electron = false
    · simp only [if_pos h2]; exact Same.nil
    · simp only [if_neg h2]
      exact collide_same hc hu hu' hd hd' _ _ _ (fun i => coulomb_si hc hu _) (fun i => coulomb_si hc hu' _) _
  · simp only [if_neg h1]
    by_cases h2 : W.positive n
    · simp only [if_pos h2]
      by_cases h3 : o.electron_ion = false
      · simp only [if_pos h3]; exact Same.nil
      · simp only [if_neg h3]
        refine Same.field fun Ti _ => Same.field fun Ni _ => Same.real fun Zi _ => Same.real fun Ai _ => ?_
        have e1 : ∀ (u : Normalisation), Good u → ∀ i, Ti i * (u.conversion c .temperature)⁻¹ * (u.collNorms c).Tnorm = Ti i := fun u hu i =>
          inv_mul_cancel_right₀ hu.T.ne' _
        have e2 : ∀ (u : Normalisation), Good u → ∀ i, Ni i * (u.conversion c .density)⁻¹ * (u.collNorms c).Nnorm = Ni i := fun u hu i =>
          inv_mul_cancel_right₀ hu.N.ne' _
        simp only [e1 u hu, e1 u' hu', e2 u hu, e2 u' hu']
        exact collide_same hc hu hu' hd hd' _ _ _ (fun i => coulomb_si hc hu _) (fun i => coulomb_si hc hu' _) _
    · simp only [if_neg h2]
      by_cases h3 : W.negative n
      · simp only [if_pos h3]; exact Same.nil
      · simp only [if_neg h3]
        by_cases h4 : o.electron_neutral = false
        · simp only [if_pos h4]; exact Same.nil
        · simp only [if_neg h4]
          refine Same.field fun Nn _ => Same.valid ?_ fun _ => ?_
          · exact forall_congr' fun i => (nonneg_units hc hu _).trans (nonneg_units hc hu' _).symm
          · exact collide_same hc hu hu' hd hd' _ _ _ (fun i => nuEN_si hc hu (Te i) (Nn i)) (fun i => nuEN_si hc hu' (Te i) (Nn i)) _

theorem electronLoop_same (o : CollOpts) (names : List String) :
    Same c u u' (electronLoop (u.collNorms c) o names (inUnits c u W)) (electronLoop (u'.collNorms c) o names (inUnits c u' W)) := by
  unfold electronLoop
  by_cases h : "e" ∈ names
  · simp only [if_pos h]
    refine Same.field fun Te _ => Same.field fun Ne _ => ?_
    have e1 : ∀ (u : Normalisation), Good u → (fun i => Te i * (u.conversion c .temperature)⁻¹ * (u.collNorms c).Tnorm) = Te := fun u hu =>
      funext fun i => inv_mul_cancel_right₀ hu.T.ne' _
    have e2 : ∀ (u : Normalisation), Good u → (fun i => Ne i * (u.conversion c .density)⁻¹ * (u.collNorms c).Nnorm) = Ne := fun u hu =>
      funext fun i => inv_mul_cancel_right₀ hu.N.ne' _
    rw [e1 u hu, e1 u' hu', e2 u hu, e2 u' hu']
    exact Same.collectM fun n _ => electronWith_same hc hu hu' hd hd' o Te Ne n
  · simp only [if_neg h]; exact Same.nil

theorem hardSphere_same (o : CollOpts) (a0 : ℝ) (n1 n2 : String) (x1 x2 : HeavyInput ι) :
    Same c u u' (hardSphere (u.collNorms c) o (inUnits c u W) a0 n1 n2 x1 x2) (hardSphere (u'.collNorms c) o (inUnits c u' W) a0 n1 n2 x1 x2) := by
  unfold hardSphere
  refine Same.valid ?_ fun _ => ?_
  · refine forall_congr' fun i => ?_
    show 0 ≤ x1.T i / (u.Tnorm * x1.A) + x2.T i / (u.Tnorm * x2.A) ↔ 0 ≤ x1.T i / (u'.Tnorm * x1.A) + x2.T i / (u'.Tnorm * x2.A)
    rw [hard_arg hc hu, hard_arg hc hu', nonneg_units hc hu, nonneg_units hc hu']
  · exact collide_same hc hu hu' hd hd' _ _ _ (fun i => nuHard_si hc hu _ _ _ _ _ _) (fun i => nuHard_si hc hu' _ _ _ _ _ _) _

theorem ionIon_same (o : CollOpts) (n1 n2 : String) (x1 x2 : HeavyInput ι) :
    Same c u u' (ionIon (u.collNorms c) o (inUnits c u W) n1 n2 x1 x2) (ionIon (u'.collNorms c) o (inUnits c u' W) n1 n2 x1 x2) := by
  unfold ionIon
  exact Same.real fun Z1 _ => Same.real fun Z2 _ => Same.valid Iff.rfl fun _ =>
    collide_same hc hu hu' hd hd' _ _ _ (fun i => coulomb_si hc hu _) (fun i => coulomb_si hc hu' _) _

theorem Same.heavy {n : String} {k k' : HeavyInput ι → Except Err (List (Contrib Key ι))} (h : ∀ x, Same c u u' (k x) (k' x)) :
    Same c u u' (readHeavy (u.collNorms c) (inUnits c u W) n >>= k) (readHeavy (u'.collNorms c) (inUnits c u' W) n >>= k') := by
  rw [readHeavy_si hc hu, readHeavy_si hc hu']
  rcases W.field n .density with e | N
  · exact Same.error _
  · rcases W.real n .AA with e | A
    · exact Same.error _
    · exact h _

theorem chargedWith_same (o : CollOpts) (n1 : String) (x1 : HeavyInput ι) (n2 : String) :
    Same c u u' (chargedWith (u.collNorms c) o (inUnits c u W) n1 x1 n2) (chargedWith (u'.collNorms c) o (inUnits c u' W) n1 x1 n2) := by
  classical
  unfold chargedWith
  have hp : ∀ (u : Normalisation), (inUnits c u W).charged n2 = W.charged n2 := fun _ => rfl
  simp only [hp]
  by_cases h1 : n2 = "e" ∨ n2 = "ebeam"
  · simp only [if_pos h1]; exact Same.nil
  · simp only [if_neg h1]
    refine Same.heavy hc hu hu' hd hd' fun x2 => ?_
    by_cases h2 : W.charged n2
    · simp only [if_pos h2]
      by_cases h3 : o.ion_ion = false
      · simp only [if_pos h3]; exact Same.nil
      · simp only [if_neg h3]; exact ionIon_same hc hu hu' hd hd' o n1 n2 x1 x2
    · simp only [if_neg h2]; exact hardSphere_same hc hu hu' hd hd' o _ n1 n2 x1 x2

theorem neutralWith_same (o : CollOpts) (n1 : String) (x1 : HeavyInput ι) (n2 : String) :
    Same c u u' (neutralWith (u.collNorms c) o (inUnits c u W) n1 x1 n2) (neutralWith (u'.collNorms c) o (inUnits c u' W) n1 x1 n2) := by
  unfold neutralWith
  by_cases h1 : n2 = "e"
  · simp only [if_pos h1]; exact Same.nil
  · simp only [if_neg h1]
    refine Same.heavy hc hu hu' hd hd' fun x2 => ?_
    have hp : ∀ (u : Normalisation), (inUnits c u W).num n2 = W.num n2 := fun _ => rfl
    simp only [hp]
    by_cases h2 : (W.num n2 .charge).isSome = true
    · simp only [if_pos h2]
      by_cases h3 : o.ion_neutral = false
      · simp only [if_pos h3]; exact Same.nil
      · simp only [if_neg h3]; exact hardSphere_same hc hu hu' hd hd' o _ n1 n2 x1 x2
    · simp only [if_neg h2]
      by_cases h3 : o.neutral_neutral = false
      · simp only [if_pos h3]; exact Same.nil
      · simp only [if_neg h3]; exact hardSphere_same hc hu hu' hd hd' o _ n1 n2 x1 x2

theorem heavyWith_same (o : CollOpts) (n1 : String) (rest : List String) :
    Same c u u' (heavyWith (u.collNorms c) o (inUnits c u W) n1 rest) (heavyWith (u'.collNorms c) o (inUnits c u' W) n1 rest) := by
  classical
  unfold heavyWith
  have hp : ∀ (u : Normalisation), (inUnits c u W).charged n1 = W.charged n1 := fun _ => rfl
  simp only [hp]
  by_cases h1 : n1 = "e" ∨ n1 = "ebeam"
  · simp only [if_pos h1]; exact Same.nil
  · simp only [if_neg h1]
    refine Same.heavy hc hu hu' hd hd' fun x1 => ?_
    by_cases h2 : W.charged n1
    · simp only [if_pos h2]
      exact Same.collectM fun n _ => chargedWith_same hc hu hu' hd hd' o n1 x1 n
    · simp only [if_neg h2]
      exact Same.collectM fun n _ => neutralWith_same hc hu hu' hd hd' o n1 x1 n

theorem heavyLoop_same (o : CollOpts) : ∀ ns : List String,
    Same c u u' (heavyLoop (u.collNorms c) o (inUnits c u W) ns) (heavyLoop (u'.collNorms c) o (inUnits c u' W) ns)
  | [] => Same.nil
  | n1 :: ns => Same.append (heavyWith_same hc hu hu' hd hd' o n1 (n1 :: ns)) (heavyLoop_same o ns)

theorem collisions_same (o : CollOpts) (names : List String) :
    Same c u u' (collisions (u.collNorms c) o names (inUnits c u W)) (collisions (u'.collNorms c) o names (inUnits c u' W)) :=
  Same.append (electronLoop_same hc hu hu' hd hd' o names) (heavyLoop_same hc hu hu' hd hd' o names)
end

/-! ## Thermal force -/

/-- A gradient along the field, per metre: it can be taken in any units of temperature. -/
def HomogeneousOp (G : Fld ι → Fld ι) : Prop := ∀ (f : Fld ι) (k : ℝ), G (fun i => f i * k) = fun i => G f i * k

/-- The same gradient per unit of length of the simulation. -/
noncomputable def gradIn (c : Consts) (u : Normalisation) (G : Fld ι → Fld ι) : Fld ι → Fld ι := fun f i => G f i * u.rho_s0 c

section
variable {c : Consts} (hc : Physical c) {u u' : Normalisation} (hu : Good u) (hu' : Good u') {W : World ι} {G : Fld ι → Fld ι} (hG : HomogeneousOp G)
include hc hu hu' hG

theorem pairForce_same (a b : String) (n T : Fld ι) (r : ℝ) :
    contribsSI c u (pairForce a b fun i => n i * (u.conversion c .density)⁻¹ * r * gradIn c u G (fun i => T i * (u.conversion c .temperature)⁻¹) i)
      = contribsSI c u' (pairForce a b fun i => n i * (u'.conversion c .density)⁻¹ * r * gradIn c u' G (fun i => T i * (u'.conversion c .temperature)⁻¹) i) := by
  have e : ∀ (u : Normalisation), Good u → ∀ i, n i * (u.conversion c .density)⁻¹ * r * gradIn c u G (fun i => T i * (u.conversion c .temperature)⁻¹) i
      * u.conversion c .momentum_source = n i * r * G T i * c.qe := by
    intro u hu i
    unfold gradIn
    rw [hG]
    have h1 := hu.N.ne'
    have h2 := hu.T.ne'
    have h3 := rho_Omega hc hu
    have h4 := Cs0_sq hc hu
    have : u.conversion c .momentum_source * u.rho_s0 c = c.qe * u.Tnorm * u.Nnorm := by
      rw [← h4]
      simp only [Normalisation.conversion]
      rw [← h3]
      ring
    calc _ = n i * (u.conversion c .density)⁻¹ * r * (G T i * (u.conversion c .temperature)⁻¹) * (u.conversion c .momentum_source * u.rho_s0 c) := by ring
      _ = _ := by
        rw [this]
        simp only [Normalisation.conversion]
        field_simp
  exact si_cons (fun i => (e u hu i).trans (e u' hu' i).symm) (si_cons (fun i => (e u hu i).trans (e u' hu' i).symm) si_nil)

theorem thermalLightHeavy_same (l h : String) :
    Same c u u' (thermalLightHeavy (gradIn c u G) (inUnits c u W) l h) (thermalLightHeavy (gradIn c u' G) (inUnits c u' W) l h) := by
  unfold thermalLightHeavy
  refine Same.real fun mi _ => Same.field fun Ti _ => Same.real fun mz _ => Same.real fun Z _ => Same.field fun nz _ => ?_
  by_cases hz : Z = 0
  · simp only [if_pos hz]; exact Same.nil
  · simp only [if_neg hz]; exact Same.ok (pairForce_same hc hu hu' hG h l nz Ti _)

theorem thermalIonWith_same (n1 n2 : String) :
    Same c u u' (thermalIonWith (gradIn c u G) (inUnits c u W) n1 n2) (thermalIonWith (gradIn c u' G) (inUnits c u' W) n1 n2) := by
  unfold thermalIonWith
  have hp : ∀ (u : Normalisation), (inUnits c u W).num = W.num := fun _ => rfl
  simp only [hp]
  by_cases h1 : n2 = "e" ∨ (W.num n2 .charge).isSome = false
  · simp only [if_pos h1]; exact Same.nil
  · simp only [if_neg h1]
    refine Same.real fun A1 _ => Same.real fun A2 _ => ?_
    by_cases h2 : A1 < 4 ∧ A2 > 10
    · simp only [if_pos h2]; exact thermalLightHeavy_same hc hu hu' hG n1 n2
    · simp only [if_neg h2]
      by_cases h3 : A1 > 10 ∧ A2 < 4
      · simp only [if_pos h3]; exact thermalLightHeavy_same hc hu hu' hG n2 n1
      · simp only [if_neg h3]; exact Same.nil

theorem thermalIonLoop_same : ∀ ns : List String,
    Same c u u' (thermalIonLoop (gradIn c u G) (inUnits c u W) ns) (thermalIonLoop (gradIn c u' G) (inUnits c u' W) ns)
  | [] => Same.nil
  | n1 :: ns => by
    refine Same.append ?_ (thermalIonLoop_same ns)
    unfold thermalIonPairs
    have hp : ∀ (u : Normalisation), (inUnits c u W).num = W.num := fun _ => rfl
    simp only [hp]
    by_cases h1 : n1 = "e" ∨ (W.num n1 .charge).isSome = false
    · simp only [if_pos h1]; exact Same.nil
    · simp only [if_neg h1]; exact Same.collectM fun n _ => thermalIonWith_same hc hu hu' hG n1 n

theorem thermalForce_same (ei ii : Bool) (names : List String) :
    Same c u u' (thermalForce (gradIn c u G) ei ii names (inUnits c u W)) (thermalForce (gradIn c u' G) ei ii names (inUnits c u' W)) := by
  refine Same.append ?_ ?_
  · unfold thermalElectronLoop
    by_cases h : ei = true ∧ "e" ∈ names
    · simp only [if_pos h]
      refine Same.field fun Te _ => Same.collectM fun n _ => ?_
      unfold thermalElectronWith
      have hp : ∀ (u : Normalisation), (inUnits c u W).num = W.num := fun _ => rfl
      simp only [hp]
      by_cases h1 : n = "e"
      · simp only [if_pos h1]; exact Same.nil
      · simp only [if_neg h1]
        by_cases h2 : (W.num n .charge).isSome = false
        · simp only [if_pos h2]; exact Same.nil
        · simp only [if_neg h2]
          exact Same.real fun Z _ => Same.field fun nz _ => Same.ok (pairForce_same hc hu hu' hG n "e" nz Te _)
    · simp only [if_neg h]; exact Same.nil
  · unfold thermalIonPart
    by_cases h : ii = true
    · simp only [if_pos h]; exact thermalIonLoop_same hc hu hu' hG names
    · simp only [if_neg h]; exact Same.nil
end

/-! ## Theorems -/

/-- The settings of the reactions in units `u`: what the constructors compute from the units. -/
noncomputable def paramsIn (c : Consts) (u : Normalisation) (p : Registry.Params) : Registry.Params := { p with nm := u.norms c, rho_s0 := u.rho_s0 c }

/-- Reactions whose densities have a floor in normalised units. -/
def hasFloor : Registry.Entry → Bool
  | .hydCX _ _ => true
  | .solkitCX _ => true
  | _ => false

theorem entry_same {c : Consts} (hc : Physical c) (p : Registry.Params) (en : Registry.Entry) {W : World ι} {u u' : Normalisation} (hu : Good u)
    (hu' : Good u') (hl : Homogeneous W.lim) (hd : hasFloor en = true → Dense u W ∧ Dense u' W) :
    Same c u u' (en.component (paramsIn c u p) (inUnits c u W)) (en.component (paramsIn c u' p) (inUnits c u' W)) := by
  cases en with
  | hydIonisation k => exact electronReaction_same hc hu hu' hl _ _ _ _ _ _ _ _
  | hydRecombination k => exact electronReaction_same hc hu hu' hl _ _ _ _ _ _ _ _
  | heIonisation => exact electronReaction_same hc hu hu' hl _ _ _ _ _ _ _ _
  | heRecombination => exact electronReaction_same hc hu hu' hl _ _ _ _ _ _ _ _
  | hydCX k l => exact chargeExchange_same hc hu hu' (hd rfl).1 (hd rfl).2 _ _ _ _ _ _
  | solkitCX k => exact solkit_same hc hu hu' hl (hd rfl).1 (hd rfl).2 _ _
  | adasIonisation e k => exact adasReaction_same hc hu hu' hl _ _ _ _ _ _
  | adasRecombination e k => exact adasReaction_same hc hu hu' hl _ _ _ _ _ _
  | adasCX e k l => exact adasChargeExchange_same hc hu hu' hl _ _ _ _ _ _

/-- C75.  Every reaction in the registry. -/
theorem reaction_unit_free {c : Consts} (hc : Physical c) (p : Registry.Params) (text : String) (en : Registry.Entry) (_h : Registry.create text = some en) :
    UnitFree c (hasFloor en) fun u => (en.component (paramsIn c u p) : SourceComponent ι) :=
  fun _ _ _ hu hu' hl hd => sameResult_of hc hu hu' (entry_same hc p en hu hu' hl hd)

/-- C75.  Collisions between any species. -/
theorem collisions_unit_free {c : Consts} (hc : Physical c) (o : CollOpts) (names : List String) :
    UnitFree c true fun u => (collisions (u.collNorms c) o names : SourceComponent ι) :=
  fun _ _ _ hu hu' _ hd => sameResult_of hc hu hu' (collisions_same hc hu hu' (hd rfl).1 (hd rfl).2 o names)

/-- C75.  Thermal forces. -/
theorem thermalForce_unit_free {c : Consts} (hc : Physical c) {G : Fld ι → Fld ι} (hG : HomogeneousOp G) (ei ii : Bool) (names : List String) :
    UnitFree c false fun u => thermalForce (gradIn c u G) ei ii names :=
  fun _ _ _ hu hu' _ _ => sameResult_of hc hu hu' (thermalForce_same hc hu hu' hG ei ii names)

/-- C75.  Ionisation with a fixed energy cost, given in eV. -/
theorem ionisation_unit_free {c : Consts} (hc : Physical c) (sigmav : ℝ → ℝ) (Eionize : ℝ) :
    UnitFree c false fun u => (fun w => (ionisation (u.norms c) sigmav (Eionize / u.Tnorm) w).map (·.contribs) : SourceComponent ι) :=
  fun _ _ _ hu hu' hl _ => sameResult_of hc hu hu' (ionisation_same hc hu hu' hl sigmav Eionize)

/-! ### Several components, one after the other -/

/-- Each component sees the state left by those before it; the first exception ends the run. -/
def runAll : List (SourceComponent ι) → World ι → Except Err Unit × Store Key (Fld ι)
  | [], W => (.ok (), W.st)
  | C :: Cs, W => match C.transform W with
    | (.error e, st) => (.error e, st)
    | (.ok _, st) => runAll Cs { W with st := st }

/-- Densities are inputs. -/
def LeavesDensities (C : SourceComponent ι) : Prop := ∀ W s, ((C.transform W).2.ent (.sp s .density)).val = (W.st.ent (.sp s .density)).val

theorem inUnits_of_toSI {c : Consts} (hc : Physical c) {u : Normalisation} (hu : Good u) (W : World ι) (st : Store Key (Fld ι)) :
    { inUnits c u W with st := st } = inUnits c u { W with st := toSI c u st } := by
  have := scaleStore_scaleStore (f := u.keyConversion c) (g := fun k => (u.keyConversion c k)⁻¹) (fun k => mul_inv_cancel₀ (keyConversion_pos hc hu k).ne') st
  unfold inUnits toSI
  simp only [this]

/-- C75.  A run of any number of components that do not depend on the units does not depend on the units. -/
theorem run_unit_free {c : Consts} (hc : Physical c) : ∀ (Cs : List (Normalisation → SourceComponent ι)) (_ : ∀ C ∈ Cs, UnitFree c true C)
    (_ : ∀ C ∈ Cs, ∀ u, LeavesDensities (C u)) (W : World ι) (u u' : Normalisation) (_ : Good u) (_ : Good u') (_ : Homogeneous W.lim)
    (_ : Dense u W) (_ : Dense u' W),
    SameResult c u u' (runAll (Cs.map fun C => C u) (inUnits c u W)) (runAll (Cs.map fun C => C u') (inUnits c u' W))
  | [], _, _, W, u, u', hu, hu', _, _, _ => ⟨rfl, (toSI_inUnits hc hu W).trans (toSI_inUnits hc hu' W).symm⟩
  | C :: Cs, hC, hq, W, u, u', hu, hu', hl, hd, hd' => by
    obtain ⟨h1, h2⟩ := hC C List.mem_cons_self W u u' hu hu' hl fun _ => ⟨hd, hd'⟩
    have hq1 := hq C List.mem_cons_self u (inUnits c u W)
    simp only [List.map_cons, runAll]
    rcases hr : (C u).transform (inUnits c u W) with ⟨r, st⟩
    rcases hr' : (C u').transform (inUnits c u' W) with ⟨r', st'⟩
    rw [hr] at h1 h2 hq1
    rw [hr'] at h1 h2
    dsimp only at h1 h2 hq1
    subst h1
    rcases r with e | a
    · exact ⟨rfl, h2⟩
    · dsimp only
      rw [inUnits_of_toSI hc hu, inUnits_of_toSI hc hu', ← h2]
      have hdens : ∀ s, ((toSI c u st).ent (.sp s .density)).val = (W.st.ent (.sp s .density)).val := by
        intro s
        rw [← toSI_inUnits hc hu W]
        show (st.ent (.sp s .density)).val.map _ = ((inUnits c u W).st.ent (.sp s .density)).val.map _
        rw [hq1]
      refine run_unit_free hc Cs (fun D hD => hC D (List.mem_cons_of_mem _ hD)) (fun D hD => hq D (List.mem_cons_of_mem _ hD)) { W with st := toSI c u st }
        u u' hu hu' hl (fun s f hf => hd s f ?_) fun s f hf => hd' s f ?_
      · rw [← hdens]; exact hf
      · rw [← hdens]; exact hf

theorem UnitFree.mono {c : Consts} {b : Bool} {C : Normalisation → SourceComponent ι} (h : UnitFree c b C) : UnitFree c true C :=
  fun W u u' hu hu' hl hd => h W u u' hu hu' hl fun _ => hd rfl

/-! ### Sources are not densities -/

theorem contribute_other {x : Contrib Key ι} {k : Key} (h : x.1 ≠ k) (st : Store Key (Fld ι)) : ((contribute x st).2.ent k) = st.ent k := by
  have hset : ∀ (v : Fld ι), (set x.1 v st).2.ent k = st.ent k := by
    intro v
    unfold set
    split_ifs
    · rfl
    · rfl
    · rfl
    · show (st.force x.1 v).ent k = _
      simp [Store.force, Store.update, h.symm]
  obtain ⟨k', v, b⟩ := x
  cases b with
  | true =>
    show (add k' v st).2.ent k = _
    unfold add
    split
    · exact hset _
    · split
      · rfl
      · exact hset _
  | false =>
    show (subtract k' v st).2.ent k = _
    unfold subtract
    split
    · exact hset _
    · split
      · rfl
      · exact hset _

theorem contributeAll_other {k : Key} : ∀ {cs : List (Contrib Key ι)} (_ : ∀ x ∈ cs, x.1 ≠ k) (st : Store Key (Fld ι)),
    ((contributeAll cs st).2.ent k) = st.ent k
  | [], _, _ => rfl
  | x :: cs, h, st => by
    unfold contributeAll M.bind
    have h1 := contribute_other (h x List.mem_cons_self) st
    rcases hx : contribute x st with ⟨r, st'⟩
    rw [hx] at h1
    rcases r with e | a
    · exact h1
    · exact (contributeAll_other (fun y hy => h y (List.mem_cons_of_mem _ hy)) st').trans h1

/-- The contributions, if there is no exception, are not to densities. -/
def Quiet (x : Except Err (List (Contrib Key ι))) : Prop := ∀ cs, x = .ok cs → ∀ y ∈ cs, ∀ s, y.1 ≠ .sp s .density

theorem Quiet.leaves {C : SourceComponent ι} (h : ∀ W, Quiet (C W)) : LeavesDensities C := by
  intro W s
  unfold SourceComponent.transform
  rcases hC : C W with e | cs
  · rfl
  · dsimp only
    rw [contributeAll_other fun x hx => h W cs hC x hx s]

theorem Quiet.bind {α : Type} {x : Except Err α} {k : α → Except Err (List (Contrib Key ι))} (h : ∀ a, Quiet (k a)) : Quiet (x >>= k) := by
  rcases x with e | a
  · intro cs h; cases h
  · exact h a

theorem Quiet.ok {cs : List (Contrib Key ι)} (h : ∀ y ∈ cs, ∀ s, y.1 ≠ .sp s .density) : Quiet (.ok cs) := by
  intro cs' e
  obtain rfl := Except.ok.inj e
  exact h

theorem Quiet.nil : Quiet (.ok ([] : List (Contrib Key ι))) := Quiet.ok (by simp)

theorem Quiet.error (e : Err) : Quiet (.error e : Except Err (List (Contrib Key ι))) := by intro cs h; cases h

theorem Quiet.append {x y : Except Err (List (Contrib Key ι))} (hx : Quiet x) (hy : Quiet y) : Quiet (do let a ← x; let b ← y; return a ++ b) := by
  rcases x with e | a
  · exact Quiet.error e
  · rcases y with e | b
    · exact Quiet.error e
    · refine Quiet.ok fun z hz => ?_
      rcases List.mem_append.1 hz with h | h
      · exact hx a rfl z h
      · exact hy b rfl z h

theorem Quiet.collectM {α : Type} {f : α → Except Err (List (Contrib Key ι))} (h : ∀ a, Quiet (f a)) : ∀ l, Quiet (Hermes.collectM f l)
  | [] => Quiet.nil
  | a :: l => Quiet.append (h a) (Quiet.collectM h l)

theorem Quiet.ite {p : Prop} [Decidable p] {x y : Except Err (List (Contrib Key ι))} (hx : Quiet x) (hy : Quiet y) : Quiet (if p then x else y) := by
  split_ifs
  · exact hx
  · exact hy

theorem quiet_electron (nm : Norms) (rate rad : ℝ → ℝ → ℝ) (heat kr kR : ℝ) (e fr dst : String) (W : World ι) :
    Quiet ((electronReaction nm rate rad heat kr kR e fr dst W).map (·.contribs)) := by
  simp only [electronReaction, map_bind, map_pure]
  refine Quiet.bind fun _ => Quiet.bind fun _ => Quiet.bind fun _ => Quiet.bind fun _ => Quiet.bind fun _ => Quiet.bind fun _ => Quiet.bind fun _ =>
    Quiet.bind fun _ => Quiet.bind fun _ => Quiet.bind fun ev => Quiet.ok ?_
  unfold electronReactionOf
  rcases ev with _ | ⟨Ve, Ae⟩ <;> split_ifs <;> simp

theorem quiet_adas (nm : Norms) (rate rad : ℝ → ℝ → ℝ) (heat : ℝ) (e fr dst : String) (W : World ι) :
    Quiet ((adasReaction nm rate rad heat e fr dst W).map (·.contribs)) := by
  simp only [adasReaction, map_bind, map_pure]
  refine Quiet.bind fun _ => Quiet.bind fun _ => Quiet.bind fun _ => Quiet.bind fun _ => Quiet.bind fun _ => Quiet.bind fun _ => Quiet.bind fun _ =>
    Quiet.bind fun _ => Quiet.ok ?_
  unfold adasReactionOf
  split_ifs <;> simp

theorem quiet_cx (nm : Norms) (k : ℝ) (b : Bool) (a1 i1 a2 i2 : String) (W : World ι) :
    Quiet ((chargeExchange nm k b a1 i1 a2 i2 W).map (·.contribs)) := by
  simp only [chargeExchange, map_bind, map_pure]
  refine Quiet.bind fun _ => Quiet.bind fun _ => Quiet.bind fun _ => Quiet.bind fun _ => Quiet.bind fun _ => Quiet.bind fun _ => Quiet.bind fun _ =>
    Quiet.bind fun _ => Quiet.bind fun _ => Quiet.bind fun _ => Quiet.bind fun _ => Quiet.bind fun _ => Quiet.bind fun _ => Quiet.bind fun _ => Quiet.ok ?_
  unfold chargeExchangeOf
  split_ifs <;> simp

theorem quiet_adasCX (nm : Norms) (rate : ℝ → ℝ → ℝ) (e fA fB tA tB : String) (W : World ι) :
    Quiet ((adasChargeExchange nm rate e fA fB tA tB W).map (·.2)) := by
  simp only [adasChargeExchange, map_bind, map_pure]
  refine Quiet.bind fun _ => Quiet.bind fun _ => Quiet.bind fun _ => Quiet.bind fun _ => Quiet.bind fun _ => Quiet.bind fun _ => Quiet.bind fun _ =>
    Quiet.bind fun _ => Quiet.bind fun _ => Quiet.bind fun _ => Quiet.bind fun _ => Quiet.bind fun _ => Quiet.bind fun _ => Quiet.bind fun _ => Quiet.ok ?_
  simp [adasTransfer]

theorem quiet_entry (p : Registry.Params) (en : Registry.Entry) (W : World ι) : Quiet (en.component p W) := by
  cases en with
  | hydIonisation k => exact quiet_electron _ _ _ _ _ _ _ _ _ _
  | hydRecombination k => exact quiet_electron _ _ _ _ _ _ _ _ _ _
  | heIonisation => exact quiet_electron _ _ _ _ _ _ _ _ _ _
  | heRecombination => exact quiet_electron _ _ _ _ _ _ _ _ _ _
  | hydCX k l => exact quiet_cx _ _ _ _ _ _ _ _
  | solkitCX k => exact Quiet.bind fun _ => Quiet.bind fun _ => Quiet.bind fun _ => Quiet.bind fun _ => Quiet.bind fun _ => Quiet.ok (by simp)
  | adasIonisation e k => exact quiet_adas _ _ _ _ _ _ _ _
  | adasRecombination e k => exact quiet_adas _ _ _ _ _ _ _ _
  | adasCX e k l => exact quiet_adasCX _ _ _ _ _ _ _ _

theorem quiet_collide (fh : Bool) (s1 s2 : String) (nu : Fld ι) (coef : ℝ) (W : World ι) : Quiet (collide fh s1 s2 nu coef W) := by
  unfold collide
  refine Quiet.ite (Quiet.ok (by simp)) (Quiet.bind fun A1 => Quiet.bind fun A2 => Quiet.bind fun n1 => Quiet.bind fun n2 => ?_)
  have hq : Quiet (heatExchange s1 s2 nu A1 A2 n1 W) := Quiet.ite (Quiet.bind fun _ => Quiet.bind fun _ => Quiet.ok (by simp [heatExchangeOf])) Quiet.nil
  rcases hx : heatExchange s1 s2 nu A1 A2 n1 W with e | q
  · exact Quiet.error e
  · refine Quiet.ok fun y hy => ?_
    rcases List.mem_append.1 hy with h | h
    · rcases List.mem_append.1 h with h | h
      · clear hy
        simp only [List.mem_cons, List.not_mem_nil, or_false] at h
        rcases h with rfl | rfl <;> simp
      · clear hy
        unfold frictionOf at h
        split_ifs at h <;> simp at h
        · rcases h with rfl | rfl | rfl | rfl <;> simp
        · rcases h with rfl | rfl <;> simp
    · exact hq q hx y h

theorem quiet_collisions (k : CollNorms) (o : CollOpts) (names : List String) (W : World ι) : Quiet (collisions k o names W) := by
  classical
  have hh : ∀ a0 n1 n2 x1 x2, Quiet (hardSphere k o W a0 n1 n2 x1 x2) := fun _ _ _ _ _ => Quiet.bind fun _ => quiet_collide _ _ _ _ _ _
  have hi : ∀ n1 n2 x1 x2, Quiet (ionIon k o W n1 n2 x1 x2) := fun _ _ _ _ => Quiet.bind fun _ => Quiet.bind fun _ => Quiet.bind fun _ =>
    quiet_collide _ _ _ _ _ _
  refine Quiet.append ?_ ?_
  · unfold electronLoop
    refine Quiet.ite (Quiet.bind fun Te => Quiet.bind fun Ne => Quiet.collectM (fun n => ?_) _) Quiet.nil
    unfold electronWith
    exact Quiet.ite (Quiet.ite Quiet.nil (quiet_collide _ _ _ _ _ _)) (Quiet.ite (Quiet.ite Quiet.nil (Quiet.bind fun _ => Quiet.bind fun _ =>
      Quiet.bind fun _ => Quiet.bind fun _ => quiet_collide _ _ _ _ _ _)) (Quiet.ite Quiet.nil (Quiet.ite Quiet.nil (Quiet.bind fun _ => Quiet.bind fun _ =>
      quiet_collide _ _ _ _ _ _))))
  · induction names with
    | nil => exact Quiet.nil
    | cons n ns ih =>
      refine Quiet.append ?_ ih
      unfold heavyWith
      refine Quiet.ite Quiet.nil (Quiet.bind fun x1 => Quiet.ite (Quiet.collectM (fun n2 => ?_) _) (Quiet.collectM (fun n2 => ?_) _))
      · unfold chargedWith
        exact Quiet.ite Quiet.nil (Quiet.bind fun x2 => Quiet.ite (Quiet.ite Quiet.nil (hi _ _ _ _)) (hh _ _ _ _ _))
      · unfold neutralWith
        exact Quiet.ite Quiet.nil (Quiet.bind fun x2 => Quiet.ite (Quiet.ite Quiet.nil (hh _ _ _ _ _)) (Quiet.ite Quiet.nil (hh _ _ _ _ _)))

/-- C75.  Collisions followed by any list of reactions: the same state in SI units for all normalisations under which no density is below the floor. -/
theorem collisional_plasma_unit_free {c : Consts} (hc : Physical c) (o : CollOpts) (names : List String) (p : Registry.Params) (ens : List Registry.Entry)
    (W : World ι) (u u' : Normalisation) (hu : Good u) (hu' : Good u') (hl : Homogeneous W.lim) (hd : Dense u W) (hd' : Dense u' W) :
    SameResult c u u' (runAll (collisions (u.collNorms c) o names :: ens.map fun en => en.component (paramsIn c u p)) (inUnits c u W))
      (runAll (collisions (u'.collNorms c) o names :: ens.map fun en => en.component (paramsIn c u' p)) (inUnits c u' W)) := by
  have h := run_unit_free hc ((fun u => collisions (u.collNorms c) o names) :: ens.map fun en u => (en.component (paramsIn c u p) : SourceComponent ι))
    (by
      intro C hC
      rcases List.mem_cons.1 hC with rfl | hC
      · exact collisions_unit_free hc o names
      · obtain ⟨en, -, rfl⟩ := List.mem_map.1 hC
        intro W u u' hu hu' hl hd
        exact sameResult_of hc hu hu' (entry_same hc p en hu hu' hl fun _ => hd rfl))
    (by
      intro C hC u
      rcases List.mem_cons.1 hC with rfl | hC
      · exact Quiet.leaves fun W => quiet_collisions _ o names W
      · obtain ⟨en, -, rfl⟩ := List.mem_map.1 hC
        exact Quiet.leaves fun W => quiet_entry _ en W)
    W u u' hu hu' hl hd hd'
  simpa [List.map_map, Function.comp_def] using h

end Hermes.Units
