import Verif.Lemmas.Units
import Verif.Props.Registry

/-!
# C75 — results in SI units do not depend on the normalisation
-/

namespace Hermes.Units
open Hermes Registry

variable {ι : Type}

/-! ## Specification

`W` is a state in SI units (temperatures in eV).  A simulation with the options `u` works with `inUnits c u W`; its results are converted with
`toSI c u`. -/

/-- No density is below the floor of `1e-5` in the units `u`. -/
def Dense (u : Normalisation) (W : World ι) : Prop :=
  ∀ s f, (W.st.ent (.sp s .density)).val = some f → ∀ i, 1e-5 * u.Nnorm ≤ f i

/-- Two simulations of the same state with different normalisations: the same exception or the same final state, and in both cases the same
state in SI units. -/
def SameResult (c : Consts) (u u' : Normalisation) (r r' : Except Err Unit × Store Key (Fld ι)) : Prop :=
  r.1 = r'.1 ∧ toSI c u r.2 = toSI c u' r'.2

/-- `C` in any units does the same to any state. -/
def UnitFree (c : Consts) (floors : Bool) (C : Normalisation → SourceComponent ι) : Prop :=
  ∀ (W : World ι) (u u' : Normalisation), Good u → Good u' → Homogeneous W.lim → (floors = true → Dense u W ∧ Dense u' W) →
    SameResult c u u' ((C u).transform (inUnits c u W)) ((C u').transform (inUnits c u' W))

/-! ## From contributions to states -/

theorem sameResult_of {c : Consts} (hc : Physical c) {u u' : Normalisation} (hu : Good u) (hu' : Good u') {C C' : SourceComponent ι} {W : World ι}
    (h : Same c u u' (C (inUnits c u W)) (C' (inUnits c u' W))) :
    SameResult c u u' (C.transform (inUnits c u W)) (C'.transform (inUnits c u' W)) := by
  unfold SourceComponent.transform
  unfold Same at h
  rcases hC : C (inUnits c u W) with e | cs <;> rcases hC' : C' (inUnits c u' W) with e' | cs' <;> rw [hC, hC'] at h <;>
    simp only [Except.map, Except.ok.injEq, Except.error.injEq, reduceCtorEq] at h
  · subst h
    exact ⟨rfl, (toSI_inUnits hc hu W).trans (toSI_inUnits hc hu' W).symm⟩
  · have e1 := contributeAll_scale (u.keyConversion c) cs (inUnits c u W).st
    have e2 := contributeAll_scale (u'.keyConversion c) cs' (inUnits c u' W).st
    change contributeAll (contribsSI c u cs) (toSI c u (inUnits c u W).st) = (_, toSI c u (contributeAll cs (inUnits c u W).st).2) at e1
    change contributeAll (contribsSI c u' cs') (toSI c u' (inUnits c u' W).st) = (_, toSI c u' (contributeAll cs' (inUnits c u' W).st).2) at e2
    rw [toSI_inUnits hc hu W] at e1
    rw [toSI_inUnits hc hu' W, ← h, e1] at e2
    exact ⟨(Prod.mk.inj e2).1, (Prod.mk.inj e2).2⟩

theorem map_bind {α β γ : Type} (x : Except Err α) (k : α → Except Err β) (g : β → γ) : (x >>= k).map g = x >>= fun a => (k a).map g := by
  cases x <;> rfl

theorem map_pure {α β : Type} (x : α) (g : α → β) : (pure x : Except Err α).map g = .ok (g x) := rfl

section
variable {c : Consts} {u u' : Normalisation}

theorem si_nil : contribsSI c u ([] : List (Contrib Key ι)) = contribsSI c u' [] := rfl

theorem si_cons {s : String} {v : Var} {x x' : Fld ι} {b : Bool} {l l' : List (Contrib Key ι)}
    (h : ∀ i, x i * u.conversion c v = x' i * u'.conversion c v) (hl : contribsSI c u l = contribsSI c u' l') :
    contribsSI c u ((.sp s v, x, b) :: l) = contribsSI c u' ((.sp s v, x', b) :: l') := by
  show _ :: contribsSI c u l = _ :: contribsSI c u' l'
  rw [hl]
  refine congrArg (· :: contribsSI c u' l') (congrArg (fun y => (Key.sp s v, y, b)) ?_)
  funext i
  exact h i

theorem si_append {l l' m m' : List (Contrib Key ι)} (h : contribsSI c u l = contribsSI c u' l') (hm : contribsSI c u m = contribsSI c u' m') :
    contribsSI c u (l ++ m) = contribsSI c u' (l' ++ m') := by
  rw [contribsSI_append, contribsSI_append, h, hm]

theorem si_if {p : Prop} [Decidable p] {l l' m m' : List (Contrib Key ι)} (h : p → contribsSI c u l = contribsSI c u' l')
    (hm : ¬p → contribsSI c u m = contribsSI c u' m') : contribsSI c u (if p then l else m) = contribsSI c u' (if p then l' else m') := by
  by_cases hp : p
  · rw [if_pos hp, if_pos hp]; exact h hp
  · rw [if_neg hp, if_neg hp]; exact hm hp

variable (hc : Physical c) (hu : Good u) (hu' : Good u')

section
include hc hu

/-- Energies of motion and thermal energies have the same units. -/
theorem energy_source_eq : u.conversion c .energy_source = c.Mp * u.Cs0 c ^ 2 * u.conversion c .density_source := by
  rw [Cs0_sq hc hu]
  simp only [Normalisation.conversion]
  ring

theorem mom_si (R V : ℝ) : R * (V * (u.conversion c .velocity)⁻¹) * u.conversion c .momentum_source
    = (R * u.conversion c .density_source) * V * c.Mp := by
  have := (Cs0_pos hc hu).ne'
  simp only [Normalisation.conversion]
  field_simp

theorem heat_si (R T : ℝ) : R * (T * (u.conversion c .temperature)⁻¹) * u.conversion c .energy_source
    = (R * u.conversion c .density_source) * T * c.qe := by
  have := hu.T.ne'
  simp only [Normalisation.conversion]
  field_simp

theorem kin_si (R V W : ℝ) : R * (V * (u.conversion c .velocity)⁻¹ - W * (u.conversion c .velocity)⁻¹) ^ 2 * u.conversion c .energy_source
    = (R * u.conversion c .density_source) * (V - W) ^ 2 * c.Mp := by
  rw [energy_source_eq hc hu]
  have := (Cs0_pos hc hu).ne'
  simp only [Normalisation.conversion]
  field_simp
end

variable {R R' : ℝ} (h : R * u.conversion c .density_source = R' * u'.conversion c .density_source)
include hc hu hu' h

/-- Momentum carried by particles that appear or disappear. -/
theorem mom_same (A V : ℝ) : R * A * (V * (u.conversion c .velocity)⁻¹) * u.conversion c .momentum_source
    = R' * A * (V * (u'.conversion c .velocity)⁻¹) * u'.conversion c .momentum_source := by
  rw [mom_si hc hu, mom_si hc hu', mul_right_comm R, mul_right_comm R', h]

theorem heat_same (A T : ℝ) : R * A * (T * (u.conversion c .temperature)⁻¹) * u.conversion c .energy_source
    = R' * A * (T * (u'.conversion c .temperature)⁻¹) * u'.conversion c .energy_source := by
  rw [heat_si hc hu, heat_si hc hu', mul_right_comm R, mul_right_comm R', h]

theorem kin_same (A V W : ℝ) : A * R * (V * (u.conversion c .velocity)⁻¹ - W * (u.conversion c .velocity)⁻¹) ^ 2 * u.conversion c .energy_source
    = A * R' * (V * (u'.conversion c .velocity)⁻¹ - W * (u'.conversion c .velocity)⁻¹) ^ 2 * u'.conversion c .energy_source := by
  rw [kin_si hc hu, kin_si hc hu', mul_assoc A R, mul_assoc A R', h]

theorem kin0_same (A V : ℝ) : A * R * (V * (u.conversion c .velocity)⁻¹) ^ 2 * u.conversion c .energy_source
    = A * R' * (V * (u'.conversion c .velocity)⁻¹) ^ 2 * u'.conversion c .energy_source := by
  have := kin_same hc hu hu' h A V 0
  simpa using this

theorem loss_same (E : ℝ) : E / (u.norms c).T * R * u.conversion c .energy_source = E / (u'.norms c).T * R' * u'.conversion c .energy_source := by
  have e : ∀ (u : Normalisation), Good u → ∀ R, E / (u.norms c).T * R * u.conversion c .energy_source = E * (R * u.conversion c .density_source) * c.qe := by
    intro u hu R
    have h2 := hu.T.ne'
    simp only [Normalisation.conversion, Normalisation.norms]
    field_simp
  rw [e u hu, e u' hu', h]

end

/-! ## AMJUEL reactions -/

/-- A rate computed from densities and the electron temperature. -/
theorem rate_si {c : Consts} (hc : Physical c) {u : Normalisation} (hu : Good u) {W : World ι} (hl : Homogeneous W.lim) (rate : ℝ → ℝ → ℝ) (k : ℝ)
    (Ne N1 Te : Fld ι) (i : ι) :
    (inUnits c u W).avg3 (fun ne n1 te => ne * n1 * rate (te * (u.norms c).T) (ne * (u.norms c).N) * (u.norms c).N / (u.norms c).Freq * k)
        (fun i => Ne i * (u.conversion c .density)⁻¹) (fun i => N1 i * (u.conversion c .density)⁻¹) (fun i => Te i * (u.conversion c .temperature)⁻¹) i
      * u.conversion c .density_source
    = W.avg3 (fun ne n1 te => ne * n1 * rate te ne * k) Ne N1 Te i := by
  have hN : 0 < (u.conversion c .density)⁻¹ := inv_pos.2 hu.N
  have hT : 0 < (u.conversion c .temperature)⁻¹ := inv_pos.2 hu.T
  refine avg3_units hc hu hl hN hN hT (fun x y z => ?_) Ne N1 Te i
  have h1 := hu.N.ne'
  have h2 := hu.T.ne'
  have h3 := (Omega_pos hc hu).ne'
  simp only [Normalisation.conversion, Normalisation.norms, inv_mul_cancel_right₀ h1, inv_mul_cancel_right₀ h2, one_div_one_div]
  field_simp

theorem loss_si {c : Consts} (hc : Physical c) {u : Normalisation} (hu : Good u) {W : World ι} (hl : Homogeneous W.lim) (rad : ℝ → ℝ → ℝ) (k : ℝ)
    (Ne N1 Te : Fld ι) (i : ι) :
    (inUnits c u W).avg3 (fun ne n1 te => ne * n1 * rad (te * (u.norms c).T) (ne * (u.norms c).N) * (u.norms c).N
          / ((u.norms c).T * (u.norms c).Freq) * k)
        (fun i => Ne i * (u.conversion c .density)⁻¹) (fun i => N1 i * (u.conversion c .density)⁻¹) (fun i => Te i * (u.conversion c .temperature)⁻¹) i
      * u.conversion c .energy_source
    = W.avg3 (fun ne n1 te => ne * n1 * rad te ne * k * c.qe) Ne N1 Te i := by
  have hN : 0 < (u.conversion c .density)⁻¹ := inv_pos.2 hu.N
  have hT : 0 < (u.conversion c .temperature)⁻¹ := inv_pos.2 hu.T
  refine avg3_units hc hu hl hN hN hT (fun x y z => ?_) Ne N1 Te i
  have h1 := hu.N.ne'
  have h2 := hu.T.ne'
  have h3 := (Omega_pos hc hu).ne'
  simp only [Normalisation.conversion, Normalisation.norms, inv_mul_cancel_right₀ h1, inv_mul_cancel_right₀ h2, one_div_one_div]
  field_simp

theorem electronReactionOf_si {c : Consts} (hc : Physical c) {u u' : Normalisation} (hu : Good u) (hu' : Good u') {W : World ι} (hl : Homogeneous W.lim)
    (rate rad : ℝ → ℝ → ℝ) (heat kr kR : ℝ) (e fr dst : String) (Ne Te N1 T1 V1 V2 : Fld ι) (AA z1 z2 : ℝ) (ev : Option (Fld ι × ℝ)) :
    let f := fun u : Normalisation => contribsSI c u (electronReactionOf (u.norms c) rate rad heat kr kR e fr dst (inUnits c u W)
      (fun i => Ne i * (u.conversion c .density)⁻¹) (fun i => Te i * (u.conversion c .temperature)⁻¹) (fun i => N1 i * (u.conversion c .density)⁻¹)
      (fun i => T1 i * (u.conversion c .temperature)⁻¹) (fun i => V1 i * (u.conversion c .velocity)⁻¹) (fun i => V2 i * (u.conversion c .velocity)⁻¹)
      AA z1 z2 (ev.map fun x => ((fun i => x.1 i * (u.conversion c .velocity)⁻¹), x.2))).contribs
    f u = f u' := by
  intro f
  simp only [f, electronReactionOf]
  have e0 := fun i => (rate_si hc hu hl rate kr Ne N1 Te i).trans (rate_si hc hu' hl rate kr Ne N1 Te i).symm
  have eL := fun i => (loss_si hc hu hl rad kR Ne N1 Te i).trans (loss_si hc hu' hl rad kR Ne N1 Te i).symm
  refine si_append (si_append (si_cons e0 (si_cons e0 si_nil)) (si_if (fun _ => si_append (si_cons (fun i => ?_) si_nil) ?_) fun _ => si_nil))
    (si_cons (fun i => mom_same hc hu hu' (e0 i) _ _) (si_cons (fun i => mom_same hc hu hu' (e0 i) _ _) (si_cons (fun i => kin_same hc hu hu' (e0 i) _ _ _)
      (si_cons (fun i => heat_same hc hu hu' (e0 i) _ _) (si_cons (fun i => heat_same hc hu hu' (e0 i) _ _) (si_cons (fun i => ?_) si_nil))))))
  · rw [mul_assoc, e0, ← mul_assoc]
  · rcases ev with _ | ⟨Ve, Ae⟩
    · exact si_nil
    · exact si_cons (fun i => kin0_same hc hu hu' (e0 i) _ _) si_nil
  · rw [sub_mul, sub_mul, eL, mul_right_comm, loss_same hc hu hu' (e0 i) heat, mul_right_comm _ kR]

theorem electronReaction_same {c : Consts} (hc : Physical c) {u u' : Normalisation} (hu : Good u) (hu' : Good u') {W : World ι} (hl : Homogeneous W.lim)
    (rate rad : ℝ → ℝ → ℝ) (heat kr kR : ℝ) (e fr dst : String) :
    Same c u u' ((electronReaction (u.norms c) rate rad heat kr kR e fr dst (inUnits c u W)).map (·.contribs))
      ((electronReaction (u'.norms c) rate rad heat kr kR e fr dst (inUnits c u' W)).map (·.contribs)) := by
  simp only [electronReaction, map_bind, map_pure]
  refine Same.field fun Ne _ => Same.field fun Te _ => Same.field fun N1 _ => Same.field fun T1 _ => Same.field fun V1 _ =>
    Same.real fun AA _ => Same.real fun AA2 _ => Same.assert1 fun _ => Same.field fun V2 _ => ?_
  unfold readElectronVelocity
  simp only [inUnits_isSetF]
  have hq : ∀ (u : Normalisation) s, (inUnits c u W).chargeOr0 s = W.chargeOr0 s := fun _ _ => rfl
  simp only [hq]
  by_cases h : W.chargeOr0 fr ≠ W.chargeOr0 dst ∧ W.isSetF e .velocity = true
  · simp only [if_pos h, bind_assoc]
    refine Same.field fun Ve _ => Same.real fun Ae _ => ?_
    exact Same.ok (electronReactionOf_si hc hu hu' hl rate rad heat kr kR e fr dst Ne Te N1 T1 V1 V2 AA _ _ (some (Ve, Ae)))
  · simp only [if_neg h]
    exact Same.ok (electronReactionOf_si hc hu hu' hl rate rad heat kr kR e fr dst Ne Te N1 T1 V1 V2 AA _ _ none)

/-! ## OpenADAS reactions -/

theorem floor0_scale {k : ℝ} (hk : 0 < k) (x : ℝ) : floor0 (x * k) = floor0 x * k := by
  unfold floor0
  by_cases h : x < 0
  · rw [if_pos h, if_pos (mul_neg_of_neg_of_pos h hk), zero_mul]
  · rw [if_neg h, if_neg (not_lt.2 (mul_nonneg (not_lt.1 h) hk.le))]

theorem adasRate_si {c : Consts} (hc : Physical c) {u : Normalisation} (hu : Good u) {W : World ι} (hl : Homogeneous W.lim) (rate : ℝ → ℝ → ℝ)
    (Ne N1 Te : Fld ι) (i : ι) :
    (inUnits c u W).avg3 (fun ne n1 te => floor0 ne * floor0 n1 * rate (te * (u.norms c).T) (ne * (u.norms c).N) * (u.norms c).N / (u.norms c).Freq)
        (fun i => Ne i * (u.conversion c .density)⁻¹) (fun i => N1 i * (u.conversion c .density)⁻¹) (fun i => Te i * (u.conversion c .temperature)⁻¹) i
      * u.conversion c .density_source
    = W.avg3 (fun ne n1 te => floor0 ne * floor0 n1 * rate te ne) Ne N1 Te i := by
  have hN : 0 < (u.conversion c .density)⁻¹ := inv_pos.2 hu.N
  have hT : 0 < (u.conversion c .temperature)⁻¹ := inv_pos.2 hu.T
  refine avg3_units hc hu hl hN hN hT (fun x y z => ?_) Ne N1 Te i
  rw [floor0_scale hN, floor0_scale hN]
  have h1 := hu.N.ne'
  have h2 := hu.T.ne'
  have h3 := (Omega_pos hc hu).ne'
  simp only [Normalisation.conversion, Normalisation.norms, inv_mul_cancel_right₀ h1, inv_mul_cancel_right₀ h2, one_div_one_div]
  field_simp

theorem adasLoss_si {c : Consts} (hc : Physical c) {u : Normalisation} (hu : Good u) {W : World ι} (hl : Homogeneous W.lim) (rad : ℝ → ℝ → ℝ)
    (Ne N1 Te : Fld ι) (i : ι) :
    (inUnits c u W).avg3 (fun ne n1 te => floor0 ne * floor0 n1 * rad (te * (u.norms c).T) (ne * (u.norms c).N) * (u.norms c).N
          / ((u.norms c).T * (u.norms c).Freq))
        (fun i => Ne i * (u.conversion c .density)⁻¹) (fun i => N1 i * (u.conversion c .density)⁻¹) (fun i => Te i * (u.conversion c .temperature)⁻¹) i
      * u.conversion c .energy_source
    = W.avg3 (fun ne n1 te => floor0 ne * floor0 n1 * rad te ne * c.qe) Ne N1 Te i := by
  have hN : 0 < (u.conversion c .density)⁻¹ := inv_pos.2 hu.N
  have hT : 0 < (u.conversion c .temperature)⁻¹ := inv_pos.2 hu.T
  refine avg3_units hc hu hl hN hN hT (fun x y z => ?_) Ne N1 Te i
  rw [floor0_scale hN, floor0_scale hN]
  have h1 := hu.N.ne'
  have h2 := hu.T.ne'
  have h3 := (Omega_pos hc hu).ne'
  simp only [Normalisation.conversion, Normalisation.norms, inv_mul_cancel_right₀ h1, inv_mul_cancel_right₀ h2, one_div_one_div]
  field_simp

theorem adasReaction_same {c : Consts} (hc : Physical c) {u u' : Normalisation} (hu : Good u) (hu' : Good u') {W : World ι} (hl : Homogeneous W.lim)
    (rate rad : ℝ → ℝ → ℝ) (heat : ℝ) (e fr dst : String) :
    Same c u u' ((adasReaction (u.norms c) rate rad heat e fr dst (inUnits c u W)).map (·.contribs))
      ((adasReaction (u'.norms c) rate rad heat e fr dst (inUnits c u' W)).map (·.contribs)) := by
  simp only [adasReaction, map_bind, map_pure]
  refine Same.field fun Ne _ => Same.field fun Te _ => Same.field fun N1 _ => Same.field fun T1 _ => Same.field fun V1 _ =>
    Same.real fun AA _ => Same.real fun AA2 _ => Same.assert1 fun _ => Same.ok ?_
  have hq : ∀ (u : Normalisation) s, (inUnits c u W).chargeOr0 s = W.chargeOr0 s := fun _ _ => rfl
  simp only [hq, adasReactionOf]
  have e0 := fun i => (adasRate_si hc hu hl rate Ne N1 Te i).trans (adasRate_si hc hu' hl rate Ne N1 Te i).symm
  have eL := fun i => (adasLoss_si hc hu hl rad Ne N1 Te i).trans (adasLoss_si hc hu' hl rad Ne N1 Te i).symm
  refine si_append (si_append (si_cons e0 (si_cons e0 si_nil)) (si_if (fun _ => si_cons (fun i => ?_) si_nil) fun _ => si_nil))
    (si_cons (fun i => mom_same hc hu hu' (e0 i) _ _) (si_cons (fun i => mom_same hc hu hu' (e0 i) _ _)
      (si_cons (fun i => heat_same hc hu hu' (e0 i) _ _) (si_cons (fun i => heat_same hc hu hu' (e0 i) _ _) (si_cons (fun i => ?_) si_nil)))))
  · rw [mul_assoc, e0, ← mul_assoc]
  · rw [sub_mul, sub_mul, eL, loss_same hc hu hu' (e0 i) heat]

theorem adasCXRate_si {c : Consts} (hc : Physical c) {u : Normalisation} (hu : Good u) {W : World ι} (hl : Homogeneous W.lim) (rate : ℝ → ℝ → ℝ)
    (Na Nb Ne Te : Fld ι) (i : ι) :
    (inUnits c u W).avg4 (fun na nb ne te => floor0 na * floor0 nb * rate (te * (u.norms c).T) (ne * (u.norms c).N) * (u.norms c).N / (u.norms c).Freq)
        (fun i => Na i * (u.conversion c .density)⁻¹) (fun i => Nb i * (u.conversion c .density)⁻¹) (fun i => Ne i * (u.conversion c .density)⁻¹)
        (fun i => Te i * (u.conversion c .temperature)⁻¹) i
      * u.conversion c .density_source
    = W.avg4 (fun na nb ne te => floor0 na * floor0 nb * rate te ne) Na Nb Ne Te i := by
  have hN : 0 < (u.conversion c .density)⁻¹ := inv_pos.2 hu.N
  have hT : 0 < (u.conversion c .temperature)⁻¹ := inv_pos.2 hu.T
  refine avg4_units hc hu hl hN hN hN hT (fun x y z w => ?_) Na Nb Ne Te i
  rw [floor0_scale hN, floor0_scale hN]
  have h1 := hu.N.ne'
  have h2 := hu.T.ne'
  have h3 := (Omega_pos hc hu).ne'
  simp only [Normalisation.conversion, Normalisation.norms, inv_mul_cancel_right₀ h1, inv_mul_cancel_right₀ h2, one_div_one_div]
  field_simp

theorem adasChargeExchange_same {c : Consts} (hc : Physical c) {u u' : Normalisation} (hu : Good u) (hu' : Good u') {W : World ι}
    (hl : Homogeneous W.lim) (rate : ℝ → ℝ → ℝ) (e fA fB tA tB : String) :
    Same c u u' ((adasChargeExchange (u.norms c) rate e fA fB tA tB (inUnits c u W)).map (·.2))
      ((adasChargeExchange (u'.norms c) rate e fA fB tA tB (inUnits c u' W)).map (·.2)) := by
  simp only [adasChargeExchange, map_bind, map_pure]
  refine Same.real fun AA _ => Same.real fun AA' _ => Same.assert1 fun _ => Same.real fun AB _ => Same.real fun AB' _ => Same.assert1 fun _ =>
    Same.field fun Te _ => Same.field fun Ne _ => Same.field fun Na _ => Same.field fun Nb _ => Same.field fun VA _ => Same.field fun TA _ =>
    Same.field fun VB _ => Same.field fun TB _ => Same.ok ?_
  have e0 := fun i => (adasCXRate_si hc hu hl rate Na Nb Ne Te i).trans (adasCXRate_si hc hu' hl rate Na Nb Ne Te i).symm
  have half : ∀ (A : ℝ) (V T : Fld ι) (fr dst : String), _ := fun A V T fr dst =>
    si_cons (s := fr) (b := false) e0 (si_cons (s := dst) (b := true) e0
      (si_cons (s := fr) (b := false) (fun i => mom_same hc hu hu' (e0 i) A (V i)) (si_cons (s := dst) (b := true) (fun i => mom_same hc hu hu' (e0 i) A (V i))
      (si_cons (s := fr) (b := false) (fun i => heat_same hc hu hu' (e0 i) (3 / 2) (T i)) (si_cons (s := dst) (b := true)
        (fun i => heat_same hc hu hu' (e0 i) (3 / 2) (T i)) si_nil)))))
  exact si_append (half AA VA TA fA tA) (half AB VB TB fB tB)

/-! ## Hydrogen charge exchange -/

theorem max_scale {k : ℝ} (hk : 0 < k) {x : ℝ} (h : 1e-5 * k ≤ x) : max (x * k⁻¹) 1e-5 = x * k⁻¹ := by
  refine max_eq_left ?_
  rw [← div_eq_mul_inv, le_div_iff₀ hk]
  exact h

theorem cxTeff_si {Tn : ℝ} (h : 0 < Tn) (Ta Aa Ti Ai : ℝ) : cxTeff Tn (Ta * Tn⁻¹) Aa (Ti * Tn⁻¹) Ai = cxTeff 1 Ta Aa Ti Ai := by
  have : (Ta * Tn⁻¹ / Aa + Ti * Tn⁻¹ / Ai) * Tn = (Ta / Aa + Ti / Ai) * 1 := by
    have := h.ne'
    rw [mul_div_right_comm, mul_div_right_comm, ← add_mul, mul_assoc, inv_mul_cancel₀ this]
  unfold cxTeff
  rw [this]

theorem chargeExchange_same {c : Consts} (hc : Physical c) {u u' : Normalisation} (hu : Good u) (hu' : Good u') {W : World ι} (hd : Dense u W)
    (hd' : Dense u' W) (k : ℝ) (b : Bool) (a1 i1 a2 i2 : String) :
    Same c u u' ((chargeExchange (u.norms c) k b a1 i1 a2 i2 (inUnits c u W)).map (·.contribs))
      ((chargeExchange (u'.norms c) k b a1 i1 a2 i2 (inUnits c u' W)).map (·.contribs)) := by
  simp only [chargeExchange, map_bind, map_pure]
  refine Same.field fun Ta _ => Same.real fun Aa _ => Same.real fun Ai2 _ => Same.assert1 fun _ => Same.field fun Ti _ => Same.real fun Ai _ =>
    Same.real fun Aa2 _ => Same.assert1 fun _ => Same.field fun na hna => Same.field fun ni hni => Same.field fun va1 _ => Same.field fun vi1 _ =>
    Same.field fun vi2 _ => Same.field fun va2 _ => Same.ok ?_
  simp only [chargeExchangeOf]
  -- rates in SI units
  have hσ : ∀ (u : Normalisation), Good u → ∀ i, Real.exp (cxLnSigmav (Real.log (cxTeff (u.norms c).T (Ta i * (u.conversion c .temperature)⁻¹) Aa
        (Ti i * (u.conversion c .temperature)⁻¹) Ai))) * (1e-6 * (u.norms c).N / (u.norms c).Freq) * k * (u.Omega_ci c / u.Nnorm)
      = Real.exp (cxLnSigmav (Real.log (cxTeff 1 (Ta i) Aa (Ti i) Ai))) * 1e-6 * k := by
    intro u hu i
    have e := cxTeff_si hu.T (Ta i) Aa (Ti i) Ai
    simp only [Normalisation.norms, Normalisation.conversion, one_div_one_div]
    rw [e]
    have h1 := hu.N.ne'
    have h3 := (Omega_pos hc hu).ne'
    field_simp
  have hn : ∀ (u : Normalisation), Good u → ∀ σ x : ℝ, σ * (u.Omega_ci c / u.Nnorm) * x = x * (u.conversion c .density)⁻¹ * σ * u.Omega_ci c := by
    intro u hu σ x
    simp only [Normalisation.conversion]
    ring
  have hnn : ∀ (u : Normalisation), Good u → ∀ σ x y : ℝ, σ * (u.Omega_ci c / u.Nnorm) * x * y
      = x * (u.conversion c .density)⁻¹ * (y * (u.conversion c .density)⁻¹) * σ * u.conversion c .density_source := by
    intro u hu σ x y
    have h1 := hu.N.ne'
    simp only [Normalisation.conversion]
    field_simp
  have m1 := fun i => max_scale hu.N (hd a1 na hna i)
  have m2 := fun i => max_scale hu'.N (hd' a1 na hna i)
  have m3 := fun i => max_scale hu.N (hd i1 ni hni i)
  have m4 := fun i => max_scale hu'.N (hd' i1 ni hni i)
  have mc1 : ∀ u : Normalisation, u.conversion c .density = u.Nnorm := fun _ => rfl
  simp only [mc1, m1, m2, m3, m4]
  have e0 : ∀ i, _ := fun i => (hnn u hu _ (na i) (ni i)).symm.trans ((congrArg (· * na i * ni i) ((hσ u hu i).trans (hσ u' hu' i).symm)).trans
    (hnn u' hu' _ (na i) (ni i)))
  have ea : ∀ i, _ := fun i => (hn u hu _ (ni i)).symm.trans ((congrArg (· * ni i) ((hσ u hu i).trans (hσ u' hu' i).symm)).trans
    (hn u' hu' _ (ni i)))
  have ei : ∀ i, _ := fun i => (hn u hu _ (na i)).symm.trans ((congrArg (· * na i) ((hσ u hu i).trans (hσ u' hu' i).symm)).trans
    (hn u' hu' _ (na i)))
  have h32 : ∀ (x y : ℝ), 3 / 2 * x * y = x * (3 / 2) * y := fun x y => by ring
  refine si_append (si_append (si_append (si_if (fun _ => si_cons e0 (si_cons e0 (si_cons e0 (si_cons e0 si_nil)))) fun _ => si_nil)
    (si_cons (fun i => mom_same hc hu hu' (e0 i) _ _) si_nil)) (si_if (fun _ => si_cons (fun i => mom_same hc hu hu' (e0 i) _ _) si_nil) fun _ => si_nil))
    (si_cons (fun i => mom_same hc hu hu' (e0 i) _ _) (si_cons (fun i => mom_same hc hu hu' (e0 i) _ _) (si_cons (fun i => kin_same hc hu hu' (e0 i) _ _ _)
    (si_cons (fun i => kin_same hc hu hu' (e0 i) _ _ _) (si_cons (fun i => ?_) (si_cons (fun i => ?_) (si_cons (fun i => ?_) (si_cons (fun i => ?_)
    (si_cons ea (si_cons ei si_nil)))))))))) <;> (rw [h32, h32]; exact heat_same hc hu hu' (e0 i) _ _)

/-! ## Simple reactions -/

theorem ionisation_same {c : Consts} (hc : Physical c) {u u' : Normalisation} (hu : Good u) (hu' : Good u') {W : World ι} (hl : Homogeneous W.lim)
    (sigmav : ℝ → ℝ) (Eionize : ℝ) :
    Same c u u' ((ionisation (u.norms c) sigmav (Eionize / u.Tnorm) (inUnits c u W)).map (·.contribs))
      ((ionisation (u'.norms c) sigmav (Eionize / u'.Tnorm) (inUnits c u' W)).map (·.contribs)) := by
  simp only [ionisation, map_bind, map_pure]
  refine Same.field fun Nn _ => Same.field fun Tn _ => Same.field fun Vn _ => Same.real fun AA _ => Same.field fun Ne _ => Same.field fun Te _ =>
    Same.real fun AAi _ => Same.assert1 fun _ => Same.ok ?_
  simp only [ionisationOf]
  have hR : ∀ (u : Normalisation), Good u → ∀ i, (inUnits c u W).avg3 (fun ne nn te => ne * nn * sigmav (te * (u.norms c).T) * (u.norms c).N
        / (u.norms c).Freq) (fun i => Ne i * (u.conversion c .density)⁻¹) (fun i => Nn i * (u.conversion c .density)⁻¹)
        (fun i => Te i * (u.conversion c .temperature)⁻¹) i * u.conversion c .density_source = W.avg3 (fun ne nn te => ne * nn * sigmav te) Ne Nn Te i := by
    intro u hu i
    have := rate_si hc hu hl (fun te _ => sigmav te) 1 Ne Nn Te i
    simpa only [mul_one] using this
  have e0 := fun i => (hR u hu i).trans (hR u' hu' i).symm
  exact si_cons e0 (si_cons e0 (si_cons (fun i => mom_same hc hu hu' (e0 i) _ _) (si_cons (fun i => mom_same hc hu hu' (e0 i) _ _)
    (si_cons (fun i => heat_same hc hu hu' (e0 i) _ _) (si_cons (fun i => heat_same hc hu hu' (e0 i) _ _)
    (si_cons (fun i => loss_same hc hu hu' (e0 i) Eionize) si_nil))))))

theorem solkit_same {c : Consts} (hc : Physical c) {u u' : Normalisation} (hu : Good u) (hu' : Good u') {W : World ι} (hl : Homogeneous W.lim)
    (hd : Dense u W) (hd' : Dense u' W) (a i1 : String) :
    Same c u u' (solkitChargeExchange u.Nnorm (u.rho_s0 c) a i1 (inUnits c u W)) (solkitChargeExchange u'.Nnorm (u'.rho_s0 c) a i1 (inUnits c u' W)) := by
  unfold solkitChargeExchange
  refine Same.real fun AA _ => Same.real fun AAa _ => Same.assert1 fun _ => Same.field fun na hna => Same.field fun ni hni => Same.ok ?_
  have hv : ∀ (u : Normalisation) s, (inUnits c u W).velocityOr0 s = fun i => W.velocityOr0 s i * (u.conversion c .velocity)⁻¹ := by
    intro u s
    funext i
    exact inUnits_fieldOr0 W s .velocity i
  have e : ∀ (u : Normalisation), Good u → Dense u W → ∀ i, solkitFriction u.Nnorm (u.rho_s0 c) AA (inUnits c u W) (fun i => na i * (u.conversion c .density)⁻¹)
      (fun i => ni i * (u.conversion c .density)⁻¹) ((inUnits c u W).velocityOr0 a) ((inUnits c u W).velocityOr0 i1) i * u.conversion c .momentum_source
      = W.avg4 (fun na ni va vi => AA * (vi - va) * (na * ni * 3e-19 * |vi|) * c.Mp) na ni (W.velocityOr0 a) (W.velocityOr0 i1) i := by
    intro u hu hd i
    unfold solkitFriction
    have mc1 : u.conversion c .density = u.Nnorm := rfl
    have m1 := fun i => max_scale hu.N (hd a na hna i)
    have m3 := fun i => max_scale hu.N (hd i1 ni hni i)
    simp only [mc1, m1, m3, hv]
    have hN : 0 < (u.Nnorm)⁻¹ := inv_pos.2 hu.N
    have hC : 0 < (u.conversion c .velocity)⁻¹ := inv_pos.2 (Cs0_pos hc hu)
    refine avg4_units hc hu hl hN hN hC hC (fun x y v w => ?_) na ni _ _ i
    rw [abs_mul, abs_of_pos hC]
    have h1 := hu.N.ne'
    have h2 := (Cs0_pos hc hu).ne'
    have h3 := rho_Omega hc hu
    simp only [Normalisation.conversion]
    rw [← h3] at h2 ⊢
    have h4 := (Omega_pos hc hu).ne'
    have h5 := (rho_pos hc hu).ne'
    field_simp
  exact si_cons (fun i => (e u hu hd i).trans (e u' hu' hd' i).symm) (si_cons (fun i => (e u hu hd i).trans (e u' hu' hd' i).symm) si_nil)

end Hermes.Units
