import Verif.Props.Reactions

/-!
# Amounts transferred by the reactions (C26, C27)

The conservation theorems do not fix how much is transferred.  These theorems do.
-/

set_option linter.unusedSimpArgs false

namespace Hermes.Reactions

variable {ι : Type}

/-- C26, amounts.  With the reaction rate `R` of the ionisation or recombination `fr → dst`:
* `dst` gains `R` particles and `fr` loses them, with the momentum `A R V_fr`;
* `fr` loses the thermal energy `3/2 R T_fr`;
* the electrons lose the radiated power minus `R` times the potential energy released (`heat`, negative for
  ionisation), in units of the temperature normalisation. -/
theorem amjuel_amounts (nm : Norms) (rate rad : ℝ → ℝ → ℝ) (heat kr kR : ℝ) (e fr dst : String)
    (hef : e ≠ fr) (hed : e ≠ dst) (hfd : fr ≠ dst) (w : World ι) (r : ElectronReaction ι)
    (hr : electronReaction nm rate rad heat kr kR e fr dst w = .ok r) (hu : SourcesUnread w.st) :
    ∃ Ne Te N1 T1 V1 : Fld ι, ∃ A : ℝ,
      (w.st.ent (.sp e Var.density)).val = some Ne ∧ (w.st.ent (.sp e Var.temperature)).val = some Te ∧
      (w.st.ent (.sp fr Var.density)).val = some N1 ∧ (w.st.ent (.sp fr Var.temperature)).val = some T1 ∧
      (w.st.ent (.sp fr Var.velocity)).val = some V1 ∧ w.num fr Var.AA = some A ∧
      let t := (amjuel nm rate rad heat kr kR e fr dst).transform w
      let radiated := w.avg3 (fun ne n1 te => kR * (ne * n1) * (rad (te * nm.T) (ne * nm.N) * nm.N / (nm.T * nm.Freq))) Ne N1 Te
      let R := w.avg3 (fun ne n1 te => kr * (ne * n1) * (rate (te * nm.T) (ne * nm.N) * nm.N / nm.Freq)) Ne N1 Te
      ∀ i,
        gain w.st t.2 dst Var.density_source i = R i ∧ gain w.st t.2 fr Var.density_source i = - R i ∧
        gain w.st t.2 dst Var.momentum_source i = A * R i * V1 i ∧
        gain w.st t.2 fr Var.energy_source i = - (3 / 2 * R i * T1 i) ∧
        r.energy_loss i = radiated i - kR * R i * (heat / nm.T) := by
  obtain ⟨Ne, Te, N1, T1, V1, V2, A, hNe, hTe, hN1, hT1, hV1, hV2, hA1, hA2, ev, hev, rfl⟩ := electronReaction_ok hr
  refine ⟨Ne, Te, N1, T1, V1, A, hNe, hTe, hN1, hT1, hV1, hA1, ?_⟩
  intro t radiated R i
  have ht : t = contributeAll (electronReactionOf nm rate rad heat kr kR e fr dst w Ne Te N1 T1 V1 V2 A
        (w.chargeOr0 fr) (w.chargeOr0 dst) ev).contribs w.st := by
    simp only [t, SourceComponent.transform, amjuel, hr, Except.map]
  have hk : KeysIn [e, fr, dst] [Var.density_source, Var.momentum_source, Var.energy_source]
      ((electronReactionOf nm rate rad heat kr kR e fr dst w Ne Te N1 T1 V1 V2 A
        (w.chargeOr0 fr) (w.chargeOr0 dst) ev).contribs) := by
    unfold electronReactionOf
    rcases ev with _ | ⟨Ve, Ae⟩ <;> by_cases hq : w.chargeOr0 fr ≠ w.chargeOr0 dst <;>
      simp [hq]
  obtain ⟨st', h1, h2, h3⟩ := contributeAll_gain _ w.st _ _ hk (by simp) hu
  rw [← ht] at h1
  have e1 := hef.symm
  have e2 := hed.symm
  have e3 := hfd.symm
  rw [h1]
  have hR : w.avg3 (fun ne n1 te => ne * n1 * rate (te * nm.T) (ne * nm.N) * nm.N / nm.Freq * kr) Ne N1 Te = R := by
    simp only [R]
    congr 1
    funext a b c; ring
  have hL : w.avg3 (fun ne n1 te => ne * n1 * rad (te * nm.T) (ne * nm.N) * nm.N / (nm.T * nm.Freq) * kR) Ne N1 Te
      = radiated := by
    simp only [radiated]
    congr 1
    funext a b c; ring
  simp only [h3]
  unfold electronReactionOf
  dsimp only
  rw [hR, hL]
  by_cases hq : w.chargeOr0 fr = w.chargeOr0 dst
  · simp [hq, hef, hed, hfd, e1, e2, e3]
    exact ⟨Or.inl (by ring), Or.inl (by ring), by ring⟩
  · rcases ev with _ | ⟨Ve, Ae⟩
    · simp [hq, hef, hed, hfd, e1, e2, e3]
      exact ⟨Or.inl (by ring), Or.inl (by ring), by ring⟩
    · simp [hq, hef, hed, hfd, e1, e2, e3]
      exact ⟨Or.inl (by ring), Or.inl (by ring), by ring⟩

/-- The fit of the charge exchange cross section: a polynomial in the logarithm of the effective temperature, which is
limited to the range of the fit. -/
noncomputable def cxFit (b : ℕ → ℝ) (n : ℕ) (T : ℝ) : ℝ := Real.exp (∑ k ∈ Finset.range n, b k * Real.log T ^ k)

/-- The coefficients of the fit (AMJUEL H.2 3.1.8). -/
def cxCoefficients : ℕ → ℝ
  | 0 => -18.5028
  | 1 => 0.3708409
  | 2 => 7.949876e-3
  | 3 => -6.143769e-4
  | 4 => -4.698969e-4
  | 5 => -4.096807e-4
  | 6 => 1.440382e-4
  | 7 => -1.514243e-5
  | 8 => 5.122435e-7
  | _ => 0

/-- C27, amounts: the effective temperature is limited to `[0.01, 10000]` eV, and the rate is the fit at that
temperature times the two densities, each at least `1e-5`. -/
theorem cx_rate_formula (nm : Norms) (k : ℝ) (ng : Bool) (atom1 ion1 atom2 ion2 : String) (w : World ι)
    (r : ChargeExchange ι) (hr : chargeExchange nm k ng atom1 ion1 atom2 ion2 w = .ok r) :
    ∃ Ta Ti na ni : Fld ι, ∃ Aa Ai : ℝ,
      (w.st.ent (.sp atom1 Var.temperature)).val = some Ta ∧ (w.st.ent (.sp ion1 Var.temperature)).val = some Ti ∧
      (w.st.ent (.sp atom1 Var.density)).val = some na ∧ (w.st.ent (.sp ion1 Var.density)).val = some ni ∧
      w.num atom1 Var.AA = some Aa ∧ w.num ion1 Var.AA = some Ai ∧
      ∀ i,
        let Teff := max 0.01 (min 10000 ((Ta i / Aa + Ti i / Ai) * nm.T))
        r.R i = max (na i) 1e-5 * max (ni i) 1e-5 * (k * (cxFit cxCoefficients 9 Teff * 1e-6 * nm.N / nm.Freq)) := by
  obtain ⟨Ta, Ti, na, ni, va1, vi1, va2, vi2, Aa, Ai, hna, hni, -, -, -, -, hA1, hA2, hA3, hA4, rfl, -, hTa, hTi⟩ :=
    chargeExchange_ok hr
  refine ⟨Ta, Ti, na, ni, Aa, Ai, hTa, hTi, hna, hni, hA1, hA3, fun i => ?_⟩
  intro Teff
  have hT : cxTeff nm.T (Ta i) Aa (Ti i) Ai = Teff := by
    simp only [cxTeff, Teff]
    split
    · rename_i h
      rw [min_eq_right (by linarith), max_eq_left h.le]
    · split
      · rename_i h1 h2
        rw [min_eq_left h2.le, max_eq_right (by norm_num)]
      · rename_i h1 h2
        rw [min_eq_right (not_lt.1 h2), max_eq_right (not_lt.1 h1)]
  have hfit : Real.exp (cxLnSigmav (Real.log Teff)) = cxFit cxCoefficients 9 Teff := by
    unfold cxFit cxLnSigmav
    congr 1
    simp only [List.foldl_cons, List.foldl_nil, Finset.sum_range_succ, Finset.sum_range_zero, cxCoefficients]
    ring
  unfold chargeExchangeOf
  dsimp only
  rw [hT, hfit]
  ring

/-- C28, amounts of an OpenADAS ionisation or recombination (densities below zero count as zero). -/
theorem adas_amounts (nm : Norms) (rate rad : ℝ → ℝ → ℝ) (heat : ℝ) (e fr dst : String)
    (hef : e ≠ fr) (hed : e ≠ dst) (hfd : fr ≠ dst) (w : World ι) (r : AdasReaction ι)
    (hr : adasReaction nm rate rad heat e fr dst w = .ok r) (hu : SourcesUnread w.st) :
    ∃ Ne Te N1 T1 V1 : Fld ι, ∃ A : ℝ,
      (w.st.ent (.sp e Var.density)).val = some Ne ∧ (w.st.ent (.sp e Var.temperature)).val = some Te ∧
      (w.st.ent (.sp fr Var.density)).val = some N1 ∧ (w.st.ent (.sp fr Var.temperature)).val = some T1 ∧
      (w.st.ent (.sp fr Var.velocity)).val = some V1 ∧ w.num fr Var.AA = some A ∧
      let t := (adas nm rate rad heat e fr dst).transform w
      let radiated := w.avg3 (fun ne n1 te => max 0 ne * max 0 n1 * (rad (te * nm.T) (ne * nm.N) * nm.N / (nm.T * nm.Freq))) Ne N1 Te
      let R := w.avg3 (fun ne n1 te => max 0 ne * max 0 n1 * (rate (te * nm.T) (ne * nm.N) * nm.N / nm.Freq)) Ne N1 Te
      ∀ i,
        gain w.st t.2 dst Var.density_source i = R i ∧ gain w.st t.2 fr Var.density_source i = - R i ∧
        gain w.st t.2 dst Var.momentum_source i = A * R i * V1 i ∧
        gain w.st t.2 fr Var.energy_source i = - (3 / 2 * R i * T1 i) ∧
        r.energy_loss i = radiated i - R i * (heat / nm.T) := by
  obtain ⟨Ne, Te, N1, T1, V1, A, hNe, hTe, hN1, hT1, hV1, hA1, hA2, rfl⟩ := adasReaction_ok hr
  refine ⟨Ne, Te, N1, T1, V1, A, hNe, hTe, hN1, hT1, hV1, hA1, ?_⟩
  intro t radiated R i
  have ht : t = contributeAll (adasReactionOf nm rate rad heat e fr dst w Ne Te N1 T1 V1 A (w.chargeOr0 fr)
      (w.chargeOr0 dst)).contribs w.st := by
    simp only [t, SourceComponent.transform, adas, hr, Except.map]
  have hk : KeysIn [e, fr, dst] [Var.density_source, Var.momentum_source, Var.energy_source]
      ((adasReactionOf nm rate rad heat e fr dst w Ne Te N1 T1 V1 A (w.chargeOr0 fr)
      (w.chargeOr0 dst)).contribs) := by
    unfold adasReactionOf
    by_cases hq : w.chargeOr0 fr ≠ w.chargeOr0 dst <;> simp [hq]
  obtain ⟨st', h1, h2, h3⟩ := contributeAll_gain _ w.st _ _ hk (by simp) hu
  rw [← ht] at h1
  have e1 := hef.symm
  have e2 := hed.symm
  have e3 := hfd.symm
  have hfl : ∀ x : ℝ, floor0 x = max 0 x := by
    intro x; unfold floor0
    first
      | (split <;> rename_i h <;> [exact (max_eq_left h.le).symm; exact (max_eq_right (not_lt.1 h)).symm])
      | rfl
  rw [h1]
  have hR : w.avg3 (fun ne n1 te => floor0 ne * floor0 n1 * rate (te * nm.T) (ne * nm.N) * nm.N / nm.Freq) Ne N1 Te = R := by
    simp only [R, hfl]
    congr 1
    funext a b c; ring
  have hL : w.avg3 (fun ne n1 te => floor0 ne * floor0 n1 * rad (te * nm.T) (ne * nm.N) * nm.N / (nm.T * nm.Freq)) Ne N1 Te
      = radiated := by
    simp only [radiated, hfl]
    congr 1
    funext a b c; ring
  simp only [h3]
  unfold adasReactionOf
  dsimp only
  rw [hR, hL]
  by_cases hq : w.chargeOr0 fr = w.chargeOr0 dst
  · simp [hq, hef, hed, hfd, e1, e2, e3]
    exact ⟨Or.inl (by ring), Or.inl (by ring), by ring⟩
  · simp [hq, hef, hed, hfd, e1, e2, e3]
    exact ⟨Or.inl (by ring), Or.inl (by ring), by ring⟩

/-- C28, amounts of an OpenADAS charge exchange. -/
theorem adas_cx_amounts (nm : Norms) (rate : ℝ → ℝ → ℝ) (e fA fB tA tB : String)
    (hnd : [fA, fB, tA, tB].Nodup) (w : World ι) (r : Fld ι × List (Contrib Key ι))
    (hr : adasChargeExchange nm rate e fA fB tA tB w = .ok r) (hu : SourcesUnread w.st) (i : ι) :
    let t := (adasCX nm rate e fA fB tA tB).transform w
    let R := r.1 i
    (∀ T, (w.st.ent (.sp fA Var.temperature)).val = some T → gain w.st t.2 tA Var.energy_source i = 3 / 2 * R * T i) ∧
    (∀ T, (w.st.ent (.sp fB Var.temperature)).val = some T → gain w.st t.2 tB Var.energy_source i = 3 / 2 * R * T i) ∧
    gain w.st t.2 tA Var.density_source i = R ∧ gain w.st t.2 tB Var.density_source i = R ∧
    gain w.st t.2 tA Var.momentum_source i = mass w fA * R * velocity w fA i ∧
    gain w.st t.2 tB Var.momentum_source i = mass w fB * R * velocity w fB i := by
  have hT : ∃ TA TB, (w.st.ent (.sp fA Var.temperature)).val = some TA ∧ (w.st.ent (.sp fB Var.temperature)).val = some TB ∧
      ∃ (R VA VB : Fld ι) (A B : ℝ), (w.st.ent (.sp fA Var.velocity)).val = some VA ∧
      (w.st.ent (.sp fB Var.velocity)).val = some VB ∧ w.num fA Var.AA = some A ∧ w.num fB Var.AA = some B ∧
      r = (R, adasTransfer R A VA TA fA tA ++ adasTransfer R B VB TB fB tB) := by
    unfold adasChargeExchange at hr
    obtain ⟨A, hA, h⟩ := bind_ok hr
    obtain ⟨A', hA', h⟩ := bind_ok h
    obtain ⟨_, h1, h⟩ := bind_ok h
    obtain ⟨B, hB, h⟩ := bind_ok h
    obtain ⟨B', hB', h⟩ := bind_ok h
    obtain ⟨_, h2, h⟩ := bind_ok h
    obtain ⟨Te, hTe, h⟩ := bind_ok h
    obtain ⟨Ne, hNe, h⟩ := bind_ok h
    obtain ⟨Na, hNa, h⟩ := bind_ok h
    obtain ⟨Nb, hNb, h⟩ := bind_ok h
    obtain ⟨VA, hVA, h⟩ := bind_ok h
    obtain ⟨TA, hTA, h⟩ := bind_ok h
    obtain ⟨VB, hVB, h⟩ := bind_ok h
    obtain ⟨TB, hTB, hfin⟩ := bind_ok h
    exact ⟨TA, TB, field_ok hTA, field_ok hTB, _, VA, VB, A, B, field_ok hVA, field_ok hVB, real_ok hA, real_ok hB,
      (Except.ok.inj hfin).symm⟩
  obtain ⟨TA, TB, hTA, hTB, R, VA, VB, A, B, hVA, hVB, hA, hB, rfl⟩ := hT
  intro t R'
  have ht : t = contributeAll (adasTransfer R A VA TA fA tA ++ adasTransfer R B VB TB fB tB) w.st := by
    simp only [t, SourceComponent.transform, adasCX, hr, Except.map]
  have hk : KeysIn [fA, tA, fB, tB] [Var.density_source, Var.momentum_source, Var.energy_source]
      (adasTransfer R A VA TA fA tA ++ adasTransfer R B VB TB fB tB) := by
    unfold adasTransfer
    simp
  obtain ⟨st', h1, h2, h3⟩ := contributeAll_gain _ w.st _ _ hk (by simp) hu
  rw [← ht] at h1
  rw [h1, hTA, hTB]
  have w1 : velocity w fA i = VA i := by simp [velocity, hVA]
  have w2 : velocity w fB i = VB i := by simp [velocity, hVB]
  simp only [h3, w1, w2, mass, hA, hB, Option.getD_some]
  simp only [List.nodup_cons, List.mem_cons, List.not_mem_nil, or_false, not_or, not_false_eq_true,
    List.nodup_nil, and_true] at hnd
  obtain ⟨⟨n1, n2, n3⟩, ⟨n4, n5⟩, n6⟩ := hnd
  unfold adasTransfer
  simp [n1, n2, n3, n4, n5, n6, Ne.symm n1, Ne.symm n2, Ne.symm n3, Ne.symm n4, Ne.symm n5, Ne.symm n6, R']
  refine ⟨Or.inl (by ring), Or.inl (by ring), Or.inl (by ring), Or.inl (by ring)⟩

end Hermes.Reactions
