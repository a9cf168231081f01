import Verif.Model.Reactions
import Verif.Props.Conservation
import Verif.Props.Limiters
import Mathlib.Tactic.NormNum

/-!
# C26, C27, C28, C30 — atomic reactions
-/

set_option linter.unusedSimpArgs false

namespace Hermes.Reactions

variable {ι : Type}

/-- AMJUEL reaction as a component. -/
noncomputable def amjuel (nm : Norms) (rate rad : ℝ → ℝ → ℝ) (heat kr kR : ℝ) (e fr dst : String) :
    SourceComponent ι := fun w => (electronReaction nm rate rad heat kr kR e fr dst w).map (·.contribs)

/-- Everything that follows from `electron_reaction` not throwing. -/
theorem electronReaction_ok {nm : Norms} {rate rad : ℝ → ℝ → ℝ} {heat kr kR : ℝ} {e fr dst : String}
    {w : World ι} {r : ElectronReaction ι}
    (h : electronReaction nm rate rad heat kr kR e fr dst w = .ok r) :
    ∃ Ne Te N1 T1 V1 V2 : Fld ι, ∃ A : ℝ, 
      (w.st.ent (.sp e Var.density)).val = some Ne ∧ (w.st.ent (.sp e Var.temperature)).val = some Te ∧
      (w.st.ent (.sp fr Var.density)).val = some N1 ∧ (w.st.ent (.sp fr Var.temperature)).val = some T1 ∧
      (w.st.ent (.sp fr Var.velocity)).val = some V1 ∧ (w.st.ent (.sp dst Var.velocity)).val = some V2 ∧
      w.num fr Var.AA = some A ∧ w.num dst Var.AA = some A ∧ ∃ evel,
      readElectronVelocity w e (w.chargeOr0 fr) (w.chargeOr0 dst) = .ok evel ∧
      r = electronReactionOf nm rate rad heat kr kR e fr dst w Ne Te N1 T1 V1 V2 A
        (w.chargeOr0 fr) (w.chargeOr0 dst) evel := by
  unfold electronReaction at h
  obtain ⟨Ne, hNe, h⟩ := bind_ok h
  obtain ⟨Te, hTe, h⟩ := bind_ok h
  obtain ⟨N1, hN1, h⟩ := bind_ok h
  obtain ⟨T1, hT1, h⟩ := bind_ok h
  obtain ⟨V1, hV1, h⟩ := bind_ok h
  obtain ⟨A, hA, h⟩ := bind_ok h
  obtain ⟨A2, hA2, h⟩ := bind_ok h
  obtain ⟨_, hAA, h⟩ := bind_ok h
  obtain ⟨V2, hV2, h⟩ := bind_ok h
  obtain ⟨ev, hev, h⟩ := bind_ok h
  refine ⟨Ne, Te, N1, T1, V1, V2, A, field_ok hNe, field_ok hTe, field_ok hN1, field_ok hT1, field_ok hV1,
    field_ok hV2, real_ok hA, ?_, ev, hev, (Except.ok.inj h).symm⟩
  rw [assert1_ok hAA]; exact real_ok hA2

/-- C26.  An ionisation or recombination that does not throw, between species `fr → dst` of different names
from each other and from the electrons: it only touches the density, momentum and energy sources of the
three species, and
* the number of nuclei does not change,
* the charge (electrons included) does not change,
* the momentum of the heavy species does not change,
* the total energy of the heavy species does not change,
* the total energy of the electrons changes by minus the reported energy loss. -/
theorem amjuel_conserves (nm : Norms) (rate rad : ℝ → ℝ → ℝ) (heat kr kR : ℝ) (e fr dst : String)
    (hef : e ≠ fr) (hed : e ≠ dst) (hfd : fr ≠ dst) (w : World ι) (r : ElectronReaction ι)
    (hr : electronReaction nm rate rad heat kr kR e fr dst w = .ok r) (hu : SourcesUnread w.st)
    (he : w.num e Var.charge = some (-1)) :
    let t := (amjuel nm rate rad heat kr kR e fr dst).transform w
    t.1 = .ok () ∧
    OnlyTouches w.st t.2 [e, fr, dst] [Var.density_source, Var.momentum_source, Var.energy_source] ∧
    ∀ i,
      gain w.st t.2 fr Var.density_source i + gain w.st t.2 dst Var.density_source i = 0 ∧
      charge w e * gain w.st t.2 e Var.density_source i + charge w fr * gain w.st t.2 fr Var.density_source i
        + charge w dst * gain w.st t.2 dst Var.density_source i = 0 ∧
      gain w.st t.2 fr Var.momentum_source i + gain w.st t.2 dst Var.momentum_source i = 0 ∧
      gain w.st t.2 e Var.momentum_source i = 0 ∧
      totalEnergyRate w t.2 fr i + totalEnergyRate w t.2 dst i = 0 ∧
      totalEnergyRate w t.2 e i = - r.energy_loss i ∧
      gain w.st t.2 dst Var.density_source i = r.reaction_rate i := by
  obtain ⟨Ne, Te, N1, T1, V1, V2, A, -, -, -, -, hV1, hV2, hA1, hA2, ev, hev, rfl⟩ := electronReaction_ok hr
  intro t
  have ht : t = contributeAll (electronReactionOf nm rate rad heat kr kR e fr dst w Ne Te N1 T1 V1 V2 A
        (w.chargeOr0 fr) (w.chargeOr0 dst) ev).contribs w.st := by
    simp only [t, SourceComponent.transform, amjuel, hr, Except.map]
  have hk : KeysIn [e, fr, dst] [Var.density_source, Var.momentum_source, Var.energy_source]
      ((electronReactionOf nm rate rad heat kr kR e fr dst w Ne Te N1 T1 V1 V2 A
        (w.chargeOr0 fr) (w.chargeOr0 dst) ev).contribs) := by
    unfold electronReactionOf
    rcases ev with _ | ⟨Ve, Ae⟩ <;> by_cases hq : w.chargeOr0 fr ≠ w.chargeOr0 dst <;>
      simp [hq]
  obtain ⟨st', h1, h2, h3⟩ := contributeAll_gain _ w.st _ _ hk (by simp) hu
  rw [← ht] at h1
  have hV1' : ∀ i, velocity w fr i = V1 i := by simp [velocity, hV1]
  have hV2' : ∀ i, velocity w dst i = V2 i := by simp [velocity, hV2]
  rw [h1]
  refine ⟨rfl, h2, fun i => ?_⟩
  simp only [totalEnergyRate, h3, hV1', hV2', mass, hA1, hA2, charge, he, Option.getD_some]
  have e1 := hef.symm
  have e2 := hed.symm
  have e3 := hfd.symm
  have hev' : w.chargeOr0 fr ≠ w.chargeOr0 dst →
      (ev = none ∧ velocity w e i = 0) ∨
      ∃ Ve Ae, ev = some (Ve, Ae) ∧ velocity w e i = Ve i ∧ (w.num e Var.AA).getD 0 = Ae := by
    intro hq
    unfold readElectronVelocity at hev
    by_cases hs : w.isSetF e Var.velocity = true
    · rw [if_pos ⟨hq, hs⟩] at hev
      obtain ⟨Ve, h5, hev⟩ := bind_ok hev
      obtain ⟨Ae, h6, hev⟩ := bind_ok hev
      refine Or.inr ⟨Ve, Ae, (Except.ok.inj hev).symm, ?_, ?_⟩
      · simp [velocity, field_ok h5]
      · simp [real_ok h6]
    · rw [if_neg (fun h => hs h.2)] at hev
      refine Or.inl ⟨(Except.ok.inj hev).symm, ?_⟩
      unfold World.isSetF at hs
      cases hv : (w.st.ent (Key.sp e Var.velocity)).val with
      | none => simp [velocity, hv]
      | some f => rw [hv] at hs; simp at hs
  have hqq : ∀ s, w.chargeOr0 s = (w.num s Var.charge).getD 0 := fun _ => rfl
  unfold electronReactionOf
  dsimp only
  generalize w.avg3 (fun ne n1 te => ne * n1 * rate (te * nm.T) (ne * nm.N) * nm.N / nm.Freq * kr) Ne N1 Te = R
  generalize w.avg3 (fun ne n1 te => ne * n1 * rad (te * nm.T) (ne * nm.N) * nm.N / (nm.T * nm.Freq) * kR)
    Ne N1 Te = L
  by_cases hq : w.chargeOr0 fr = w.chargeOr0 dst
  · simp [hq, hef, hed, hfd, e1, e2, e3]
    rw [hqq, hqq] at hq
    rw [hq]
    refine ⟨by ring, by ring⟩
  · rcases hev' hq with ⟨rfl, hVe⟩ | ⟨Ve, Ae, rfl, hVe, hAe⟩
    · simp [hq, hef, hed, hfd, e1, e2, e3, hVe]
      rw [hqq, hqq]
      refine ⟨by ring, by ring⟩
    · simp [hq, hef, hed, hfd, e1, e2, e3, hVe, hAe]
      rw [hqq, hqq]
      refine ⟨by ring, by ring, by ring⟩

/-! ## Charge exchange -/

/-- Charge exchange as a component. -/
noncomputable def cx (nm : Norms) (k : ℝ) (ng : Bool) (atom1 ion1 atom2 ion2 : String) : SourceComponent ι :=
  fun w => (chargeExchange nm k ng atom1 ion1 atom2 ion2 w).map (·.contribs)

theorem chargeExchange_ok {nm : Norms} {k : ℝ} {ng : Bool} {atom1 ion1 atom2 ion2 : String}
    {w : World ι} {r : ChargeExchange ι} (h : chargeExchange nm k ng atom1 ion1 atom2 ion2 w = .ok r) :
    ∃ Tatom Tion natom nion va1 vi1 va2 vi2 : Fld ι, ∃ Aatom Aion : ℝ,
      (w.st.ent (.sp atom1 Var.density)).val = some natom ∧ (w.st.ent (.sp ion1 Var.density)).val = some nion ∧
      (w.st.ent (.sp atom1 Var.velocity)).val = some va1 ∧ (w.st.ent (.sp ion1 Var.velocity)).val = some vi1 ∧
      (w.st.ent (.sp atom2 Var.velocity)).val = some va2 ∧ (w.st.ent (.sp ion2 Var.velocity)).val = some vi2 ∧
      w.num atom1 Var.AA = some Aatom ∧ w.num ion2 Var.AA = some Aatom ∧
      w.num ion1 Var.AA = some Aion ∧ w.num atom2 Var.AA = some Aion ∧
      r = chargeExchangeOf nm k ng atom1 ion1 atom2 ion2 Tatom Tion natom nion va1 vi1 va2 vi2 Aatom Aion ∧
      (∀ ng', chargeExchange nm k ng' atom1 ion1 atom2 ion2 w =
        .ok (chargeExchangeOf nm k ng' atom1 ion1 atom2 ion2 Tatom Tion natom nion va1 vi1 va2 vi2 Aatom Aion)) ∧
      (w.st.ent (.sp atom1 Var.temperature)).val = some Tatom ∧ (w.st.ent (.sp ion1 Var.temperature)).val = some Tion := by
  unfold chargeExchange at h
  obtain ⟨Tatom, hTatom, h⟩ := bind_ok h
  obtain ⟨Aatom, hAatom, h⟩ := bind_ok h
  obtain ⟨Aion2, hAion2, h⟩ := bind_ok h
  obtain ⟨_, h1, h⟩ := bind_ok h
  obtain ⟨Tion, hTion, h⟩ := bind_ok h
  obtain ⟨Aion, hAion, h⟩ := bind_ok h
  obtain ⟨Aatom2, hAatom2, h⟩ := bind_ok h
  obtain ⟨_, h2, h⟩ := bind_ok h
  obtain ⟨natom, hna, h⟩ := bind_ok h
  obtain ⟨nion, hni, h⟩ := bind_ok h
  obtain ⟨va1, hva1, h⟩ := bind_ok h
  obtain ⟨vi1, hvi1, h⟩ := bind_ok h
  obtain ⟨vi2, hvi2, h⟩ := bind_ok h
  obtain ⟨va2, hva2, h⟩ := bind_ok h
  have h1 := assert1_ok h1
  have h2 := assert1_ok h2
  subst h1; subst h2
  exact ⟨Tatom, Tion, natom, nion, va1, vi1, va2, vi2, _, _, field_ok hna, field_ok hni, field_ok hva1,
    field_ok hvi1, field_ok hva2, field_ok hvi2, real_ok hAatom, real_ok hAion2, real_ok hAion,
    real_ok hAatom2, (Except.ok.inj h).symm, fun ng' => by
      unfold chargeExchange
      rw [hTatom, hAatom, hAion2, hTion, hAion, hAatom2, hna, hni, hva1, hvi1, hvi2, hva2]
      simp [bind, Except.bind, assert1, pure, Except.pure], field_ok hTatom, field_ok hTion⟩

/-- C27.  Charge exchange `iso1 + iso2⁺ → iso2 + iso1⁺` (atoms and ions have different names; the two atoms
are the same species iff the two ions are, i.e. same or different isotopes) that does not throw: it touches
only density, momentum and energy sources and collision frequencies of these species, and with
`no_neutral_cx_mom_gain = false`, summed over any set of species containing the four,
* the number of nuclei of each isotope and the charge do not change,
* momentum does not change,
* total energy does not change. -/
theorem cx_conserves (nm : Norms) (k : ℝ) (atom1 ion1 atom2 ion2 : String)
    (h11 : atom1 ≠ ion1) (h12 : atom1 ≠ ion2) (h21 : atom2 ≠ ion1) (h22 : atom2 ≠ ion2)
    (hiso : atom1 = atom2 ↔ ion1 = ion2) (w : World ι) (r : ChargeExchange ι)
    (hr : chargeExchange nm k false atom1 ion1 atom2 ion2 w = .ok r) (hu : SourcesUnread w.st)
    (hqa : charge w atom1 = charge w atom2) (hqi : charge w ion1 = charge w ion2) :
    let t := (cx nm k false atom1 ion1 atom2 ion2).transform w
    t.1 = .ok () ∧
    OnlyTouches w.st t.2 [atom1, ion1, atom2, ion2]
      [Var.density_source, Var.momentum_source, Var.energy_source, Var.collision_frequency] ∧
    ∀ i,
      gain w.st t.2 atom1 Var.density_source i + gain w.st t.2 ion2 Var.density_source i = 0 ∧
      gain w.st t.2 atom2 Var.density_source i + gain w.st t.2 ion1 Var.density_source i = 0 ∧
      (atom1 = atom2 → ∀ s, gain w.st t.2 s Var.density_source i = 0) ∧
      ∀ S : Finset String, atom1 ∈ S → ion1 ∈ S → atom2 ∈ S → ion2 ∈ S →
        ∑ s ∈ S, charge w s * gain w.st t.2 s Var.density_source i = 0 ∧
        ∑ s ∈ S, gain w.st t.2 s Var.momentum_source i = 0 ∧
        ∑ s ∈ S, totalEnergyRate w t.2 s i = 0 := by
  obtain ⟨Ta, Ti, na, ni, va1, vi1, va2, vi2, Aa, Ai, -, -, hva1, hvi1, hva2, hvi2, hA1, hA2, hA3, hA4, rfl,
    hall, -, -⟩ := chargeExchange_ok hr
  intro t
  have ht : t = contributeAll (chargeExchangeOf nm k false atom1 ion1 atom2 ion2 Ta Ti na ni va1 vi1 va2 vi2
      Aa Ai).contribs w.st := by
    simp only [t, SourceComponent.transform, cx, hr, Except.map]
  have hk : KeysIn [atom1, ion1, atom2, ion2] [Var.density_source, Var.momentum_source, Var.energy_source, Var.collision_frequency]
      ((chargeExchangeOf nm k false atom1 ion1 atom2 ion2 Ta Ti na ni va1 vi1 va2 vi2
      Aa Ai).contribs) := by
    unfold chargeExchangeOf
    by_cases hq : atom1 ≠ atom2 ∨ ion1 ≠ ion2 <;> simp [hq]
  obtain ⟨st', h1, h2, h3⟩ := contributeAll_gain _ w.st _ _ hk (by simp) hu
  rw [← ht] at h1
  rw [h1]
  refine ⟨rfl, h2, fun i => ?_⟩
  have w1 : velocity w atom1 i = va1 i := by simp [velocity, hva1]
  have w2 : velocity w ion1 i = vi1 i := by simp [velocity, hvi1]
  have w3 : velocity w atom2 i = va2 i := by simp [velocity, hva2]
  have w4 : velocity w ion2 i = vi2 i := by simp [velocity, hvi2]
  have m1 : mass w atom1 = Aa := by simp [mass, hA1]
  have m2 : mass w ion2 = Aa := by simp [mass, hA2]
  have m3 : mass w ion1 = Ai := by simp [mass, hA3]
  have m4 : mass w atom2 = Ai := by simp [mass, hA4]
  simp only [totalEnergyRate, h3]
  unfold chargeExchangeOf
  dsimp only
  by_cases hq : atom1 = atom2
  · have hq' := hiso.mp hq
    subst hq; subst hq'
    have hm : Aa = Ai := m1.symm.trans m4
    have hv1 : va1 i = va2 i := w1.symm.trans w3
    have hv2 : vi1 i = vi2 i := w2.symm.trans w4
    refine ⟨by simp, by simp, by simp, fun S s1 s2 s3 s4 => ?_⟩
    simp [mul_add, Finset.sum_add_distrib, Finset.sum_sub_distrib, s1, s2, w1, w2]
    rw [hm, hv1, hv2]
    ring
  · have hq' : ion1 ≠ ion2 := fun h => hq (hiso.mpr h)
    refine ⟨?_, ?_, fun h => absurd h hq, fun S s1 s2 s3 s4 => ?_⟩
    · simp [hq, Ne.symm hq, h11, h12, h21, h22, h11.symm, h12.symm, h21.symm, h22.symm, hq', hq'.symm]
    · simp [hq, Ne.symm hq, h11, h12, h21, h22, h11.symm, h12.symm, h21.symm, h22.symm, hq', hq'.symm]
    · simp [hq, mul_add, Finset.sum_add_distrib, Finset.sum_sub_distrib, s1, s2, s3, s4, w1, w2, w3, w4,
        m1, m2, m3, m4, hqa, hqi]
      ring

/-- C27, the option `no_neutral_cx_mom_gain = true`: with it, everything is as without it except that
`ion2` does not receive the momentum lost by the atom `atom1`; the atom `atom2` still receives all of the
momentum lost by `ion1`. -/
theorem cx_no_gain (nm : Norms) (k : ℝ) (atom1 ion1 atom2 ion2 : String)
    (h12 : atom1 ≠ ion2) (h22 : atom2 ≠ ion2) (w : World ι) (r : ChargeExchange ι)
    (hr : chargeExchange nm k true atom1 ion1 atom2 ion2 w = .ok r) (hu : SourcesUnread w.st) :
    let t := (cx nm k true atom1 ion1 atom2 ion2).transform w
    let t' := (cx nm k false atom1 ion1 atom2 ion2).transform w
    t.1 = .ok () ∧ t'.1 = .ok () ∧
    (∀ s v i, (s, v) ≠ (ion2, Var.momentum_source) → gain w.st t.2 s v i = gain w.st t'.2 s v i) ∧
    ∀ i, gain w.st t.2 ion2 Var.momentum_source i = gain w.st t'.2 ion2 Var.momentum_source i - r.atom_mom i := by
  obtain ⟨Ta, Ti, na, ni, va1, vi1, va2, vi2, Aa, Ai, -, -, hva1, hvi1, hva2, hvi2, hA1, hA2, hA3, hA4, rfl,
    hall, -, -⟩ := chargeExchange_ok hr
  intro t t'
  have ht : ∀ ng, (cx nm k ng atom1 ion1 atom2 ion2).transform w = contributeAll (chargeExchangeOf nm k ng atom1
      ion1 atom2 ion2 Ta Ti na ni va1 vi1 va2 vi2 Aa Ai).contribs w.st := by
    intro ng
    simp only [SourceComponent.transform, cx, hall, Except.map]
  have hk : ∀ ng, KeysIn [atom1, ion1, atom2, ion2] [Var.density_source, Var.momentum_source, Var.energy_source, Var.collision_frequency]
      ((chargeExchangeOf nm k ng atom1 ion1 atom2 ion2 Ta Ti na ni va1 vi1 va2 vi2
      Aa Ai).contribs) := by
    intro ng
    unfold chargeExchangeOf
    cases ng <;> by_cases hq : atom1 ≠ atom2 ∨ ion1 ≠ ion2 <;> simp [hq]
  obtain ⟨st1, h1, -, h3⟩ := contributeAll_gain _ w.st _ _ (hk true) (by simp) hu
  obtain ⟨st2, h1', -, h3'⟩ := contributeAll_gain _ w.st _ _ (hk false) (by simp) hu
  have e1 : t = (.ok (), st1) := (ht true).trans h1
  have e2 : t' = (.ok (), st2) := (ht false).trans h1'
  rw [e1, e2]
  refine ⟨rfl, rfl, fun s v i hne => ?_, fun i => ?_⟩
  · rw [h3, h3']
    unfold chargeExchangeOf
    simp only [signedSum_append]
    have : ¬ (ion2 = s ∧ Var.momentum_source = v) := fun h => hne (by rw [h.1, h.2])
    simp [this]
  · rw [h3, h3']
    unfold chargeExchangeOf
    simp only [signedSum_append]
    simp [h12, h22]
    ring

/-! ## OpenADAS -/

/-- OpenADAS ionisation/recombination as a component. -/
noncomputable def adas (nm : Norms) (rate rad : ℝ → ℝ → ℝ) (heat : ℝ) (e fr dst : String) :
    SourceComponent ι := fun w => (adasReaction nm rate rad heat e fr dst w).map (·.contribs)

theorem adasReaction_ok {nm : Norms} {rate rad : ℝ → ℝ → ℝ} {heat : ℝ} {e fr dst : String}
    {w : World ι} {r : AdasReaction ι} (h : adasReaction nm rate rad heat e fr dst w = .ok r) :
    ∃ Ne Te N1 T1 V1 : Fld ι, ∃ A : ℝ,
      (w.st.ent (.sp e Var.density)).val = some Ne ∧ (w.st.ent (.sp e Var.temperature)).val = some Te ∧
      (w.st.ent (.sp fr Var.density)).val = some N1 ∧ (w.st.ent (.sp fr Var.temperature)).val = some T1 ∧
      (w.st.ent (.sp fr Var.velocity)).val = some V1 ∧ w.num fr Var.AA = some A ∧ w.num dst Var.AA = some A ∧
      r = adasReactionOf nm rate rad heat e fr dst w Ne Te N1 T1 V1 A (w.chargeOr0 fr) (w.chargeOr0 dst) := by
  unfold adasReaction at h
  obtain ⟨Ne, hNe, h⟩ := bind_ok h
  obtain ⟨Te, hTe, h⟩ := bind_ok h
  obtain ⟨N1, hN1, h⟩ := bind_ok h
  obtain ⟨T1, hT1, h⟩ := bind_ok h
  obtain ⟨V1, hV1, h⟩ := bind_ok h
  obtain ⟨A, hA, h⟩ := bind_ok h
  obtain ⟨A2, hA2, h⟩ := bind_ok h
  obtain ⟨_, hAA, hfin⟩ := bind_ok h
  have := assert1_ok hAA
  subst this
  exact ⟨Ne, Te, N1, T1, V1, _, field_ok hNe, field_ok hTe, field_ok hN1, field_ok hT1, field_ok hV1,
    real_ok hA, real_ok hA2, (Except.ok.inj hfin).symm⟩

/-- C28.  OpenADAS ionisation or recombination that does not throw: nuclei, charge, momentum and the sum of
the heavy-species energy *sources* are conserved.  Missing: the total energy (see
`adas_energy_defect_partial`). -/
theorem adas_conserves_partial (nm : Norms) (rate rad : ℝ → ℝ → ℝ) (heat : ℝ) (e fr dst : String)
    (hef : e ≠ fr) (hed : e ≠ dst) (hfd : fr ≠ dst) (w : World ι) (r : AdasReaction ι)
    (hr : adasReaction nm rate rad heat e fr dst w = .ok r) (hu : SourcesUnread w.st)
    (he : w.num e Var.charge = some (-1)) :
    let t := (adas nm rate rad heat e fr dst).transform w
    t.1 = .ok () ∧
    OnlyTouches w.st t.2 [e, fr, dst] [Var.density_source, Var.momentum_source, Var.energy_source] ∧
    ∀ i,
      gain w.st t.2 fr Var.density_source i + gain w.st t.2 dst Var.density_source i = 0 ∧
      charge w e * gain w.st t.2 e Var.density_source i + charge w fr * gain w.st t.2 fr Var.density_source i
        + charge w dst * gain w.st t.2 dst Var.density_source i = 0 ∧
      gain w.st t.2 fr Var.momentum_source i + gain w.st t.2 dst Var.momentum_source i = 0 ∧
      gain w.st t.2 e Var.momentum_source i = 0 ∧
      gain w.st t.2 fr Var.energy_source i + gain w.st t.2 dst Var.energy_source i = 0 ∧
      gain w.st t.2 e Var.energy_source i = - r.energy_loss i ∧
      gain w.st t.2 dst Var.density_source i = r.reaction_rate i ∧
      totalEnergyRate w t.2 fr i + totalEnergyRate w t.2 dst i =
        - (1 / 2 * mass w fr * r.reaction_rate i * (velocity w fr i - velocity w dst i) ^ 2) := by
  obtain ⟨Ne, Te, N1, T1, V1, A, -, -, -, -, hV1, hA1, hA2, rfl⟩ := adasReaction_ok hr
  intro t
  have ht : t = contributeAll (adasReactionOf nm rate rad heat e fr dst w Ne Te N1 T1 V1 A (w.chargeOr0 fr)
      (w.chargeOr0 dst)).contribs w.st := by
    simp only [t, SourceComponent.transform, adas, hr, Except.map]
  have hk : KeysIn [e, fr, dst] [Var.density_source, Var.momentum_source, Var.energy_source]
      ((adasReactionOf nm rate rad heat e fr dst w Ne Te N1 T1 V1 A (w.chargeOr0 fr)
      (w.chargeOr0 dst)).contribs) := by
    unfold adasReactionOf
    by_cases hq : w.chargeOr0 fr ≠ w.chargeOr0 dst <;> simp [hq]
  obtain ⟨st', h1, h2, h3⟩ := contributeAll_gain _ w.st _ _ hk (by simp) hu
  rw [← ht] at h1
  have hV1' : ∀ i, velocity w fr i = V1 i := by simp [velocity, hV1]
  rw [h1]
  refine ⟨rfl, h2, fun i => ?_⟩
  simp only [totalEnergyRate, h3, hV1', mass, hA1, hA2, charge, he, Option.getD_some]
  have e1 := hef.symm
  have e2 := hed.symm
  have e3 := hfd.symm
  have hqq : ∀ s, w.chargeOr0 s = (w.num s Var.charge).getD 0 := fun _ => rfl
  unfold adasReactionOf
  by_cases hq : w.chargeOr0 fr = w.chargeOr0 dst
  · simp [hq, hef, hed, hfd, e1, e2, e3]
    rw [hqq, hqq] at hq
    rw [hq]
    refine ⟨by ring, by ring⟩
  · simp [hq, hef, hed, hfd, e1, e2, e3]
    rw [hqq, hqq]
    refine ⟨by ring, by ring⟩

/-- OpenADAS charge exchange as a component. -/
noncomputable def adasCX (nm : Norms) (rate : ℝ → ℝ → ℝ) (e from_A from_B to_A to_B : String) :
    SourceComponent ι := fun w => (adasChargeExchange nm rate e from_A from_B to_A to_B w).map (·.2)

theorem adasCX_ok {nm : Norms} {rate : ℝ → ℝ → ℝ} {e from_A from_B to_A to_B : String}
    {w : World ι} {r : Fld ι × List (Contrib Key ι)}
    (h : adasChargeExchange nm rate e from_A from_B to_A to_B w = .ok r) :
    ∃ (R VA TA VB TB Na Nb Ne Te : Fld ι) (A B : ℝ),
      (w.st.ent (.sp from_A Var.velocity)).val = some VA ∧ (w.st.ent (.sp from_B Var.velocity)).val = some VB ∧
      w.num from_A Var.AA = some A ∧ w.num to_A Var.AA = some A ∧
      w.num from_B Var.AA = some B ∧ w.num to_B Var.AA = some B ∧
      (w.st.ent (.sp from_A Var.density)).val = some Na ∧ (w.st.ent (.sp from_B Var.density)).val = some Nb ∧
      R = w.avg4 (fun na nb ne te =>
        floor0 na * floor0 nb * rate (te * nm.T) (ne * nm.N) * nm.N / nm.Freq) Na Nb Ne Te ∧
      r = (R, adasTransfer R A VA TA from_A to_A ++ adasTransfer R B VB TB from_B to_B) := by
  unfold adasChargeExchange at h
  obtain ⟨A, hA, h⟩ := bind_ok h
  obtain ⟨A', hA', h⟩ := bind_ok h
  obtain ⟨_, h1, h⟩ := bind_ok h
  obtain ⟨B, hB, h⟩ := bind_ok h
  obtain ⟨B', hB', h⟩ := bind_ok h
  obtain ⟨_, h2, h⟩ := bind_ok h
  obtain ⟨Te, hTe, h⟩ := bind_ok h
  obtain ⟨Ne, hNe, h⟩ := bind_ok h
  obtain ⟨Na, hNa, h⟩ := bind_ok h
  obtain ⟨Nb, hNb, h⟩ := bind_ok h
  obtain ⟨VA, hVA, h⟩ := bind_ok h
  obtain ⟨TA, hTA, h⟩ := bind_ok h
  obtain ⟨VB, hVB, h⟩ := bind_ok h
  obtain ⟨TB, hTB, hfin⟩ := bind_ok h
  have h1 := assert1_ok h1
  have h2 := assert1_ok h2
  refine ⟨_, VA, TA, VB, TB, Na, Nb, Ne, Te, A, B, field_ok hVA, field_ok hVB, real_ok hA, by rw [h1]; exact real_ok hA',
    real_ok hB, by rw [h2]; exact real_ok hB', field_ok hNa, field_ok hNb, rfl, (Except.ok.inj hfin).symm⟩

/-- C28, charge exchange `A + B → A' + B'` (four different species): nuclei of both kinds, momentum and the
energy sources are conserved, and charge if the charges of the species balance (the code's check of this is
commented out).  Missing: the total energy; the defect is the last equation. -/
theorem adas_cx_conserves_partial (nm : Norms) (rate : ℝ → ℝ → ℝ) (e fA fB tA tB : String)
    (hnd : [fA, fB, tA, tB].Nodup) (w : World ι) (r : Fld ι × List (Contrib Key ι))
    (hr : adasChargeExchange nm rate e fA fB tA tB w = .ok r) (hu : SourcesUnread w.st)
    (hq : charge w fA + charge w fB = charge w tA + charge w tB) :
    let t := (adasCX nm rate e fA fB tA tB).transform w
    t.1 = .ok () ∧
    OnlyTouches w.st t.2 [fA, tA, fB, tB] [Var.density_source, Var.momentum_source, Var.energy_source] ∧
    ∀ i,
      gain w.st t.2 fA Var.density_source i + gain w.st t.2 tA Var.density_source i = 0 ∧
      gain w.st t.2 fB Var.density_source i + gain w.st t.2 tB Var.density_source i = 0 ∧
      charge w fA * gain w.st t.2 fA Var.density_source i + charge w fB * gain w.st t.2 fB Var.density_source i
        + charge w tA * gain w.st t.2 tA Var.density_source i + charge w tB * gain w.st t.2 tB Var.density_source i
          = 0 ∧
      gain w.st t.2 fA Var.momentum_source i + gain w.st t.2 fB Var.momentum_source i
        + gain w.st t.2 tA Var.momentum_source i + gain w.st t.2 tB Var.momentum_source i = 0 ∧
      gain w.st t.2 fA Var.energy_source i + gain w.st t.2 fB Var.energy_source i
        + gain w.st t.2 tA Var.energy_source i + gain w.st t.2 tB Var.energy_source i = 0 ∧
      totalEnergyRate w t.2 fA i + totalEnergyRate w t.2 fB i + totalEnergyRate w t.2 tA i
        + totalEnergyRate w t.2 tB i =
        - (1 / 2 * r.1 i * (mass w fA * (velocity w fA i - velocity w tA i) ^ 2
            + mass w fB * (velocity w fB i - velocity w tB i) ^ 2)) := by
  obtain ⟨R, VA, TA, VB, TB, _, _, _, _, A, B, hVA, hVB, hA1, hA2, hB1, hB2, -, -, -, rfl⟩ := adasCX_ok hr
  intro t
  have ht : t = contributeAll (adasTransfer R A VA TA fA tA ++ adasTransfer R B VB TB fB tB) w.st := by
    simp only [t, SourceComponent.transform, adasCX, hr, Except.map]
  have hk : KeysIn [fA, tA, fB, tB] [Var.density_source, Var.momentum_source, Var.energy_source]
      (adasTransfer R A VA TA fA tA ++ adasTransfer R B VB TB fB tB) := by
    unfold adasTransfer
    simp
  obtain ⟨st', h1, h2, h3⟩ := contributeAll_gain _ w.st _ _ hk (by simp) hu
  rw [← ht] at h1
  rw [h1]
  refine ⟨rfl, h2, fun i => ?_⟩
  have w1 : velocity w fA i = VA i := by simp [velocity, hVA]
  have w2 : velocity w fB i = VB i := by simp [velocity, hVB]
  simp only [totalEnergyRate, h3, w1, w2, mass, hA1, hA2, hB1, hB2, Option.getD_some]
  simp only [List.nodup_cons, List.mem_cons, List.not_mem_nil, or_false, not_or, not_false_eq_true,
    List.nodup_nil, and_true] at hnd
  obtain ⟨⟨n1, n2, n3⟩, ⟨n4, n5⟩, n6⟩ := hnd
  have hq' : charge w tB = charge w fA + charge w fB - charge w tA := by linarith
  unfold adasTransfer
  simp [n1, n2, n3, n4, n5, n6, Ne.symm n1, Ne.symm n2, Ne.symm n3, Ne.symm n4, Ne.symm n5, Ne.symm n6, hq']
  refine ⟨by ring, by ring⟩

/-! ## C26: the AMJUEL fit -/

theorem amjuelInner_square {d : ℕ} (coefs : Fin d → Fin d → ℝ) (ln lT : ℝ) (n : Fin d) (res : ℝ) :
    amjuelInner coefs ln lT n res = some (res + ∑ m : Fin d, coefs n m * ln ^ (m : ℕ) * lT) := by
  have key : ∀ k, k ≤ d → List.foldlM (m := Option) (fun (st : ℝ × ℝ) m =>
      (readCoef coefs n m).map fun c => (st.1 + c * st.2 * lT, st.2 * ln)) (res, 1) (List.range k) =
      some (res + ∑ m : Fin d, (if (m : ℕ) < k then coefs n m * ln ^ (m : ℕ) * lT else 0), ln ^ k) := by
    intro k hk
    induction k with
    | zero => simp
    | succ k ih =>
      rw [List.range_succ, List.foldlM_append, ih (by omega)]
      have hkd : k < d := by omega
      simp only [Option.bind_eq_bind, Option.bind_some, List.foldlM_cons, List.foldlM_nil, readCoef,
        n.isLt, hkd, and_self, dite_true, Option.map_some, Option.pure_def, Option.some.injEq, Prod.mk.injEq]
      refine ⟨?_, (pow_succ ln k).symm⟩
      have e : ∀ m : Fin d, (if (m : ℕ) < k + 1 then coefs n m * ln ^ (m : ℕ) * lT else 0) =
          (if (m : ℕ) < k then coefs n m * ln ^ (m : ℕ) * lT else 0) +
          (if m = ⟨k, hkd⟩ then coefs n m * ln ^ (m : ℕ) * lT else 0) := by
        intro m
        by_cases h1 : (m : ℕ) < k
        · rw [if_pos (by omega), if_pos h1, if_neg (by intro h; rw [h] at h1; simp at h1)]; ring
        · by_cases h2 : (m : ℕ) = k
          · rw [if_pos (by omega), if_neg h1, if_pos (Fin.ext h2)]; ring
          · rw [if_neg (by omega), if_neg h1, if_neg (fun h => h2 (by rw [h]))]; ring
      rw [Finset.sum_congr rfl (fun m _ => e m), Finset.sum_add_distrib, Finset.sum_ite_eq' ]
      simp only [Finset.mem_univ, if_true]
      ring
  unfold amjuelInner
  rw [key d le_rfl]
  simp

/-- C26/C30.  For a square table (all tables in the code are 9 × 9) the evaluation never reads outside the
table and returns `1e-6 · exp(Σ_{n,m} c_{nm} (log T)ⁿ (log n/10¹⁴)ᵐ)` with `T`, `n` clipped to the range of
validity; in particular it is positive. -/
theorem amjuel_fit {d : ℕ} (coefs : Fin d → Fin d → ℝ) (T n : ℝ) :
    amjuelEvaluate coefs T n = some (Real.exp (∑ a : Fin d, ∑ b : Fin d, coefs a b
      * (Real.log (max 1e14 (min n 1e22) / 1e14)) ^ (b : ℕ) * (Real.log (max 0.1 (min T 1e4))) ^ (a : ℕ))
      * 1e-6) := by
  have hclip : ∀ x lo hi : ℝ, lo ≤ hi → clip x lo hi = max lo (min x hi) := by
    intro x lo hi h
    unfold clip
    split
    · rename_i h1; rw [min_eq_left (by linarith), max_eq_left h1.le]
    · split
      · rename_i h1 h2; rw [min_eq_right h2.le, max_eq_right h]
      · rename_i h1 h2; rw [min_eq_left (not_lt.mp h2), max_eq_right (not_lt.mp h1)]
  unfold amjuelEvaluate
  rw [hclip n _ _ (by norm_num), hclip T _ _ (by norm_num)]
  dsimp only
  generalize Real.log (max 1e14 (min n 1e22) / 1e14) = ln
  generalize Real.log (max 0.1 (min T 1e4)) = lT
  have key : ∀ k, k ≤ d → List.foldlM (m := Option) (fun (st : ℝ × ℝ) n =>
      (amjuelInner coefs ln st.2 n st.1).map fun r => (r, st.2 * lT)) (0, 1) (List.range k) =
      some (∑ a : Fin d, (if (a : ℕ) < k then ∑ b : Fin d, coefs a b * ln ^ (b : ℕ) * lT ^ (a : ℕ) else 0),
        lT ^ k) := by
    intro k hk
    induction k with
    | zero => simp
    | succ k ih =>
      have hkd : k < d := by omega
      have := fun lT res => amjuelInner_square coefs ln lT ⟨k, hkd⟩ res
      rw [List.range_succ, List.foldlM_append, ih (by omega)]
      simp only [Option.bind_eq_bind, Option.bind_some, List.foldlM_cons, List.foldlM_nil, this,
        Option.map_some, Option.pure_def, Option.some.injEq, Prod.mk.injEq]
      refine ⟨?_, (pow_succ lT k).symm⟩
      have e : ∀ a : Fin d,
          (if (a : ℕ) < k + 1 then ∑ b : Fin d, coefs a b * ln ^ (b : ℕ) * lT ^ (a : ℕ) else 0) =
          (if (a : ℕ) < k then ∑ b : Fin d, coefs a b * ln ^ (b : ℕ) * lT ^ (a : ℕ) else 0) +
          (if a = ⟨k, hkd⟩ then ∑ b : Fin d, coefs a b * ln ^ (b : ℕ) * lT ^ (a : ℕ) else 0) := by
        intro m
        by_cases h1 : (m : ℕ) < k
        · rw [if_pos (by omega), if_pos h1, if_neg (by intro h; rw [h] at h1; simp at h1)]; ring
        · by_cases h2 : (m : ℕ) = k
          · rw [if_pos (by omega), if_neg h1, if_pos (Fin.ext h2)]; ring
          · rw [if_neg (by omega), if_neg h1, if_neg (fun h => h2 (by rw [h]))]; ring
      rw [Finset.sum_congr rfl (fun m _ => e m), Finset.sum_add_distrib, Finset.sum_ite_eq']
      simp
  rw [key d le_rfl]
  simp

/-- The index order in the loops is only right for square tables: a table of `d` temperatures and fewer
density coefficients is read outside its bounds. -/
theorem amjuel_wrong_index_order {rows cols : ℕ} (coefs : Fin rows → Fin cols → ℝ) (h : cols < rows)
    (h0 : 0 < cols) (T n : ℝ) : amjuelEvaluate coefs T n = none := by
  have hinner : ∀ ln lT (n : ℕ) res, amjuelInner coefs ln lT n res = none := by
    intro ln lT n res
    unfold amjuelInner
    obtain ⟨r, rfl⟩ : ∃ r, rows = cols + 1 + r := ⟨rows - cols - 1, by omega⟩
    rw [List.range_add, List.foldlM_append, List.range_succ, List.foldlM_append]
    cases hx : List.foldlM (m := Option) (fun (st : ℝ × ℝ) m =>
        (readCoef coefs n m).map fun c => (st.1 + c * st.2 * lT, st.2 * ln)) (res, 1) (List.range cols) with
    | none => simp
    | some st => simp [readCoef]
  unfold amjuelEvaluate
  obtain ⟨c, rfl⟩ : ∃ c, cols = c + 1 := ⟨cols - 1, by omega⟩
  dsimp only
  rw [List.range_succ_eq_map, List.foldlM_cons, hinner]
  simp

/-! ## C30 -/

open Hermes.Limiters in
/-- C30, AMJUEL.  With non-negative densities and temperature nothing is consumed at a negative rate. -/
theorem amjuel_rate_nonneg (nm : Norms) (hN : 0 < nm.N) (hF : 0 < nm.Freq) (rate rad : ℝ → ℝ → ℝ)
    (hrate : ∀ T n, 0 ≤ rate T n) (heat kr kR : ℝ) (hk : 0 ≤ kr) (e fr dst : String) (w : World ι)
    (hl : MonotoneLim w.lim) (hJ : ∀ i, 0 < w.J i) (r : ElectronReaction ι)
    (hr : electronReaction nm rate rad heat kr kR e fr dst w = .ok r)
    (hpos : ∀ f, ((w.st.ent (.sp e Var.density)).val = some f ∨ (w.st.ent (.sp e Var.temperature)).val = some f ∨
      (w.st.ent (.sp fr Var.density)).val = some f) → ∀ i, 0 ≤ f i) (i : ι) :
    0 ≤ r.reaction_rate i := by
  obtain ⟨Ne, Te, N1, T1, V1, V2, A, h1, h2, h3, -, -, -, -, -, ev, -, rfl⟩ := electronReaction_ok hr
  have p1 := hpos Ne (Or.inl h1)
  have p2 := hpos Te (Or.inr (Or.inl h2))
  have p3 := hpos N1 (Or.inr (Or.inr h3))
  unfold electronReactionOf World.avg3
  dsimp only
  refine average_nonneg_of_nonneg_fields w.lim hl _ ?_ _ _ _ ?_ ?_ ?_ _ _ _ (hJ _) (hJ _) (hJ _)
  · intro x hx
    have h0 := hx 0
    have h1 := hx 1
    have := hrate (x 2 * nm.T) (x 0 * nm.N)
    positivity
  all_goals
    intro k
    fin_cases k
    · exact p1 _
    · exact p3 _
    · exact p2 _

open Hermes.Limiters in
/-- C30, AMJUEL.  A reactant with zero or negative density in a cell, where the neighbouring densities are no
smaller and the electron density is non-negative, is not consumed; with zero density the rate is zero. -/
theorem amjuel_absent_not_consumed (nm : Norms) (hN : 0 < nm.N) (hF : 0 < nm.Freq) (rate rad : ℝ → ℝ → ℝ)
    (hrate : ∀ T n, 0 ≤ rate T n) (heat kr kR : ℝ) (hk : 0 ≤ kr) (e fr dst : String) (w : World ι)
    (hl : MonotoneLim w.lim) (hJ : ∀ i, 0 < w.J i) (r : ElectronReaction ι)
    (hr : electronReaction nm rate rad heat kr kR e fr dst w = .ok r) (Ne N1 : Fld ι)
    (hNe : (w.st.ent (.sp e Var.density)).val = some Ne) (hN1 : (w.st.ent (.sp fr Var.density)).val = some N1)
    (hpos : ∀ i, 0 ≤ Ne i) (i : ι) (h0 : N1 i ≤ 0) (hm : N1 i ≤ N1 (w.ym i)) (hp : N1 i ≤ N1 (w.yp i)) :
    r.reaction_rate i ≤ 0 ∧ (N1 i = 0 → r.reaction_rate i = 0) := by
  obtain ⟨Ne', Te, N1', T1, V1, V2, A, h1, h2, h3, -, -, -, -, -, ev, -, rfl⟩ := electronReaction_ok hr
  rw [hNe] at h1
  rw [hN1] at h3
  cases h1; cases h3
  have hx := hl.extremum (N1 (w.ym i)) (N1 i) (N1 (w.yp i)) (Or.inr ⟨hm, hp⟩)
  have hE := edges_nonneg hl (hpos (w.ym i)) (hpos i) (hpos (w.yp i))
  unfold electronReactionOf World.avg3 cellAverage
  dsimp only
  simp only [Matrix.cons_val_zero, Matrix.cons_val_one, Matrix.cons_val]
  rw [hx.1, hx.2]
  have j1 := hJ i
  have j2 := hJ (w.ym i)
  have j3 := hJ (w.yp i)
  refine ⟨?_, ?_⟩
  · have aux : ∀ c n t, 0 ≤ c → 0 ≤ n →
        c * (n * N1 i * rate (t * nm.T) (n * nm.N) * nm.N / nm.Freq * kr) ≤ 0 := by
      intro c n t hc hn
      have := hrate (t * nm.T) (n * nm.N)
      have e : c * (n * N1 i * rate (t * nm.T) (n * nm.N) * nm.N / nm.Freq * kr) =
          N1 i * (c * n * rate (t * nm.T) (n * nm.N) * nm.N / nm.Freq * kr) := by ring
      rw [e]
      exact mul_nonpos_of_nonpos_of_nonneg h0 (by positivity)
    have a1 := aux (4 / 6) (Ne i) (Te i) (by norm_num) (hpos i)
    have a2 := aux ((w.J i + w.J (w.ym i)) / (12 * w.J i)) _
      (w.lim (Te (w.ym i)) (Te i) (Te (w.yp i))).1 (by positivity) hE.1
    have a3 := aux ((w.J i + w.J (w.yp i)) / (12 * w.J i)) _
      (w.lim (Te (w.ym i)) (Te i) (Te (w.yp i))).2 (by positivity) hE.2.2.1
    linarith
  · intro hz
    rw [hz]
    simp

open Hermes.Limiters in
/-- C30, OpenADAS: the rate is non-negative whatever the densities. -/
theorem adas_rate_nonneg (nm : Norms) (hN : 0 < nm.N) (hF : 0 < nm.Freq) (rate rad : ℝ → ℝ → ℝ)
    (hrate : ∀ T n, 0 ≤ rate T n) (heat : ℝ) (e fr dst : String) (w : World ι)
    (hJ : ∀ i, 0 < w.J i) (r : AdasReaction ι)
    (hr : adasReaction nm rate rad heat e fr dst w = .ok r) (i : ι) : 0 ≤ r.reaction_rate i := by
  obtain ⟨Ne, Te, N1, T1, V1, A, h1, h2, h3, -, -, -, -, rfl⟩ := adasReaction_ok hr
  have f0 : ∀ x, 0 ≤ floor0 x := by intro x; unfold floor0; split <;> linarith
  unfold adasReactionOf World.avg3 cellAverage
  dsimp only
  have j1 := hJ i
  have j2 := hJ (w.ym i)
  have j3 := hJ (w.yp i)
  have aux : ∀ c n n1 t, 0 ≤ c →
        0 ≤ c * (floor0 n * floor0 n1 * rate (t * nm.T) (n * nm.N) * nm.N / nm.Freq) := by
    intro c n n1 t hc
    have := hrate (t * nm.T) (n * nm.N)
    have := f0 n
    have := f0 n1
    positivity
  refine add_nonneg (add_nonneg (aux _ _ _ _ (by norm_num)) (aux _ _ _ _ (by positivity)))
    (aux _ _ _ _ (by positivity))

open Hermes.Limiters in
/-- C30, OpenADAS: a reactant with zero or negative density, where the neighbouring densities are no smaller,
is not consumed; the same for electrons. -/
theorem adas_absent_not_consumed (nm : Norms) (rate rad : ℝ → ℝ → ℝ) (heat : ℝ) (e fr dst s : String)
    (hs : s = e ∨ s = fr) (w : World ι) (hl : MonotoneLim w.lim) (r : AdasReaction ι)
    (hr : adasReaction nm rate rad heat e fr dst w = .ok r) (N : Fld ι)
    (hN : (w.st.ent (.sp s Var.density)).val = some N) (i : ι) (h0 : N i ≤ 0) (hm : N i ≤ N (w.ym i))
    (hp : N i ≤ N (w.yp i)) : r.reaction_rate i = 0 := by
  obtain ⟨Ne, Te, N1, T1, V1, A, h1, h2, h3, -, -, -, -, rfl⟩ := adasReaction_ok hr
  have hx := hl.extremum (N (w.ym i)) (N i) (N (w.yp i)) (Or.inr ⟨hm, hp⟩)
  have f0 : floor0 (N i) = 0 := by
    unfold floor0; split
    · rfl
    · linarith
  unfold adasReactionOf World.avg3 cellAverage
  dsimp only
  simp only [Matrix.cons_val_zero, Matrix.cons_val_one, Matrix.cons_val]
  rcases hs with rfl | rfl
  · rw [hN] at h1; cases h1
    rw [hx.1, hx.2, f0]; simp
  · rw [hN] at h3; cases h3
    rw [hx.1, hx.2, f0]; simp

/-- C30, charge exchange: the rate is non-negative whatever the densities and temperatures. -/
theorem cx_rate_nonneg (nm : Norms) (hN : 0 < nm.N) (hF : 0 < nm.Freq) (k : ℝ) (hk : 0 ≤ k) (ng : Bool)
    (atom1 ion1 atom2 ion2 : String) (w : World ι) (r : ChargeExchange ι)
    (hr : chargeExchange nm k ng atom1 ion1 atom2 ion2 w = .ok r) (i : ι) : 0 ≤ r.R i := by
  obtain ⟨Ta, Ti, na, ni, va1, vi1, va2, vi2, Aa, Ai, -, -, -, -, -, -, -, -, -, -, rfl, -⟩ :=
    chargeExchange_ok hr
  unfold chargeExchangeOf
  dsimp only
  have h1 : (0 : ℝ) ≤ max (na i) 1e-5 := le_max_of_le_right (by norm_num)
  have h2 : (0 : ℝ) ≤ max (ni i) 1e-5 := le_max_of_le_right (by norm_num)
  positivity

/-- C30, negation for charge exchange: with a positive multiplier the rate is strictly positive for *every*
density, zero and negative ones included, because densities are floored at `1e-5`.  Between different isotopes
an absent atom species is therefore consumed (its density source is negative). -/
theorem cx_consumes_absent (nm : Norms) (hN : 0 < nm.N) (hF : 0 < nm.Freq) (k : ℝ) (hk : 0 < k) (ng : Bool)
    (atom1 ion1 atom2 ion2 : String) (h11 : atom1 ≠ ion1) (h12 : atom1 ≠ ion2) (h22 : atom1 ≠ atom2)
    (w : World ι) (r : ChargeExchange ι) (hu : SourcesUnread w.st)
    (hr : chargeExchange nm k ng atom1 ion1 atom2 ion2 w = .ok r) (i : ι) :
    gain w.st ((cx nm k ng atom1 ion1 atom2 ion2).transform w).2 atom1 Var.density_source i < 0 := by
  obtain ⟨Ta, Ti, na, ni, va1, vi1, va2, vi2, Aa, Ai, -, -, -, -, -, -, -, -, -, -, rfl, -⟩ :=
    chargeExchange_ok hr
  have hk' : KeysIn [atom1, ion1, atom2, ion2] [Var.density_source, Var.momentum_source, Var.energy_source, Var.collision_frequency]
      ((chargeExchangeOf nm k ng atom1 ion1 atom2 ion2 Ta Ti na ni va1 vi1 va2 vi2
      Aa Ai).contribs) := by
    unfold chargeExchangeOf
    cases ng <;> simp [h22]
  obtain ⟨st', h1, h2, h3⟩ := contributeAll_gain _ w.st _ _ hk' (by simp) hu
  have ht : (cx nm k ng atom1 ion1 atom2 ion2).transform w = (.ok (), st') := by
    simp only [SourceComponent.transform, cx, hr, Except.map, h1]
  rw [ht, h3]
  unfold chargeExchangeOf
  have h1 : (0 : ℝ) < max (na i) 1e-5 := lt_max_of_lt_right (by norm_num)
  have h2 : (0 : ℝ) < max (ni i) 1e-5 := lt_max_of_lt_right (by norm_num)
  cases ng <;> simp [h22, Ne.symm h22, h11.symm, h12.symm] <;> positivity

/-! ## A concrete state: the hypotheses are met, and the violations occur -/

/-- One cell, spatially constant densities, temperatures and velocities, no sources yet. -/
noncomputable def demo (N T V : String → ℝ) : World (Fin 1) where
  st := {
    check := true
    ent := fun k => match k with
      | .sp s .density => { val := some fun _ => N s }
      | .sp s .temperature => { val := some fun _ => T s }
      | .sp s .velocity => { val := some fun _ => V s }
      | _ => { val := none } }
  num := fun s v => match v with
    | .AA => some (if s = "e" then 1 / 1836 else 2)
    | .charge => if s = "e" then some (-1) else if s = "d+" then some 1 else none
    | _ => none
  ym := id
  yp := id
  J := fun _ => 1
  lim := upwind

theorem demo_unread (N T V : String → ℝ) : SourcesUnread (demo N T V).st := by
  intro s v hv
  simp only [List.mem_cons, List.not_mem_nil, or_false] at hv
  rcases hv with rfl | rfl | rfl | rfl <;> exact ⟨rfl, rfl⟩

theorem demo_reads (N T V : String → ℝ) (s : String) :
    (demo N T V).field s .density = .ok (fun _ => N s) ∧ (demo N T V).field s .temperature = .ok (fun _ => T s) ∧
    (demo N T V).field s .velocity = .ok (fun _ => V s) ∧ (demo N T V).isSetF s .velocity = true ∧
    (demo N T V).real s .AA = .ok (if s = "e" then 1 / 1836 else 2) := ⟨rfl, rfl, rfl, rfl, rfl⟩

theorem demo_charges (N T V : String → ℝ) : (demo N T V).chargeOr0 "d" = 0 ∧ (demo N T V).chargeOr0 "d+" = 1 ∧
    (demo N T V).num "e" .charge = some (-1) := by
  refine ⟨?_, ?_, ?_⟩ <;> simp [demo, World.chargeOr0]

theorem demo_avg3 (N T V : String → ℝ) (f : ℝ → ℝ → ℝ → ℝ) (a b c : Fld (Fin 1)) (i : Fin 1) :
    (demo N T V).avg3 f a b c i = f (a i) (b i) (c i) := by
  have e : ∀ x : ℝ, 4 / 6 * x + (1 + 1) / (12 * 1) * x + (1 + 1) / (12 * 1) * x = x := by intro x; ring
  simpa [World.avg3, cellAverage, demo, upwind] using e (f (a i) (b i) (c i))

theorem demo_electron (nm : Norms) (rate rad : ℝ → ℝ → ℝ) (heat kr kR : ℝ) (N T V : String → ℝ) :
    ∃ r, electronReaction nm rate rad heat kr kR "e" "d" "d+" (demo N T V) = .ok r := by
  have hd := demo_reads N T V
  have hm : ∀ s, s ≠ "e" → (demo N T V).real s .AA = .ok 2 := fun s hs => by rw [(hd s).2.2.2.2, if_neg hs]
  have hv : ∃ x, readElectronVelocity (demo N T V) "e" ((demo N T V).chargeOr0 "d")
      ((demo N T V).chargeOr0 "d+") = .ok x := by
    unfold readElectronVelocity
    rw [if_pos ⟨by rw [(demo_charges N T V).1, (demo_charges N T V).2.1]; norm_num, (hd "e").2.2.2.1⟩]
    exact ⟨_, ok_bind (hd "e").2.2.1 (ok_bind (hd "e").2.2.2.2 rfl)⟩
  obtain ⟨x, hx⟩ := hv
  exact ⟨_, ok_bind (hd "e").1 (ok_bind (hd "e").2.1 (ok_bind (hd "d").1 (ok_bind (hd "d").2.1
    (ok_bind (hd "d").2.2.1 (ok_bind (hm "d" (by decide)) (ok_bind (hm "d+" (by decide))
    (ok_bind (assert1_of rfl) (ok_bind (hd "d+").2.2.1 (ok_bind hx rfl)))))))))⟩

/-- The hypotheses of `amjuel_conserves` are met: deuterium ionisation. -/
example : ∃ r, electronReaction ⟨100, 1e19, 1e6⟩ (fun _ _ => 1) (fun _ _ => 1) 0 1 1 "e" "d" "d+"
      (demo (fun _ => 1) (fun _ => 2) (fun s => if s = "d" then 1 else 3)) = .ok r ∧
    (demo (fun _ => 1) (fun _ => 2) (fun s => if s = "d" then 1 else 3)).num "e" Var.charge = some (-1) := by
  obtain ⟨r, hr⟩ := demo_electron ⟨100, 1e19, 1e6⟩ (fun _ _ => 1) (fun _ _ => 1) 0 1 1 (fun _ => 1) (fun _ => 2)
    (fun s => if s = "d" then 1 else 3)
  exact ⟨r, hr, (demo_charges _ _ _).2.2⟩

theorem demo_cx (nm : Norms) (k : ℝ) (ng : Bool) (N T V : String → ℝ) :
    ∃ r, chargeExchange nm k ng "d" "d+" "d" "d+" (demo N T V) = .ok r := by
  have hd := demo_reads N T V
  have hm : ∀ s, s ≠ "e" → (demo N T V).real s .AA = .ok 2 := fun s hs => by rw [(hd s).2.2.2.2, if_neg hs]
  have m1 := hm "d" (by decide)
  have m2 := hm "d+" (by decide)
  exact ⟨_, ok_bind (hd "d").2.1 (ok_bind m1 (ok_bind m2 (ok_bind (assert1_of rfl) (ok_bind (hd "d+").2.1
    (ok_bind m2 (ok_bind m1 (ok_bind (assert1_of rfl) (ok_bind (hd "d").1 (ok_bind (hd "d+").1
    (ok_bind (hd "d").2.2.1 (ok_bind (hd "d+").2.2.1 (ok_bind (hd "d+").2.2.1 (ok_bind (hd "d").2.2.1
    rfl)))))))))))))⟩

/-- C27, negation of the documented meaning of `no_neutral_cx_mom_gain` ("ion momentum in CX is still lost but
not given to the neutrals"): with the option on, neutral atoms at rest are still accelerated by moving ions,
by exactly what the ions lose. -/
theorem no_neutral_cx_mom_gain_gives_momentum_to_neutrals :
    ∃ (nm : Norms) (w : World (Fin 1)),
      let t := (cx nm 1 true "d" "d+" "d" "d+").transform w
      t.1 = .ok () ∧ 0 < gain w.st t.2 "d" Var.momentum_source 0 ∧
      gain w.st t.2 "d" Var.momentum_source 0 + gain w.st t.2 "d+" Var.momentum_source 0 = 0 := by
  refine ⟨⟨1, 1, 1⟩, demo (fun _ => 1) (fun _ => 1) (fun s => if s = "d" then 0 else 1), ?_⟩
  obtain ⟨r, hr⟩ := demo_cx ⟨1, 1, 1⟩ 1 true (fun _ => 1) (fun _ => 1) (fun s => if s = "d" then 0 else 1)
  obtain ⟨Ta, Ti, na, ni, va1, vi1, va2, vi2, Aa, Ai, -, -, hva1, hvi1, hva2, hvi2, hA1, hA2, hA3, hA4, rfl, -⟩ :=
    chargeExchange_ok hr
  have hk' : KeysIn ["d", "d+"] [Var.density_source, Var.momentum_source, Var.energy_source, Var.collision_frequency]
      ((chargeExchangeOf ⟨1, 1, 1⟩ 1 true "d" "d+" "d" "d+" Ta Ti na ni va1 vi1 va2 vi2
      Aa Ai).contribs) := by
    unfold chargeExchangeOf
    simp
  obtain ⟨st', h1, h2, h3⟩ := contributeAll_gain _ _ _ _ hk' (by simp)
    (demo_unread (fun _ => 1) (fun _ => 1) (fun s => if s = "d" then 0 else 1))
  have ht : (cx ⟨1, 1, 1⟩ 1 true "d" "d+" "d" "d+").transform
      (demo (fun _ => 1) (fun _ => 1) (fun s => if s = "d" then 0 else 1)) = (.ok (), st') := by
    simp only [SourceComponent.transform, cx, hr, Except.map, h1]
  simp only [demo] at hva1 hvi1 hA1 hA3
  simp at hva1 hvi1 hA1 hA3
  subst hva1; subst hvi1; subst hA1; subst hA3
  simp only [ht, h3]
  refine ⟨trivial, ?_, ?_⟩
  · simp [chargeExchangeOf]
    positivity
  · simp [chargeExchangeOf]

/-- C28, negation: OpenADAS ionisation destroys kinetic energy when the two charge states move at different
velocities. -/
theorem adas_total_energy_not_conserved :
    ∃ (nm : Norms) (w : World (Fin 1)),
      let t := (adas nm (fun _ _ => 1) (fun _ _ => 0) 0 "e" "d" "d+").transform w
      t.1 = .ok () ∧ totalEnergyRate w t.2 "d" 0 + totalEnergyRate w t.2 "d+" 0 = -4 := by
  set w := demo (fun _ => 1) (fun _ => 1) (fun s => if s = "d" then 0 else 2) with hw
  have hr : ∃ r, adasReaction ⟨1, 1, 1⟩ (fun _ _ => 1) (fun _ _ => 0) 0 "e" "d" "d+" w = .ok r ∧
      r.reaction_rate 0 = 1 := by
    refine ⟨adasReactionOf ⟨1, 1, 1⟩ (fun _ _ => 1) (fun _ _ => 0) 0 "e" "d" "d+" w (fun _ => 1) (fun _ => 1)
      (fun _ => 1) (fun _ => 1) (fun _ => 0) 2 0 1, ?_, ?_⟩
    · have hd := demo_reads (fun _ => 1) (fun _ => 1) (fun s => if s = "d" then 0 else 2)
      have hm : ∀ s, s ≠ "e" → w.real s .AA = .ok 2 := fun s hs => by rw [hw, (hd s).2.2.2.2, if_neg hs]
      have q := demo_charges (fun _ => 1) (fun _ => 1) (fun s => if s = "d" then 0 else 2)
      refine ok_bind (hd "e").1 (ok_bind (hd "e").2.1 (ok_bind (hd "d").1 (ok_bind (hd "d").2.1
        (ok_bind (hd "d").2.2.1 (ok_bind (hm "d" (by decide)) (ok_bind (hm "d+" (by decide))
        (ok_bind (assert1_of rfl) ?_)))))))
      rw [hw, q.1, q.2.1, if_pos rfl]
      rfl
    · simp only [adasReactionOf, hw, demo_avg3]
      norm_num [floor0]
  obtain ⟨r, hr, hR⟩ := hr
  have h := adas_conserves_partial ⟨1, 1, 1⟩ (fun _ _ => 1) (fun _ _ => 0) 0 "e" "d" "d+" (by decide) (by decide)
    (by decide) w r hr (demo_unread _ _ _) (by simp [hw, demo])
  refine ⟨_, w, h.1, (h.2.2 0).2.2.2.2.2.2.2.trans ?_⟩
  rw [hR]
  simp [hw, demo, mass, velocity]
  norm_num

end Hermes.Reactions
