import Verif.Model.Diagnostics
import Verif.Props.Registry
import Verif.Props.ReactionAmounts
import Verif.Props.RecyclingExamples
import Verif.Props.Radiation

/-!
# C74: the saved diagnostics are the sources that were applied

`gain st st' s v` is what a component added to variable `v` of species `s`; `saved outs name` is the variable `name` in the output
file.
-/

set_option linter.unusedSimpArgs false

namespace Hermes.Diagnostics
open Hermes Hermes.Reactions Hermes.Registry

variable {ι : Type}

theorem saved_cons_ne {o : Output ι} {outs : List (Output ι)} {n : String} (h : o.1 ≠ n) : saved (o :: outs) n = saved outs n := by
  unfold saved
  rw [List.reverse_cons, List.find?_append]
  cases h1 : List.find? (fun o => o.1 == n) outs.reverse with
  | some x => rfl
  | none =>
    rw [List.find?_singleton, if_neg (by simpa using h)]
    rfl

theorem saved_cons_eq {o : Output ι} {outs : List (Output ι)} (h : saved outs o.1 = none) : saved (o :: outs) o.1 = some o.2 := by
  unfold saved at h ⊢
  rw [List.reverse_cons, List.find?_append]
  rw [Option.map_eq_none_iff] at h
  rw [h, List.find?_singleton, if_pos (by simp)]
  rfl

theorem saved_nil (n : String) : saved ([] : List (Output ι)) n = none := rfl

theorem ofList_ne {a b : List Char} (h : a ≠ b) : String.ofList a ≠ String.ofList b := fun e => h (String.ofList_injective e)

/-! ## Ionisation and recombination -/

/-- What a reaction with electrons does, in terms of the quantities that it reports. -/
theorem electron_gains (nm : Norms) (rate rad : ℝ → ℝ → ℝ) (heat kr kR : ℝ) (e fr dst : String)
    (hef : e ≠ fr) (hed : e ≠ dst) (hfd : fr ≠ dst) (w : World ι) (r : ElectronReaction ι)
    (hr : electronReaction nm rate rad heat kr kR e fr dst w = .ok r) (hu : SourcesUnread w.st) (i : ι) :
    let t := (amjuel nm rate rad heat kr kR e fr dst).transform w
    gain w.st t.2 dst .density_source i = r.reaction_rate i ∧ gain w.st t.2 fr .density_source i = -r.reaction_rate i ∧
    gain w.st t.2 dst .momentum_source i = r.momentum_exchange i ∧ gain w.st t.2 fr .momentum_source i = -r.momentum_exchange i ∧
    gain w.st t.2 fr .energy_source i = -r.energy_exchange i ∧
    gain w.st t.2 dst .energy_source i = r.energy_exchange i
      + mass w fr * r.reaction_rate i * (velocity w fr i - velocity w dst i) ^ 2 / 2 ∧
    gain w.st t.2 e .energy_source i = -r.energy_loss i
      + mass w e * gain w.st t.2 e .density_source i * velocity w e i ^ 2 / 2 := by
  obtain ⟨Ne, Te, N1, T1, V1, V2, A, -, -, -, -, hV1, hV2, hA1, hA2, ev, hev, rfl⟩ := electronReaction_ok hr
  intro t
  have ht : t = contributeAll (electronReactionOf nm rate rad heat kr kR e fr dst w Ne Te N1 T1 V1 V2 A
        (w.chargeOr0 fr) (w.chargeOr0 dst) ev).contribs w.st := by
    simp only [t, SourceComponent.transform, amjuel, hr, Except.map]
  have hk : KeysIn [e, fr, dst] [Var.density_source, Var.momentum_source, Var.energy_source]
      ((electronReactionOf nm rate rad heat kr kR e fr dst w Ne Te N1 T1 V1 V2 A
        (w.chargeOr0 fr) (w.chargeOr0 dst) ev).contribs) := by
    unfold electronReactionOf
    rcases ev with _ | ⟨Ve, Ae⟩ <;> by_cases hq : w.chargeOr0 fr ≠ w.chargeOr0 dst <;>
      simp [hq]
  obtain ⟨st', h1, h2, h3⟩ := contributeAll_gain _ w.st _ _ hk (by simp) hu
  rw [← ht] at h1
  have hV1' : velocity w fr i = V1 i := by simp [velocity, hV1]
  have hV2' : velocity w dst i = V2 i := by simp [velocity, hV2]
  have hm : mass w fr = A := by simp [mass, hA1]
  rw [h1]
  have e1 := hef.symm
  have e2 := hed.symm
  have e3 := hfd.symm
  have hev' : w.chargeOr0 fr ≠ w.chargeOr0 dst →
      (ev = none ∧ velocity w e i = 0) ∨
      ∃ Ve Ae, ev = some (Ve, Ae) ∧ velocity w e i = Ve i ∧ mass w e = Ae := by
    intro hq
    unfold readElectronVelocity at hev
    by_cases hs : w.isSetF e Var.velocity = true
    · rw [if_pos ⟨hq, hs⟩] at hev
      obtain ⟨Ve, h5, hev⟩ := bind_ok hev
      obtain ⟨Ae, h6, hev⟩ := bind_ok hev
      refine Or.inr ⟨Ve, Ae, (Except.ok.inj hev).symm, ?_, ?_⟩
      · simp [velocity, field_ok h5]
      · simp [mass, real_ok h6]
    · rw [if_neg (fun h => hs h.2)] at hev
      refine Or.inl ⟨(Except.ok.inj hev).symm, ?_⟩
      unfold World.isSetF at hs
      cases hv : (w.st.ent (Key.sp e Var.velocity)).val with
      | none => simp [velocity, hv]
      | some f => rw [hv] at hs; simp at hs
  simp only [h3, hV1', hV2', hm]
  unfold electronReactionOf
  dsimp only
  generalize w.avg3 (fun ne n1 te => ne * n1 * rate (te * nm.T) (ne * nm.N) * nm.N / nm.Freq * kr) Ne N1 Te = R
  generalize w.avg3 (fun ne n1 te => ne * n1 * rad (te * nm.T) (ne * nm.N) * nm.N / (nm.T * nm.Freq) * kR)
    Ne N1 Te = L
  by_cases hq : w.chargeOr0 fr = w.chargeOr0 dst
  · simp [hq, hef, hed, hfd, e1, e2, e3]
    ring
  · rcases hev' hq with ⟨rfl, hv⟩ | ⟨Ve, Ae, rfl, hv, hm'⟩
    · simp [hq, hef, hed, hfd, e1, e2, e3, hv]
      ring
    · simp [hq, hef, hed, hfd, e1, e2, e3, hv, hm']
      constructor <;> ring

theorem isotope_names {c : Char} (hc : c ∈ ['h', 'd', 't']) : "e" ≠ atomName c ∧ "e" ≠ ionName c ∧ atomName c ≠ ionName c := by
  fin_cases hc <;> decide

theorem saved_ionisation (c : Char) (r : ElectronReaction ι) :
    saved (ionisationOutputs c r) (String.ofList ['S', c, '+', '_', 'i', 'z']) = some r.reaction_rate ∧
    saved (ionisationOutputs c r) (String.ofList ['F', c, '+', '_', 'i', 'z']) = some r.momentum_exchange ∧
    saved (ionisationOutputs c r) (String.ofList ['E', c, '+', '_', 'i', 'z']) = some r.energy_exchange ∧
    saved (ionisationOutputs c r) (String.ofList ['R', c, '+', '_', 'e', 'x']) = some (fun i => -r.energy_loss i) := by
  unfold ionisationOutputs
  refine ⟨?_, ?_, ?_, ?_⟩
  · refine saved_cons_eq ?_
    rw [saved_cons_ne (ofList_ne (by simp)), saved_cons_ne (ofList_ne (by simp)), saved_cons_ne (ofList_ne (by simp)), saved_nil]
  · rw [saved_cons_ne (ofList_ne (by simp))]
    refine saved_cons_eq ?_
    rw [saved_cons_ne (ofList_ne (by simp)), saved_cons_ne (ofList_ne (by simp)), saved_nil]
  · rw [saved_cons_ne (ofList_ne (by simp)), saved_cons_ne (ofList_ne (by simp))]
    refine saved_cons_eq ?_
    rw [saved_cons_ne (ofList_ne (by simp)), saved_nil]
  · rw [saved_cons_ne (ofList_ne (by simp)), saved_cons_ne (ofList_ne (by simp)), saved_cons_ne (ofList_ne (by simp))]
    exact saved_cons_eq (saved_nil _)

theorem saved_recombination (c : Char) (r : ElectronReaction ι) :
    saved (recombinationOutputs c r) (String.ofList ['S', c, '+', '_', 'r', 'e', 'c']) = some (fun i => -r.reaction_rate i) ∧
    saved (recombinationOutputs c r) (String.ofList ['F', c, '+', '_', 'r', 'e', 'c']) = some (fun i => -r.momentum_exchange i) ∧
    saved (recombinationOutputs c r) (String.ofList ['E', c, '+', '_', 'r', 'e', 'c']) = some (fun i => -r.energy_exchange i) ∧
    saved (recombinationOutputs c r) (String.ofList ['R', c, '+', '_', 'r', 'e', 'c']) = some (fun i => -r.energy_loss i) := by
  unfold recombinationOutputs
  refine ⟨?_, ?_, ?_, ?_⟩
  · refine saved_cons_eq ?_
    rw [saved_cons_ne (ofList_ne (by simp)), saved_cons_ne (ofList_ne (by simp)), saved_cons_ne (ofList_ne (by simp)), saved_nil]
  · rw [saved_cons_ne (ofList_ne (by simp))]
    refine saved_cons_eq ?_
    rw [saved_cons_ne (ofList_ne (by simp)), saved_cons_ne (ofList_ne (by simp)), saved_nil]
  · rw [saved_cons_ne (ofList_ne (by simp)), saved_cons_ne (ofList_ne (by simp))]
    refine saved_cons_eq ?_
    rw [saved_cons_ne (ofList_ne (by simp)), saved_nil]
  · rw [saved_cons_ne (ofList_ne (by simp)), saved_cons_ne (ofList_ne (by simp)), saved_cons_ne (ofList_ne (by simp))]
    exact saved_cons_eq (saved_nil _)

/-- Thermal energy left over when particles that arrive at `rate` with the velocity of `s` take on that of `s'`. -/
noncomputable def mixingHeat (w : World ι) (s s' : String) (rate : ℝ) (i : ι) : ℝ :=
  mass w s * rate * (velocity w s i - velocity w s' i) ^ 2 / 2

/-- Thermal energy of the electrons that are born at rest. -/
noncomputable def birthHeat (w : World ι) (rate : ℝ) (i : ι) : ℝ := mass w "e" * rate * velocity w "e" i ^ 2 / 2

/-- **C74, ionisation.**  `Sd+_iz`, `Fd+_iz`, `Ed+_iz` and `Rd+_ex` are what the ions gain and the atoms lose, and what the electrons
gain; the ions and electrons also receive heat from the mixing, which has no diagnostic. -/
theorem ionisation_diagnostics {c : Char} (hc : c ∈ ['h', 'd', 't']) (nm : Norms) (rate rad : ℝ → ℝ → ℝ) (heat kr kR : ℝ) (w : World ι)
    (r : ElectronReaction ι) (hr : electronReaction nm rate rad heat kr kR "e" (atomName c) (ionName c) w = .ok r) (hu : SourcesUnread w.st) :
    ∃ S F E R, saved (ionisationOutputs c r) (String.ofList ['S', c, '+', '_', 'i', 'z']) = some S ∧
      saved (ionisationOutputs c r) (String.ofList ['F', c, '+', '_', 'i', 'z']) = some F ∧
      saved (ionisationOutputs c r) (String.ofList ['E', c, '+', '_', 'i', 'z']) = some E ∧
      saved (ionisationOutputs c r) (String.ofList ['R', c, '+', '_', 'e', 'x']) = some R ∧
      let t := (amjuel nm rate rad heat kr kR "e" (atomName c) (ionName c)).transform w
      ∀ i, gain w.st t.2 (ionName c) .density_source i = S i ∧ gain w.st t.2 (atomName c) .density_source i = -S i ∧
        gain w.st t.2 (ionName c) .momentum_source i = F i ∧ gain w.st t.2 (atomName c) .momentum_source i = -F i ∧
        gain w.st t.2 (ionName c) .energy_source i = E i + mixingHeat w (atomName c) (ionName c) (S i) i ∧
        gain w.st t.2 (atomName c) .energy_source i = -E i ∧
        gain w.st t.2 "e" .energy_source i = R i + birthHeat w (gain w.st t.2 "e" .density_source i) i := by
  obtain ⟨h1, h2, h3⟩ := isotope_names hc
  obtain ⟨s1, s2, s3, s4⟩ := saved_ionisation c r
  refine ⟨_, _, _, _, s1, s2, s3, s4, ?_⟩
  intro t i
  obtain ⟨g1, g2, g3, g4, g5, g6, g7⟩ := electron_gains nm rate rad heat kr kR "e" _ _ h1 h2 h3 w r hr hu i
  exact ⟨g1, g2, g3, g4, g6, g5, g7⟩

/-- **C74, recombination.**  `Sd+_rec`, `Fd+_rec`, `Ed+_rec` are what the ions gain (they are the opposite of what they lose) and the atoms
lose; `Rd+_rec` is what the electrons gain. -/
theorem recombination_diagnostics {c : Char} (hc : c ∈ ['h', 'd', 't']) (nm : Norms) (rate rad : ℝ → ℝ → ℝ) (heat kr kR : ℝ) (w : World ι)
    (r : ElectronReaction ι) (hr : electronReaction nm rate rad heat kr kR "e" (ionName c) (atomName c) w = .ok r) (hu : SourcesUnread w.st) :
    ∃ S F E R, saved (recombinationOutputs c r) (String.ofList ['S', c, '+', '_', 'r', 'e', 'c']) = some S ∧
      saved (recombinationOutputs c r) (String.ofList ['F', c, '+', '_', 'r', 'e', 'c']) = some F ∧
      saved (recombinationOutputs c r) (String.ofList ['E', c, '+', '_', 'r', 'e', 'c']) = some E ∧
      saved (recombinationOutputs c r) (String.ofList ['R', c, '+', '_', 'r', 'e', 'c']) = some R ∧
      let t := (amjuel nm rate rad heat kr kR "e" (ionName c) (atomName c)).transform w
      ∀ i, gain w.st t.2 (ionName c) .density_source i = S i ∧ gain w.st t.2 (atomName c) .density_source i = -S i ∧
        gain w.st t.2 (ionName c) .momentum_source i = F i ∧ gain w.st t.2 (atomName c) .momentum_source i = -F i ∧
        gain w.st t.2 (ionName c) .energy_source i = E i ∧
        gain w.st t.2 (atomName c) .energy_source i = -E i + mixingHeat w (ionName c) (atomName c) (-S i) i ∧
        gain w.st t.2 "e" .energy_source i = R i + birthHeat w (gain w.st t.2 "e" .density_source i) i := by
  obtain ⟨h1, h2, h3⟩ := isotope_names hc
  obtain ⟨s1, s2, s3, s4⟩ := saved_recombination c r
  refine ⟨_, _, _, _, s1, s2, s3, s4, ?_⟩
  intro t i
  obtain ⟨g1, g2, g3, g4, g5, g6, g7⟩ := electron_gains nm rate rad heat kr kR "e" _ _ h2 h1 h3.symm w r hr hu i
  refine ⟨g2, ?_, g4, ?_, g5, ?_, g7⟩
  · rw [neg_neg]; exact g1
  · rw [neg_neg]; exact g3
  · rw [neg_neg, neg_neg]; exact g6

/-! ## Charge exchange -/

theorem cx_gains (nm : Norms) (k : ℝ) (ng : Bool) {atom1 ion1 atom2 ion2 : String}
    (h11 : atom1 ≠ ion1) (h12 : atom1 ≠ ion2) (h21 : atom2 ≠ ion1) (h22 : atom2 ≠ ion2)
    (hiso : atom1 = atom2 ↔ ion1 = ion2) (w : World ι) (r : ChargeExchange ι)
    (hr : chargeExchange nm k ng atom1 ion1 atom2 ion2 w = .ok r) (hu : SourcesUnread w.st) (i : ι) :
    let t := (cx nm k ng atom1 ion1 atom2 ion2).transform w
    let m1 := mass w atom1 * r.R i * (velocity w ion2 i - velocity w atom1 i) ^ 2 / 2
    let m2 := mass w ion1 * r.R i * (velocity w atom2 i - velocity w ion1 i) ^ 2 / 2
    (if atom1 = atom2 then
      gain w.st t.2 atom1 .density_source i = 0 ∧ gain w.st t.2 ion1 .density_source i = 0 ∧
      gain w.st t.2 atom1 .momentum_source i = r.ion_mom i - r.atom_mom i ∧
      gain w.st t.2 ion1 .momentum_source i = (if ng then 0 else r.atom_mom i) - r.ion_mom i ∧
      gain w.st t.2 atom1 .energy_source i = r.ion_energy i - r.atom_energy i + m2 ∧
      gain w.st t.2 ion1 .energy_source i = r.atom_energy i - r.ion_energy i + m1
    else
      (gain w.st t.2 atom1 .density_source i = -r.R i ∧ gain w.st t.2 ion1 .density_source i = -r.R i ∧
        gain w.st t.2 atom2 .density_source i = r.R i ∧ gain w.st t.2 ion2 .density_source i = r.R i) ∧
      (gain w.st t.2 atom1 .momentum_source i = -r.atom_mom i ∧ gain w.st t.2 ion1 .momentum_source i = -r.ion_mom i ∧
        gain w.st t.2 atom2 .momentum_source i = r.ion_mom i ∧ gain w.st t.2 ion2 .momentum_source i = if ng then 0 else r.atom_mom i) ∧
      (gain w.st t.2 atom1 .energy_source i = -r.atom_energy i ∧ gain w.st t.2 ion1 .energy_source i = -r.ion_energy i ∧
        gain w.st t.2 atom2 .energy_source i = r.ion_energy i + m2 ∧ gain w.st t.2 ion2 .energy_source i = r.atom_energy i + m1)) ∧
    gain w.st t.2 atom1 .collision_frequency i = r.atom_rate i ∧ gain w.st t.2 ion1 .collision_frequency i = r.ion_rate i := by
  obtain ⟨Ta, Ti, na, ni, va1, vi1, va2, vi2, Aa, Ai, -, -, hva1, hvi1, hva2, hvi2, hA1, hA2, hA3, hA4, rfl,
    hall, -, -⟩ := chargeExchange_ok hr
  intro t m1 m2
  have ht : t = contributeAll (chargeExchangeOf nm k ng atom1 ion1 atom2 ion2 Ta Ti na ni va1 vi1 va2 vi2
      Aa Ai).contribs w.st := by
    simp only [t, SourceComponent.transform, cx, hr, Except.map]
  have hk : KeysIn [atom1, ion1, atom2, ion2] [Var.density_source, Var.momentum_source, Var.energy_source, Var.collision_frequency]
      ((chargeExchangeOf nm k ng atom1 ion1 atom2 ion2 Ta Ti na ni va1 vi1 va2 vi2
      Aa Ai).contribs) := by
    unfold chargeExchangeOf
    by_cases hq : atom1 ≠ atom2 ∨ ion1 ≠ ion2 <;> cases ng <;> simp [hq]
  obtain ⟨st', h1, h2, h3⟩ := contributeAll_gain _ w.st _ _ hk (by simp) hu
  rw [← ht] at h1
  rw [h1]
  have w1 : velocity w atom1 i = va1 i := by simp [velocity, hva1]
  have w2 : velocity w ion1 i = vi1 i := by simp [velocity, hvi1]
  have w3 : velocity w atom2 i = va2 i := by simp [velocity, hva2]
  have w4 : velocity w ion2 i = vi2 i := by simp [velocity, hvi2]
  have q1 : mass w atom1 = Aa := by simp [mass, hA1]
  have q3 : mass w ion1 = Ai := by simp [mass, hA3]
  simp only [m1, m2, h3, w1, w2, w3, w4, q1, q3]
  unfold chargeExchangeOf
  dsimp only
  by_cases hq : atom1 = atom2
  · have hq' := hiso.mp hq
    subst hq; subst hq'
    rw [if_pos rfl]
    cases ng <;> simp [h11, h11.symm] <;> (repeat' apply And.intro) <;> ring
  · have hq' : ion1 ≠ ion2 := fun h => hq (hiso.mpr h)
    rw [if_neg hq]
    cases ng <;> simp [hq, Ne.symm hq, h11, h12, h21, h22, h11.symm, h12.symm, h21.symm, h22.symm, hq', hq'.symm] <;> (repeat' apply And.intro) <;> ring

theorem cx_names {a b : Char} (ha : a ∈ ['h', 'd', 't']) (hb : b ∈ ['h', 'd', 't']) :
    atomName a ≠ ionName b ∧ (atomName a = atomName b ↔ a = b) ∧ (ionName a = ionName b ↔ a = b) ∧ b ≠ '+' := by
  fin_cases ha <;> fin_cases hb <;> decide

theorem saved_same (c : Char) (r : ChargeExchange ι) :
    saved (cxOutputs c c r) (String.ofList ['F', c, c, '+', '_', 'c', 'x']) = some (fun i => r.ion_mom i - r.atom_mom i) ∧
    saved (cxOutputs c c r) (String.ofList ['E', c, c, '+', '_', 'c', 'x']) = some (fun i => r.ion_energy i - r.atom_energy i) ∧
    saved (cxOutputs c c r) (String.ofList ['K', c, c, '+', '_', 'c', 'x']) = some r.atom_rate := by
  unfold cxOutputs
  rw [if_pos rfl]
  refine ⟨?_, ?_, ?_⟩
  · refine saved_cons_eq ?_
    rw [saved_cons_ne (ofList_ne (by simp)), saved_cons_ne (ofList_ne (by simp)), saved_nil]
  · rw [saved_cons_ne (ofList_ne (by simp))]
    refine saved_cons_eq ?_
    rw [saved_cons_ne (ofList_ne (by simp)), saved_nil]
  · rw [saved_cons_ne (ofList_ne (by simp)), saved_cons_ne (ofList_ne (by simp))]
    exact saved_cons_eq (saved_nil _)

theorem saved_different {a b : Char} (hab : a ≠ b) (hb : b ≠ '+') (r : ChargeExchange ι) :
    saved (cxOutputs a b r) (String.ofList ['F', a, b, '+', '_', 'c', 'x']) = some (fun i => -r.atom_mom i) ∧
    saved (cxOutputs a b r) (String.ofList ['E', a, b, '+', '_', 'c', 'x']) = some (fun i => -r.atom_energy i) ∧
    saved (cxOutputs a b r) (String.ofList ['K', a, b, '+', '_', 'c', 'x']) = some r.atom_rate ∧
    saved (cxOutputs a b r) (String.ofList ['F', b, '+', a, '_', 'c', 'x']) = some (fun i => -r.ion_mom i) ∧
    saved (cxOutputs a b r) (String.ofList ['E', b, '+', a, '_', 'c', 'x']) = some (fun i => -r.ion_energy i) ∧
    saved (cxOutputs a b r) (String.ofList ['S', a, b, '+', '_', 'c', 'x']) = some (fun i => -r.R i) := by
  have hb' := hb.symm
  have hab' := hab.symm
  unfold cxOutputs
  rw [if_neg hab]
  refine ⟨?_, ?_, ?_, ?_, ?_, ?_⟩
  · refine saved_cons_eq ?_
    rw [saved_cons_ne (ofList_ne (by simp)), saved_cons_ne (ofList_ne (by simp)), saved_cons_ne (ofList_ne (by simp [hb, hb'])),
      saved_cons_ne (ofList_ne (by simp)), saved_cons_ne (ofList_ne (by simp)), saved_nil]
  · rw [saved_cons_ne (ofList_ne (by simp))]
    refine saved_cons_eq ?_
    rw [saved_cons_ne (ofList_ne (by simp)), saved_cons_ne (ofList_ne (by simp)),
      saved_cons_ne (ofList_ne (by simp [hb, hb'])), saved_cons_ne (ofList_ne (by simp)), saved_nil]
  · rw [saved_cons_ne (ofList_ne (by simp)), saved_cons_ne (ofList_ne (by simp))]
    refine saved_cons_eq ?_
    rw [saved_cons_ne (ofList_ne (by simp)), saved_cons_ne (ofList_ne (by simp)), saved_cons_ne (ofList_ne (by simp)), saved_nil]
  · rw [saved_cons_ne (ofList_ne (by simp [hb, hb'])), saved_cons_ne (ofList_ne (by simp)), saved_cons_ne (ofList_ne (by simp))]
    refine saved_cons_eq ?_
    rw [saved_cons_ne (ofList_ne (by simp)), saved_cons_ne (ofList_ne (by simp)), saved_nil]
  · rw [saved_cons_ne (ofList_ne (by simp)), saved_cons_ne (ofList_ne (by simp [hb, hb'])), saved_cons_ne (ofList_ne (by simp)),
      saved_cons_ne (ofList_ne (by simp))]
    refine saved_cons_eq ?_
    rw [saved_cons_ne (ofList_ne (by simp)), saved_nil]
  · rw [saved_cons_ne (ofList_ne (by simp)), saved_cons_ne (ofList_ne (by simp)), saved_cons_ne (ofList_ne (by simp)),
      saved_cons_ne (ofList_ne (by simp)), saved_cons_ne (ofList_ne (by simp))]
    exact saved_cons_eq (saved_nil _)

/-- **C74, charge exchange of one isotope.**  `Fdd+_cx` is what the atoms gain in momentum and the ions lose, `Kdd+_cx` the frequency
added to the atoms; `Edd+_cx` is the exchanged heat, without the heat that both receive from their friction.  (With
`no_neutral_cx_mom_gain` the ions lose more.) -/
theorem cx_diagnostics_same {c : Char} (hc : c ∈ ['h', 'd', 't']) (nm : Norms) (k : ℝ) (w : World ι)
    (r : ChargeExchange ι) (hr : chargeExchange nm k false (atomName c) (ionName c) (atomName c) (ionName c) w = .ok r) (hu : SourcesUnread w.st) :
    ∃ F E K, saved (cxOutputs c c r) (String.ofList ['F', c, c, '+', '_', 'c', 'x']) = some F ∧
      saved (cxOutputs c c r) (String.ofList ['E', c, c, '+', '_', 'c', 'x']) = some E ∧
      saved (cxOutputs c c r) (String.ofList ['K', c, c, '+', '_', 'c', 'x']) = some K ∧
      let t := (cx nm k false (atomName c) (ionName c) (atomName c) (ionName c)).transform w
      ∀ i, gain w.st t.2 (atomName c) .density_source i = 0 ∧ gain w.st t.2 (ionName c) .density_source i = 0 ∧
        gain w.st t.2 (atomName c) .momentum_source i = F i ∧ gain w.st t.2 (ionName c) .momentum_source i = -F i ∧
        gain w.st t.2 (atomName c) .energy_source i = E i + mixingHeat w (ionName c) (atomName c) (r.R i) i ∧
        gain w.st t.2 (ionName c) .energy_source i = -E i + mixingHeat w (atomName c) (ionName c) (r.R i) i ∧
        gain w.st t.2 (atomName c) .collision_frequency i = K i := by
  obtain ⟨n1, -, -, -⟩ := cx_names hc hc
  obtain ⟨s1, s2, s3⟩ := saved_same c r
  refine ⟨_, _, _, s1, s2, s3, ?_⟩
  intro t i
  obtain ⟨g, g7, -⟩ := cx_gains nm k false n1 n1 n1 n1 (by simp) w r hr hu i
  rw [if_pos rfl] at g
  obtain ⟨g1, g2, g3, g4, g5, g6⟩ := g
  refine ⟨g1, g2, g3, ?_, ?_, ?_, g7⟩
  · rw [g4, if_neg (by decide)]; ring
  · rw [g5]; unfold mixingHeat; ring
  · rw [g6]; unfold mixingHeat; ring

/-- **C74, charge exchange of two isotopes**, for example `h + d+ -> h+ + d`: `Shd+_cx`, `Fhd+_cx`, `Ehd+_cx` are what the atoms `h` gain and
the ions `h+` lose, `Fd+h_cx` and `Ed+h_cx` what the ions `d+` gain and the atoms `d` lose, apart from the heat of mixing that the products
receive. -/
theorem cx_diagnostics_different {a b : Char} (ha : a ∈ ['h', 'd', 't']) (hb : b ∈ ['h', 'd', 't']) (hab : a ≠ b) (nm : Norms) (k : ℝ) (w : World ι)
    (r : ChargeExchange ι) (hr : chargeExchange nm k false (atomName a) (ionName b) (atomName b) (ionName a) w = .ok r) (hu : SourcesUnread w.st) :
    ∃ S F E F2 E2 K, saved (cxOutputs a b r) (String.ofList ['S', a, b, '+', '_', 'c', 'x']) = some S ∧
      saved (cxOutputs a b r) (String.ofList ['F', a, b, '+', '_', 'c', 'x']) = some F ∧
      saved (cxOutputs a b r) (String.ofList ['E', a, b, '+', '_', 'c', 'x']) = some E ∧
      saved (cxOutputs a b r) (String.ofList ['F', b, '+', a, '_', 'c', 'x']) = some F2 ∧
      saved (cxOutputs a b r) (String.ofList ['E', b, '+', a, '_', 'c', 'x']) = some E2 ∧
      saved (cxOutputs a b r) (String.ofList ['K', a, b, '+', '_', 'c', 'x']) = some K ∧
      let t := (cx nm k false (atomName a) (ionName b) (atomName b) (ionName a)).transform w
      ∀ i, (gain w.st t.2 (atomName a) .density_source i = S i ∧ gain w.st t.2 (ionName a) .density_source i = -S i ∧
          gain w.st t.2 (atomName b) .density_source i = -S i ∧ gain w.st t.2 (ionName b) .density_source i = S i) ∧
        (gain w.st t.2 (atomName a) .momentum_source i = F i ∧ gain w.st t.2 (ionName a) .momentum_source i = -F i ∧
          gain w.st t.2 (ionName b) .momentum_source i = F2 i ∧ gain w.st t.2 (atomName b) .momentum_source i = -F2 i) ∧
        (gain w.st t.2 (atomName a) .energy_source i = E i ∧
          gain w.st t.2 (ionName a) .energy_source i = -E i + mixingHeat w (atomName a) (ionName a) (-S i) i ∧
          gain w.st t.2 (ionName b) .energy_source i = E2 i ∧
          gain w.st t.2 (atomName b) .energy_source i = -E2 i + mixingHeat w (ionName b) (atomName b) (-S i) i) ∧
        gain w.st t.2 (atomName a) .collision_frequency i = K i := by
  obtain ⟨n1, n2, n3, n4⟩ := cx_names ha hb
  obtain ⟨m1, m2, m3, -⟩ := cx_names hb ha
  obtain ⟨a1, -, -, -⟩ := cx_names ha ha
  obtain ⟨b1, -, -, -⟩ := cx_names hb hb
  obtain ⟨s1, s2, s3, s4, s5, s6⟩ := saved_different hab n4 r
  refine ⟨_, _, _, _, _, _, s6, s1, s2, s4, s5, s3, ?_⟩
  intro t i
  obtain ⟨g, g7, -⟩ := cx_gains nm k false n1 a1 b1 m1 (by rw [n2, m3]; exact eq_comm) w r hr hu i
  rw [if_neg (fun h => hab (n2.1 h))] at g
  obtain ⟨⟨d1, d2, d3, d4⟩, ⟨p1, p2, p3, p4⟩, e1, e2, e3, e4⟩ := g
  simp only [neg_neg]
  refine ⟨⟨d1, d4, d3, d2⟩, ⟨p1, p4, p2, p3⟩, ⟨e1, ?_, e2, ?_⟩, g7⟩
  · rw [e4]; unfold mixingHeat; ring
  · rw [e3]; unfold mixingHeat; ring

/-! ## Radiation and pump -/

section
open Hermes.Closures

/-- **C74.**  `R<name>` is what the electrons gain (so it is negative), `simple_pump_sink_<name>` what the species gains. -/
theorem radiation_diagnostic [DecidableEq ι] {name : String} {o : RadOpts} {m : RadMesh ι} {L : ℝ → ℝ} {st st' : Store Key (Value ι)}
    (h : fixedFractionRadiation o m L st = (.ok (), st')) :
    ∃ R, saved (radiationOutputs name o m L (fieldOf st "e" .density) (fieldOf st "e" .temperature)) ("R" ++ name) = some R ∧
      ∀ i, added st st' "e" .energy_source i = R i := by
  refine ⟨_, saved_cons_eq (saved_nil _), fun i => ?_⟩
  unfold fixedFractionRadiation at h
  obtain ⟨s1, e1, h⟩ := getNoBndryF_bind h
  obtain ⟨s2, e2, h⟩ := getNoBndryF_bind h
  rw [e1] at e2
  obtain ⟨a, b⟩ := sub_field_ok h
  unfold added
  rw [a, fieldOf_congr (st := st) (v := .energy_source) (by rw [e2]), fieldOf_congr (st := st) (v := .temperature) (by rw [e1])]
  ring

theorem pump_diagnostic {name : String} {shape : Fld ι} {tau : ℝ} {st st' : Store Key (Value ι)}
    (h : simplePump name shape tau st = (.ok (), st')) :
    ∃ S, saved (pumpOutputs name shape tau (fieldOf st name .density)) ("simple_pump_sink_" ++ name) = some S ∧
      ∀ i, added st st' name .density_source i = S i := by
  refine ⟨fun i => (shape i * fieldOf st name .density i) * (-1 / tau), ?_, fun i => ?_⟩
  · unfold pumpOutputs
    rw [saved_cons_ne]
    · exact saved_cons_eq (saved_nil _)
    · intro h
      have := congrArg String.toList h
      simp [String.toList_append] at this
  · unfold simplePump at h
    obtain ⟨s1, e1, h⟩ := getNoBndryF_bind h
    obtain ⟨h1, h2⟩ := add_field_ok h
    unfold added
    rw [h1, fieldOf_congr (st := st) (v := .density_source) (by rw [e1])]
    ring
end

/-! ## Recycling -/

section
open Hermes.Closures Hermes.Sheath Hermes.Recycling
variable [DecidableEq ι]

/-- The variable `name` of the output file in cell `j`, zero if it is not there. -/
noncomputable def savedAt (outs : List (Output ι)) (name : String) (j : ι) : ℝ := match saved outs name with
  | some f => f j
  | none => 0

omit [DecidableEq ι] in
theorem saved_unique {outs : List (Output ι)} {n : String} {f : Fld ι} (hm : (n, f) ∈ outs) (hu : ∀ o ∈ outs, o.1 = n → o.2 = f) :
    saved outs n = some f := by
  unfold saved
  cases h : List.find? (fun o => o.1 == n) outs.reverse with
  | none =>
    rw [List.find?_eq_none] at h
    exact absurd (h _ (List.mem_reverse.2 hm)) (by simp)
  | some x =>
    have h1 := List.find?_some h
    have h2 := List.mem_of_find?_eq_some h
    rw [Option.map_some, hu x (List.mem_reverse.1 h2) (by simpa using h1)]

omit [DecidableEq ι] in
theorem saved_absent {outs : List (Output ι)} {n : String} (hu : ∀ o ∈ outs, o.1 ≠ n) : saved outs n = none := by
  unfold saved
  rw [Option.map_eq_none_iff, List.find?_eq_none]
  intro o ho
  simpa using hu o (List.mem_reverse.1 ho)

omit [DecidableEq ι] in
theorem savedAt_unique {outs : List (Output ι)} {n : String} {f : Fld ι} (hm : (n, f) ∈ outs) (hu : ∀ o ∈ outs, o.1 = n → o.2 = f) (j : ι) :
    savedAt outs n j = f j := by
  unfold savedAt
  rw [saved_unique hm hu]

omit [DecidableEq ι] in
theorem savedAt_absent {outs : List (Output ι)} {n : String} (hu : ∀ o ∈ outs, o.1 ≠ n) (j : ι) : savedAt outs n j = 0 := by
  unfold savedAt
  rw [saved_absent hu]

/-- The fields of the state that a channel reads. -/
noncomputable def inputsOf (st : Store Key (Value ι)) (ch : RecycleChannel) : RecycleInputs ι where
  N := fieldOf st ch.source .density
  V := fieldOf st ch.source .velocity
  energy_flow_ylow := fieldOf st ch.source .energy_flow_ylow
  Nn := fieldOf st ch.dest .density
  Tn := fieldOf st ch.dest .temperature
  AAn := realOf st ch.dest .AA
  particle_flow_xlow := fieldOf st ch.source particleFlowX
  energy_flow_xlow := fieldOf st ch.source energyFlowX

theorem targetDiag_eq {m : RMesh ι} (hm : MeshOk m.toYMesh) (st : Store Key (Value ι)) (ch : RecycleChannel) (j : ι) :
    (recycleTargetDiag m ch (inputsOf st ch)).1 j = (if j ∈ m.lower then targetD m st ch false j (m.ym j) else 0)
      + (if j ∈ m.upper then targetD m st ch true j (m.yp j) else 0) ∧
    (recycleTargetDiag m ch (inputsOf st ch)).2 j = (if j ∈ m.lower then targetE m st ch false j (m.ym j) else 0)
      + (if j ∈ m.upper then targetE m st ch true j (m.yp j) else 0) := by
  unfold recycleTargetDiag
  obtain ⟨a1, a2⟩ := foldl_sources (targetUpper_eq m ch (inputsOf st ch).N (inputsOf st ch).V (inputsOf st ch).energy_flow_ylow) m.upper hm.upper_nodup
    (m.lower.foldl (recycleTargetLower m ch (inputsOf st ch).N (inputsOf st ch).V (inputsOf st ch).energy_flow_ylow) (fun _ => 0, fun _ => 0)) j
  obtain ⟨b1, b2⟩ := foldl_sources (targetLower_eq m ch (inputsOf st ch).N (inputsOf st ch).V (inputsOf st ch).energy_flow_ylow) m.lower hm.lower_nodup
    (fun _ => 0, fun _ => 0) j
  rw [a1, a2, b1, b2]
  simp only [zero_add]
  exact ⟨rfl, rfl⟩

theorem addSources_zero (s : Sources ι) (i : ι) : addSources s i 0 0 = s := by
  unfold addSources
  simp

open Classical in
theorem share_eq {m : RMesh ι} {fl : RecycleFlags} {pump : Bool} {body : Sources ι → ι → Sources ι} {a b : ι → ℝ}
    (hb : ∀ s i, body s i = addSources s i (a i) (b i)) (s : Sources ι) (i : ι) :
    recycleEdgeShare m fl pump body s i = addSources s i (if Pumped m fl i ↔ pump = true then a i else 0)
      (if Pumped m fl i ↔ pump = true then b i else 0) := by
  unfold recycleEdgeShare Pumped
  split_ifs with h
  · rw [hb]
  · rw [addSources_zero]

open Classical in
theorem edgeDiag_eq {m : RMesh ι} (hsol : m.sol.Nodup) (hpfr : m.pfr.Nodup) (fl : RecycleFlags) (st : Store Key (Value ι)) (ch : RecycleChannel)
    (pump : Bool) (j : ι) :
    (recycleEdgeDiag m fl ch (inputsOf st ch) pump).1 j =
      (if Pumped m fl j ↔ pump = true then (if fl.sol_recycle = true ∧ j ∈ m.sol then solD m fl st ch j else 0)
        + (if fl.pfr_recycle = true ∧ j ∈ m.pfr then pfrD m fl st ch j else 0) else 0) ∧
    (recycleEdgeDiag m fl ch (inputsOf st ch) pump).2 j =
      (if Pumped m fl j ↔ pump = true then (if fl.sol_recycle = true ∧ j ∈ m.sol then solE m fl st ch j else 0)
        + (if fl.pfr_recycle = true ∧ j ∈ m.pfr then pfrE m fl st ch j else 0) else 0) := by
  have S := fun s => foldl_sources (share_eq (m := m) (pump := pump) (fl := fl) (sol_eq m fl ch (inputsOf st ch).Nn (inputsOf st ch).Tn (inputsOf st ch).AAn
    (inputsOf st ch).particle_flow_xlow (inputsOf st ch).energy_flow_xlow)) m.sol hsol s j
  have P := fun s => foldl_sources (share_eq (m := m) (pump := pump) (fl := fl) (pfr_eq m fl ch (inputsOf st ch).Nn (inputsOf st ch).Tn (inputsOf st ch).AAn
    (inputsOf st ch).particle_flow_xlow (inputsOf st ch).energy_flow_xlow)) m.pfr hpfr s j
  unfold recycleEdgeDiag
  dsimp only
  by_cases h1 : fl.sol_recycle = true <;> by_cases h2 : fl.pfr_recycle = true
  · rw [if_pos h1, if_pos h2, (P _).1, (P _).2, (S _).1, (S _).2]
    simp only [h1, h2, true_and, zero_add]
    unfold solD pfrD solE pfrE inputsOf
    constructor <;> split_ifs <;> simp
  · rw [if_pos h1, if_neg h2, (S _).1, (S _).2]
    simp only [h1, h2, true_and, zero_add]
    unfold solD pfrD solE pfrE inputsOf
    constructor <;> split_ifs <;> simp_all
  · rw [if_neg h1, if_pos h2, (P _).1, (P _).2]
    simp only [h1, h2, true_and, zero_add]
    unfold solD pfrD solE pfrE inputsOf
    constructor <;> split_ifs <;> simp_all
  · rw [if_neg h1, if_neg h2]
    simp [h1, h2]

/-- The parts of a channel: targets, and the edges without and with a pump. -/
theorem parts {m : RMesh ι} (hm : MeshOk m.toYMesh) (hsol : m.sol.Nodup) (hpfr : m.pfr.Nodup) (fl : RecycleFlags) (st : Store Key (Value ι))
    (ch : RecycleChannel) (j : ι) :
    gainD m fl st ch j = (if fl.target_recycle then (recycleTargetDiag m ch (inputsOf st ch)).1 j else 0)
      + (if fl.sol_recycle || fl.pfr_recycle then (recycleEdgeDiag m fl ch (inputsOf st ch) false).1 j else 0)
      + (if fl.neutral_pump then (recycleEdgeDiag m fl ch (inputsOf st ch) true).1 j else 0) ∧
    gainE m fl st ch j = (if fl.target_recycle then (recycleTargetDiag m ch (inputsOf st ch)).2 j else 0)
      + (if fl.sol_recycle || fl.pfr_recycle then (recycleEdgeDiag m fl ch (inputsOf st ch) false).2 j else 0)
      + (if fl.neutral_pump then (recycleEdgeDiag m fl ch (inputsOf st ch) true).2 j else 0) := by
  obtain ⟨a1, a2⟩ := targetDiag_eq hm st ch j
  obtain ⟨b1, b2⟩ := edgeDiag_eq hsol hpfr fl st ch false j
  obtain ⟨c1, c2⟩ := edgeDiag_eq hsol hpfr fl st ch true j
  rw [a1, a2, b1, b2, c1, c2]
  unfold gainD gainE
  by_cases hp : Pumped m fl j
  · have hn := hp.2
    by_cases ht : fl.target_recycle = true <;> by_cases h1 : fl.sol_recycle = true <;> by_cases h2 : fl.pfr_recycle = true <;>
      simp [hp, hn, ht, h1, h2, add_assoc]
  · by_cases hn : fl.neutral_pump = true <;> by_cases ht : fl.target_recycle = true <;> by_cases h1 : fl.sol_recycle = true <;>
      by_cases h2 : fl.pfr_recycle = true <;> simp [hp, hn, ht, h1, h2, add_assoc]

theorem name_inj {p p' d d' x x' : String} (hp : p ∈ ["S", "E"]) (hp' : p' ∈ ["S", "E"]) (hx : x ∈ ["_target_recycle", "_wall_recycle", "_pump"])
    (hx' : x' ∈ ["_target_recycle", "_wall_recycle", "_pump"]) (h : p ++ d ++ x = p' ++ d' ++ x') : p = p' ∧ d = d' ∧ x = x' := by
  have h1 := congrArg String.toList h
  simp only [String.toList_append] at h1
  have key : p = p' ∧ d.toList ++ x.toList = d'.toList ++ x'.toList := by
    simp only [List.mem_cons, List.not_mem_nil, or_false] at hp hp'
    rcases hp with rfl | rfl <;> rcases hp' with rfl | rfl <;> simp at h1
    · exact ⟨rfl, h1⟩
    · exact ⟨rfl, h1⟩
  obtain ⟨k1, k2⟩ := key
  refine ⟨k1, ?_⟩
  have hxx : x = x' := by
    have h2 := congrArg List.reverse k2
    simp only [List.reverse_append] at h2
    simp only [List.mem_cons, List.not_mem_nil, or_false] at hx hx'
    rcases hx with rfl | rfl | rfl <;> rcases hx' with rfl | rfl | rfl <;> first | rfl | (simp at h2)
  subst hxx
  exact ⟨String.toList_injective (List.append_cancel_right k2), rfl⟩

/-- The three kinds of diagnostics. -/
noncomputable def kind (m : RMesh ι) (fl : RecycleFlags) (ch : RecycleChannel) (y : RecycleInputs ι) (x : String) : Bool × Sources ι :=
  if x = "_target_recycle" then (fl.target_recycle, recycleTargetDiag m ch y)
  else if x = "_wall_recycle" then (fl.sol_recycle || fl.pfr_recycle, recycleEdgeDiag m fl ch y false)
  else (fl.neutral_pump, recycleEdgeDiag m fl ch y true)

theorem mem_outputs {m : RMesh ι} {fl : RecycleFlags} {ch : RecycleChannel} {y : RecycleInputs ι} {o : Output ι} :
    o ∈ recycleChannelOutputs m fl ch y ↔ ∃ x ∈ ["_target_recycle", "_wall_recycle", "_pump"], (kind m fl ch y x).1 = true ∧
      (o = ("S" ++ ch.dest ++ x, (kind m fl ch y x).2.1) ∨ o = ("E" ++ ch.dest ++ x, (kind m fl ch y x).2.2)) := by
  have k1 : kind m fl ch y "_target_recycle" = (fl.target_recycle, recycleTargetDiag m ch y) := if_pos rfl
  have k2 : kind m fl ch y "_wall_recycle" = (fl.sol_recycle || fl.pfr_recycle, recycleEdgeDiag m fl ch y false) := by
    unfold kind; rw [if_neg (by decide), if_pos rfl]
  have k3 : kind m fl ch y "_pump" = (fl.neutral_pump, recycleEdgeDiag m fl ch y true) := by
    unfold kind; rw [if_neg (by decide), if_neg (by decide)]
  unfold recycleChannelOutputs
  simp only [List.mem_append, List.mem_cons, List.not_mem_nil, or_false, exists_eq_or_imp, exists_eq_left, k1, k2, k3]
  by_cases h1 : fl.target_recycle = true <;> by_cases h2 : (fl.sol_recycle || fl.pfr_recycle) = true <;> by_cases h3 : fl.neutral_pump = true <;>
    simp only [h1, h2, h3, if_true, if_false, List.mem_cons, List.not_mem_nil, or_false, true_and, false_and, false_or, Bool.false_eq_true, or_assoc]

/-- What is saved under a name, if no two channels recycle into the same species. -/
theorem savedAt_recycling {m : RMesh ι} {fl : RecycleFlags} {channels : List RecycleChannel} (hn : (channels.map (·.dest)).Nodup)
    (st : Store Key (Value ι)) {ch : RecycleChannel} (hch : ch ∈ channels) {x : String} (hx : x ∈ ["_target_recycle", "_wall_recycle", "_pump"]) (j : ι) :
    savedAt (recyclingOutputs m fl channels (inputsOf st)) ("S" ++ ch.dest ++ x) j
      = (if (kind m fl ch (inputsOf st ch) x).1 then (kind m fl ch (inputsOf st ch) x).2.1 j else 0) ∧
    savedAt (recyclingOutputs m fl channels (inputsOf st)) ("E" ++ ch.dest ++ x) j
      = (if (kind m fl ch (inputsOf st ch) x).1 then (kind m fl ch (inputsOf st ch) x).2.2 j else 0) := by
  have same : ∀ c ∈ channels, c.dest = ch.dest → c = ch := fun c hc h => List.inj_on_of_nodup_map hn hc hch h
  have hS : ∀ o ∈ recyclingOutputs m fl channels (inputsOf st), o.1 = "S" ++ ch.dest ++ x →
      (kind m fl ch (inputsOf st ch) x).1 = true ∧ o.2 = (kind m fl ch (inputsOf st ch) x).2.1 := by
    intro o ho hname
    obtain ⟨c, hc, ho⟩ := List.mem_flatMap.1 ho
    obtain ⟨y, hy, hk, rfl | rfl⟩ := mem_outputs.1 ho
    · obtain ⟨-, hd, rfl⟩ := name_inj (by simp) (by simp) hy hx hname
      obtain rfl := same c hc hd
      exact ⟨hk, rfl⟩
    · exact absurd (name_inj (by simp) (by simp) hy hx hname).1 (by decide)
  have hE : ∀ o ∈ recyclingOutputs m fl channels (inputsOf st), o.1 = "E" ++ ch.dest ++ x →
      (kind m fl ch (inputsOf st ch) x).1 = true ∧ o.2 = (kind m fl ch (inputsOf st ch) x).2.2 := by
    intro o ho hname
    obtain ⟨c, hc, ho⟩ := List.mem_flatMap.1 ho
    obtain ⟨y, hy, hk, rfl | rfl⟩ := mem_outputs.1 ho
    · exact absurd (name_inj (by simp) (by simp) hy hx hname).1 (by decide)
    · obtain ⟨-, hd, rfl⟩ := name_inj (by simp) (by simp) hy hx hname
      obtain rfl := same c hc hd
      exact ⟨hk, rfl⟩
  by_cases hk : (kind m fl ch (inputsOf st ch) x).1 = true
  · rw [if_pos hk, if_pos hk]
    exact ⟨savedAt_unique (List.mem_flatMap.2 ⟨ch, hch, mem_outputs.2 ⟨x, hx, hk, Or.inl rfl⟩⟩) (fun o ho h => (hS o ho h).2) j,
      savedAt_unique (List.mem_flatMap.2 ⟨ch, hch, mem_outputs.2 ⟨x, hx, hk, Or.inr rfl⟩⟩) (fun o ho h => (hE o ho h).2) j⟩
  · rw [if_neg hk, if_neg hk]
    exact ⟨savedAt_absent (fun o ho h => hk (hS o ho h).1) j, savedAt_absent (fun o ho h => hk (hE o ho h).1) j⟩

/-- **C74, recycling.**  If no two channels recycle into the same species, the saved sources of particles and energy by recycling at the
targets, at the walls and at pumps add up to what the species was given. -/
theorem recycling_diagnostics {m : RMesh ι} (hm : MeshOk m.toYMesh) (hsol : m.sol.Nodup) (hpfr : m.pfr.Nodup) {fl : RecycleFlags}
    {channels : List RecycleChannel} (hn : (channels.map (·.dest)).Nodup) {mem mem' : RecycleMem ι} {st st' : Store Key (Value ι)}
    (hf : ∀ ch ∈ channels, HasFlows fl st ch) (h : recycling m fl channels mem st = (.ok mem', st')) {ch : RecycleChannel} (hch : ch ∈ channels) (j : ι) :
    let outs := recyclingOutputs m fl channels (inputsOf st)
    added st st' ch.dest .density_source j = savedAt outs ("S" ++ ch.dest ++ "_target_recycle") j
      + savedAt outs ("S" ++ ch.dest ++ "_wall_recycle") j + savedAt outs ("S" ++ ch.dest ++ "_pump") j ∧
    added st st' ch.dest .energy_source j = savedAt outs ("E" ++ ch.dest ++ "_target_recycle") j
      + savedAt outs ("E" ++ ch.dest ++ "_wall_recycle") j + savedAt outs ("E" ++ ch.dest ++ "_pump") j := by
  intro outs
  obtain ⟨a, b, -⟩ := recycling_sources hm hsol hpfr hf h
  obtain ⟨p1, p2⟩ := parts hm hsol hpfr fl st ch j
  have pick : ∀ g : RecycleChannel → ℝ, (channels.map fun c => if c.dest = ch.dest then g c else 0).sum = g ch := by
    intro g
    clear a b h hf p1 p2 outs
    induction channels with
    | nil => cases hch
    | cons c l ih =>
      rw [List.map_cons, List.nodup_cons] at hn
      rw [List.map_cons, List.sum_cons]
      rcases List.mem_cons.1 hch with rfl | hch'
      · rw [if_pos rfl]
        have : ∀ c' ∈ l, (if c'.dest = ch.dest then g c' else 0) = 0 := by
          intro c' hc'
          exact if_neg fun e => hn.1 (List.mem_map.2 ⟨c', hc', e⟩)
        rw [List.map_congr_left this]
        simp
      · rw [if_neg (fun e => hn.1 (List.mem_map.2 ⟨ch, hch', e.symm⟩)), ih hn.2 hch', zero_add]
  unfold added
  rw [a, b, pick (fun c => gainD m fl st c j), pick (fun c => gainE m fl st c j), p1, p2]
  obtain ⟨s1, e1⟩ := savedAt_recycling (m := m) (fl := fl) hn st hch (x := "_target_recycle") (by simp) j
  obtain ⟨s2, e2⟩ := savedAt_recycling (m := m) (fl := fl) hn st hch (x := "_wall_recycle") (by simp) j
  obtain ⟨s3, e3⟩ := savedAt_recycling (m := m) (fl := fl) hn st hch (x := "_pump") (by simp) j
  have k1 : kind m fl ch (inputsOf st ch) "_target_recycle" = (fl.target_recycle, recycleTargetDiag m ch (inputsOf st ch)) := if_pos rfl
  have k2 : kind m fl ch (inputsOf st ch) "_wall_recycle" = (fl.sol_recycle || fl.pfr_recycle, recycleEdgeDiag m fl ch (inputsOf st ch) false) := by
    unfold kind; rw [if_neg (by decide), if_pos rfl]
  have k3 : kind m fl ch (inputsOf st ch) "_pump" = (fl.neutral_pump, recycleEdgeDiag m fl ch (inputsOf st ch) true) := by
    unfold kind; rw [if_neg (by decide), if_neg (by decide)]
  rw [k1] at s1 e1
  rw [k2] at s2 e2
  rw [k3] at s3 e3
  simp only [outs, s1, s2, s3, e1, e2, e3]
  constructor <;> ring

end

/-! ## The hypotheses can be met, and where the diagnostics do not tell the whole -/

/-- Normalisations are one. -/
noncomputable def unitParams : Params := ⟨⟨1, 1, 1⟩, 1, fun _ _ _ => 1, fun _ _ _ => 1, fun _ => 1, fun _ => 1, false⟩

/-- A gas at rest in a plasma whose other species move with velocity one. -/
noncomputable def wind : World (Fin 1) := plasma (fun _ => 1) (fun _ => 1) (fun _ => 1) fun s => if s = "h" ∨ s = "d" ∨ s = "t" then 0 else 1

/-- The hypotheses of the reaction diagnostics are met. -/
example (c : Char) (hc : c ∈ ['h', 'd', 't']) : SourcesUnread wind.st ∧
    (∃ r, electronReaction ⟨1, 1, 1⟩ (fun _ _ => 1) (fun _ _ => 1) 0 1 1 "e" (atomName c) (ionName c) wind = .ok r) ∧
    (∃ r, electronReaction ⟨1, 1, 1⟩ (fun _ _ => 1) (fun _ _ => 1) 13.6 1 1 "e" (ionName c) (atomName c) wind = .ok r) ∧
    ∀ d ∈ ['h', 'd', 't'], ∃ r, chargeExchange ⟨1, 1, 1⟩ 1 false (atomName c) (ionName d) (atomName d) (ionName c) wind = .ok r := by
  have e : ∀ c ∈ ['h', 'd', 't'], nucleus (atomName c) = nucleus (ionName c) := by decide +kernel
  exact ⟨plasma_unread _ _ _ _, plasma_electron unitParams (.hydIonisation c) 0 _ _ _ _ (e c hc),
    plasma_electron unitParams (.hydRecombination c) 13.6 _ _ _ _ (e c hc).symm,
    fun d hd => plasma_cx unitParams 1 false _ _ _ _ (e c hc).symm (e d hd)⟩

/-- Negation: `Edd+_cx` is not the source of energy of the atoms ("d/dt(3/2 P) = ... + E" in `include/hydrogen_charge_exchange.hxx`).  Where ions blow
through a gas at the same temperature the diagnostic is zero, but both species are heated. -/
theorem cx_energy_diagnostic_incomplete : ∃ (r : ChargeExchange (Fin 1)) (E : Fld (Fin 1)),
    chargeExchange ⟨1, 1, 1⟩ 1 false (atomName 'd') (ionName 'd') (atomName 'd') (ionName 'd') wind = .ok r ∧
    saved (cxOutputs 'd' 'd' r) (String.ofList ['E', 'd', 'd', '+', '_', 'c', 'x']) = some E ∧ E 0 = 0 ∧
    let t := (cx ⟨1, 1, 1⟩ 1 false (atomName 'd') (ionName 'd') (atomName 'd') (ionName 'd')).transform wind
    0 < gain wind.st t.2 (atomName 'd') .energy_source 0 ∧ 0 < gain wind.st t.2 (ionName 'd') .energy_source 0 := by
  have e : nucleus (atomName 'd') = nucleus (ionName 'd') := by decide +kernel
  obtain ⟨r, hr⟩ := plasma_cx unitParams 1 false (fun _ => 1) (fun _ => 1) (fun _ => 1) (fun s => if s = "h" ∨ s = "d" ∨ s = "t" then 0 else 1) e.symm e
  obtain ⟨-, s2, -⟩ := saved_same 'd' r
  refine ⟨r, _, hr, s2, ?_, ?_⟩
  · obtain ⟨Ta, Ti, na, ni, va1, vi1, va2, vi2, Aa, Ai, -, -, -, -, -, -, -, -, -, -, rfl, -, hTa, hTi⟩ := chargeExchange_ok hr
    obtain rfl := Option.some.inj hTa
    obtain rfl := Option.some.inj hTi
    simp [chargeExchangeOf]
  · have hR : 0 < r.R 0 := by
      obtain ⟨Ta, Ti, na, ni, va1, vi1, va2, vi2, Aa, Ai, hna, hni, -, -, -, -, -, -, -, -, rfl, -⟩ := chargeExchange_ok hr
      obtain rfl := Option.some.inj hna
      obtain rfl := Option.some.inj hni
      have a1 : unitParams.nm.N = 1 := rfl
      have a2 : unitParams.nm.Freq = 1 := rfl
      simp only [chargeExchangeOf, a1, a2]
      positivity
    obtain ⟨F, E, K, -, t2, -, hg⟩ := cx_diagnostics_same (c := 'd') (by decide) ⟨1, 1, 1⟩ 1 wind r hr (plasma_unread _ _ _ _)
    have hE : E 0 = 0 := by
      rw [t2] at s2
      rw [Option.some.inj s2]
      obtain ⟨Ta, Ti, na, ni, va1, vi1, va2, vi2, Aa, Ai, -, -, -, -, -, -, -, -, -, -, rfl, -, hTa, hTi⟩ := chargeExchange_ok hr
      obtain rfl := Option.some.inj hTa
      obtain rfl := Option.some.inj hTi
      simp [chargeExchangeOf]
    obtain ⟨-, -, -, -, g5, g6, -⟩ := hg 0
    have v1 : velocity wind (atomName 'd') 0 = 0 := by
      show (if atomName 'd' = "h" ∨ atomName 'd' = "d" ∨ atomName 'd' = "t" then (0 : ℝ) else 1) = 0
      exact if_pos (by decide +kernel)
    have v2 : velocity wind (ionName 'd') 0 = 1 := by
      show (if ionName 'd' = "h" ∨ ionName 'd' = "d" ∨ ionName 'd' = "t" then (0 : ℝ) else 1) = 1
      exact if_neg (by decide +kernel)
    have m1 : mass wind (atomName 'd') = 1 := rfl
    have m2 : mass wind (ionName 'd') = 1 := rfl
    refine ⟨lt_of_lt_of_eq ?_ g5.symm, lt_of_lt_of_eq ?_ g6.symm⟩ <;> unfold mixingHeat <;> rw [hE, v1, v2] <;> simp only [m1, m2] <;> linarith

section
open Hermes.Closures Hermes.Sheath Hermes.Recycling

/-- The hypotheses of `recycling_diagnostics` are met: `d+` recycles as `d` and `t+` as `t`. -/
example : ∃ chs : List RecycleChannel, (chs.map (·.dest)).Nodup ∧ chs.length = 2 ∧ (∀ ch ∈ chs, HasFlows ⟨true, true, true, true⟩ (mixture 1 1 1 1 false) ch) ∧
    ∃ r st', recycling (box 1) ⟨true, true, true, true⟩ chs ⟨none, none⟩ (mixture 1 1 1 1 false) = (.ok r, st') := by
  refine ⟨[recycleChannelOf 1 "d+" (full "d" 0 1 targetsOn), recycleChannelOf 1 "t+" (full "t" 0 1 targetsOn)], ?_, rfl, ?_, ?_⟩
  · show ["d", "t"].Nodup
    decide
  · intro ch hch hh
    simp only [List.mem_cons, List.not_mem_nil, or_false] at hch
    rcases hch with rfl | rfl <;> exact ⟨rfl, rfl⟩
  · obtain ⟨r, st', h, -⟩ := recycling_runs (box 1) ⟨true, true, true, true⟩ _ ⟨none, none⟩ _
      (mixture_fit 1 1 1 1 [recycleChannelOf 1 "d+" (full "d" 0 1 targetsOn), recycleChannelOf 1 "t+" (full "t" 0 1 targetsOn)]
        (by simp [recycleChannelOf, full]))
    exact ⟨r, st', h⟩

theorem one_at_target (ch : RecycleChannel) (hm : ch.target_multiplier = 1) (hs : ch.source = "d+" ∨ ch.source = "t+") :
    gainD (box 0) targetsOn (mixture 1 0 0 0 false) ch (1, 4) = 1 := by
  have n1 : ∀ j, fieldOf (mixture 1 0 0 0 false) "d+" .density j = 1 := fun _ => rfl
  have n2 : ∀ j, fieldOf (mixture 1 0 0 0 false) "t+" .density j = 1 := fun _ => rfl
  have v1 : ∀ j, fieldOf (mixture 1 0 0 0 false) "d+" .velocity j = 1 := fun _ => rfl
  have v2 : ∀ j, fieldOf (mixture 1 0 0 0 false) "t+" .velocity j = 1 := fun _ => rfl
  have hl : ¬(((1 : Fin 3), (4 : Fin 6)) ∈ (box 0).lower) := by show ¬_ ∈ [((1 : Fin 3), (1 : Fin 6))]; decide
  have hu : ((1 : Fin 3), (4 : Fin 6)) ∈ (box 0).upper := List.mem_singleton.2 rfl
  unfold gainD
  rw [if_neg (fun hh => hl hh.2), if_pos ⟨rfl, hu⟩, if_neg (fun hh => by cases hh.1), if_neg (fun hh => by cases hh.1)]
  unfold targetD fromTarget targetArea cellVolume face out
  rw [hm]
  rcases hs with hs | hs <;> rw [hs] <;> simp only [n1, n2, v1, v2] <;> norm_num [box]

/-- Negation: if two species recycle into the same one (`d+` and `t+`, both as `d`), the diagnostics of the first are overwritten by those of the
second.  The species gains 2 per unit of time in the cell at the upper target, the file says 1. -/
theorem shared_destination_overwrites :
    let chs := [recycleChannelOf 1 "d+" (full "d" 0 1 targetsOn), recycleChannelOf 1 "t+" (full "d" 0 1 targetsOn)]
    let st := mixture 1 0 0 0 false
    ∃ r st', recycling (box 0) targetsOn chs ⟨none, none⟩ st = (.ok r, st') ∧ added st st' "d" .density_source (1, 4) = 2 ∧
      savedAt (recyclingOutputs (box 0) targetsOn chs (inputsOf st)) "Sd_target_recycle" (1, 4) = 1 := by
  intro chs st
  obtain ⟨r, st', h, -⟩ := recycling_runs (box 0) targetsOn chs ⟨none, none⟩ _ (mixture_fit 1 0 0 0 chs (by simp [chs, recycleChannelOf, full]))
  refine ⟨r, st', h, ?_, ?_⟩
  · obtain ⟨a, -, -⟩ := recycling_sources (box_ok 0) (box_edge 0).1 (box_edge 0).2 (fun ch hch hh => by rcases hh with hh | hh <;> cases hh) h
    have d1 : ∀ s, (recycleChannelOf 1 s (full "d" 0 1 targetsOn)).dest = "d" := fun _ => rfl
    unfold added
    rw [a]
    simp only [chs, List.map_cons, List.map_nil, List.sum_cons, List.sum_nil, d1, if_true]
    rw [one_at_target _ rfl (Or.inl rfl), one_at_target _ rfl (Or.inr rfl)]
    simp only [st]
    ring
  · have hs : saved (recyclingOutputs (box 0) targetsOn chs (inputsOf st)) "Sd_target_recycle"
        = some (recycleTargetDiag (box 0) (recycleChannelOf 1 "t+" (full "d" 0 1 targetsOn)) (inputsOf st (recycleChannelOf 1 "t+" (full "d" 0 1 targetsOn)))).1 := by
      rfl
    unfold savedAt
    rw [hs]
    have k := (parts (box_ok 0) (box_edge 0).1 (box_edge 0).2 targetsOn st (recycleChannelOf 1 "t+" (full "d" 0 1 targetsOn)) (1, 4)).1
    rw [one_at_target _ rfl (Or.inr rfl)] at k
    simpa [targetsOn] using k.symm
end

end Hermes.Diagnostics
