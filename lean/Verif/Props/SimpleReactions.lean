import Verif.Model.SimpleReactions
import Verif.Props.Reactions

/-!
# C58: simple ionisation and SOL-KiT charge exchange
-/

set_option linter.unusedSimpArgs false

namespace Hermes.SimpleReactions
open Hermes.Reactions

variable {ι : Type}

/-- Ionisation as a component. -/
noncomputable def ionise (nm : Norms) (sigmav : ℝ → ℝ) (E : ℝ) : SourceComponent ι := fun w => (ionisation nm sigmav E w).map (·.contribs)

theorem ionisation_ok {nm : Norms} {sigmav : ℝ → ℝ} {E : ℝ} {w : World ι} {r : SimpleIonisation ι} (h : ionisation nm sigmav E w = .ok r) :
    ∃ Nn Tn Vn Ne Te : Fld ι, ∃ A : ℝ, (w.st.ent (.sp "h" .density)).val = some Nn ∧ (w.st.ent (.sp "h" .temperature)).val = some Tn ∧
      (w.st.ent (.sp "h" .velocity)).val = some Vn ∧ (w.st.ent (.sp "e" .density)).val = some Ne ∧
      (w.st.ent (.sp "e" .temperature)).val = some Te ∧ w.num "h" .AA = some A ∧ w.num "h+" .AA = some A ∧
      r = ionisationOf nm sigmav E w Nn Tn Vn Ne Te A := by
  unfold ionisation at h
  obtain ⟨Nn, hNn, h⟩ := bind_ok h
  obtain ⟨Tn, hTn, h⟩ := bind_ok h
  obtain ⟨Vn, hVn, h⟩ := bind_ok h
  obtain ⟨A, hA, h⟩ := bind_ok h
  obtain ⟨Ne, hNe, h⟩ := bind_ok h
  obtain ⟨Te, hTe, h⟩ := bind_ok h
  obtain ⟨A2, hA2, h⟩ := bind_ok h
  obtain ⟨_, hAA, h⟩ := bind_ok h
  refine ⟨Nn, Tn, Vn, Ne, Te, A, field_ok hNn, field_ok hTn, field_ok hVn, field_ok hNe, field_ok hTe, real_ok hA, ?_, (Except.ok.inj h).symm⟩
  rw [assert1_ok hAA]; exact real_ok hA2

/-- **C58.**  Ionisation that does not throw moves `R` atoms per volume and time to the ions, with their momentum `m V R` and their thermal energy
`3/2 T R`, takes `Eionize` per ionisation from the electrons, and does nothing else.  The total energy of the heavy species
falls by the kinetic energy of the relative motion, which is not turned into heat. -/
theorem ionisation_conserves (nm : Norms) (sigmav : ℝ → ℝ) (E : ℝ) (w : World ι) (r : SimpleIonisation ι) (hr : ionisation nm sigmav E w = .ok r)
    (hu : SourcesUnread w.st) :
    let t := (ionise nm sigmav E).transform w
    t.1 = .ok () ∧ OnlyTouches w.st t.2 ["h", "h+", "e"] [Var.density_source, Var.momentum_source, Var.energy_source] ∧
    ∀ i,
      gain w.st t.2 "h" .density_source i = -r.reaction_rate i ∧ gain w.st t.2 "h+" .density_source i = r.reaction_rate i ∧
      gain w.st t.2 "e" .density_source i = 0 ∧
      gain w.st t.2 "h" .momentum_source i = -(r.reaction_rate i * mass w "h" * velocity w "h" i) ∧
      gain w.st t.2 "h+" .momentum_source i = r.reaction_rate i * mass w "h" * velocity w "h" i ∧
      gain w.st t.2 "e" .momentum_source i = 0 ∧
      (∃ T, (w.st.ent (.sp "h" .temperature)).val = some T ∧ gain w.st t.2 "h" .energy_source i = -(r.reaction_rate i * (3 / 2) * T i) ∧
        gain w.st t.2 "h+" .energy_source i = r.reaction_rate i * (3 / 2) * T i) ∧
      gain w.st t.2 "e" .energy_source i = -(E * r.reaction_rate i) ∧
      totalEnergyRate w t.2 "h" i + totalEnergyRate w t.2 "h+" i =
        -(1 / 2 * mass w "h" * r.reaction_rate i * (velocity w "h" i - velocity w "h+" i) ^ 2) := by
  obtain ⟨Nn, Tn, Vn, Ne, Te, A, -, hT, hV, -, -, hA1, hA2, rfl⟩ := ionisation_ok hr
  intro t
  have ht : t = contributeAll (ionisationOf nm sigmav E w Nn Tn Vn Ne Te A).contribs w.st := by
    simp only [t, SourceComponent.transform, ionise, hr, Except.map]
  have hk : KeysIn ["h", "h+", "e"] [Var.density_source, Var.momentum_source, Var.energy_source]
      (ionisationOf nm sigmav E w Nn Tn Vn Ne Te A).contribs := by
    unfold ionisationOf; simp
  obtain ⟨st', h1, h2, h3⟩ := contributeAll_gain _ w.st _ _ hk (by simp) hu
  rw [← ht] at h1
  rw [h1]
  refine ⟨rfl, h2, fun i => ?_⟩
  have hV1 : velocity w "h" i = Vn i := by simp [velocity, hV]
  simp only [totalEnergyRate, h3, mass, hA1, hA2, hV1, Option.getD_some]
  unfold ionisationOf
  dsimp only
  generalize w.avg3 (fun ne nn te => ne * nn * sigmav (te * nm.T) * nm.N / nm.Freq) Ne Nn Te = R
  simp
  refine ⟨⟨Tn, hT, ?_⟩, by ring⟩
  exact Or.inl rfl

/-- **C58.**  Nothing is created: nuclei and momentum are conserved. -/
theorem ionisation_balance (nm : Norms) (sigmav : ℝ → ℝ) (E : ℝ) (w : World ι) (r : SimpleIonisation ι) (hr : ionisation nm sigmav E w = .ok r)
    (hu : SourcesUnread w.st) (i : ι) :
    let t := (ionise nm sigmav E).transform w
    gain w.st t.2 "h" .density_source i + gain w.st t.2 "h+" .density_source i = 0 ∧
    gain w.st t.2 "h" .momentum_source i + gain w.st t.2 "h+" .momentum_source i = 0 ∧
    gain w.st t.2 "h" .energy_source i + gain w.st t.2 "h+" .energy_source i = 0 := by
  obtain ⟨-, -, h⟩ := ionisation_conserves nm sigmav E w r hr hu
  obtain ⟨a, b, -, c, d, -, ⟨T, -, e, f⟩, -⟩ := h i
  dsimp only at *
  rw [a, b, c, d, e, f]
  exact ⟨by ring, by ring, by ring⟩

/-! ## SOL-KiT charge exchange -/

noncomputable def solkit (Nnorm rho_s0 : ℝ) (atom ion : String) : SourceComponent ι := fun w => solkitChargeExchange Nnorm rho_s0 atom ion w

theorem solkit_ok {Nnorm rho_s0 : ℝ} {atom ion : String} {w : World ι} {cs : List (Contrib Key ι)}
    (h : solkitChargeExchange Nnorm rho_s0 atom ion w = .ok cs) :
    ∃ na ni : Fld ι, ∃ A : ℝ, (w.st.ent (.sp atom .density)).val = some na ∧ (w.st.ent (.sp ion .density)).val = some ni ∧
      w.num atom .AA = some A ∧ w.num ion .AA = some A ∧
      cs = [(.sp ion .momentum_source, solkitFriction Nnorm rho_s0 A w na ni (w.velocityOr0 atom) (w.velocityOr0 ion), false),
        (.sp atom .momentum_source, solkitFriction Nnorm rho_s0 A w na ni (w.velocityOr0 atom) (w.velocityOr0 ion), true)] := by
  unfold solkitChargeExchange at h
  obtain ⟨A, hA, h⟩ := bind_ok h
  obtain ⟨A2, hA2, h⟩ := bind_ok h
  obtain ⟨_, hAA, h⟩ := bind_ok h
  obtain ⟨na, hna, h⟩ := bind_ok h
  obtain ⟨ni, hni, h⟩ := bind_ok h
  refine ⟨na, ni, A, field_ok hna, field_ok hni, ?_, real_ok hA, (Except.ok.inj h).symm⟩
  rw [← assert1_ok hAA]; exact real_ok hA2

/-- **C58.**  SOL-KiT charge exchange: the forces on ion and atom are equal and opposite, no particles and no thermal energy are exchanged. -/
theorem solkit_conserves (Nnorm rho_s0 : ℝ) (atom ion : String) (hai : atom ≠ ion) (w : World ι) (cs : List (Contrib Key ι))
    (hr : solkitChargeExchange Nnorm rho_s0 atom ion w = .ok cs) (hu : SourcesUnread w.st) :
    let t := (solkit Nnorm rho_s0 atom ion).transform w
    t.1 = .ok () ∧ OnlyTouches w.st t.2 [atom, ion] [Var.momentum_source] ∧
    ∀ i, gain w.st t.2 atom .momentum_source i + gain w.st t.2 ion .momentum_source i = 0 ∧
      ∃ na ni, (w.st.ent (.sp atom .density)).val = some na ∧ (w.st.ent (.sp ion .density)).val = some ni ∧
      gain w.st t.2 atom .momentum_source i =
        solkitFriction Nnorm rho_s0 (mass w ion) w na ni (w.velocityOr0 atom) (w.velocityOr0 ion) i := by
  obtain ⟨na, ni, A, h1, h2, h3, h4, rfl⟩ := solkit_ok hr
  intro t
  obtain ⟨st', g1, g2, g3⟩ := contributeAll_gain
    [(.sp ion .momentum_source, solkitFriction Nnorm rho_s0 A w na ni (w.velocityOr0 atom) (w.velocityOr0 ion), false),
      (.sp atom .momentum_source, solkitFriction Nnorm rho_s0 A w na ni (w.velocityOr0 atom) (w.velocityOr0 ion), true)]
    w.st [atom, ion] [Var.momentum_source] (by simp) (by simp) hu
  have ht : t = (.ok (), st') := by
    simp only [t, SourceComponent.transform, solkit, hr]
    exact g1
  rw [ht]
  refine ⟨rfl, g2, fun i => ⟨?_, na, ni, h1, h2, ?_⟩⟩
  · rw [g3, g3]
    simp [hai, hai.symm]
  · rw [g3]
    simp [hai, hai.symm, mass, h4]

/-- **C58.**  The force of SOL-KiT charge exchange is a drag.  It vanishes where atoms and ions move together, whatever the profiles.  In a uniform
neighbourhood the force on the atoms is mass × rate × velocity of the ions relative to the atoms, and the rate is the product of both densities, the
speed of the ions and the cross section `3e-19 m²`. -/
theorem solkit_drags (Nnorm rho_s0 : ℝ) (atom ion : String) (hai : atom ≠ ion) (w : World ι) (cs : List (Contrib Key ι))
    (hr : solkitChargeExchange Nnorm rho_s0 atom ion w = .ok cs) (hu : SourcesUnread w.st) :
    let t := (solkit Nnorm rho_s0 atom ion).transform w
    (w.velocityOr0 atom = w.velocityOr0 ion → ∀ i, gain w.st t.2 atom .momentum_source i = 0) ∧
    ∀ (i : ι) (na ni : Fld ι) (n n' v v' : ℝ), (w.st.ent (.sp atom .density)).val = some na → (w.st.ent (.sp ion .density)).val = some ni →
      (∀ c, w.lim c c c = (c, c)) → w.J i ≠ 0 →
      (∀ j ∈ [i, w.ym i, w.yp i], na j = n ∧ ni j = n' ∧ w.velocityOr0 atom j = v ∧ w.velocityOr0 ion j = v' ∧ w.J j = w.J i) → 1e-5 ≤ n → 1e-5 ≤ n' →
      gain w.st t.2 atom .momentum_source i = mass w ion * (n * n' * (3e-19 * |v'|) * (Nnorm * rho_s0)) * (v' - v) := by
  obtain ⟨-, -, h⟩ := solkit_conserves Nnorm rho_s0 atom ion hai w cs hr hu
  intro t
  refine ⟨fun hv i => ?_, fun i na ni n n' v v' hna hni hl hJ hj h1 h2 => ?_⟩
  · obtain ⟨-, na, ni, -, -, e⟩ := h i
    rw [e, hv]
    simp [solkitFriction, World.avg4, cellAverage]
  · obtain ⟨-, na', ni', e1, e2, e⟩ := h i
    rw [hna] at e1
    rw [hni] at e2
    obtain rfl := Option.some.inj e1
    obtain rfl := Option.some.inj e2
    obtain ⟨a1, a2, a3, a4, -⟩ := hj i (by simp)
    obtain ⟨b1, b2, b3, b4, b5⟩ := hj (w.ym i) (by simp)
    obtain ⟨c1, c2, c3, c4, c5⟩ := hj (w.yp i) (by simp)
    rw [e]
    simp only [solkitFriction, World.avg4, cellAverage, a1, a2, a3, a4, b1, b2, b3, b4, b5, c1, c2, c3, c4, c5, max_eq_left h1, max_eq_left h2, hl,
      Matrix.cons_val]
    field_simp
    ring

/-! ## The hypotheses can be met -/

theorem demo_ionisation (nm : Norms) (sigmav : ℝ → ℝ) (E : ℝ) (N T V : String → ℝ) : ∃ r, ionisation nm sigmav E (demo N T V) = .ok r := by
  have hd := demo_reads N T V
  have hm : ∀ s, s ≠ "e" → (demo N T V).real s .AA = .ok 2 := fun s hs => by rw [(hd s).2.2.2.2, if_neg hs]
  exact ⟨_, ok_bind (hd "h").1 (ok_bind (hd "h").2.1 (ok_bind (hd "h").2.2.1 (ok_bind (hm "h" (by decide)) (ok_bind (hd "e").1
    (ok_bind (hd "e").2.1 (ok_bind (hm "h+" (by decide)) (ok_bind (assert1_of rfl) rfl)))))))⟩

theorem demo_solkit (Nnorm rho_s0 : ℝ) (N T V : String → ℝ) : ∃ cs, solkitChargeExchange Nnorm rho_s0 "d" "d+" (demo N T V) = .ok cs := by
  have hd := demo_reads N T V
  have hm : ∀ s, s ≠ "e" → (demo N T V).real s .AA = .ok 2 := fun s hs => by rw [(hd s).2.2.2.2, if_neg hs]
  exact ⟨_, ok_bind (hm "d+" (by decide)) (ok_bind (hm "d" (by decide)) (ok_bind (assert1_of rfl) (ok_bind (hd "d").1
    (ok_bind (hd "d+").1 rfl))))⟩

/-- The hypotheses of the theorems above are met: atoms at rest, moving ions. -/
example : (∃ r, ionisation ⟨1, 1, 1⟩ (fun _ => 1) 1 (demo (fun _ => 1) (fun _ => 1) (fun s => if s = "h+" then 1 else 0)) = .ok r) ∧
    (∃ cs, solkitChargeExchange 1e19 1e-3 "d" "d+" (demo (fun _ => 1) (fun _ => 1) (fun s => if s = "d+" then 1 else 0)) = .ok cs) ∧
    SourcesUnread (demo (fun _ => 1) (fun _ => 1) (fun s => if s = "h+" then 1 else 0)).st :=
  ⟨demo_ionisation _ _ _ _ _ _, demo_solkit _ _ _ _ _, demo_unread _ _ _⟩

/-- Ionisation of atoms at rest in moving ions destroys kinetic energy: it is not turned into heat. -/
theorem ionisation_loses_energy : ∃ (nm : Norms) (w : World (Fin 1)),
    let t := (ionise nm (fun _ => 1) 0).transform w
    t.1 = .ok () ∧ totalEnergyRate w t.2 "h" 0 + totalEnergyRate w t.2 "h+" 0 + totalEnergyRate w t.2 "e" 0 = -4 := by
  obtain ⟨r, hr⟩ := demo_ionisation ⟨1, 1, 1⟩ (fun _ => 1) 0 (fun _ => 1) (fun _ => 1) (fun s => if s = "h+" then 2 else 0)
  obtain ⟨ht, -, h⟩ := ionisation_conserves _ _ _ _ r hr (demo_unread _ _ _)
  refine ⟨⟨1, 1, 1⟩, _, ht, ?_⟩
  obtain ⟨-, -, e1, -, -, e2, -, e3, e4⟩ := h 0
  have hR : r.reaction_rate 0 = 1 := by
    obtain ⟨Nn, Tn, Vn, Ne, Te, A, h1, h2, h3, h4, h5, h6, h7, rfl⟩ := ionisation_ok hr
    unfold ionisationOf
    dsimp only
    rw [demo_avg3]
    have a1 : Nn = fun _ => 1 := (Option.some.inj h1).symm
    have a2 : Ne = fun _ => 1 := (Option.some.inj h4).symm
    rw [a1, a2]
    norm_num
  rw [e4]
  unfold totalEnergyRate
  rw [e1, e2, e3, hR]
  have m1 : mass (demo (fun _ => 1) (fun _ => 1) (fun s => if s = "h+" then 2 else 0)) "h" = 2 := by
    simp [mass, demo]
  have v1 : velocity (demo (fun _ => 1) (fun _ => 1) (fun s => if s = "h+" then 2 else 0)) "h" 0 = 0 := by
    simp [velocity, demo]
  have v2 : velocity (demo (fun _ => 1) (fun _ => 1) (fun s => if s = "h+" then 2 else 0)) "h+" 0 = 2 := by
    simp [velocity, demo]
  rw [m1, v1, v2]
  norm_num

end Hermes.SimpleReactions
