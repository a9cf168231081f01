import Verif.Props.Friction
import Verif.Props.Closures

/-!
# C99: the electric field obeys Ohm's law with Spitzer's resistivity

`collisions` gives the electrons their friction (C96); `electron_force_balance` turns it into an electric field (C21).
-/

namespace Hermes.Ohm
open Hermes Hermes.Collisions Hermes.HeatConductivity Hermes.Friction

variable {ι : Type}

/-! ## Specification -/

/-- Current density of electrons and ions, in units of the elementary charge. -/
noncomputable def current (w : World ι) (s : String) (c : ι) : ℝ := charge w s * density w s c * velocity w s c - density w "e" c * velocity w "e" c

/-- As many negative as positive charges. -/
def Neutral (w : World ι) (s : String) (c : ι) : Prop := density w "e" c = charge w s * density w s c

/-- Resistivity along the field with coefficient `α` (0.5129 for charge one) and Coulomb logarithm `Λ`, in the units of the simulation.  It has no density. -/
noncomputable def resistivity (k : CollNorms) (w : World ι) (s : String) (c : ι) (α Λ : ℝ) : ℝ :=
  α * mass w "e" * spitzer k k.Nnorm (charge w s) k.Me (temperature w "e" c * k.Tnorm) (max Λ 1) / (k.Omega_ci * charge w s)

/-- `electron_force_balance` runs in the state `st`, which has the densities and charges of the state `w` before collisions, and no force on the electrons
but the friction. -/
structure Follows (w : World ι) (after : Store Key (Fld ι)) (st : Store Key (Value ι)) (s : String) (c : ι) : Prop where
  electrons : Closures.fieldOf st "e" .density c = density w "e" c
  ions : Closures.fieldOf st s .density c = density w s c
  charges : Closures.realOf st s .charge = charge w s
  force : Closures.fieldOf st "e" .momentum_source c = gain w.st after "e" .momentum_source c

/-! ## Ohm's law -/

theorem electron_charge {gradPar : Fld ι → Fld ι} {names : List String} {st st' : Store Key (Value ι)} {Epar : Fld ι}
    (h : electronForceBalance gradPar names st = (.ok Epar, st')) : Closures.realOf st "e" .charge = -1 := by
  unfold electronForceBalance at h
  obtain ⟨s1, e1, h⟩ := Closures.isSetFinal_bind h
  obtain ⟨-, h⟩ := Closures.throwIf_bind h
  obtain ⟨s2, e2, h⟩ := Closures.getF_bind h
  obtain ⟨s3, e3, h⟩ := Closures.getNoBndryF_bind h
  obtain ⟨s4, e4, h⟩ := Closures.getR_bind h
  obtain ⟨hZ, h⟩ := Closures.throwIf_bind h
  rw [Closures.vals_realOf (e3.trans (e2.trans e1)), not_not] at hZ
  exact hZ

theorem rate_eq {k : CollNorms} {w : World ι} {s : String} {c : ι} (hn : Neutral w s c) (hz : charge w s ≠ 0) (ho : k.Omega_ci ≠ 0) (α Λ : ℝ) :
    α * mass w "e" * rate k w s c Λ = resistivity k w s c α Λ * density w "e" c := by
  unfold rate resistivity spitzer
  rw [hn]
  field_simp

/-- **C99.**  `E = -∇P_e / (e n_e) + η j` with the resistivity of Spitzer and Braginskii: its coefficient is that of Braginskii's table within 2 %, its Coulomb
logarithm that of the NRL formulary within 0.1 (and at least 1).  The work of the friction is `η j²`. -/
theorem ohms_law {k : CollNorms} (hk : Physical k) {o : CollOpts} (ho : o.electron_ion = true) (hm : o.ei_multiplier = 1) {w : World ι}
    {s : String} {c : ι} (hw : Ions k w s c) (hn : Neutral w s c) {Z : ℕ} (hZ : charge w s = Z) (h1 : 1 ≤ Z) (h4 : Z ≤ 4) (hu : SourcesUnread w.st)
    {after : Store Key (Fld ι)} (h : SourceComponent.transform (collisions k o ["e", s]) w = (.ok (), after))
    {gradPar : Fld ι → Fld ι} {names : List String} (hnd : names.Nodup) {st st' : Store Key (Value ι)} {Epar : Fld ι}
    (hf : Follows w after st s c) (hd : 1e-5 ≤ density w "e" c) (hE : electronForceBalance gradPar names st = (.ok Epar, st')) :
    ∃ α Λ, |α - table Z| ≤ 0.02 * table Z ∧ |Λ - nrlEI Z (temperature w "e" c * k.Tnorm) (density w "e" c * k.Nnorm)| ≤ 0.1 ∧
      Epar c = - gradPar (Closures.fieldOf st "e" .pressure) c / density w "e" c + resistivity k w s c α Λ * current w s c ∧
      (velocity w s c - velocity w "e" c) * gain w.st after "e" .momentum_source c = resistivity k w s c α Λ * current w s c ^ 2 ∧
      0 < resistivity k w s c α Λ := by
  obtain ⟨Λ, hΛ, hr, α, hα, e, -⟩ := friction_braginskii hk ho hm hw hZ h1 h4 hu h
  obtain ⟨b, -⟩ := Closures.electron_force_balance gradPar names hnd st st' Epar hE
  have hb := b c (by rw [hf.electrons]; exact hd)
  have d0 : 0 < density w "e" c := lt_of_lt_of_le (by norm_num) hd
  have r := rate_eq hn hw.positive.ne' hk.Omega_ci.ne' (k := k) α Λ
  have j : current w s c = density w "e" c * (velocity w s c - velocity w "e" c) := by
    unfold current
    rw [← show density w "e" c = charge w s * density w s c from hn]
    ring
  have e' : gain w.st after "e" Var.momentum_source c = resistivity k w s c α Λ * density w "e" c * current w s c := by
    rw [e, ← r, j]
    ring
  have t0 : 0 < table Z := by
    have : Z = 1 ∨ Z = 2 ∨ Z = 3 ∨ Z = 4 := by omega
    rcases this with rfl | rfl | rfl | rfl <;> norm_num [table]
  have a0 : 0 < α := by
    have := (abs_le.1 hα).1
    linarith
  refine ⟨α, Λ, hα, hΛ, ?_, ?_, ?_⟩
  · unfold Closures.chargeDensity at hb
    rw [electron_charge hE, hf.electrons, hf.force, e'] at hb
    field_simp
    linarith
  · rw [e', j]
    ring
  · have := mul_pos (mul_pos a0 hw.light.1) hr
    rw [r] at this
    exact (mul_pos_iff_of_pos_right d0).1 this

/-- **C99.**  The friction does not push the plasma: what the ions get from friction and from the electric field is `-∇P_e`. -/
theorem friction_balanced {k : CollNorms} {o : CollOpts} {w : World ι} {s : String} {c : ι} (hs : s ≠ "e") (hn : Neutral w s c) (hu : SourcesUnread w.st)
    {after : Store Key (Fld ι)} (h : SourceComponent.transform (collisions k o ["e", s]) w = (.ok (), after))
    {gradPar : Fld ι → Fld ι} {names : List String} (hnd : names.Nodup) (hmem : s ∈ names) {st st' : Store Key (Value ι)} {Epar : Fld ι}
    (hf : Follows w after st s c) (hd : 1e-5 ≤ density w "e" c) (hE : electronForceBalance gradPar names st = (.ok Epar, st')) :
    gain w.st after s .momentum_source c + Closures.added st st' s .momentum_source c = - gradPar (Closures.fieldOf st "e" .pressure) c := by
  have cons := (momentum_conserved k o ["e", s] (by simp [hs.symm]) w hu after h).1 c
  obtain ⟨b, a, -⟩ := Closures.electron_force_balance gradPar names hnd st st' Epar hE
  have hb := b c (by rw [hf.electrons]; exact hd)
  have ha := a s (List.mem_filter.2 ⟨hmem, by simpa using hs⟩) c
  unfold Closures.chargeDensity at hb ha
  rw [hf.charges, hf.ions] at ha
  rw [electron_charge hE, hf.electrons, hf.force] at hb
  rw [ha, ← show density w "e" c = charge w s * density w s c from hn]
  simp at cons
  linarith

/-- **C99.**  In SI units the resistivity is `α m_e / (e² n_e τ_e)` for every density `n` of the ions, with `1/τ_e` of Braginskii.  The electric field is in
units of `Tnorm / rho_s0`, the current in units of `e Nnorm Cs0`. -/
theorem resistivity_SI {k : CollNorms} (hk : Physical k) {w : World ι} {s : String} {c : ι} (hz : 0 < charge w s) {Cs0 rho_s0 : ℝ} (hc : 0 < Cs0)
    (h1 : k.qe * k.Tnorm = k.Mp * Cs0 ^ 2) (h2 : rho_s0 = Cs0 / k.Omega_ci) (hN : 0 < k.Nnorm) (α Λ : ℝ) {n : ℝ} (hn : 0 < n) :
    resistivity k w s c α Λ * (k.Tnorm / rho_s0) / (k.qe * k.Nnorm * Cs0) =
      α * (mass w "e" * k.Mp) * spitzer k n (charge w s) k.Me (temperature w "e" c * k.Tnorm) (max Λ 1) / (k.qe ^ 2 * (charge w s * n)) := by
  have q := hk.qe
  have om := hk.Omega_ci
  have e : spitzer k n (charge w s) k.Me (temperature w "e" c * k.Tnorm) (max Λ 1) =
      n / k.Nnorm * spitzer k k.Nnorm (charge w s) k.Me (temperature w "e" c * k.Tnorm) (max Λ 1) := by
    unfold spitzer
    field_simp
  have t : k.Tnorm = k.Mp * Cs0 ^ 2 / k.qe := by
    rw [← h1]
    field_simp
  rw [e]
  unfold resistivity
  generalize spitzer k k.Nnorm (charge w s) k.Me (temperature w "e" c * k.Tnorm) (max Λ 1) = S
  rw [t, h2]
  field_simp

/-! ## Non-vacuity -/

/-- The state after collisions of carbon ions of charge one with drifting electrons, for `electron_force_balance`: densities 1, electron pressure 3. -/
noncomputable def settled (friction : ℝ) : Store Key (Value Unit) := Closures.stateOf fun n v =>
  if n = "e" then
    match v with
    | .charge => some (.real (-1))
    | .density => some (.field fun _ => 1)
    | .pressure => some (.field fun _ => 3)
    | .momentum_source => some (.field fun _ => friction)
    | _ => none
  else if n = "c" then
    match v with
    | .charge => some (.real 1)
    | .density => some (.field fun _ => 1)
    | _ => none
  else none

/-- The hypotheses are met by a plasma that carries a current. -/
example (o : CollOpts) : ∃ after st' E, SourceComponent.transform (collisions si o ["e", "c"]) (drifting 1) = (.ok (), after) ∧
    Follows (drifting 1) after (settled (gain (drifting 1).st after "e" .momentum_source ())) "c" () ∧ Neutral (drifting 1) "c" () ∧
    electronForceBalance id ["c", "e"] (settled (gain (drifting 1).st after "e" .momentum_source ())) = (.ok E, st') ∧
    current (drifting 1) "c" () = -1 ∧ 1e-5 ≤ density (drifting 1) "e" () := by
  have N : ∀ s, density (drifting 1) s () = 1 := fun s => by simp [density, drifting, Collisions.gas]
  have Z : charge (drifting 1) "c" = 1 := by simp [charge, drifting, Collisions.gas]
  have V1 : velocity (drifting 1) "e" () = 1 := by simp [velocity, drifting, Collisions.gas]
  have V2 : velocity (drifting 1) "c" () = 0 := by simp [velocity, drifting, Collisions.gas]
  have hr : Ready si ["e", "c"] (drifting 1) := by
    refine gas_ready (by norm_num [si]) ?_ ?_ ?_
    · intro s _; split <;> norm_num
    · intro s _; split <;> norm_num
    · intro s _ hs y hy
      simp only [hs, if_false] at hy
      cases hy
      norm_num
  obtain ⟨after, h⟩ := collisions_succeed si o _ _ hr gas_unread
  refine ⟨after, _, _, h, ⟨by rw [N]; rfl, by rw [N]; rfl, by rw [Z]; rfl, rfl⟩, by unfold Neutral; rw [N, N, Z]; norm_num,
    Closures.bind_intro rfl (Closures.bind_intro (Closures.throwIf_intro (by simp [settled, Closures.stateOf, Store.markFinal]) _) (Closures.bind_intro rfl (Closures.bind_intro rfl
      (Closures.bind_intro rfl (Closures.bind_intro (Closures.throwIf_intro ?_ _) rfl))))), ?_, ?_⟩
  · rw [not_not]
  · unfold current
    rw [N, N, Z, V1, V2]
    norm_num
  · rw [N]; norm_num

end Hermes.Ohm
