import Verif.Model.Radiation
import Verif.Lemmas.Contrib
import Verif.Props.Limiters

/-!
# Fixed-fraction radiation (C31)
-/

set_option linter.unusedSectionVars false

namespace Hermes.Radiation
open Hermes.Closures Hermes.Cooling Hermes.Limiters

/-! ## The cooling curves -/

theorem hutchinson_nonneg (T : ℝ) : 0 ≤ hutchinsonCarbon T := by
  unfold hutchinsonCarbon
  split
  · exact le_refl _
  · rename_i h
    push Not at h
    have : 0 ≤ T / 10 := by positivity
    positivity

theorem lin_nonneg {a b x y T : ℝ} (ha : 0 ≤ a) (hb : 0 ≤ b) (hx : x ≤ T) (hy : T < y) :
    0 ≤ (a * (y - T) + b * (T - x)) / (y - x) := by
  have h1 : 0 ≤ y - T := by linarith
  have h2 : 0 ≤ T - x := by linarith
  have h3 : 0 ≤ y - x := by linarith
  positivity

/-- **C31.**  Every cooling curve that is provided is non-negative at every temperature, in or out of its range. -/
theorem curves_nonneg : ∀ c ∈ registered, ∀ T, 0 ≤ c.2 T := by
  have adas : ∀ (p q : Prop) [Decidable p] [Decidable q] (x a b : ℝ), 0 ≤ a → 0 ≤ b →
      0 ≤ if p then Real.exp x else if q then a else b := by
    intro p q _ _ x a b ha hb
    split
    · exact (Real.exp_pos _).le
    · split <;> assumption
  intro c hc T
  unfold registered at hc
  simp only [List.mem_cons, List.not_mem_nil, or_false] at hc
  rcases hc with rfl | rfl | rfl | rfl | rfl | rfl | rfl | rfl | rfl | rfl | rfl
  · exact hutchinson_nonneg T
  · exact adas _ _ _ _ _ (by norm_num) (by norm_num)
  · exact adas _ _ _ _ _ (by norm_num) (by norm_num)
  · exact adas _ _ _ _ _ (by norm_num) (by norm_num)
  · exact adas _ _ _ _ _ (by norm_num) (by norm_num)
  · show 0 ≤ argon_simplified1 T
    unfold argon_simplified1
    split_ifs
    · exact le_refl _
    all_goals first | (exact lin_nonneg (by norm_num) (by norm_num) (by tauto) (by tauto)) | norm_num
  · show 0 ≤ argon_simplified2 T
    unfold argon_simplified2
    split_ifs
    · exact le_refl _
    all_goals first | (exact lin_nonneg (by norm_num) (by norm_num) (by tauto) (by tauto)) | norm_num
  · show 0 ≤ argon_simplified3 T
    unfold argon_simplified3
    split_ifs
    · exact le_refl _
    all_goals first | (exact lin_nonneg (by norm_num) (by norm_num) (by tauto) (by tauto)) | norm_num
  · exact adas _ _ _ _ _ (by norm_num) (by norm_num)
  · exact adas _ _ _ _ _ (by norm_num) (by norm_num)
  · exact adas _ _ _ _ _ (by norm_num) (by norm_num)

/-! ## Specification -/

variable {ι : Type} [DecidableEq ι]

/-- Power radiated per volume (normalised) by impurities of density `fraction * n` in electrons of density `n` and
temperature `T`; nothing where density or temperature are negative. -/
noncomputable def radiates (o : RadOpts) (L : ℝ → ℝ) (n T : ℝ) : ℝ :=
  if 0 ≤ n ∧ 0 ≤ T then
    n * (o.fraction * n) * L (T * o.Tnorm) * o.radiation_multiplier * (o.Nnorm / (o.qe * o.Tnorm * o.FreqNorm))
  else 0

/-- Settings in their normal ranges. -/
structure Normal (o : RadOpts) : Prop where
  fraction : 0 ≤ o.fraction
  multiplier : 0 ≤ o.radiation_multiplier
  Tnorm : 0 < o.Tnorm
  Nnorm : 0 < o.Nnorm
  FreqNorm : 0 < o.FreqNorm
  qe : 0 < o.qe

/-- Mean of `F n T` over the cell `i`, by Simpson's rule with limited values at the two ends of the cell. -/
noncomputable def cellMean (m : RadMesh ι) (F : ℝ → ℝ → ℝ) (n T : Fld ι) (i : ι) : ℝ :=
  4 / 6 * F (n i) (T i)
  + (m.J i + m.J (m.ym i)) / (12 * m.J i) *
      F (m.lim (n (m.ym i)) (n i) (n (m.yp i))).1 (m.lim (T (m.ym i)) (T i) (T (m.yp i))).1
  + (m.J i + m.J (m.yp i)) / (12 * m.J i) *
      F (m.lim (n (m.ym i)) (n i) (n (m.yp i))).2 (m.lim (T (m.ym i)) (T i) (T (m.yp i))).2

theorem radIntegrand_eq (o : RadOpts) (L : ℝ → ℝ) (n T : ℝ) : radIntegrand o L n T = radiates o L n T := by
  unfold radIntegrand radiates
  by_cases h : n < 0 ∨ T < 0
  · rw [if_pos h, if_neg]
    rintro ⟨a, b⟩
    rcases h with h | h <;> linarith
  · rw [if_neg h, if_pos]
    · ring
    · push Not at h; exact h

theorem foldl_zero {core : List ι} {f : Fld ι} (j : ι) :
    (core.foldl (fun f i => Function.update f i 0) f) j = if j ∈ core then 0 else f j := by
  induction core generalizing f with
  | nil => rfl
  | cons a l ih =>
    rw [List.foldl_cons, ih]
    by_cases h1 : j ∈ l
    · rw [if_pos h1, if_pos (List.mem_cons_of_mem _ h1)]
    · rw [if_neg h1]
      by_cases h2 : j = a
      · subst h2; rw [Function.update_self, if_pos List.mem_cons_self]
      · rw [Function.update_of_ne h2, if_neg]
        rw [List.mem_cons]; tauto

theorem radiationOf_eq (o : RadOpts) (m : RadMesh ι) (L : ℝ → ℝ) (n T : Fld ι) (j : ι) :
    radiationOf o m L n T j = if o.no_core_radiation = true ∧ j ∈ m.core then 0 else cellMean m (radiates o L) n T j := by
  unfold radiationOf
  have e : ∀ j, cellAverage m.lim (fun x : Fin 2 → ℝ => radIntegrand o L (x 0) (x 1)) ![n j, T j] ![n (m.ym j), T (m.ym j)]
      ![n (m.yp j), T (m.yp j)] (m.J j) (m.J (m.ym j)) (m.J (m.yp j)) = cellMean m (radiates o L) n T j := by
    intro j
    unfold cellAverage cellMean
    simp only [radIntegrand_eq]
    rfl
  by_cases hc : o.no_core_radiation = true
  · simp only [hc, if_true, true_and, foldl_zero, e]
  · simp only [hc, false_and, if_false, e, Bool.false_eq_true]

/-- What the component does to the state. -/
theorem radiation_ok {o : RadOpts} {m : RadMesh ι} {L : ℝ → ℝ} {st st' : Store Key (Value ι)}
    (h : fixedFractionRadiation o m L st = (.ok (), st')) :
    (∀ j, fieldOf st' "e" .energy_source j = fieldOf st "e" .energy_source j
      - if o.no_core_radiation = true ∧ j ∈ m.core then 0
        else cellMean m (radiates o L) (fieldOf st "e" .density) (fieldOf st "e" .temperature) j) ∧
    ∀ k, k ≠ .sp "e" .energy_source → vals st' k = vals st k := by
  unfold fixedFractionRadiation at h
  obtain ⟨s1, e1, h⟩ := getNoBndryF_bind h
  obtain ⟨s2, e2, h⟩ := getNoBndryF_bind h
  rw [e1] at e2
  obtain ⟨a, b⟩ := sub_field_ok h
  refine ⟨fun j => ?_, fun k hk => by rw [b k hk, e2]⟩
  rw [a, radiationOf_eq, fieldOf_congr (st := st) (v := .energy_source) (by rw [e2]), fieldOf_congr (st := st) (v := .temperature) (by rw [e1])]

theorem radiates_nonneg {o : RadOpts} {L : ℝ → ℝ} (ho : Normal o) (hL : ∀ T, 0 ≤ L T) (n T : ℝ) : 0 ≤ radiates o L n T := by
  unfold radiates
  split
  · rename_i h
    obtain ⟨h1, -⟩ := h
    have := ho.fraction; have := ho.multiplier; have := ho.Tnorm; have := ho.Nnorm; have := ho.FreqNorm; have := ho.qe
    have := hL (T * o.Tnorm)
    positivity
  · exact le_refl _

theorem cellMean_nonneg {m : RadMesh ι} {F : ℝ → ℝ → ℝ} (hF : ∀ n T, 0 ≤ F n T) (hJ : ∀ i, 0 < m.J i) (n T : Fld ι) (i : ι) :
    0 ≤ cellMean m F n T i := by
  unfold cellMean
  have h1 := hF (n i) (T i)
  have h2 := hF (m.lim (n (m.ym i)) (n i) (n (m.yp i))).1 (m.lim (T (m.ym i)) (T i) (T (m.yp i))).1
  have h3 := hF (m.lim (n (m.ym i)) (n i) (n (m.yp i))).2 (m.lim (T (m.ym i)) (T i) (T (m.yp i))).2
  have := hJ i; have := hJ (m.ym i); have := hJ (m.yp i)
  positivity

/-- **C31.**  For every component that is provided, and for all densities and temperatures (negative ones included), the
electron energy source decreases by the radiated power, which is non-negative and zero in the core if core radiation is
disabled; nothing else changes. -/
theorem radiation_only_cools {o : RadOpts} {m : RadMesh ι} {name : String} {L : ℝ → ℝ} (hc : (name, L) ∈ registered)
    (ho : Normal o) (hJ : ∀ i, 0 < m.J i) {st st' : Store Key (Value ι)}
    (h : fixedFractionRadiation o m L st = (.ok (), st')) :
    ∃ R : Fld ι, (∀ j, fieldOf st' "e" .energy_source j = fieldOf st "e" .energy_source j - R j) ∧ (∀ j, 0 ≤ R j) ∧
      (o.no_core_radiation = true → ∀ j ∈ m.core, R j = 0) ∧
      (∀ j, ¬(o.no_core_radiation = true ∧ j ∈ m.core) →
        R j = cellMean m (radiates o L) (fieldOf st "e" .density) (fieldOf st "e" .temperature) j) ∧
      ∀ k, k ≠ .sp "e" .energy_source → vals st' k = vals st k := by
  obtain ⟨a, b⟩ := radiation_ok h
  refine ⟨_, a, fun j => ?_, fun hn j hj => ?_, fun j hj => ?_, b⟩
  · split
    · exact le_refl _
    · exact cellMean_nonneg (radiates_nonneg ho (curves_nonneg _ hc)) hJ _ _ _
  · rw [if_pos ⟨hn, hj⟩]
  · rw [if_neg hj]

/-- **C31.**  In a uniform plasma (the cell and its two neighbours) with a Jacobian that changes linearly the radiated power is
that of the density and temperature in the cell. -/
theorem radiation_uniform {o : RadOpts} {m : RadMesh ι} {L : ℝ → ℝ} (hl : MonotoneLim m.lim) {n T : Fld ι} {i : ι}
    (h1 : n (m.ym i) = n i) (h2 : n (m.yp i) = n i) (h3 : T (m.ym i) = T i) (h4 : T (m.yp i) = T i) (hJ : m.J i ≠ 0)
    (hlin : m.J (m.ym i) + m.J (m.yp i) = 2 * m.J i) : cellMean m (radiates o L) n T i = radiates o L (n i) (T i) := by
  have key : ∀ x, m.lim x x x = (x, x) := fun x => by
    have := hl.extremum x x x (Or.inl ⟨le_refl _, le_refl _⟩)
    exact Prod.ext this.1 this.2
  unfold cellMean
  rw [h1, h2, h3, h4, key, key]
  have hp : m.J (m.yp i) = 2 * m.J i - m.J (m.ym i) := by linarith
  rw [hp]
  field_simp
  ring

/-- **C31.**  An empty cell (between cells of non-negative density) radiates nothing. -/
theorem radiation_empty_cell {o : RadOpts} {m : RadMesh ι} {L : ℝ → ℝ} (hl : MonotoneLim m.lim) {n T : Fld ι} {i : ι}
    (h0 : n i = 0) (h1 : 0 ≤ n (m.ym i)) (h2 : 0 ≤ n (m.yp i)) : cellMean m (radiates o L) n T i = 0 := by
  have hx := hl.extremum (n (m.ym i)) (n i) (n (m.yp i)) (Or.inr ⟨by rw [h0]; exact h1, by rw [h0]; exact h2⟩)
  have hz : ∀ T, radiates o L 0 T = 0 := by intro T; unfold radiates; split <;> simp
  unfold cellMean
  rw [hx.1, hx.2, h0, hz, hz, hz]
  ring

/-- **C31.**  No impurities, no radiation. -/
theorem no_impurities {o : RadOpts} {m : RadMesh ι} {L : ℝ → ℝ} (hf : o.fraction = 0) {st st' : Store Key (Value ι)}
    (h : fixedFractionRadiation o m L st = (.ok (), st')) (j : ι) :
    fieldOf st' "e" .energy_source j = fieldOf st "e" .energy_source j := by
  have hz : ∀ n T, radiates o L n T = 0 := by intro n T; unfold radiates; rw [hf]; simp
  rw [(radiation_ok h).1]
  unfold cellMean
  simp [hz]

/-! ## Concrete runs -/

section
open Hermes.Runs

/-- What the component reads and sets. -/
def access : Access where
  found k := k = .sp "e" .density ∨ k = .sp "e" .temperature
  own k := k = .sp "e" .energy_source
  edge _ := False
  num _ := False

/-- The component ends normally whenever density and temperature are set and the energy source has not been used. -/
theorem radiation_runs (o : RadOpts) (m : RadMesh ι) (L : ℝ → ℝ) : Runs access (fixedFractionRadiation o m L) := by
  unfold fixedFractionRadiation
  refine Runs.bind (runs_getNB (Or.inl rfl) (by simp [access])) fun _ => ?_
  exact Runs.bind (runs_getNB (Or.inr rfl) (by simp [access])) fun _ => runs_subtract rfl id

/-- The hypotheses are met: a field line with three cells, the last one in the core, carbon, 5 % impurities. -/
example : ∃ (o : RadOpts) (m : RadMesh (Fin 3)) (st st' : Store Key (Value (Fin 3))),
    ("fixed_fraction_carbon", carbon_adas) ∈ registered ∧ Normal o ∧ (∀ i, 0 < m.J i) ∧ m.core = [2] ∧
    fixedFractionRadiation o m carbon_adas st = (.ok (), st') := by
  let o : RadOpts := ⟨0.05, true, 1, 1, 1, 1, 1⟩
  let m : RadMesh (Fin 3) := ⟨fun i => i - 1, fun i => i + 1, fun _ => 1, mc, [2]⟩
  let st : Store Key (Value (Fin 3)) := stateOf fun s x =>
    if s = "e" then match x with
      | .density => some (.field fun _ => 1)
      | .temperature => some (.field fun _ => 10)
      | _ => none
    else none
  obtain ⟨_, st', h, -⟩ := radiation_runs o m carbon_adas st
    ⟨fun k hk => hk.elim, by rintro k (rfl | rfl) <;> rfl, fun k _ => by cases k <;> exact ⟨rfl, rfl⟩, fun k hk => hk.elim⟩
  refine ⟨o, m, st, st', by simp [registered], ⟨?_, ?_, ?_, ?_, ?_, ?_⟩, fun i => one_pos, rfl, h⟩ <;> norm_num [o]

end

end Hermes.Radiation
