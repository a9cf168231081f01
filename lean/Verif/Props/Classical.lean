import Verif.Model.Transport
import Verif.Lemmas.SpeciesLoop
import Verif.Props.SheathClosure

/-!
# Classical diffusion (C52)
-/

set_option linter.unusedSectionVars false
set_option linter.unusedVariables false

namespace Hermes.ClassicalDiffusion
open Hermes.Closures Hermes.Sheath Hermes.SheathClosure

variable {ι : Type} [DecidableEq ι]

/-! ## Specification -/

/-- The species is charged and has a density. -/
def Diffuses (st : Store Key (Value ι)) (s : String) : Prop :=
  (vals st (.sp s .charge)).isSome ∧ (vals st (.sp s .density)).isSome ∧ 1e-5 ≤ |realOf st s .charge|

/-- Total pressure of the charged species. -/
noncomputable def pressure (names : List String) (st : Store Key (Value ι)) (i : ι) : ℝ :=
  (names.map fun s => if 1e-5 ≤ |realOf st s .charge| then fieldOf st s .pressure i else 0).sum

/-- The diffusion coefficient of all species. -/
noncomputable def coefficient (o : ClassicalOpts ι) (names : List String) (st : Store Key (Value ι)) (i : ι) : ℝ :=
  if o.guards i then 0 else if o.custom_D > 0 then o.custom_D else
    max (pressure names st i) 1e-5 * realOf st "e" .AA * max (fieldOf st "e" .collision_frequency i) 1e-10 /
      (max (fieldOf st "e" .density i) 1e-5 * o.Bsq i)

/-- Energy carried by the diffusing particles of species `s`, and heat conducted. -/
noncomputable def energyGain (o : ClassicalOpts ι) (names : List String) (st : Store Key (Value ι)) (s : String) (i : ι) : ℝ :=
  o.divGradPerp (fun i => coefficient o names st i * (3 / 2) * fieldOf st s .temperature i) (fieldOf st s .density) i +
  if o.custom_D < 0 then o.divGradPerp (fun i => 2 * max (fieldOf st s .pressure i) 1e-5 * max (fieldOf st s .collision_frequency i) 1e-10 *
    realOf st s .AA / o.Bsq i) (fieldOf st s .temperature) i else 0

/-! ## What the component does -/

theorem floorTo_eq (x lo : ℝ) : floorTo x lo = max x lo := by
  unfold floorTo
  split
  · rename_i h; rw [max_eq_right h.le]
  · rename_i h; rw [max_eq_left (not_lt.1 h)]

theorem pressureTerm_ok {a b : Fld ι} {n : String} {st st' : Store Key (Value ι)} (h : classicalPressure a n st = (.ok b, st')) :
    vals st' = vals st ∧ ∀ i, b i = a i + if 1e-5 ≤ |realOf st n .charge| then fieldOf st n .pressure i else 0 := by
  unfold classicalPressure at h
  have h := isSet_bind h
  split at h
  · obtain ⟨s1, e1, h⟩ := isSetFinal_bind h
    split at h
    · obtain ⟨s2, e2, h⟩ := getR_bind h
      rw [e1] at e2
      rw [realOf_congr (st := st) (st' := s1) (by rw [e1])] at h
      split at h
      · rename_i hq
        obtain ⟨rfl, rfl⟩ := pure_ok h
        refine ⟨e2, fun i => ?_⟩
        rw [if_neg (not_le.2 hq), add_zero]
      · rename_i hq
        obtain ⟨s3, e3, h⟩ := getF_bind h
        obtain ⟨rfl, rfl⟩ := pure_ok h
        refine ⟨by rw [e3, e2], fun i => ?_⟩
        rw [if_pos (not_lt.1 hq), fieldOf_congr (st := st) (by rw [e2])]
    · rename_i hp
      obtain ⟨rfl, rfl⟩ := pure_ok h
      rw [Bool.not_eq_true] at hp
      refine ⟨e1, fun i => ?_⟩
      rw [fieldOf_unset hp]
      simp
  · rename_i hc
    obtain ⟨rfl, rfl⟩ := pure_ok h
    rw [Bool.not_eq_true] at hc
    refine ⟨rfl, fun i => ?_⟩
    rw [realOf_unset hc, if_neg (by norm_num), add_zero]

theorem pressure_ok {names : List String} {a b : Fld ι} {st st' : Store Key (Value ι)} (h : names.foldlM classicalPressure a st = (.ok b, st')) :
    vals st' = vals st ∧ ∀ i, b i = a i + pressure names st i := by
  induction names generalizing a st with
  | nil => cases h; exact ⟨rfl, fun i => by simp [pressure]⟩
  | cons n l ih =>
    rw [List.foldlM_cons] at h
    obtain ⟨c, s1, h1, h2⟩ := M_bind_ok h
    obtain ⟨e1, hc⟩ := pressureTerm_ok h1
    obtain ⟨e2, hb⟩ := ih h2
    refine ⟨by rw [e2, e1], fun i => ?_⟩
    rw [hb, hc]
    unfold pressure
    rw [List.map_cons, List.sum_cons, vals_fieldOf e1, vals_realOf e1]
    ring

/-- Values of one species after the sources were added. -/
theorem sources_ok {o : ClassicalOpts ι} {Dn : Fld ι} {n : String} {st st' : Store Key (Value ι)} {u : Unit}
    (h : classicalSources o Dn n st = (.ok u, st')) :
    (∀ i, fieldOf st' n .density_source i = fieldOf st n .density_source i + o.divGradPerp Dn (fieldOf st n .density) i) ∧
    (∀ i, fieldOf st' n .momentum_source i = fieldOf st n .momentum_source i + if (vals st (.sp n .velocity)).isSome then
      o.divGradPerp (fun i => Dn i * realOf st n .AA * fieldOf st n .velocity i) (fieldOf st n .density) i else 0) ∧
    (∀ i, fieldOf st' n .energy_source i = fieldOf st n .energy_source i + if (vals st (.sp n .temperature)).isSome then
      o.divGradPerp (fun i => Dn i * (3 / 2) * fieldOf st n .temperature i) (fieldOf st n .density) i +
      (if o.custom_D < 0 then o.divGradPerp (fun i => 2 * max (fieldOf st n .pressure i) 1e-5 * max (fieldOf st n .collision_frequency i) 1e-10 *
        realOf st n .AA / o.Bsq i) (fieldOf st n .temperature) i else 0) else 0) ∧
    ∀ k, k ≠ .sp n .density_source → k ≠ .sp n .momentum_source → k ≠ .sp n .energy_source → vals st' k = vals st k := by
  unfold classicalSources at h
  obtain ⟨s1, e1, h⟩ := getF_bind h
  obtain ⟨_, s2, h2, h⟩ := M_bind_ok h
  obtain ⟨a1, a2⟩ := add_field_ok h2
  obtain ⟨_, s3, h3, h⟩ := M_bind_ok h
  -- momentum
  have hm : (∀ i, fieldOf s3 n .momentum_source i = fieldOf st n .momentum_source i + if (vals st (.sp n .velocity)).isSome then
      o.divGradPerp (fun i => Dn i * realOf st n .AA * fieldOf st n .velocity i) (fieldOf st n .density) i else 0) ∧
      ∀ k, k ≠ .sp n .momentum_source → vals s3 k = vals s2 k := by
    have k2 : ∀ v, v ≠ .density_source → vals s2 (.sp n v) = vals st (.sp n v) := fun v hv => by
      rw [a2 _ (by intro e; exact hv (Key.sp.inj e).2), e1]
    unfold classicalMomentum at h3
    obtain ⟨t1, f1, h3⟩ := isSetFinal_bind h3
    rw [k2 .velocity (by decide)] at h3
    split at h3 <;> rename_i hset
    · obtain ⟨t2, f2, h3⟩ := getF_bind h3
      obtain ⟨t3, f3, h3⟩ := getR_bind h3
      rw [f1] at f2; rw [f2] at f3
      obtain ⟨b1, b2⟩ := add_field_ok h3
      refine ⟨fun i => ?_, fun k hk => by rw [b2 k hk, f3]⟩
      rw [b1, fieldOf_congr (st := s2) (v := .momentum_source) (by rw [f3]), fieldOf_congr (st := st) (v := .momentum_source) (k2 _ (by decide)),
        fieldOf_congr (st := s2) (v := .velocity) (st' := t1) (by rw [f1]), fieldOf_congr (st := st) (v := .velocity) (k2 _ (by decide)),
        realOf_congr (st := s2) (st' := t2) (by rw [f2]), realOf_congr (st := st) (k2 _ (by decide)), if_pos hset]
    · obtain ⟨-, rfl⟩ := pure_ok h3
      refine ⟨fun i => ?_, fun k hk => by rw [f1]⟩
      rw [fieldOf_congr (st := s2) (by rw [f1]), fieldOf_congr (st := st) (k2 _ (by decide)), if_neg hset, add_zero]
  obtain ⟨m1, m2⟩ := hm
  have k3 : ∀ v, v ≠ .density_source → v ≠ .momentum_source → vals s3 (.sp n v) = vals st (.sp n v) := fun v hv hv' => by
    rw [m2 _ (by intro e; exact hv' (Key.sp.inj e).2), a2 _ (by intro e; exact hv (Key.sp.inj e).2), e1]
  -- energy
  have he : (∀ i, fieldOf st' n .energy_source i = fieldOf st n .energy_source i + if (vals st (.sp n .temperature)).isSome then
      o.divGradPerp (fun i => Dn i * (3 / 2) * fieldOf st n .temperature i) (fieldOf st n .density) i +
      (if o.custom_D < 0 then o.divGradPerp (fun i => 2 * max (fieldOf st n .pressure i) 1e-5 * max (fieldOf st n .collision_frequency i) 1e-10 *
        realOf st n .AA / o.Bsq i) (fieldOf st n .temperature) i else 0) else 0) ∧
      ∀ k, k ≠ .sp n .energy_source → vals st' k = vals s3 k := by
    unfold classicalEnergy at h
    obtain ⟨t1, f1, h⟩ := isSetFinal_bind h
    rw [k3 .temperature (by decide) (by decide)] at h
    split at h <;> rename_i hset
    · obtain ⟨t2, f2, h⟩ := getF_bind h
      rw [f1] at f2
      obtain ⟨_, t3, h3', h⟩ := M_bind_ok h
      obtain ⟨b1, b2⟩ := add_field_ok h3'
      obtain ⟨t4, f4, h⟩ := getF_bind h
      obtain ⟨t5, f5, h⟩ := getR_bind h
      rw [f4] at f5
      have kk : ∀ v, v ≠ .density_source → v ≠ .momentum_source → v ≠ .energy_source → vals t3 (.sp n v) = vals st (.sp n v) := fun v h1 h2 h3 => by
        rw [b2 _ (by intro e; exact h3 (Key.sp.inj e).2), f2, k3 v h1 h2]
      have hT : fieldOf t1 n .temperature = fieldOf st n .temperature := fieldOf_congr (by rw [f1, k3 _ (by decide) (by decide)])
      have hE : fieldOf t2 n .energy_source = fieldOf st n .energy_source := fieldOf_congr (by rw [f2, k3 _ (by decide) (by decide)])
      have hP : fieldOf t3 n .pressure = fieldOf st n .pressure := fieldOf_congr (kk _ (by decide) (by decide) (by decide))
      have hA : realOf t4 n .AA = realOf st n .AA := realOf_congr (by rw [f4, kk _ (by decide) (by decide) (by decide)])
      rw [hT, hP, hA] at h
      rw [hT, hE] at b1
      unfold classicalConduction at h
      split at h
      · rename_i hD
        obtain ⟨t6, f6, h⟩ := getF_bind h
        rw [f5] at f6
        obtain ⟨c1, c2⟩ := add_field_ok h
        refine ⟨fun i => ?_, fun k hk => by rw [c2 k hk, f6, b2 k hk, f2]⟩
        rw [c1, fieldOf_congr (st := t3) (v := .energy_source) (by rw [f6]), b1]
        have hnu : fieldOf t5 n .collision_frequency = fieldOf st n .collision_frequency :=
          fieldOf_congr (by rw [f5, kk _ (by decide) (by decide) (by decide)])
        simp only [hnu, floorTo_eq]
        rw [if_pos hset, if_pos hD, add_assoc]
      · rename_i hD
        obtain ⟨-, rfl⟩ := pure_ok h
        refine ⟨fun i => ?_, fun k hk => by rw [f5, b2 k hk, f2]⟩
        rw [fieldOf_congr (st := t3) (by rw [f5]), b1, if_pos hset, if_neg hD, add_zero]
    · obtain ⟨-, rfl⟩ := pure_ok h
      refine ⟨fun i => ?_, fun k hk => by rw [f1]⟩
      rw [fieldOf_congr (st := s3) (by rw [f1]), fieldOf_congr (st := st) (k3 _ (by decide) (by decide)), if_neg hset, add_zero]
  obtain ⟨g1, g2⟩ := he
  refine ⟨fun i => ?_, fun i => ?_, g1, fun k h1 h2 h3 => ?_⟩
  · rw [fieldOf_congr (st := s3) (g2 _ (by simp)), fieldOf_congr (st := s2) (m2 _ (by simp)), a1, fieldOf_congr (st := st) (v := .density_source) (by rw [e1])]
  · rw [fieldOf_congr (st := s3) (g2 _ (by simp)), m1]
  · rw [g2 k h3, m2 k h2, a2 k h1, e1]

open _root_.Classical in
theorem species_ok {o : ClassicalOpts ι} {Dn : Fld ι} {n : String} {st st' : Store Key (Value ι)} {u : Unit}
    (h : classicalSpecies o Dn n st = (.ok u, st')) :
    (¬ Diffuses st n → vals st' = vals st) ∧ (Diffuses st n → ∃ t, vals t = vals st ∧ classicalSources o Dn n t = (.ok u, st')) := by
  unfold classicalSpecies at h
  have h := isSet_bind h
  unfold Diffuses
  split at h
  · rename_i hc
    obtain ⟨s1, e1, h⟩ := isSetFinal_bind h
    split at h
    · rename_i hd
      obtain ⟨s2, e2, h⟩ := getR_bind h
      rw [e1] at e2
      rw [realOf_congr (st := st) (st' := s1) (by rw [e1])] at h
      split at h
      · rename_i hq
        obtain ⟨-, rfl⟩ := pure_ok h
        exact ⟨fun _ => e2, fun hD => absurd hD.2.2 (not_le.2 hq)⟩
      · rename_i hq
        exact ⟨fun hD => absurd ⟨hc, hd, not_lt.1 hq⟩ hD, fun _ => ⟨s2, e2, h⟩⟩
    · rename_i hd
      obtain ⟨-, rfl⟩ := pure_ok h
      exact ⟨fun _ => e1, fun hD => absurd hD.2.1 hd⟩
  · rename_i hc
    obtain ⟨-, rfl⟩ := pure_ok h
    exact ⟨fun _ => rfl, fun hD => absurd hD.1 hc⟩

open _root_.Classical in
/-- **C52.**  What the component does: all charged species diffuse with one coefficient, and carry momentum and energy with them.  Nothing else
changes. -/
theorem classical_ok {o : ClassicalOpts ι} {names : List String} (hn : names.Nodup) {st st' : Store Key (Value ι)}
    (h : classicalDiffusion o names st = (.ok (), st')) :
    (∀ s i, fieldOf st' s .density_source i = fieldOf st s .density_source i +
      if s ∈ names ∧ Diffuses st s then o.divGradPerp (coefficient o names st) (fieldOf st s .density) i else 0) ∧
    (∀ s i, fieldOf st' s .momentum_source i = fieldOf st s .momentum_source i +
      if s ∈ names ∧ Diffuses st s ∧ (vals st (.sp s .velocity)).isSome then
        o.divGradPerp (fun i => coefficient o names st i * realOf st s .AA * fieldOf st s .velocity i) (fieldOf st s .density) i else 0) ∧
    (∀ s i, fieldOf st' s .energy_source i = fieldOf st s .energy_source i +
      if s ∈ names ∧ Diffuses st s ∧ (vals st (.sp s .temperature)).isSome then energyGain o names st s i else 0) ∧
    ∀ k, (∀ s, k ≠ .sp s .density_source ∧ k ≠ .sp s .momentum_source ∧ k ≠ .sp s .energy_source) → vals st' k = vals st k := by
  unfold classicalDiffusion at h
  obtain ⟨P, s1, h1, h⟩ := M_bind_ok h
  obtain ⟨e1, hP⟩ := pressure_ok h1
  obtain ⟨s2, e2, h⟩ := getR_bind h
  obtain ⟨s3, e3, h⟩ := getF_bind h
  rw [e1] at e2; rw [e2] at e3
  obtain ⟨D, s4, h4, h⟩ := M_bind_ok h
  rw [vals_realOf e1, vals_fieldOf e2] at h4
  have hD : vals s4 = vals st ∧ ∀ i, (if o.guards i then 0 else D i) = coefficient o names st i := by
    unfold classicalD at h4
    unfold coefficient
    split at h4
    · rename_i hc
      obtain ⟨rfl, rfl⟩ := pure_ok h4
      exact ⟨e3, fun i => by rw [if_pos hc]⟩
    · rename_i hc
      obtain ⟨s5, e5, h4⟩ := getF_bind h4
      obtain ⟨rfl, rfl⟩ := pure_ok h4
      refine ⟨by rw [e5, e3], fun i => ?_⟩
      rw [if_neg hc, vals_fieldOf e3]
      simp only [floorTo_eq]
      rw [hP, zero_add]
  obtain ⟨e4, hD⟩ := hD
  have hDn : (fun i => if o.guards i then 0 else D i) = coefficient o names st := funext hD
  simp only [hDn] at h
  have hbody : ∀ n s u s', classicalSpecies o (coefficient o names st) n s = (.ok u, s') → ∀ k, (∀ v, k ≠ .sp n v) → vals s' k = vals s k := by
    intro n s u s' hb k hk
    by_cases hd : Diffuses s n
    · obtain ⟨t, et, ht⟩ := (species_ok hb).2 hd
      rw [(sources_ok ht).2.2.2 k (hk _) (hk _) (hk _), et]
    · rw [(species_ok hb).1 hd]
  obtain ⟨l1, l2⟩ := forM_bodies hbody hn h
  -- one species
  have hone : ∀ s ∈ names, (¬ Diffuses st s → ∀ v, vals st' (.sp s v) = vals st (.sp s v)) ∧
      (Diffuses st s → ∃ t t' u, classicalSources o (coefficient o names st) s t = (.ok u, t') ∧ (∀ v, vals t (.sp s v) = vals st (.sp s v)) ∧
        ∀ v, vals t' (.sp s v) = vals st' (.sp s v)) := by
    intro s hs
    obtain ⟨t, t', u, hb, ht, ht'⟩ := l1 s hs
    have hiff : Diffuses t s ↔ Diffuses st s := by
      unfold Diffuses
      rw [ht, ht, e4, realOf_congr (st := st) (by rw [ht, e4])]
    refine ⟨fun hd v => ?_, fun hd => ?_⟩
    · rw [← ht', (species_ok hb).1 (fun hh => hd (hiff.1 hh)), ht, e4]
    · obtain ⟨t2, et, ht2⟩ := (species_ok hb).2 (hiff.2 hd)
      exact ⟨t2, t', u, ht2, fun v => by rw [et, ht, e4], ht'⟩
  have hout : ∀ s, s ∉ names → ∀ v, vals st' (.sp s v) = vals st (.sp s v) := fun s hs v => by
    rw [l2 (.sp s v) (fun n hmem v' e => hs ((Key.sp.inj e).1 ▸ hmem)), e4]
  refine ⟨fun s i => ?_, fun s i => ?_, fun s i => ?_, fun k hk => ?_⟩
  · by_cases hs : s ∈ names
    · by_cases hd : Diffuses st s
      · obtain ⟨t, t', u, hb, ht, ht'⟩ := (hone s hs).2 hd
        rw [if_pos ⟨hs, hd⟩, ← fieldOf_congr (st' := t') (ht' _), (sources_ok hb).1, fieldOf_congr (ht .density_source), fieldOf_congr (ht .density)]
      · rw [if_neg (fun hh => hd hh.2), add_zero, fieldOf_congr ((hone s hs).1 hd _)]
    · rw [if_neg (fun hh => hs hh.1), add_zero, fieldOf_congr (hout s hs _)]
  · by_cases hs : s ∈ names
    · by_cases hd : Diffuses st s
      · obtain ⟨t, t', u, hb, ht, ht'⟩ := (hone s hs).2 hd
        rw [← fieldOf_congr (st' := t') (ht' _), (sources_ok hb).2.1, fieldOf_congr (ht .momentum_source), fieldOf_congr (ht .density),
          fieldOf_congr (ht .velocity), realOf_congr (ht .AA), ht]
        simp only [hs, hd, true_and]
      · rw [if_neg (fun hh => hd hh.2.1), add_zero, fieldOf_congr ((hone s hs).1 hd _)]
    · rw [if_neg (fun hh => hs hh.1), add_zero, fieldOf_congr (hout s hs _)]
  · by_cases hs : s ∈ names
    · by_cases hd : Diffuses st s
      · obtain ⟨t, t', u, hb, ht, ht'⟩ := (hone s hs).2 hd
        rw [← fieldOf_congr (st' := t') (ht' _), (sources_ok hb).2.2.1, fieldOf_congr (ht .energy_source), fieldOf_congr (ht .density),
          fieldOf_congr (ht .temperature), fieldOf_congr (ht .pressure), fieldOf_congr (ht .collision_frequency), realOf_congr (ht .AA), ht]
        simp only [hs, hd, true_and]
        rfl
      · rw [if_neg (fun hh => hd hh.2.1), add_zero, fieldOf_congr ((hone s hs).1 hd _)]
    · rw [if_neg (fun hh => hs hh.1), add_zero, fieldOf_congr (hout s hs _)]
  · by_cases hx : ∃ n ∈ names, ∃ v, k = .sp n v
    · obtain ⟨n, hmem, v, rfl⟩ := hx
      by_cases hd : Diffuses st n
      · obtain ⟨t, t', u, hb, ht, ht'⟩ := (hone n hmem).2 hd
        rw [← ht', (sources_ok hb).2.2.2 _ (hk n).1 (hk n).2.1 (hk n).2.2, ht]
      · exact (hone n hmem).1 hd v
    · push Not at hx
      rw [l2 k (fun n hmem v => hx n hmem v), e4]

/-! ## C52 -/

/-- `FV::Div_a_Grad_perp(a, f)` is linear in `f`. -/
structure LinearIn (L : Fld ι → Fld ι → Fld ι) : Prop where
  add : ∀ a f g i, L a (fun j => f j + g j) i = L a f i + L a g i
  smul : ∀ a (c : ℝ) f i, L a (fun j => c * f j) i = c * L a f i

theorem LinearIn.sum {L : Fld ι → Fld ι → Fld ι} (hL : LinearIn L) (a : Fld ι) (l : List String) (c : String → ℝ) (f : String → Fld ι) (i : ι) :
    L a (fun j => (l.map fun s => c s * f s j).sum) i = (l.map fun s => c s * L a (f s) i).sum := by
  induction l with
  | nil =>
    have := hL.smul a 0 (fun _ => 0) i
    simpa using this
  | cons s l ih =>
    simp only [List.map_cons, List.sum_cons]
    rw [hL.add a (fun j => c s * f s j), hL.smul, ih]

/-- **C52.**  If the plasma is neutral (charge density zero everywhere), the classical diffusion creates no charge, for any set of species. -/
theorem ambipolar {o : ClassicalOpts ι} (hL : LinearIn o.divGradPerp) {names : List String} (hn : names.Nodup) {st st' : Store Key (Value ι)}
    (h : classicalDiffusion o names st = (.ok (), st')) (hZ : ∀ s ∈ names, realOf st s .charge = 0 ∨ 1e-5 ≤ |realOf st s .charge|)
    (hq : ∀ i, (names.map fun s => realOf st s .charge * fieldOf st s .density i).sum = 0) (i : ι) :
    (names.map fun s => realOf st s .charge * (fieldOf st' s .density_source i - fieldOf st s .density_source i)).sum = 0 := by
  obtain ⟨h1, -, -, -⟩ := classical_ok hn h
  have e : (names.map fun s => realOf st s .charge * (fieldOf st' s .density_source i - fieldOf st s .density_source i)) =
      names.map fun s => realOf st s .charge * o.divGradPerp (coefficient o names st) (fieldOf st s .density) i := by
    apply List.map_congr_left
    intro s hs
    rw [h1, add_sub_cancel_left]
    rcases hZ s hs with hz | hz
    · rw [hz, zero_mul, zero_mul]
    · by_cases hd : Diffuses st s
      · rw [if_pos ⟨hs, hd⟩]
      · rw [if_neg (fun hh => hd hh.2)]
        have hc : (vals st (.sp s .charge)).isSome := by
          by_contra hc
          rw [Bool.not_eq_true] at hc
          rw [realOf_unset hc] at hz
          norm_num at hz
        have hden : (vals st (.sp s .density)).isSome = false := by
          by_contra hden
          rw [Bool.not_eq_false] at hden
          exact hd ⟨hc, hden, hz⟩
        have h0 : fieldOf st s .density = fun j => 0 * (0 : ℝ) := by
          rw [fieldOf_unset hden]; funext j; simp
        rw [h0, hL.smul _ 0 (fun _ => 0), zero_mul]
  rw [e, ← hL.sum]
  have : (fun j => (names.map fun s => realOf st s .charge * fieldOf st s .density j).sum) = fun j => 0 * (0 : ℝ) := by
    funext j; rw [hq j, zero_mul]
  rw [this, hL.smul _ 0 (fun _ => 0), zero_mul]

/-- **C52.**  With an operator that conserves (weights `vol`) the diffusion changes neither the number of particles nor the momentum nor the energy of
any species. -/
theorem diffusion_conserves [Fintype ι] {o : ClassicalOpts ι} {vol : ι → ℝ} (hC : ∀ a f, ∑ i, vol i * o.divGradPerp a f i = 0)
    {names : List String} (hn : names.Nodup) {st st' : Store Key (Value ι)} (h : classicalDiffusion o names st = (.ok (), st')) (s : String) :
    ∑ i, vol i * fieldOf st' s .density_source i = ∑ i, vol i * fieldOf st s .density_source i ∧
    ∑ i, vol i * fieldOf st' s .momentum_source i = ∑ i, vol i * fieldOf st s .momentum_source i ∧
    ∑ i, vol i * fieldOf st' s .energy_source i = ∑ i, vol i * fieldOf st s .energy_source i := by
  obtain ⟨h1, h2, h3, -⟩ := classical_ok hn h
  refine ⟨?_, ?_, ?_⟩
  · simp only [h1, mul_add, Finset.sum_add_distrib]
    rw [add_eq_left]
    split
    · exact hC _ _
    · simp
  · simp only [h2, mul_add, Finset.sum_add_distrib]
    rw [add_eq_left]
    split
    · exact hC _ _
    · simp
  · simp only [h3, mul_add, Finset.sum_add_distrib]
    rw [add_eq_left]
    split
    · unfold energyGain
      simp only [mul_add, Finset.sum_add_distrib]
      rw [hC, zero_add]
      split
      · exact hC _ _
      · simp
    · simp

/-- The coefficient is never negative, and zero in guard cells. -/
theorem coefficient_nonneg {o : ClassicalOpts ι} {names : List String} {st : Store Key (Value ι)} (hm : 0 ≤ realOf st "e" .AA) {i : ι}
    (hB : 0 ≤ o.Bsq i) : 0 ≤ coefficient o names st i ∧ (o.guards i = true → coefficient o names st i = 0) := by
  unfold coefficient
  refine ⟨?_, fun h => by rw [if_pos h]⟩
  split
  · exact le_refl _
  · split
    · rename_i h; exact h.le
    · have a : (0 : ℝ) ≤ max (pressure names st i) 1e-5 := le_trans (by norm_num) (le_max_right _ _)
      have b : (0 : ℝ) ≤ max (fieldOf st "e" .collision_frequency i) 1e-10 := le_trans (by norm_num) (le_max_right _ _)
      have c : (0 : ℝ) ≤ max (fieldOf st "e" .density i) 1e-5 := le_trans (by norm_num) (le_max_right _ _)
      positivity

/-- With `custom_D = 0` the coefficient is the calculated one (the documented switch-off value is -1), but heat conduction is left out. -/
theorem zero_custom_D {o : ClassicalOpts ι} (ho : o.custom_D = 0) (names : List String) (st : Store Key (Value ι)) (s : String) (i : ι) :
    coefficient o names st i = coefficient { o with custom_D := -1 } names st i ∧
    energyGain o names st s i = o.divGradPerp (fun i => coefficient { o with custom_D := -1 } names st i * (3 / 2) * fieldOf st s .temperature i)
      (fieldOf st s .density) i := by
  have hco : coefficient o names st = coefficient { o with custom_D := -1 } names st := by
    funext i
    unfold coefficient
    dsimp only
    rw [if_neg (show ¬ o.custom_D > 0 by rw [ho]; exact lt_irrefl 0), if_neg (show ¬ ((-1 : ℝ) > 0) by norm_num)]
  refine ⟨by rw [hco], ?_⟩
  unfold energyGain
  rw [hco, if_neg (by rw [ho]; exact lt_irrefl 0), add_zero]

/-! ## The hypotheses can be met -/

section
open Hermes.Runs

/-- What the component reads and sets. -/
def access (names : List String) : Access where
  found k := k = .sp "e" .AA ∨ k = .sp "e" .density ∨ k = .sp "e" .collision_frequency ∨
    ∃ s ∈ names, k = .sp s .AA ∨ k = .sp s .pressure ∨ k = .sp s .collision_frequency
  own k := (∃ s, k = .sp s .density_source) ∨ (∃ s, k = .sp s .momentum_source) ∨ ∃ s, k = .sp s .energy_source
  edge _ := False
  num k := (∃ s, k = .sp s .AA) ∨ ∃ s, k = .sp s .charge

theorem classical_runs (o : ClassicalOpts ι) (names : List String) : Runs (ι := ι) (access names) (classicalDiffusion o names) := by
  have no : ∀ s v, v ≠ .density_source → v ≠ .momentum_source → v ≠ .energy_source → ¬(access names).own (.sp s v) := by
    rintro s v h1 h2 h3 (⟨_, e⟩ | ⟨_, e⟩ | ⟨_, e⟩)
    · exact h1 (Key.sp.inj e).2
    · exact h2 (Key.sp.inj e).2
    · exact h3 (Key.sp.inj e).2
  have nn : ∀ s v, v ≠ .AA → v ≠ .charge → ¬(access names).num (.sp s v) := by
    rintro s v h1 h2 (⟨_, e⟩ | ⟨_, e⟩)
    · exact h1 (Key.sp.inj e).2
    · exact h2 (Key.sp.inj e).2
  have hadd : ∀ (B : Access) s v f, B.own = (access names).own → B.num = (access names).num →
      v = .density_source ∨ v = .momentum_source ∨ v = .energy_source → Runs (ι := ι) B (addF s v f) := by
    rintro B s v f h1 h2 hv
    refine runs_add ?_ ?_
    · rw [h1]
      rcases hv with rfl | rfl | rfl
      · exact Or.inl ⟨_, rfl⟩
      · exact Or.inr (Or.inl ⟨_, rfl⟩)
      · exact Or.inr (Or.inr ⟨_, rfl⟩)
    · rw [h2]
      rcases hv with rfl | rfl | rfl <;> exact nn _ _ (by decide) (by decide)
  unfold classicalDiffusion
  refine Runs.bind (Runs.foldlM names (fun s hs a => ?_) _) fun P => ?_
  · unfold classicalPressure
    refine Runs.ifSet tests_isSet ?_ (Runs.pure _)
    refine Runs.ifSet (tests_isSetFinal (no _ _ (by decide) (by decide) (by decide)) id) ?_ (Runs.pure _)
    refine Runs.bind (runs_getR (Or.inl (Or.inr rfl)) (Or.inr ⟨_, rfl⟩) (no _ _ (by decide) (by decide) (by decide)) id) fun q => ?_
    refine Runs.ite (fun _ => Runs.pure _) fun _ => ?_
    exact Runs.bind (runs_getF (Or.inr rfl) (no _ _ (by decide) (by decide) (by decide)) id) fun _ => Runs.pure _
  refine Runs.bind (runs_getR (Or.inl rfl) (Or.inl ⟨_, rfl⟩) (no _ _ (by decide) (by decide) (by decide)) id) fun me => ?_
  refine Runs.bind (runs_getF (Or.inr (Or.inl rfl)) (no _ _ (by decide) (by decide) (by decide)) id) fun Ne => ?_
  refine Runs.bind ?_ fun D => Runs.forM names fun s hs => ?_
  · unfold classicalD
    refine Runs.ite (fun _ => Runs.pure _) fun _ => ?_
    exact Runs.bind (runs_getF (Or.inr (Or.inr (Or.inl rfl))) (no _ _ (by decide) (by decide) (by decide)) id) fun _ => Runs.pure _
  · have hf : ∀ k, k = .sp s .AA ∨ k = .sp s .pressure ∨ k = .sp s .collision_frequency → (access names).found k :=
      fun k hk => Or.inr (Or.inr (Or.inr ⟨s, hs, hk⟩))
    unfold classicalSpecies
    refine Runs.ifSet tests_isSet ?_ (Runs.pure _)
    refine Runs.ifSet (tests_isSetFinal (no _ _ (by decide) (by decide) (by decide)) id) ?_ (Runs.pure _)
    refine Runs.bind (runs_getR (Or.inl (Or.inr rfl)) (Or.inr ⟨_, rfl⟩) (no _ _ (by decide) (by decide) (by decide)) id) fun q => ?_
    refine Runs.ite (fun _ => Runs.pure _) fun _ => ?_
    unfold classicalSources
    refine Runs.bind (runs_getF (Or.inr rfl) (no _ _ (by decide) (by decide) (by decide)) id) fun N => ?_
    refine Runs.bind (hadd _ _ _ _ rfl rfl (Or.inl rfl)) fun _ => ?_
    refine Runs.bind ?_ fun _ => ?_
    · unfold classicalMomentum
      refine Runs.ifSet (tests_isSetFinal (no _ _ (by decide) (by decide) (by decide)) id) ?_ (Runs.pure _)
      refine Runs.bind (runs_getF (Or.inr rfl) (no _ _ (by decide) (by decide) (by decide)) id) fun V => ?_
      refine Runs.bind (runs_getR (Or.inl (Or.inl (Or.inl (hf _ (Or.inl rfl))))) (Or.inl ⟨_, rfl⟩) (no _ _ (by decide) (by decide) (by decide)) id) fun AA => ?_
      exact hadd _ _ _ _ rfl rfl (Or.inr (Or.inl rfl))
    · unfold classicalEnergy
      refine Runs.ifSet (tests_isSetFinal (no _ _ (by decide) (by decide) (by decide)) id) ?_ (Runs.pure _)
      refine Runs.bind (runs_getF (Or.inr rfl) (no _ _ (by decide) (by decide) (by decide)) id) fun T => ?_
      refine Runs.bind (hadd _ _ _ _ rfl rfl (Or.inr (Or.inr rfl))) fun _ => ?_
      refine Runs.bind (runs_getF (Or.inl (Or.inl (Or.inl (hf _ (Or.inr (Or.inl rfl)))))) (no _ _ (by decide) (by decide) (by decide)) id) fun P => ?_
      refine Runs.bind (runs_getR (Or.inl (Or.inl (Or.inl (hf _ (Or.inl rfl))))) (Or.inl ⟨_, rfl⟩) (no _ _ (by decide) (by decide) (by decide)) id) fun AA => ?_
      unfold classicalConduction
      refine Runs.ite (fun _ => ?_) fun _ => Runs.pure _
      refine Runs.bind (runs_getF (Or.inl (Or.inl (Or.inl (hf _ (Or.inr (Or.inr rfl)))))) (no _ _ (by decide) (by decide) (by decide)) id) fun nu => ?_
      exact hadd _ _ _ _ rfl rfl (Or.inr (Or.inr rfl))

/-- A conservative operator on a periodic line of three cells. -/
noncomputable def ring3 (a f : Fld (Fin 3)) : Fld (Fin 3) := fun i =>
  (a i + a (i + 1)) / 2 * (f (i + 1) - f i) - (a (i - 1) + a i) / 2 * (f i - f (i - 1))

theorem ring3_linear : LinearIn ring3 := ⟨fun a f g i => by unfold ring3; ring, fun a c f i => by unfold ring3; ring⟩

theorem ring3_conserves (a f : Fld (Fin 3)) : ∑ i, 1 * ring3 a f i = 0 := by
  rw [Fin.sum_univ_three]
  unfold ring3
  have h1 : (1 : Fin 3) + 1 = 2 := rfl
  have h2 : (2 : Fin 3) + 1 = 0 := rfl
  have h3 : (0 : Fin 3) - 1 = 2 := rfl
  have h4 : (1 : Fin 3) - 1 = 0 := rfl
  have h5 : (2 : Fin 3) - 1 = 1 := rfl
  have h6 : (0 : Fin 3) + 1 = 1 := rfl
  rw [h1, h2, h3, h4, h5, h6]
  ring

/-- Deuterium and doubly charged helium, and neutral gas. -/
noncomputable def mix : Store Key (Value (Fin 3)) where
  ent
    | .sp s .density => { val := some (.field fun i => (if s = "e" then 1 else if s = "d+" then 0.8 else if s = "he+2" then 0.1 else 0.5) *
        (if i = 0 then 1 else 2)), final := false, finalDomain := false }
    | .sp s .charge => { val := some (.real (if s = "e" then -1 else if s = "d+" then 1 else if s = "he+2" then 2 else 0)), final := false, finalDomain := false }
    | .sp _ .temperature => { val := some (.field fun _ => 1), final := false, finalDomain := false }
    | .sp _ .pressure => { val := some (.field fun _ => 1), final := false, finalDomain := false }
    | .sp _ .collision_frequency => { val := some (.field fun _ => 1), final := false, finalDomain := false }
    | .sp s .AA => { val := some (.real (if s = "e" then 1 / 1836 else if s = "he+2" then 4 else 2)), final := false, finalDomain := false }
    | _ => { val := none, final := false, finalDomain := false }
  check := true

/-- The hypotheses of the theorems above are met. -/
example : ∃ st', classicalDiffusion ⟨-1, fun _ => 1, fun _ => false, ring3⟩ ["d", "d+", "e", "he+2"] mix = (.ok (), st') ∧
    (∀ s ∈ ["d", "d+", "e", "he+2"], realOf mix s .charge = 0 ∨ 1e-5 ≤ |realOf mix s .charge|) ∧
    ∀ i, (["d", "d+", "e", "he+2"].map fun s => realOf mix s .charge * fieldOf mix s .density i).sum = 0 := by
  obtain ⟨_, st', h, -⟩ := classical_runs ⟨-1, fun _ => 1, fun _ => false, ring3⟩ ["d", "d+", "e", "he+2"] mix
    ⟨by
      rintro k (⟨s, rfl⟩ | ⟨s, rfl⟩) x hx <;> exact ⟨_, (Option.some.inj hx).symm⟩, by
      rintro k (rfl | rfl | rfl | ⟨s, -, rfl | rfl | rfl⟩) <;> rfl, by
      rintro k (⟨s, rfl⟩ | ⟨s, rfl⟩ | ⟨s, rfl⟩) <;> exact ⟨rfl, rfl⟩, fun k hk => hk.elim⟩
  have hc : ∀ s, realOf mix s .charge = if s = "e" then -1 else if s = "d+" then 1 else if s = "he+2" then 2 else 0 := fun _ => rfl
  have hd : ∀ s i, fieldOf mix s .density i = (if s = "e" then 1 else if s = "d+" then 0.8 else if s = "he+2" then 0.1 else 0.5) *
    (if i = 0 then 1 else 2) := fun _ _ => rfl
  refine ⟨st', h, ?_, fun i => ?_⟩
  · intro s hs
    rw [hc]
    split_ifs
    · right; norm_num
    · right; norm_num
    · right; norm_num
    · left; rfl
  · simp only [hc, hd]
    simp
    split_ifs <;> norm_num

end

end Hermes.ClassicalDiffusion
