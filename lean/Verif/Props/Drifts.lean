import Verif.Lemmas.Effects
import Mathlib.Algebra.BigOperators.Ring.Finset
import Mathlib.Algebra.Order.BigOperators.Group.Finset
import Mathlib.Tactic.Linarith
import Mathlib.Tactic.FieldSimp
import Mathlib.Tactic.LinearCombination

/-!
# Drifts and currents (C67, C68, C69)

Diamagnetic drift, polarisation drift, vorticity equation and relaxation of the potential.  See `Model/Drifts.lean`.
-/

set_option linter.unusedSectionVars false

namespace Hermes.Drifts
open Hermes.Closures Hermes.Effects

noncomputable section

variable {ι : Type} {st st' : Store Key (Value ι)}

/-! ## Words of the properties -/

/-- How much source `v` of species `n` grew. -/
def grew (st st' : Store Key (Value ι)) (n : String) (v : Var) : Fld ι := fun i => fieldOf st' n v i - fieldOf st n v i

/-- Everything but the sources is as it was. -/
def OnlySources (st st' : Store Key (Value ι)) : Prop := ∀ k, srcKey k = false → vals st' k = vals st k

/-- Sum over the species. -/
def total (names : List String) (f : String → ℝ) : ℝ := (names.map f).sum

theorem only_sources (h : world st' = world st) : OnlySources st st' := fun k hk => by
  rw [← world_of hk, ← world_of hk, h]

/-! ## Diamagnetic drift -/

/-- The divergence of the diamagnetic flow of `f`, in the form chosen by `form`. -/
def diaDiv (o : DriftOps ι) (form : Fld ι) (st : Store Key (Value ι)) (n : String) (f : Fld ι) : Fld ι := fun i =>
  form i * o.divFlow f (fun i => fieldOf st n .temperature i / realOf st n .charge) i
    + (1 - form i) * o.curv (fun i => f i * fieldOf st n .temperature i / realOf st n .charge) i

theorem eff_driftOf (o : DriftOps ι) (form : Fld ι) (q : ℝ) (T : Fld ι) (factor : ℝ) {v s : Var} (hv : isSource v = false) (hs : isSource s = true) (n : String) :
    Effect (driftOf o form q T factor v s n) (fun _ => ()) (fun w => one n s fun i => when ((w (.sp n v)).isSome = true) (-(factor * driftForm o form q T (fAt w n v) i))) := by
  have h := eff_if (skip := ()) (eff_isSetFinal (ι := ι) (k := .sp n v) hv)
    ((eff_getF (ι := ι) (n := n) hv).bind0 fun f => eff_sub (m := n) hs fun i => factor * driftForm o form q T f i)
  refine Effect.congr (m := driftOf o form q T factor v s n) h (fun _ => rfl) fun w m x i => ?_
  unfold one when
  split_ifs <;> rfl

/-- What the drift gives source `x` of a species. -/
def driftGain (o : DriftOps ι) (form : Fld ι) (w : View ι) (n : String) (x : Var) (i : ι) : ℝ :=
  (if x = .density_source then when ((w (.sp n .density)).isSome = true) (-(1 * driftForm o form (rAt w n .charge) (fAt w n .temperature) (fAt w n .density) i)) else 0)
  + (if x = .energy_source then when ((w (.sp n .pressure)).isSome = true) (-(5 / 2 * driftForm o form (rAt w n .charge) (fAt w n .temperature) (fAt w n .pressure) i)) else 0)
  + (if x = .momentum_source then when ((w (.sp n .momentum)).isSome = true) (-(1 * driftForm o form (rAt w n .charge) (fAt w n .temperature) (fAt w n .momentum) i)) else 0)

open Classical in
theorem eff_driftSpecies (o : DriftOps ι) (form : Fld ι) (m : String) :
    Effect (driftSpecies o form m) (fun _ => ()) (fun w n x i => if n = m then
      when (Charged w m ∧ Has w m .temperature) (driftGain o form w m x i) else 0) := by
  have body : ∀ q, Effect (driftSources o form q m) _ _ := fun q =>
    (eff_getF (ι := ι) (n := m) (v := .temperature) rfl).bind0 fun T =>
      (eff_driftOf o form q T 1 (v := .density) (s := .density_source) rfl rfl m).bind fun _ =>
        (eff_driftOf o form q T (5 / 2) (v := .pressure) (s := .energy_source) rfl rfl m).bind fun _ =>
          eff_driftOf o form q T 1 (v := .momentum) (s := .momentum_source) rfl rfl m
  have h := eff_if (skip := ()) (eff_isSet (ι := ι) (k := .sp m .charge) rfl) (eff_if (skip := ()) (eff_isSet (ι := ι) (k := .sp m .temperature) rfl)
    ((eff_getR (ι := ι) (n := m) (v := .charge) rfl).bind0 fun q =>
      Effect.ite (p := |q| < 1e-5) (dp := Classical.propDecidable _) (Effect.pure ()) (body q)))
  refine Effect.congr (m := driftSpecies o form m) h (fun _ => rfl) fun w n x i => ?_
  unfold Charged Has
  rw [← not_lt]
  by_cases h1 : (w (.sp m .charge)).isSome = true
  · by_cases h2 : (w (.sp m .temperature)).isSome = true
    · by_cases h3 : |rAt w m .charge| < 1e-5
      · rw [when_neg fun hc => hc.1.2 h3]; simp [h1, h2, h3]
      · rw [when_pos ⟨⟨h1, h3⟩, h2⟩]
        unfold one driftGain
        by_cases h4 : n = m
        · simp only [h1, h2, h3, h4, if_true, if_false, true_and]
          ring
        · simp [h1, h2, h3, h4]
    · rw [when_neg fun hc => h2 hc.2]; simp [h1, h2]
  · rw [when_neg fun hc => h1 hc.1.1]; simp [h1]

/-- **C67.**  What the diamagnetic drift adds to the sources of a charged species with a temperature: minus the divergence of its flow of particles,
of momentum, and five halves of that of its pressure.  No other species gets anything, and nothing but sources is changed. -/
theorem drift_sources {o : DriftOps ι} {form : Fld ι} {names : List String} {u : Unit} (hn : names.Nodup)
    (h : diamagneticDrift o form names st = (.ok u, st')) :
    OnlySources st st' ∧
    (∀ n ∈ names, Charged (vals st) n → Has (vals st) n .temperature → ∀ i,
      grew st st' n .density_source i = when (Has (vals st) n .density) (-diaDiv o form st n (fieldOf st n .density) i) ∧
      grew st st' n .energy_source i = when (Has (vals st) n .pressure) (-(5 / 2 * diaDiv o form st n (fieldOf st n .pressure) i)) ∧
      grew st st' n .momentum_source i = when (Has (vals st) n .momentum) (-diaDiv o form st n (fieldOf st n .momentum) i)) ∧
    ∀ n, ¬(n ∈ names ∧ Charged (vals st) n ∧ Has (vals st) n .temperature) → ∀ v, isSource v = true → ∀ i, grew st st' n v i = 0 := by
  obtain ⟨hw, hg, hg'⟩ := forM_own (g := fun m w x i => when (Charged w m ∧ Has w m .temperature) (driftGain o form w m x i))
    (eff_driftSpecies o form) hn h
  refine ⟨only_sources hw, fun n hm hc ht i => ?_, fun n hne v hv i => ?_⟩
  · have own : ∀ x, isSource x = true → grew st st' n x i = driftGain o form (world st) n x i := by
      intro x hx
      exact (hg n hm x hx i).trans (when_pos (show Charged (vals st) n ∧ Has (vals st) n .temperature from ⟨hc, ht⟩) _)
    rw [own _ rfl, own _ rfl, own _ rfl]
    unfold driftGain
    simp only [reduceCtorEq, if_true, if_false, add_zero, zero_add, one_mul]
    exact ⟨rfl, rfl, rfl⟩
  · by_cases hm : n ∈ names
    · refine (hg n hm v hv i).trans (when_neg ?_ _)
      rintro ⟨a, b⟩
      exact hne ⟨hm, a, b⟩
    · exact hg' n hm v hv i

/-! ## Sums over the species -/

theorem foldl_add_fields {γ : Type} (f : γ → Fld ι) : ∀ (l : List γ) (a : Fld ι), l.foldl (fun a c => fun i => a i + f c i) a = fun i => a i + (l.map fun c => f c i).sum
  | [], a => by funext i; simp
  | c :: l, a => by
    rw [List.foldl_cons, foldl_add_fields f l]
    funext i
    rw [List.map_cons, List.sum_cons, add_assoc]

/-- Divergence of the parallel current of all species. -/
def divJpar (o : DriftOps ι) (w : View ι) (names : List String) : Fld ι := fun i =>
  total names fun n => when (Has w n .momentum ∧ Charged w n) (o.divPar (fun i => rAt w n .charge / rAt w n .AA * fAt w n .momentum i) i)

/-- Pressure of the charged species, weighted with mass over charge: the `p̂` of the documentation. -/
def ionPressure (avg : ℝ) (w : View ι) (names : List String) : Fld ι := fun i =>
  total names fun n => when (Has w n .pressure ∧ Has w n .AA ∧ Charged w n) (fAt w n .pressure i * (rAt w n .AA / avg / rAt w n .charge))

/-- Pressure of the charged species; `bc` sets its guard cells. -/
def chargedPressure (bc : Fld ι → Fld ι) (w : View ι) (names : List String) : Fld ι := fun i =>
  total names fun n => when (Has w n .pressure ∧ Charged w n) (bc (fAt w n .pressure) i)

/-- Mass density of the charged species. -/
def massDensity (w : View ι) (names : List String) : Fld ι := fun i =>
  total names fun n => when (Has w n .AA ∧ Charged w n) (rAt w n .AA * fAt w n .density i)

/-- Collision frequency of the charged species, weighted with their mass densities; not divided by the sum of the weights. -/
def weightedNu (w : View ι) (names : List String) : Fld ι := fun i =>
  total names fun n => when (Has w n .AA ∧ Charged w n ∧ Has w n .collision_frequency) (rAt w n .AA * fAt w n .density i * fAt w n .collision_frequency i)

theorem eff_polCurrent (o : DriftOps ι) (J : Fld ι) (n : String) : Effect (polCurrent o J n)
    (fun w i => J i + when (Has w n .momentum ∧ Charged w n) (o.divPar (fun i => rAt w n .charge / rAt w n .AA * fAt w n .momentum i) i)) (fun _ _ _ _ => 0) := by
  have h := eff_ifSet (k := .sp n .momentum) (skip := J) rfl (eff_ifCharged (n := n) (skip := J) fun Z =>
    (eff_getF (ι := ι) (n := n) (v := .momentum) rfl).bind0 fun NV => (eff_getR (ι := ι) (n := n) (v := .AA) rfl).bind0 fun A =>
      Effect.pure (fun i => J i + o.divPar (fun i => Z / A * NV i) i))
  refine Effect.congr (m := polCurrent o J n) h (fun w => ?_) fun w m x i => by simp
  by_cases h1 : Has w n .momentum
  · by_cases h2 : Charged w n
    · simp only [when_pos (And.intro h1 h2), if_pos (show (w (.sp n .momentum)).isSome = true from h1), if_pos h2]
    · simp only [when_neg (show ¬(Has w n .momentum ∧ Charged w n) from fun hc => h2 hc.2), if_pos (show (w (.sp n .momentum)).isSome = true from h1), if_neg h2, add_zero]
  · simp only [when_neg (show ¬(Has w n .momentum ∧ Charged w n) from fun hc => h1 hc.1), if_neg (show ¬(w (.sp n .momentum)).isSome = true from h1), add_zero]

theorem eff_polCurrents (o : DriftOps ι) (J : Fld ι) (names : List String) :
    Effect (names.foldlM (polCurrent o) J) (fun w i => J i + divJpar o w names i) (fun _ _ _ _ => 0) :=
  (eff_foldlM0 (eff_polCurrent o) names J).congr (fun w => foldl_add_fields _ names J) fun _ _ _ _ => rfl

theorem eff_piTerm (avg : ℝ) (Pi : Fld ι) (n : String) : Effect (piTerm avg Pi n)
    (fun w i => Pi i + when (Has w n .pressure ∧ Has w n .AA ∧ Charged w n) (fAt w n .pressure i * (rAt w n .AA / avg / rAt w n .charge))) (fun _ _ _ _ => 0) := by
  have h := eff_ifSetNB (k := .sp n .pressure) (skip := Pi) rfl (eff_ifSet (k := .sp n .AA) (skip := Pi) rfl (eff_ifCharged (n := n) (skip := Pi) fun q =>
    (eff_getNB (ι := ι) (n := n) (v := .pressure) rfl).bind0 fun P => (eff_getR (ι := ι) (n := n) (v := .AA) rfl).bind0 fun AA =>
      Effect.pure (fun i => Pi i + P i * (AA / avg / q))))
  refine Effect.congr (m := piTerm avg Pi n) h (fun w => ?_) fun w m x i => by simp
  by_cases h1 : Has w n .pressure ∧ Has w n .AA ∧ Charged w n
  · simp only [when_pos h1, if_pos (show (w (.sp n .pressure)).isSome = true from h1.1), if_pos (show (w (.sp n .AA)).isSome = true from h1.2.1), if_pos h1.2.2]
  · simp only [when_neg h1, add_zero]
    by_cases a1 : (w (.sp n .pressure)).isSome = true
    · rw [if_pos a1]
      by_cases a2 : (w (.sp n .AA)).isSome = true
      · rw [if_pos a2, if_neg fun a3 => h1 ⟨a1, a2, a3⟩]
      · rw [if_neg a2]
    · rw [if_neg a1]

theorem eff_piHat (o : DriftOps ι) (b : Bool) (avg : ℝ) (names : List String) :
    Effect (piHat o b avg names) (fun w => o.neumann fun i => when (b = true) (ionPressure avg w names i)) (fun _ _ _ _ => 0) := by
  have hl : Effect (names.foldlM (piTerm avg) fun _ => 0) (fun w => ionPressure avg w names) (fun (_ : View ι) _ _ _ => 0) :=
    (eff_foldlM0 (eff_piTerm avg) names _).congr (fun w => (foldl_add_fields _ names _).trans (by funext i; rw [zero_add]; rfl)) fun _ _ _ _ => rfl
  cases b with
  | true =>
    have h := hl.bind0 fun Pi => Effect.pure (ι := ι) (o.neumann Pi)
    exact Effect.congr (m := piHat o true avg names) h (fun w => by simp only [when_pos]) fun _ _ _ _ => rfl
  | false =>
    have h := (Effect.pure (ι := ι) (fun _ : ι => (0 : ℝ))).bind0 fun Pi => Effect.pure (ι := ι) (o.neumann Pi)
    exact Effect.congr (m := piHat o false avg names) h (fun w => by simp only [when_neg Bool.false_ne_true]) fun _ _ _ _ => rfl

theorem ite_field {p : Prop} {_ : Decidable p} (J g : Fld ι) : (if p then (fun i => J i + g i) else J) = fun i => J i + when p (g i) := by
  funext i
  by_cases h : p
  · rw [if_pos h, when_pos h]
  · rw [if_neg h, when_neg h, add_zero]

open Classical in
theorem ite_and' {α : Type} {p q : Prop} {_ : Decidable p} {_ : Decidable q} (x y : α) : (if p then (if q then x else y) else y) = if p ∧ q then x else y := by
  by_cases h1 : p <;> by_cases h2 : q <;> simp [h1, h2]

/-- The contribution of a turn to its own species. -/
theorem ite_own {p : Prop} {_ : Decidable p} {n m : String} {x v : Var} (f : Fld ι) (i : ι) :
    (if p then one m v f n x i else 0) = if n = m then when (x = v ∧ p) (f i) else 0 := by
  unfold one
  by_cases h1 : p <;> by_cases h2 : n = m <;> by_cases h3 : x = v <;> simp [h1, h2, h3, when]

theorem eff_massTerm (J : Fld ι) (n : String) : Effect (massTerm J n)
    (fun w i => J i + when (Has w n .AA ∧ Charged w n) (rAt w n .AA * fAt w n .density i)) (fun _ _ _ _ => 0) := by
  have h := eff_ifSet (k := .sp n .AA) (skip := J) rfl (eff_ifCharged (n := n) (skip := J) fun _ =>
    (eff_getR (ι := ι) (n := n) (v := .AA) rfl).bind0 fun A => (eff_getNB (ι := ι) (n := n) (v := .density) rfl).bind0 fun N =>
      Effect.pure (fun i => J i + A * N i))
  refine Effect.congr (m := massTerm J n) h (fun w => ?_) fun w m x i => by simp
  rw [ite_and', ite_field J fun i => rAt w n .AA * fAt w n .density i]
  rfl

theorem eff_masses (names : List String) : Effect (names.foldlM massTerm fun _ : ι => 0) (fun w => massDensity w names) (fun _ _ _ _ => 0) :=
  (eff_foldlM0 eff_massTerm names _).congr (fun w => (foldl_add_fields _ names _).trans (by funext i; rw [zero_add]; rfl)) fun _ _ _ _ => rfl

theorem eff_polEnergy (avg : ℝ) (J : Fld ι) (n : String) : Effect (polEnergy avg J n) (fun _ => ())
    (fun w m x i => if m = n then when (x = .energy_source ∧ Has w n .pressure ∧ Has w n .AA ∧ Charged w n)
      (fAt w n .pressure i * (rAt w n .AA / avg / rAt w n .charge) * J i) else 0) := by
  have h := eff_ifSetNB (k := .sp n .pressure) (skip := ()) rfl (eff_ifSet (k := .sp n .AA) (skip := ()) rfl (eff_ifCharged (n := n) (skip := ()) fun q =>
    (eff_getNB (ι := ι) (n := n) (v := .pressure) rfl).bind0 fun P => (eff_getR (ι := ι) (n := n) (v := .AA) rfl).bind0 fun AA =>
      eff_add (m := n) (v := .energy_source) rfl fun i => P i * (AA / avg / q) * J i))
  refine Effect.congr (m := polEnergy avg J n) h (fun w => rfl) fun w m x i => ?_
  rw [ite_and', ite_and', ite_own]
  refine if_congr Iff.rfl (congrArg (fun p => when p _) (propext ?_)) rfl
  exact and_congr_right fun _ => and_assoc

/-- What the diamagnetic current of species `n` does to its energy, with `bc` for the guard cells of the pressure. -/
def jdiaWork (o : DriftOps ι) (bc : Fld ι → Fld ι) (phi : Fld ι) (w : View ι) (n : String) : Fld ι := fun i =>
  when (Has w n .pressure ∧ Charged w n) (-(bc (fAt w n .pressure) i * o.curv phi i))

open Classical in
/-- One turn: potential and sum of pressures. -/
def jdiaStep (o : DriftOps ι) (a : Fld ι × Fld ι) (n : String) (w : View ι) : Fld ι × Fld ι :=
  (if Has w n .pressure ∧ Charged w n then o.freePhi a.1 else a.1, fun i => a.2 i + when (Has w n .pressure ∧ Charged w n) (o.freeP (fAt w n .pressure) i))

open Classical in
theorem eff_jdiaTerm (o : DriftOps ι) (a : Fld ι × Fld ι) (n : String) : Effect (jdiaTerm o a n)
    (jdiaStep o a n)
    (fun w m x i => if m = n then when (x = .energy_source) (jdiaWork o o.freeP (o.freePhi a.1) w n i) else 0) := by
  have h := eff_ifSetNB (k := .sp n .pressure) (skip := a) rfl (eff_ifSetFinal (k := .sp n .charge) (skip := a) rfl (eff_ifCharged (n := n) (skip := a) fun q =>
    (eff_getNB (ι := ι) (n := n) (v := .pressure) rfl).bind0 fun P =>
      (eff_sub (m := n) (v := .energy_source) rfl fun i => o.freeP P i * o.curv (o.freePhi a.1) i).bind fun _ =>
        Effect.pure ((o.freePhi a.1, fun i => a.2 i + o.freeP P i) : Fld ι × Fld ι)))
  have hc : ∀ w : View ι, ((w (.sp n .pressure)).isSome = true ∧ (w (.sp n .charge)).isSome = true) ∧ Charged w n ↔ Has w n .pressure ∧ Charged w n := fun w =>
    ⟨fun h => ⟨h.1.1, h.2⟩, fun h => ⟨⟨h.1, h.2.1⟩, h.2⟩⟩
  refine Effect.congr (m := jdiaTerm o a n) h (fun w => ?_) fun w m x i => ?_
  · rw [ite_and', ite_and']
    unfold jdiaStep
    by_cases h1 : Has w n .pressure ∧ Charged w n
    · rw [if_pos ((hc w).2 h1), if_pos h1]
      simp only [when_pos h1]
    · rw [if_neg fun h2 => h1 ((hc w).1 h2), if_neg h1]
      simp only [when_neg h1, add_zero]
  · rw [ite_and', ite_and']
    unfold jdiaWork
    by_cases h1 : Has w n .pressure ∧ Charged w n
    · rw [if_pos ((hc w).2 h1), when_pos h1, add_zero]
      unfold one
      by_cases h2 : m = n <;> by_cases h3 : x = .energy_source <;> simp [h2, h3, when]
    · rw [if_neg fun h2 => h1 ((hc w).1 h2), when_neg h1]
      simp [when]

/-- Setting the guard cells of the potential twice is setting them once. -/
def FreeOnce (o : DriftOps ι) : Prop := ∀ f, o.freePhi (o.freePhi f) = o.freePhi f

open Classical in
theorem jdia_value (o : DriftOps ι) (w : View ι) : ∀ (names : List String) (a : Fld ι × Fld ι),
    (names.foldl (fun a n => jdiaStep o a n w) a).2 = fun i => a.2 i + chargedPressure o.freeP w names i
  | [], a => by funext i; simp [chargedPressure, total]
  | n :: l, a => by
    rw [List.foldl_cons, jdia_value o w l]
    funext i
    unfold chargedPressure total jdiaStep
    rw [List.map_cons, List.sum_cons, add_assoc]

open Classical in
theorem jdia_phi {o : DriftOps ι} (ho : FreeOnce o) (w : View ι) : ∀ (names : List String) (a : Fld ι × Fld ι),
    (names.foldl (fun a n => jdiaStep o a n w) a).1 =
    if ∃ n ∈ names, Has w n .pressure ∧ Charged w n then o.freePhi a.1 else a.1
  | [], a => by simp
  | n :: l, a => by
    rw [List.foldl_cons, jdia_phi ho w l]
    unfold jdiaStep
    by_cases h1 : Has w n .pressure ∧ Charged w n
    · rw [if_pos (show ∃ m ∈ n :: l, Has w m .pressure ∧ Charged w m from ⟨n, List.mem_cons_self, h1⟩)]
      simp only [if_pos h1]
      rw [show o.freePhi (o.freePhi a.1) = o.freePhi a.1 from ho _, ite_self]
    · simp only [if_neg h1]
      refine if_congr ?_ rfl rfl
      constructor
      · rintro ⟨m, hm, h2⟩; exact ⟨m, List.mem_cons_of_mem _ hm, h2⟩
      · rintro ⟨m, hm, h2⟩
        rcases List.mem_cons.1 hm with rfl | hm
        · exact absurd h2 h1
        · exact ⟨m, hm, h2⟩

open Classical in
theorem jdia_delta {o : DriftOps ι} (ho : FreeOnce o) (w : View ι) (n : String) (x : Var) (i : ι) : ∀ (names : List String) (a : Fld ι × Fld ι),
    foldDelta (jdiaStep o)
      (fun a n w m x i => if m = n then when (x = .energy_source) (jdiaWork o o.freeP (o.freePhi a.1) w n i) else 0) names a w n x i =
    (names.map fun m => if n = m then when (x = .energy_source) (jdiaWork o o.freeP (o.freePhi a.1) w m i) else 0).sum
  | [], a => rfl
  | m :: l, a => by
    rw [List.map_cons, List.sum_cons]
    show _ + foldDelta _ _ l _ w n x i = _
    rw [jdia_delta ho w n x i l]
    congr 3
    funext m'
    have e : o.freePhi (jdiaStep o a m w).1 = o.freePhi a.1 := by
      unfold jdiaStep
      dsimp only
      split
      · exact ho _
      · rfl
    rw [e]

/-- One turn: the two sums. -/
def frictionStep (a : Fld ι × Fld ι) (n : String) (w : View ι) : Fld ι × Fld ι :=
  (fun i => a.1 i + when (Has w n .AA ∧ Charged w n ∧ Has w n .collision_frequency) (rAt w n .AA * fAt w n .density i * fAt w n .collision_frequency i),
    fun i => a.2 i + when (Has w n .AA ∧ Charged w n) (rAt w n .AA * fAt w n .density i))

theorem eff_frictionTerm (a : Fld ι × Fld ι) (n : String) : Effect (frictionTerm a n) (frictionStep a n) (fun _ _ _ _ => 0) := by
  have h := eff_ifSet (k := .sp n .AA) (skip := a) rfl (eff_ifCharged (n := n) (skip := a) fun _ =>
    (eff_getR (ι := ι) (n := n) (v := .AA) rfl).bind0 fun A => (eff_getNB (ι := ι) (n := n) (v := .density) rfl).bind0 fun N =>
      eff_if (skip := ((a.1, fun i => a.2 i + A * N i) : Fld ι × Fld ι)) (eff_isSetFinal (ι := ι) (k := .sp n .collision_frequency) rfl)
        ((eff_getF (ι := ι) (n := n) (v := .collision_frequency) rfl).bind0 fun nu =>
          Effect.pure ((fun i => a.1 i + A * N i * nu i, fun i => a.2 i + A * N i) : Fld ι × Fld ι)))
  refine Effect.congr (m := frictionTerm a n) h (fun w => ?_) fun w m x i => by simp
  rw [ite_and']
  unfold frictionStep
  by_cases h1 : Has w n .AA ∧ Charged w n
  · rw [if_pos (show (w (.sp n .AA)).isSome = true ∧ Charged w n from h1)]
    simp only [when_pos h1]
    by_cases h2 : Has w n .collision_frequency
    · simp only [if_pos (show (w (.sp n .collision_frequency)).isSome = true from h2),
        when_pos (show Has w n .AA ∧ Charged w n ∧ Has w n .collision_frequency from ⟨h1.1, h1.2, h2⟩)]
    · simp only [if_neg (show ¬(w (.sp n .collision_frequency)).isSome = true from h2),
        when_neg (show ¬(Has w n .AA ∧ Charged w n ∧ Has w n .collision_frequency) from fun h => h2 h.2.2), add_zero]
  · rw [if_neg (show ¬((w (.sp n .AA)).isSome = true ∧ Charged w n) from h1)]
    simp only [when_neg h1, when_neg (show ¬(Has w n .AA ∧ Charged w n ∧ Has w n .collision_frequency) from fun h => h1 ⟨h.1, h.2.1⟩), add_zero]

theorem friction_value (w : View ι) : ∀ (names : List String) (a : Fld ι × Fld ι),
    names.foldl (fun a n => frictionStep a n w) a = (fun i => a.1 i + weightedNu w names i, fun i => a.2 i + massDensity w names i)
  | [], a => by simp [weightedNu, massDensity, total]
  | n :: l, a => by
    rw [List.foldl_cons, friction_value w l]
    unfold weightedNu massDensity total frictionStep
    simp only [List.map_cons, List.sum_cons, add_assoc]

/-- Divergence of the current driven by friction. -/
def divJcol (o : DriftOps ι) (avg : ℝ) (phi Pi : Fld ι) (w : View ι) (names : List String) : Fld ι := fun i =>
  -o.divAGrad (fun i => o.neumann (fun i => weightedNu w names i / massDensity w names i) i * avg / o.Bsq i) (fun i => phi i + Pi i) i

/-- The values of all species are the same. -/
def SameSpecies (s s' : Store Key (Value ι)) : Prop := ∀ n v, vals s' (.sp n v) = vals s (.sp n v)

theorem same_of_set {k : String} {x : Value ι} {s s' : Store Key (Value ι)} (h : vals s' = Function.update (vals s) (.top k) (some x)) : SameSpecies s s' := by
  intro n v
  rw [h, Function.update_of_ne (by simp)]

theorem SameSpecies.trans {s1 s2 s3 : Store Key (Value ι)} (h : SameSpecies s1 s2) (h' : SameSpecies s2 s3) : SameSpecies s1 s3 := fun n v => (h' n v).trans (h n v)

theorem same_of_world {s s' : Store Key (Value ι)} (h : world s' = world s) {n : String} {v : Var} (hv : isSource v = false) :
    vals s' (.sp n v) = vals s (.sp n v) := only_sources h _ hv

theorem friction_ok {o : DriftOps ι} {avg : ℝ} {phi Pi c : Fld ι} {names : List String} (h : vortFriction o avg phi Pi names st = (.ok c, st')) :
    c = divJcol o avg phi Pi (vals st) names ∧ (∀ n v, isSource v = false → vals st' (.sp n v) = vals st (.sp n v)) ∧ (∀ n v i, fieldOf st' n v i = fieldOf st n v i) ∧
    vals st' (.top "fields:DivJcol") = some (.field c) ∧ ∀ k, k ≠ "fields:DivJcol" → vals st' (.top k) = vals st (.top k) := by
  obtain ⟨a, s1, h1, h2⟩ := M_bind_ok h
  obtain ⟨e1, e2, e3⟩ := eff_foldlM0 eff_frictionTerm names _ _ _ _ h1
  obtain ⟨s2, h3, h4⟩ := set_bind_ok h2
  obtain ⟨h5, h6⟩ := pure_ok h4
  replace e1 := e1.trans (friction_value _ names _)
  have hc : c = divJcol o avg phi Pi (vals st) names := by
    rw [h5, e1]
    funext i
    simp only [zero_add]
    rfl
  refine ⟨hc, fun n v hv => ?_, fun n v i => ?_, ?_, fun k hk => ?_⟩
  · rw [h6, same_of_set h3, same_of_world e2 hv]
  · rw [h6, Closures.fieldOf_congr (same_of_set h3 n v)]
    cases hv : isSource v with
    | true => rw [e3 n v hv i, add_zero]
    | false => rw [Closures.fieldOf_congr (same_of_world e2 hv)]
  · rw [h6, h3, h5, Function.update_self]
  · rw [h6, h3, Function.update_of_ne (by simpa using hk)]
    exact only_sources e2 _ rfl

open Classical in
theorem vortDiamagnetic_ok {o : DriftOps ι} (ho : FreeOnce o) {phi : Fld ι} {names : List String} {r : Fld ι × Fld ι} (hn : names.Nodup)
    (h : vortDiamagnetic o phi names st = (.ok r, st')) :
    r = (if ∃ n ∈ names, Has (vals st) n .pressure ∧ Charged (vals st) n then o.freePhi phi else phi, o.divCurv (chargedPressure o.freeP (vals st) names)) ∧
    (∀ n v, isSource v = false → vals st' (.sp n v) = vals st (.sp n v)) ∧
    (∀ n ∈ names, ∀ i, grew st st' n .energy_source i = jdiaWork o o.freeP (o.freePhi phi) (vals st) n i) ∧
    (∀ n v, isSource v = true → (n ∉ names ∨ v ≠ .energy_source) → ∀ i, grew st st' n v i = 0) ∧
    vals st' (.top "fields:DivJdia") = some (.field r.2) ∧ ∀ k, k ≠ "fields:DivJdia" → vals st' (.top k) = vals st (.top k) := by
  obtain ⟨a, s1, h1, h2⟩ := M_bind_ok h
  obtain ⟨e1, e2, e3⟩ := eff_foldlM (eff_jdiaTerm o) names _ _ _ _ h1
  obtain ⟨s2, h3, h4⟩ := set_bind_ok h2
  obtain ⟨h5, h6⟩ := pure_ok h4
  have b2 : a.2 = chargedPressure o.freeP (vals st) names := by
    rw [e1]
    refine (jdia_value o (world st) names _).trans ?_
    funext i
    exact zero_add _
  have b1 : a.1 = if ∃ n ∈ names, Has (vals st) n .pressure ∧ Charged (vals st) n then o.freePhi phi else phi := by
    rw [e1]
    exact jdia_phi ho (world st) names _
  have src : ∀ n v i, grew st st' n v i = grew st s1 n v i := fun n v i => by
    unfold grew
    rw [h6, Closures.fieldOf_congr (same_of_set h3 n v)]
  have all : ∀ n v, isSource v = true → ∀ i, grew st st' n v i =
      (names.map fun m => if n = m then when (v = .energy_source) (jdiaWork o o.freeP (o.freePhi phi) (vals st) m i) else 0).sum := by
    intro n v hv i
    rw [src]
    unfold grew
    rw [e3 n v hv i, jdia_delta ho]
    show _ + (names.map fun m => if n = m then when (v = .energy_source) (jdiaWork o o.freeP (o.freePhi phi) (vals st) m i) else 0).sum - _ = _
    ring
  refine ⟨by rw [h5, b1, b2], fun n v hv => ?_, fun n hm i => ?_, fun n v hv hc i => ?_, ?_, fun k hk => ?_⟩
  · rw [h6, same_of_set h3, same_of_world e2 hv]
  · rw [all n _ rfl i]
    exact (sum_own (d := fun m w x => when (x = .energy_source) (jdiaWork o o.freeP (o.freePhi phi) w m i)) hn (w := vals st) (x := .energy_source) hm).trans (when_pos rfl _)
  · rw [all n v hv i]
    by_cases hm : n ∈ names
    · have hv' : v ≠ .energy_source := hc.resolve_left fun h => h hm
      exact (sum_own (d := fun m w x => when (x = .energy_source) (jdiaWork o o.freeP (o.freePhi phi) w m i)) hn (w := vals st) (x := v) hm).trans (when_neg hv' _)
    · exact sum_others (d := fun m w x => when (x = .energy_source) (jdiaWork o o.freeP (o.freePhi phi) w m i)) (w := vals st) (x := v) hm
  · rw [h6, h3, h5, Function.update_self]
  · rw [h6, h3, Function.update_of_ne (by simpa using hk)]
    exact only_sources e2 _ rfl

/-- `Pi_hat` as the vorticity equation uses it. -/
def vortPi (o : DriftOps ι) (p : VortOpts ι) (w : View ι) (names : List String) : Fld ι :=
  o.neumann fun i => when (p.diamagnetic_polarisation = true) (ionPressure p.avg w names i)

open Classical in
/-- The potential that is published. -/
def vortPhi (o : DriftOps ι) (p : VortOpts ι) (solve : Fld ι → Fld ι) (w : View ι) (names : List String) : Fld ι :=
  if p.diamagnetic = true ∧ ∃ n ∈ names, Has w n .pressure ∧ Charged w n then o.freePhi (solve (vortPi o p w names)) else solve (vortPi o p w names)

/-- **C69.**  What `vorticity` does before the sources are complete: the diamagnetic current takes energy from each charged species, the divergence of
the diamagnetic current and of the current driven by friction go into the vorticity and are published, and no other source is touched. -/
theorem vorticity_transform {o : DriftOps ι} (ho : FreeOnce o) {p : VortOpts ι} {solve : Fld ι → Fld ι} {Vort : Fld ι} {names : List String} (hn : names.Nodup)
    {r : VortState ι} (h : vorticityTransform o p solve Vort names st = (.ok r, st')) :
    r.Pi = vortPi o p (vals st) names ∧
    (∀ i, r.ddt i = when (p.diamagnetic = true) (o.divCurv (chargedPressure o.freeP (vals st) names) i)
      + when (p.collisional_friction = true) (divJcol o p.avg (vortPhi o p solve (vals st) names) (vortPi o p (vals st) names) (vals st) names i)) ∧
    (∀ n v, isSource v = false → vals st' (.sp n v) = vals st (.sp n v)) ∧
    (∀ n ∈ names, ∀ i, grew st st' n .energy_source i =
      when (p.diamagnetic = true) (jdiaWork o o.freeP (o.freePhi (solve (vortPi o p (vals st) names))) (vals st) n i)) ∧
    (∀ n v, isSource v = true → (n ∉ names ∨ v ≠ .energy_source) → ∀ i, grew st st' n v i = 0) ∧
    vals st' (.top "fields:phi") = some (.field (vortPhi o p solve (vals st) names)) ∧
    vals st' (.top "fields:vorticity") = some (.field Vort) ∧
    (p.diamagnetic = true → vals st' (.top "fields:DivJdia") = some (.field (o.divCurv (chargedPressure o.freeP (vals st) names)))) ∧
    (p.collisional_friction = true → vals st' (.top "fields:DivJcol") =
      some (.field (divJcol o p.avg (vortPhi o p solve (vals st) names) (vortPi o p (vals st) names) (vals st) names))) ∧
    ∀ k, k ≠ "fields:phi" → k ≠ "fields:vorticity" → (p.diamagnetic = true → k ≠ "fields:DivJdia") → (p.collisional_friction = true → k ≠ "fields:DivJcol") →
      vals st' (.top k) = vals st (.top k) := by
  classical
  obtain ⟨Pi, s1, h1, h2⟩ := M_bind_ok h
  obtain ⟨a1, a2, a3⟩ := eff_piHat o _ _ _ _ _ _ h1
  replace a1 : Pi = vortPi o p (vals st) names := a1
  obtain ⟨a, s2, h3, h4⟩ := M_bind_ok h2
  obtain ⟨d, s3, h5, h6⟩ := M_bind_ok h4
  obtain ⟨s4, h7, h8⟩ := set_bind_ok h6
  obtain ⟨s5, h9, h10⟩ := set_bind_ok h8
  obtain ⟨h11, h12⟩ := pure_ok h10
  -- first stage
  have w1 : ∀ n v i, fieldOf s1 n v i = fieldOf st n v i := by
    intro n v i
    cases hv : isSource v with
    | true => rw [a3 n v hv i, add_zero]
    | false => rw [Closures.fieldOf_congr (same_of_world a2 hv)]
  -- second stage
  have S2 : a = (vortPhi o p solve (vals st) names, fun i => when (p.diamagnetic = true) (o.divCurv (chargedPressure o.freeP (vals st) names) i)) ∧
      (∀ n v, isSource v = false → vals s2 (.sp n v) = vals st (.sp n v)) ∧
      (∀ n ∈ names, ∀ i, grew st s2 n .energy_source i =
        when (p.diamagnetic = true) (jdiaWork o o.freeP (o.freePhi (solve (vortPi o p (vals st) names))) (vals st) n i)) ∧
      (∀ n v, isSource v = true → (n ∉ names ∨ v ≠ .energy_source) → ∀ i, grew st s2 n v i = 0) ∧
      (p.diamagnetic = true → vals s2 (.top "fields:DivJdia") = some (.field (o.divCurv (chargedPressure o.freeP (vals st) names)))) ∧
      ∀ k, (p.diamagnetic = true → k ≠ "fields:DivJdia") → vals s2 (.top k) = vals st (.top k) := by
    by_cases hd : p.diamagnetic = true
    · rw [if_pos hd] at h3
      obtain ⟨b1, b2, b3, b4, b5, b6⟩ := vortDiamagnetic_ok ho hn h3
      have cp : chargedPressure o.freeP (vals s1) names = chargedPressure o.freeP (vals st) names := by
        show chargedPressure o.freeP (world s1) names = chargedPressure o.freeP (world st) names
        rw [a2]
      have g1 : ∀ n v i, grew st s2 n v i = grew s1 s2 n v i := fun n v i => by unfold grew; rw [w1]
      refine ⟨?_, fun n v hv => ?_, fun n hm i => ?_, fun n v hv hc i => ?_, fun _ => ?_, fun k hk => ?_⟩
      · rw [b1, cp, a1]
        simp only [when_pos hd]
        unfold vortPhi
        congr 1
        refine if_congr ?_ rfl rfl
        show (∃ n ∈ names, Has (world s1) n .pressure ∧ Charged (world s1) n) ↔ p.diamagnetic = true ∧ ∃ n ∈ names, Has (world st) n .pressure ∧ Charged (world st) n
        rw [a2]
        exact ⟨fun h => ⟨hd, h⟩, fun h => h.2⟩
      · rw [b2 n v hv, same_of_world a2 hv]
      · rw [g1, b3 n hm i, when_pos hd, a1]
        show jdiaWork o o.freeP _ (world s1) n i = jdiaWork o o.freeP _ (world st) n i
        rw [a2]
      · rw [g1, b4 n v hv hc i]
      · rw [b5, b1, cp]
      · rw [b6 k (hk hd)]
        exact only_sources a2 _ rfl
    · rw [if_neg hd] at h3
      obtain ⟨b1, b2⟩ := pure_ok h3
      have g1 : ∀ n v i, grew st s2 n v i = 0 := fun n v i => by unfold grew; rw [b2, w1, sub_self]
      refine ⟨?_, fun n v hv => ?_, fun n hm i => ?_, fun n v hv hc i => ?_, fun h => absurd h hd, fun k hk => ?_⟩
      · rw [b1, a1]
        simp only [when_neg hd]
        unfold vortPhi
        rw [if_neg fun h => hd h.1]
      · rw [b2, same_of_world a2 hv]
      · rw [g1, when_neg hd]
      · rw [g1]
      · rw [b2]
        exact only_sources a2 _ rfl
  obtain ⟨c1, c2, c3, c4, c5, c6⟩ := S2
  -- third stage
  have S3 : (∀ i, d i = when (p.diamagnetic = true) (o.divCurv (chargedPressure o.freeP (vals st) names) i)
      + when (p.collisional_friction = true) (divJcol o p.avg (vortPhi o p solve (vals st) names) (vortPi o p (vals st) names) (vals st) names i)) ∧
      (∀ n v, isSource v = false → vals s3 (.sp n v) = vals s2 (.sp n v)) ∧ (∀ n v i, fieldOf s3 n v i = fieldOf s2 n v i) ∧
      (p.collisional_friction = true → vals s3 (.top "fields:DivJcol") =
        some (.field (divJcol o p.avg (vortPhi o p solve (vals st) names) (vortPi o p (vals st) names) (vals st) names))) ∧
      ∀ k, (p.collisional_friction = true → k ≠ "fields:DivJcol") → vals s3 (.top k) = vals s2 (.top k) := by
    by_cases hf : p.collisional_friction = true
    · rw [if_pos hf] at h5
      obtain ⟨c, t, h13, h14⟩ := M_bind_ok h5
      obtain ⟨b1, b2, b3, b4, b5⟩ := friction_ok h13
      obtain ⟨h15, h16⟩ := pure_ok h14
      have dc : c = divJcol o p.avg (vortPhi o p solve (vals st) names) (vortPi o p (vals st) names) (vals st) names := by
        rw [b1, c1, a1]
        have e : ∀ n v, isSource v = false → world s2 (.sp n v) = world st (.sp n v) := fun n v hv => by
          rw [world_of (show srcKey (.sp n v) = false from hv), world_of (show srcKey (.sp n v) = false from hv), c2 n v hv]
        have er : ∀ n v, isSource v = false → vals s2 (.sp n v) = vals st (.sp n v) := c2
        have e1 : weightedNu (vals s2) names = weightedNu (vals st) names := by
          funext i
          unfold weightedNu Charged Has rAt fAt
          simp only [er _ .AA rfl, er _ .charge rfl, er _ .collision_frequency rfl, er _ .density rfl]
        have e2 : massDensity (vals s2) names = massDensity (vals st) names := by
          funext i
          unfold massDensity Charged Has rAt fAt
          simp only [er _ .AA rfl, er _ .charge rfl, er _ .density rfl]
        unfold divJcol
        rw [e1, e2]
      refine ⟨fun i => ?_, fun n v hv => ?_, fun n v i => ?_, fun _ => ?_, fun k hk => ?_⟩
      · rw [h15, c1, when_pos hf, dc]
      · rw [h16, b2 n v hv]
      · rw [h16, b3 n v i]
      · rw [h16, b4, dc]
      · rw [h16, b5 k (hk hf)]
    · rw [if_neg hf] at h5
      obtain ⟨b1, b2⟩ := pure_ok h5
      refine ⟨fun i => ?_, fun n v hv => ?_, fun n v i => ?_, fun h => absurd h hf, fun k hk => ?_⟩
      · rw [b1, c1, when_neg hf, add_zero]
      · rw [b2]
      · rw [b2]
      · rw [b2]
  obtain ⟨e1, e2, e3, e4, e5⟩ := S3
  have sp : ∀ n v, vals st' (.sp n v) = vals s3 (.sp n v) := fun n v => by rw [h12, same_of_set h9, same_of_set h7]
  have tp : ∀ k, k ≠ "fields:phi" → k ≠ "fields:vorticity" → vals st' (.top k) = vals s3 (.top k) := fun k k1 k2 => by
    rw [h12, h9, Function.update_of_ne (by simpa using k1), h7, Function.update_of_ne (by simpa using k2)]
  have fl : ∀ n v i, grew st st' n v i = grew st s2 n v i := fun n v i => by
    unfold grew; rw [Closures.fieldOf_congr (sp n v), e3]
  refine ⟨by rw [h11, a1], fun i => by rw [h11]; exact e1 i, fun n v hv => by rw [sp, e2 n v hv, c2 n v hv], fun n hm i => by rw [fl, c3 n hm i],
    fun n v hv hc i => by rw [fl, c4 n v hv hc i], ?_, ?_, fun hd => ?_, fun hf => ?_, fun k k1 k2 k3 k4 => ?_⟩
  · rw [h12, h9, Function.update_self, c1]
  · rw [h12, h9, Function.update_of_ne (by decide), h7, Function.update_self]
  · rw [tp _ (by decide) (by decide), e5 _ fun _ => by decide, c5 hd]
  · rw [tp _ (by decide) (by decide), e4 hf]
  · rw [tp k k1 k2, e5 k k4, c6 k k3]

/-! ## Polarisation drift -/

theorem eff_fieldOrZero (k : String) : Effect (fieldOrZero k) (fun w : View ι => topAt w k) (fun _ _ _ _ => 0) := by
  have h := eff_if (skip := (fun _ : ι => (0 : ℝ))) (eff_isSetFinal (ι := ι) (k := .top k) rfl) (eff_getTop (ι := ι) (k := k))
  refine Effect.congr (m := fieldOrZero k) h (fun w => ?_) fun w m x i => by simp
  by_cases h1 : (w (.top k)).isSome = true
  · rw [if_pos h1]
  · rw [if_neg h1]
    unfold topAt
    rw [Option.not_isSome_iff_eq_none.1 h1]
    rfl

/-- Mass density used for the polarisation drift. -/
def polDensity (p : PolOpts) (w : View ι) (names : List String) : Fld ι := fun i =>
  if p.boussinesq = true then p.average_atomic_mass else floorTo (massDensity w names i) p.density_floor

theorem eff_polMass (p : PolOpts) (names : List String) : Effect (polMass p names) (fun w : View ι => polDensity p w names) (fun _ _ _ _ => 0) := by
  unfold polMass polDensity
  split
  · exact Effect.pure _
  · exact ((eff_masses names).bind0 fun m => Effect.pure (ι := ι) fun i => floorTo (m i) p.density_floor).congr (fun _ => rfl) fun _ _ _ _ => rfl

theorem eff_polOf (o : DriftOps ι) (coef phi : Fld ι) (factor : ℝ) {v s : Var} (hv : isSource v = false) (hs : isSource s = true) (n : String) :
    Effect (polOf o coef phi factor v s n) (fun _ => ())
      (fun w => one n s fun i => when (Has w n v) (factor * o.divAGrad (fun i => fAt w n v i * coef i) phi i)) := by
  have h := eff_if (skip := ()) (eff_isSetFinal (ι := ι) (k := .sp n v) hv)
    ((eff_getF (ι := ι) (n := n) hv).bind0 fun f => eff_add (m := n) hs fun i => factor * o.divAGrad (fun i => f i * coef i) phi i)
  refine Effect.congr (m := polOf o coef phi factor v s n) h (fun _ => rfl) fun w m x i => ?_
  unfold one when Has
  split_ifs <;> rfl

/-- The flow of `f` by the polarisation drift of species `n`: its convergence. -/
def polFlow (o : DriftOps ι) (phi : Fld ι) (w : View ι) (n : String) (f : Fld ι) : Fld ι :=
  o.divAGrad (fun i => f i * (rAt w n .AA / rAt w n .charge / o.Bsq i)) phi

/-- What the polarisation drift gives source `x` of a species. -/
def polGain (o : DriftOps ι) (phi : Fld ι) (w : View ι) (n : String) (x : Var) (i : ι) : ℝ :=
  (if x = .density_source then when (Has w n .density) (1 * polFlow o phi w n (fAt w n .density) i) else 0)
  + (if x = .energy_source then when (Has w n .pressure) (5 / 2 * polFlow o phi w n (fAt w n .pressure) i) else 0)
  + (if x = .momentum_source then when (Has w n .momentum) (1 * polFlow o phi w n (fAt w n .momentum) i) else 0)

theorem eff_polSpecies (o : DriftOps ι) (phi : Fld ι) (m : String) :
    Effect (polSpecies o phi m) (fun _ => ()) (fun w n x i => if n = m then when (Has w m .AA ∧ Charged w m) (polGain o phi w m x i) else 0) := by
  have h := eff_ifSet (k := .sp m .AA) (skip := ()) rfl (eff_ifCharged (n := m) (skip := ()) fun Z =>
    (eff_getR (ι := ι) (n := m) (v := .AA) rfl).bind0 fun A =>
      (eff_polOf o (fun i => A / Z / o.Bsq i) phi 1 (v := .density) (s := .density_source) rfl rfl m).bind fun _ =>
        (eff_polOf o (fun i => A / Z / o.Bsq i) phi (5 / 2) (v := .pressure) (s := .energy_source) rfl rfl m).bind fun _ =>
          eff_polOf o (fun i => A / Z / o.Bsq i) phi 1 (v := .momentum) (s := .momentum_source) rfl rfl m)
  refine Effect.congr (m := polSpecies o phi m) h (fun _ => rfl) fun w n x i => ?_
  rw [ite_and']
  by_cases h1 : Has w m .AA ∧ Charged w m
  · rw [if_pos (show (w (.sp m .AA)).isSome = true ∧ Charged w m from h1), when_pos h1]
    unfold one polGain polFlow
    by_cases h4 : n = m
    · simp only [h4, true_and, if_true]
      ring
    · simp [h4]
  · rw [if_neg (show ¬((w (.sp m .AA)).isSome = true ∧ Charged w m) from h1), when_neg h1, ite_self]

/-- Divergence of the diamagnetic and the parallel current. -/
def polJ (o : DriftOps ι) (w : View ι) (names : List String) : Fld ι := fun i => topAt w "fields:DivJdia" i + divJpar o w names i

/-- Divergence of all currents but the polarisation current. -/
def allJ (o : DriftOps ι) (w : View ι) (names : List String) : Fld ι := fun i =>
  polJ o w names i + topAt w "fields:DivJextra" i + topAt w "fields:DivJcol" i

/-- The potential of the polarisation flow. -/
def polPhi (o : DriftOps ι) (p : PolOpts) (solve : Fld ι → Fld ι → Fld ι) (w : View ι) (names : List String) : Fld ι :=
  o.neumann (solve (fun i => polDensity p w names i / o.Bsq i) fun i => allJ o w names i * o.Bsq i / polDensity p w names i)

theorem eff_throwIf {p : Prop} {_ : Decidable p} : Effect (ι := ι) (throwIf p) (fun _ => ()) (fun _ _ _ _ => 0) :=
  Effect.reads fun s a s' h => by
    unfold throwIf at h
    split at h
    · cases h
    · cases h; exact ⟨rfl, rfl⟩

/-- What the component gives source `x` of species `n`. -/
def polAll (o : DriftOps ι) (p : PolOpts) (solve : Fld ι → Fld ι → Fld ι) (names : List String) (w : View ι) (n : String) (x : Var) (i : ι) : ℝ :=
  when (p.diamagnetic_polarisation = true) (names.map fun m => if n = m then when (x = .energy_source ∧ Has w m .pressure ∧ Has w m .AA ∧ Charged w m)
      (fAt w m .pressure i * (rAt w m .AA / p.average_atomic_mass / rAt w m .charge) * polJ o w names i) else 0).sum
  + when (p.advection = true) (names.map fun m => if n = m then when (Has w m .AA ∧ Charged w m) (polGain o (polPhi o p solve w names) w m x i) else 0).sum

theorem eff_polarisation (o : DriftOps ι) (p : PolOpts) (solve : Fld ι → Fld ι → Fld ι) (names : List String) :
    Effect (polarisationDrift o p solve names) (fun _ => ()) (fun w n x i => polAll o p solve names w n x i) := by
  have adv : ∀ J, Effect (polAdvection o p solve J names) _ _ := fun J =>
    (eff_polMass p names).bind0 fun m => (eff_fieldOrZero "fields:DivJextra").bind0 fun Jx => (eff_fieldOrZero "fields:DivJcol").bind0 fun Jc =>
      eff_forM (eff_polSpecies o (o.neumann (solve (fun i => m i / o.Bsq i) fun i => (J i + Jx i + Jc i) * o.Bsq i / m i))) names
  have en : ∀ J, Effect (do throwIf (p.boussinesq = false); names.forM (polEnergy p.average_atomic_mass J) : Prog ι Unit) _ _ := fun J =>
    (eff_throwIf (ι := ι) (p := p.boussinesq = false)).bind0 fun _ => eff_forM (eff_polEnergy p.average_atomic_mass J) names
  have h := (eff_fieldOrZero (ι := ι) "fields:DivJdia").bind0 fun J₀ => (eff_polCurrents o J₀ names).bind0 fun J =>
    (Effect.ite (p := p.diamagnetic_polarisation = true) (dp := inferInstance) (en J) (Effect.pure ())).bind fun _ =>
      Effect.ite (p := p.advection = true) (dp := inferInstance) (adv J) (Effect.pure ())
  refine Effect.congr (m := polarisationDrift o p solve names) h (fun _ => rfl) fun w n x i => ?_
  unfold polAll
  by_cases h1 : p.diamagnetic_polarisation = true
  · by_cases h2 : p.advection = true
    · simp only [if_pos h1, if_pos h2, when_pos h1, when_pos h2]; rfl
    · simp only [if_pos h1, if_neg h2, when_pos h1, when_neg h2]; rfl
  · by_cases h2 : p.advection = true
    · simp only [if_neg h1, if_pos h2, when_neg h1, when_pos h2]; rfl
    · simp only [if_neg h1, if_neg h2, when_neg h1, when_neg h2]

/-- **C67.**  What `polarisation_drift` adds to the sources of a species, and that it changes nothing else. -/
theorem polarisation_sources {o : DriftOps ι} {p : PolOpts} {solve : Fld ι → Fld ι → Fld ι} {names : List String} {u : Unit} (hn : names.Nodup)
    (h : polarisationDrift o p solve names st = (.ok u, st')) :
    OnlySources st st' ∧
    (∀ n ∈ names, ∀ i,
      grew st st' n .density_source i = when (p.advection = true ∧ (Has (vals st) n .AA ∧ Charged (vals st) n) ∧ Has (vals st) n .density)
        (polFlow o (polPhi o p solve (vals st) names) (vals st) n (fieldOf st n .density) i) ∧
      grew st st' n .momentum_source i = when (p.advection = true ∧ (Has (vals st) n .AA ∧ Charged (vals st) n) ∧ Has (vals st) n .momentum)
        (polFlow o (polPhi o p solve (vals st) names) (vals st) n (fieldOf st n .momentum) i) ∧
      grew st st' n .energy_source i = when (p.diamagnetic_polarisation = true ∧ Has (vals st) n .pressure ∧ Has (vals st) n .AA ∧ Charged (vals st) n)
          (fieldOf st n .pressure i * (realOf st n .AA / p.average_atomic_mass / realOf st n .charge) * polJ o (vals st) names i)
        + when (p.advection = true ∧ (Has (vals st) n .AA ∧ Charged (vals st) n) ∧ Has (vals st) n .pressure)
          (5 / 2 * polFlow o (polPhi o p solve (vals st) names) (vals st) n (fieldOf st n .pressure) i)) ∧
    ∀ n, n ∉ names → ∀ v, isSource v = true → ∀ i, grew st st' n v i = 0 := by
  obtain ⟨-, hw, hg⟩ := eff_polarisation o p solve names _ _ _ h
  have g : ∀ n v, isSource v = true → ∀ i, grew st st' n v i = polAll o p solve names (vals st) n v i := by
    intro n v hv i
    unfold grew
    rw [hg n v hv i]
    show _ + polAll o p solve names (vals st) n v i - _ = _
    ring
  refine ⟨only_sources hw, fun n hm i => ?_, fun n hm v hv i => ?_⟩
  · have e : ∀ x, polAll o p solve names (vals st) n x i =
        when (p.diamagnetic_polarisation = true) (when (x = .energy_source ∧ Has (vals st) n .pressure ∧ Has (vals st) n .AA ∧ Charged (vals st) n)
          (fieldOf st n .pressure i * (realOf st n .AA / p.average_atomic_mass / realOf st n .charge) * polJ o (vals st) names i))
        + when (p.advection = true) (when (Has (vals st) n .AA ∧ Charged (vals st) n) (polGain o (polPhi o p solve (vals st) names) (vals st) n x i)) := by
      intro x
      unfold polAll
      rw [sum_own (d := fun m w x => when (x = .energy_source ∧ Has w m .pressure ∧ Has w m .AA ∧ Charged w m)
          (fAt w m .pressure i * (rAt w m .AA / p.average_atomic_mass / rAt w m .charge) * polJ o w names i)) hn (w := vals st) (x := x) hm,
        sum_own (d := fun m w x => when (Has w m .AA ∧ Charged w m) (polGain o (polPhi o p solve w names) w m x i)) hn (w := vals st) (x := x) hm]
      rfl
    have ww : ∀ (a b : Prop) (y : ℝ), when a (when b y) = when (a ∧ b) y := by
      intro a b y
      by_cases h1 : a <;> by_cases h2 : b <;> simp [when, h1, h2]
    rw [g _ _ rfl, g _ _ rfl, g _ _ rfl, e, e, e]
    unfold polGain
    simp only [reduceCtorEq, if_true, if_false, add_zero, zero_add, one_mul, ww, false_and, true_and, and_false]
    exact ⟨by rw [when_neg not_false, zero_add]; rfl, by rw [when_neg not_false, zero_add]; rfl, rfl⟩
  · rw [g n v hv i]
    unfold polAll
    rw [sum_others (d := fun m w x => when (x = .energy_source ∧ Has w m .pressure ∧ Has w m .AA ∧ Charged w m)
          (fAt w m .pressure i * (rAt w m .AA / p.average_atomic_mass / rAt w m .charge) * polJ o w names i)) (w := vals st) (x := v) hm,
        sum_others (d := fun m w x => when (Has w m .AA ∧ Charged w m) (polGain o (polPhi o p solve w names) w m x i)) (w := vals st) (x := v) hm]
    simp [when]

end
end Hermes.Drifts
