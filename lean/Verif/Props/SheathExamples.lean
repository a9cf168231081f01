import Verif.Props.SheathMirror
import Verif.Lemmas.SheathSafe

/-!
# Runs of `SheathBoundary`, and where its flow is below the Bohm speed (C36)
-/

set_option linter.unusedSimpArgs false

namespace Hermes.Sheath
open Hermes.Closures

/-- One field line with four cells 1–4 and guard cells 0 and 5. -/
def line : YMesh (Fin 6) where
  ym i := i - 1
  yp i := i + 1
  lower := [1]
  upper := [4]
  J _ := 1
  g22 _ := 1
  dx _ := 1
  dy _ := 1
  dz _ := 1

theorem line_ok : MeshOk line := ⟨by decide, by decide⟩

theorem line_target {u : Bool} {i g inn : Fin 6} (h : Target line true true u i g inn) :
    (u = false ∧ i = 1 ∧ g = 0 ∧ inn = 2) ∨ (u = true ∧ i = 4 ∧ g = 5 ∧ inn = 3) := by
  cases h with
  | lower _ hi =>
    have : i = 1 := by simpa [line] using hi
    subst this; left; decide
  | upper _ hi =>
    have : i = 4 := by simpa [line] using hi
    subst this; right; decide

theorem line_long : MeshLong line := by
  intro u i g inn u' i' g' inn' h h' hne
  rcases line_target h with ⟨-, rfl, rfl, rfl⟩ | ⟨-, rfl, rfl, rfl⟩ <;>
  rcases line_target h' with ⟨-, rfl, rfl, rfl⟩ | ⟨-, rfl, rfl, rfl⟩ <;>
  first
  | exact absurd rfl hne
  | decide

/-- Both ends, no electron emission, zero wall potential. -/
noncomputable def sheathDefaults {ι : Type} : SheathOpts ι where
  Ge := 0
  sin_alpha := 1
  lower_y := true
  upper_y := true
  always_set_phi := false
  floor_potential := true
  wall _ := 0
  electronMass := 1 / 1836

/-- Electrons and deuterium ions with density `n` and temperature `t`. -/
def plasma {ι : Type} (n t : ι → ℝ) : Store Key (Value ι) := stateOf fun s v =>
  if s = "e" then
    match v with
    | .density => some (.field n)
    | .temperature => some (.field t)
    | .velocity => some (.field fun _ => 0)
    | _ => none
  else if s = "d+" then
    match v with
    | .AA => some (.real 2)
    | .charge => some (.real 1)
    | .density => some (.field n)
    | .temperature => some (.field t)
    | .velocity => some (.field fun _ => 0)
    | _ => none
  else none

theorem plasma_ion {ι : Type} (n t : ι → ℝ) : IsIon (plasma n t) "d+" := ⟨by decide, one_ne_zero⟩

theorem plasma_ready {ι : Type} (n t : ι → ℝ) : Ready ["d+", "e"] (sheathInputs ["d+", "e"]) (plasma n t) := by
  refine ⟨?_, ?_, fun _ _ _ _ => rfl, rfl, fun _ _ _ _ => ⟨rfl, rfl⟩⟩
  · intro s v hv x hx
    simp only [List.mem_cons, List.not_mem_nil, or_false] at hv
    by_cases he : s = "e"
    · subst he
      rcases hv with rfl | rfl | rfl <;> exact absurd hx (by simp [plasma, stateOf, vals])
    · by_cases hd : s = "d+"
      · subst hd
        rcases hv with rfl | rfl | rfl
        · exact ⟨2, by simpa [plasma, stateOf, vals] using hx.symm⟩
        · exact ⟨1, by simpa [plasma, stateOf, vals] using hx.symm⟩
        · exact absurd hx (by simp [plasma, stateOf, vals])
      · exact absurd hx (by simp [plasma, stateOf, vals, he, hd])
  · rintro k (⟨s, hs, rfl | rfl⟩ | ⟨s, hs, hne, rfl⟩)
    · simp only [List.mem_cons, List.not_mem_nil, or_false] at hs
      rcases hs with rfl | rfl | rfl <;> rfl
    · simp only [List.mem_cons, List.not_mem_nil, or_false] at hs
      rcases hs with rfl | rfl | rfl <;> rfl
    · simp only [List.mem_cons, List.not_mem_nil, or_false] at hs
      rcases hs with rfl | rfl
      · rfl
      · exact absurd rfl hne

/-- The component runs on such a plasma and computes the potential. -/
theorem plasma_runs (n t : Fin 6 → ℝ) :
    ∃ st', sheathBoundary sheathDefaults line 0 ["d+", "e"] (plasma n t) = (.ok (), st') :=
  sheathBoundary_runs _ _ _ (plasma_ready n t)

theorem plasma_nodup : ["d+", "e"].Nodup := by decide

theorem plasma_sheath {ι : Type} (n t : ι → ℝ) (s : String) : HasSheath (plasma n t) ["d+", "e"] s ↔ s = "d+" ∨ s = "e" := by
  constructor
  · rintro (rfl | ⟨h, -⟩)
    · exact Or.inr rfl
    · simpa using h
  · rintro (rfl | rfl)
    · exact Or.inr ⟨by simp, plasma_ion n t⟩
    · exact Or.inl rfl

/-- Plasma that does not vary along the field in front of a target: all face values are the cell values, and the ions leave with the sound speed
`sqrt(4 T / 3)`, if this is at most 10. -/
theorem flat_plasma {ι : Type} [DecidableEq ι] {m : YMesh ι} (hm : MeshOk m) {n t : ι → ℝ} {st' : Store Key (Value ι)}
    (h : sheathBoundary sheathDefaults m 0 ["d+", "e"] (plasma n t) = (.ok (), st'))
    {u : Bool} {i g inn : ι} (ht : Target m true true u i g inn) (hn : 1e-5 ≤ n i) (hT : 1e-5 ≤ t i) (hni : n inn = n i) (hti : t inn = t i) :
    (∀ s, s = "d+" ∨ s = "e" → ∀ j, j = i ∨ j = inn ∨ j = g →
      fieldOf st' s .density j = n i ∧ fieldOf st' s .temperature j = t i) ∧
    bohmSqAt (plasma n t) st' "d+" i g = 4 / 3 * t i ∧
    out u * face (fieldOf st' "d+" .velocity) i g = Real.sqrt (min 100 (4 / 3 * t i)) := by
  have hn0 : 0 < n i := lt_of_lt_of_le (by norm_num) hn
  have hcell : ∀ s, s = "d+" ∨ s = "e" → ∀ j, j = i ∨ j = inn →
      fieldOf st' s .density j = n i ∧ fieldOf st' s .temperature j = t i := by
    intro s hs j hj
    have hno : ∀ u' i' inn', ¬ Target m true true u' i' j inn' := by
      intro u' i' inn' h'
      have := h'.ne hm ht
      rcases hj with rfl | rfl
      · exact this.1 rfl
      · exact this.2 rfl
    obtain ⟨h1, h2, -⟩ := sheath_interior hm plasma_nodup h ((plasma_sheath _ _ s).2 hs) hno
    rw [h1, h2]
    have e1 : fieldOf (plasma n t) s .density j = n j := by rcases hs with rfl | rfl <;> rfl
    have e2 : fieldOf (plasma n t) s .temperature j = t j := by rcases hs with rfl | rfl <;> rfl
    have e3 : n j = n i ∧ t j = t i := by
      rcases hj with rfl | rfl
      · exact ⟨rfl, rfl⟩
      · exact ⟨hni, hti⟩
    rw [e1, e2, e3.1, e3.2]
    exact ⟨max_eq_left hn0.le, rfl⟩
  have hlim : ∀ x : ℝ, 1e-10 ≤ x → limitFree x x = x := by
    intro x hx
    unfold limitFree
    rw [if_neg (lt_irrefl _), if_neg (not_lt.2 hx)]
    have : x ≠ 0 := by intro e; rw [e] at hx; norm_num at hx
    field_simp
  have hall : ∀ s, s = "d+" ∨ s = "e" → ∀ j, j = i ∨ j = inn ∨ j = g →
      fieldOf st' s .density j = n i ∧ fieldOf st' s .temperature j = t i := by
    intro s hs j hj
    rcases hj with rfl | rfl | rfl
    · exact hcell s hs _ (Or.inl rfl)
    · exact hcell s hs _ (Or.inr rfl)
    · have hi := hcell s hs i (Or.inl rfl)
      have hin := hcell s hs inn (Or.inr rfl)
      rw [sheath_limitFree hm plasma_nodup h ((plasma_sheath _ _ s).2 hs) (v := .density) (by decide) ht,
        sheath_limitFree hm plasma_nodup h ((plasma_sheath _ _ s).2 hs) (v := .temperature) (by decide) ht,
        hi.1, hi.2, hin.1, hin.2]
      exact ⟨hlim _ (by linarith), hlim _ (by linarith)⟩
  have hface : ∀ s, s = "d+" ∨ s = "e" → face (fieldOf st' s .density) i g = n i ∧ face (fieldOf st' s .temperature) i g = t i := by
    intro s hs
    have h1 := hall s hs i (Or.inl rfl)
    have h2 := hall s hs g (Or.inr (Or.inr rfl))
    unfold face
    rw [h1.1, h1.2, h2.1, h2.2]
    constructor <;> ring
  have hb : bohmSqAt (plasma n t) st' "d+" i g = 4 / 3 * t i := by
    unfold bohmSqAt bohmSq
    rw [(hface "d+" (Or.inl rfl)).1, (hface "d+" (Or.inl rfl)).2, (hface "e" (Or.inr rfl)).1, (hface "e" (Or.inr rfl)).2,
      (hall "d+" (Or.inl rfl) i (Or.inl rfl)).1, (hall "e" (Or.inr rfl) i (Or.inl rfl)).1, max_eq_left hT,
      max_eq_left (show (1e-10 : ℝ) ≤ n i by linarith)]
    have e : n i / n i = 1 := div_self hn0.ne'
    show (5 / 3 * t i + 1 * _ * t i * _) / 2 = _
    simp only [e]
    norm_num
    ring
  refine ⟨hall, hb, ?_⟩
  rw [(sheath_ions hm plasma_nodup h (by simp) (plasma_ion _ _) ht).1 rfl, hb,
    max_eq_right (by linarith)]

theorem uniform_plasma {ι : Type} [DecidableEq ι] {m : YMesh ι} (hm : MeshOk m) {T : ℝ} (hT : 1e-5 ≤ T) {st' : Store Key (Value ι)}
    (h : sheathBoundary sheathDefaults m 0 ["d+", "e"] (plasma (fun _ => 1) fun _ => T) = (.ok (), st'))
    {u : Bool} {i g inn : ι} (ht : Target m true true u i g inn) :
    (∀ s, s = "d+" ∨ s = "e" → ∀ j, j = i ∨ j = inn ∨ j = g →
      fieldOf st' s .density j = 1 ∧ fieldOf st' s .temperature j = T) ∧
    bohmSqAt (plasma (fun _ => 1) fun _ => T) st' "d+" i g = 4 / 3 * T ∧
    out u * face (fieldOf st' "d+" .velocity) i g = Real.sqrt (min 100 (4 / 3 * T)) :=
  flat_plasma hm h ht (by norm_num) hT rfl rfl

/-- **C36 fails** in hot plasma: the speed of the ions is limited to 10 (in units of the normalisation), below the Bohm
speed. -/
theorem sheath_below_bohm : ∃ st', sheathBoundary sheathDefaults line 0 ["d+", "e"] (plasma (fun _ => 1) fun _ => 300) = (.ok (), st') ∧
    Target line true true true 4 5 3 ∧
    (face (fieldOf st' "d+" .velocity) 4 5) ^ 2 < bohmSqAt (plasma (fun _ => 1) fun _ => 300) st' "d+" 4 5 := by
  obtain ⟨st', h⟩ := plasma_runs (fun _ => 1) fun _ => 300
  have ht : Target line true true true 4 5 3 := Target.upper (m := line) rfl (by decide)
  obtain ⟨-, h2, h3⟩ := uniform_plasma line_ok (by norm_num) h ht
  refine ⟨st', h, ht, ?_⟩
  have : out true = 1 := rfl
  rw [this, one_mul] at h3
  rw [h2, h3, Real.sq_sqrt (by norm_num)]
  norm_num

/-- The published values next to a target, for any profiles. -/
theorem plasma_values {n t : Fin 6 → ℝ} {st' : Store Key (Value (Fin 6))}
    (h : sheathBoundary sheathDefaults line 0 ["d+", "e"] (plasma n t) = (.ok (), st')) {s : String} (hs : s = "d+" ∨ s = "e") :
    (∀ j, j = 3 ∨ j = 4 → fieldOf st' s .density j = max (n j) 0 ∧ fieldOf st' s .temperature j = t j) ∧
    fieldOf st' s .density 5 = limitFree (max (n 3) 0) (max (n 4) 0) ∧ fieldOf st' s .temperature 5 = limitFree (t 3) (t 4) := by
  have ht : Target line true true true 4 5 3 := Target.upper (m := line) rfl (by decide)
  have hS := (plasma_sheath n t s).2 hs
  have hcell : ∀ j, j = 3 ∨ j = 4 → fieldOf st' s .density j = max (n j) 0 ∧ fieldOf st' s .temperature j = t j := by
    intro j hj
    obtain ⟨h1, h2, -⟩ := sheath_interior line_ok plasma_nodup h hS (j := j) (by
      intro u' i' inn' h'
      rcases line_target h' with ⟨-, -, rfl, -⟩ | ⟨-, -, rfl, -⟩ <;> rcases hj with hj | hj <;> exact absurd hj (by decide))
    rw [h1, h2]
    have e1 : fieldOf (plasma n t) s .density j = n j := by rcases hs with rfl | rfl <;> rfl
    have e2 : fieldOf (plasma n t) s .temperature j = t j := by rcases hs with rfl | rfl <;> rfl
    rw [e1, e2]
    exact ⟨rfl, rfl⟩
  refine ⟨hcell, ?_, ?_⟩
  · rw [sheath_limitFree line_ok plasma_nodup h hS (v := .density) (by decide) ht, (hcell 3 (Or.inl rfl)).1, (hcell 4 (Or.inr rfl)).1]
  · rw [sheath_limitFree line_ok plasma_nodup h hS (v := .temperature) (by decide) ht, (hcell 3 (Or.inl rfl)).2, (hcell 4 (Or.inr rfl)).2]

/-- Density falling towards the targets from 4 to 2. -/
def falling : Fin 6 → ℝ := ![0, 2, 4, 4, 2, 0]

theorem falling3 : falling 3 = 4 := rfl
theorem falling4 : falling 4 = 2 := rfl

theorem plasma_ions {n t : Fin 6 → ℝ} {s : String} (hs : s ∈ ["d+", "e"]) (hi : IsIon (plasma n t) s) : s = "d+" := by
  have : s = "d+" ∨ s = "e" := by simpa using hs
  rcases this with rfl | rfl
  · rfl
  · exact absurd rfl hi.1

/-- In a plasma of one temperature, with density falling from 4 to 2 (and 1 in the guard cell), the electron flow balances the ion
current. -/
example : ∃ st', sheathBoundary sheathDefaults line 0 ["d+", "e"] (plasma falling fun _ => 1) = (.ok (), st') ∧
    electronFlow st' true 4 5 = ionCurrent (plasma falling fun _ => 1) st' ["d+", "e"] true 4 5 ∧
    electronFlow st' true 4 5 = 3 / 2 * Real.sqrt (4 / 3) := by
  obtain ⟨st', h⟩ := plasma_runs falling fun _ => 1
  have ht : Target line true true true 4 5 3 := Target.upper (m := line) rfl (by decide)
  have hv := fun s hs => plasma_values h (s := s) hs
  have d3 : ∀ s, s = "d+" ∨ s = "e" → fieldOf st' s .density 3 = 4 := fun s hs => by
    rw [((hv s hs).1 3 (Or.inl rfl)).1, falling3]; norm_num
  have d4 : ∀ s, s = "d+" ∨ s = "e" → fieldOf st' s .density 4 = 2 := fun s hs => by
    rw [((hv s hs).1 4 (Or.inr rfl)).1, falling4]; norm_num
  have t3 : ∀ s, s = "d+" ∨ s = "e" → fieldOf st' s .temperature 3 = 1 := fun s hs => ((hv s hs).1 3 (Or.inl rfl)).2
  have t4 : ∀ s, s = "d+" ∨ s = "e" → fieldOf st' s .temperature 4 = 1 := fun s hs => ((hv s hs).1 4 (Or.inr rfl)).2
  have d5 : ∀ s, s = "d+" ∨ s = "e" → face (fieldOf st' s .density) 4 5 = 3 / 2 := fun s hs => by
    unfold face
    rw [d4 s hs, (hv s hs).2.1, falling3, falling4]
    unfold limitFree
    norm_num
  have t5 : ∀ s, s = "d+" ∨ s = "e" → face (fieldOf st' s .temperature) 4 5 = 1 := fun s hs => by
    unfold face
    rw [t4 s hs, (hv s hs).2.2]
    unfold limitFree
    norm_num
  have hb : bohmSqAt (plasma falling fun _ => 1) st' "d+" 4 5 = 4 / 3 := by
    unfold bohmSqAt bohmSq
    rw [d5 _ (Or.inl rfl), t5 _ (Or.inl rfl), d5 _ (Or.inr rfl), t5 _ (Or.inr rfl), d4 _ (Or.inl rfl), d4 _ (Or.inr rfl)]
    show (5 / 3 * _ + 1 * _ * _ * _) / 2 = (4 / 3 : ℝ)
    norm_num [abs_of_pos]
  have hc : ionCurrent (plasma falling fun _ => 1) st' ["d+", "e"] true 4 5 = 3 / 2 * Real.sqrt (4 / 3) := by
    unfold ionCurrent
    rw [List.map_cons, List.map_cons, List.map_nil, if_pos (plasma_ion _ _), if_neg (fun hh => hh.1 rfl),
      (sheath_ions line_ok plasma_nodup h (by simp) (plasma_ion _ _) ht).1 rfl, hb, d5 _ (Or.inl rfl)]
    have : charge (plasma falling fun _ => 1) "d+" = 1 := rfl
    rw [this]
    norm_num
  have hs0 : (0 : ℝ) < Real.sqrt (4 / 3) := Real.sqrt_pos.2 (by norm_num)
  have key := sheath_zero_current_partial line_ok line_long plasma_nodup h rfl ht
    (fun s hs => by
      have hs' := (plasma_sheath _ _ s).1 hs
      rw [t3 s hs', t4 s hs'])
    (fun s hs => by
      have hs' := (plasma_sheath _ _ s).1 hs
      unfold Alike
      rw [d3 s hs', d4 s hs', d3 _ (Or.inr rfl), d4 _ (Or.inr rfl)]
      exact ⟨by norm_num, Or.inl rfl⟩)
    rfl
    (fun n hn hi => by obtain rfl := plasma_ions hn hi; rfl)
    (show (0 : ℝ) < 1 / 1836 by norm_num) (show (0 : ℝ) < 1 by norm_num)
    (by rw [d4 _ (Or.inr rfl)]; norm_num) (by rw [d3 _ (Or.inr rfl)]; norm_num) (by rw [t4 _ (Or.inr rfl)]; norm_num)
    (fun n hn hi => by obtain rfl := plasma_ions hn hi; rw [d4 _ (Or.inl rfl), d4 _ (Or.inr rfl)])
    (fun n hn hi => by obtain rfl := plasma_ions hn hi; rw [t4 _ (Or.inl rfl)]; norm_num)
    (by rw [hc]; exact mul_pos one_pos (by positivity))
    (fun _ => by
      rw [hc, t4 _ (Or.inr rfl), d5 _ (Or.inr rfl)]
      show 1 * (3 / 2 * Real.sqrt (4 / 3)) ≤ 3 / 2 * (Real.sqrt (1 / (2 * Real.pi * (1 / 1836))) * (1 - 0))
      rw [one_mul, sub_zero, mul_one]
      refine mul_le_mul_of_nonneg_left (Real.sqrt_le_sqrt ?_) (by norm_num)
      have := Real.pi_le_four
      have := Real.pi_pos
      rw [div_le_div_iff₀ (by norm_num) (by positivity)]
      linarith)
  have h4 : (sheathDefaults : SheathOpts (Fin 6)).sin_alpha = 1 := rfl
  rw [h4, one_mul] at key
  exact ⟨st', h, key, key.trans hc⟩

/-- Temperature falling towards the targets from 2 to 1. -/
def cooling : Fin 6 → ℝ := ![1, 1, 2, 2, 1, 1]

theorem cooling3 : cooling 3 = 2 := rfl
theorem cooling4 : cooling 4 = 1 := rfl

/-- **C38 fails** where the temperature falls towards the target: the potential is computed with the temperature in the last cell
and used with the temperature on the face.  Temperatures 2, 1 (and 1/2 in the guard cell), density 1: the ion current is 1, less
than half of it is carried by electrons. -/
theorem sheath_current_with_gradient : ∃ st', sheathBoundary sheathDefaults line 0 ["d+", "e"] (plasma (fun _ => 1) cooling) = (.ok (), st') ∧
    ionCurrent (plasma (fun _ => 1) cooling) st' ["d+", "e"] true 4 5 = 1 ∧ electronFlow st' true 4 5 < 1 / 2 := by
  obtain ⟨st', h⟩ := plasma_runs (fun _ => 1) cooling
  have ht : Target line true true true 4 5 3 := Target.upper (m := line) rfl (by decide)
  have hv := fun s hs => plasma_values h (s := s) hs
  have d4 : ∀ s, s = "d+" ∨ s = "e" → fieldOf st' s .density 4 = 1 := fun s hs => by
    rw [((hv s hs).1 4 (Or.inr rfl)).1]; norm_num
  have t4 : ∀ s, s = "d+" ∨ s = "e" → fieldOf st' s .temperature 4 = 1 := fun s hs => ((hv s hs).1 4 (Or.inr rfl)).2
  have d5 : ∀ s, s = "d+" ∨ s = "e" → face (fieldOf st' s .density) 4 5 = 1 := fun s hs => by
    unfold face
    rw [d4 s hs, (hv s hs).2.1]
    unfold limitFree
    norm_num
  have t5 : ∀ s, s = "d+" ∨ s = "e" → face (fieldOf st' s .temperature) 4 5 = 3 / 4 := fun s hs => by
    unfold face
    rw [t4 s hs, (hv s hs).2.2, cooling3, cooling4]
    unfold limitFree
    norm_num
  have hb : bohmSqAt (plasma (fun _ => 1) cooling) st' "d+" 4 5 = 1 := by
    unfold bohmSqAt bohmSq
    rw [d5 _ (Or.inl rfl), t5 _ (Or.inl rfl), d5 _ (Or.inr rfl), t5 _ (Or.inr rfl), d4 _ (Or.inl rfl), d4 _ (Or.inr rfl)]
    show (5 / 3 * _ + 1 * _ * _ * _) / 2 = (1 : ℝ)
    norm_num
  have hc : ionCurrent (plasma (fun _ => 1) cooling) st' ["d+", "e"] true 4 5 = 1 := by
    unfold ionCurrent
    rw [List.map_cons, List.map_cons, List.map_nil, if_pos (plasma_ion _ _), if_neg (fun hh => hh.1 rfl),
      (sheath_ions line_ok plasma_nodup h (by simp) (plasma_ion _ _) ht).1 rfl, hb, d5 _ (Or.inl rfl)]
    have : charge (plasma (fun _ => 1) cooling) "d+" = 1 := rfl
    rw [this]
    norm_num
  refine ⟨st', h, hc, ?_⟩
  have hS : (["d+", "e"].map (stateTerm sheathDefaults (plasma (fun _ => 1) cooling) 4 3)).sum = Real.sqrt (4 / 3) := by
    rw [List.map_cons, List.map_cons, List.map_nil]
    unfold stateTerm
    rw [if_pos (plasma_ion _ _), if_neg (fun hh => hh.1 rfl)]
    have e : sumTermOf (1 : ℝ) 1 2 (5 / 3) 1 1 1 1 1 1 = Real.sqrt (4 / 3) := by
      unfold sumTermOf concentration clipTo
      norm_num
    have e' : sumTerm sheathDefaults (charge (plasma (fun _ => 1) cooling) "d+") (mass (plasma (fun _ => 1) cooling) "d+")
        (adiabatic (plasma (fun _ => 1) cooling) "d+") (fun j => floorTo (fieldOf (plasma (fun _ => 1) cooling) "e" .density j) 0)
        (fieldOf (plasma (fun _ => 1) cooling) "e" .temperature)
        (fun j => floorTo (fieldOf (plasma (fun _ => 1) cooling) "d+" .density j) 0)
        (fieldOf (plasma (fun _ => 1) cooling) "d+" .temperature) 4 3 = Real.sqrt (4 / 3) := by
      show sumTermOf (1 : ℝ) 1 2 (5 / 3) (floorTo 1 0) 1 (floorTo 1 0) 1 (floorTo 1 0) (floorTo 1 0) = _
      rw [floorTo_eq_max, max_eq_left (by norm_num : (0:ℝ) ≤ 1), e]
    simpa using e'
  rw [sheath_electron_flow line_ok line_long plasma_nodup h rfl ht rfl (by rw [t4 _ (Or.inr rfl)]; norm_num), hS,
    t4 _ (Or.inr rfl), t5 _ (Or.inr rfl), d5 _ (Or.inr rfl), one_mul]
  show electronSpeed (1 / 1836) 0 (3 / 4) (dropOf true (1 / 1836) 0 1 (Real.sqrt (4 / 3))) < 1 / 2
  have hpi := Real.pi_pos
  have hpi4 := Real.pi_le_four
  set K := Real.sqrt (1 / (1 / 1836 * (2 * Real.pi))) with hK
  have hK0 : 0 < K := Real.sqrt_pos.2 (by positivity)
  have hs0 : (0 : ℝ) < Real.sqrt (4 / 3) := Real.sqrt_pos.2 (by norm_num)
  have h8 : 8 < K / Real.sqrt (4 / 3) := by
    rw [lt_div_iff₀ hs0, hK]
    have e8 : (8 : ℝ) * Real.sqrt (4 / 3) = Real.sqrt (256 / 3) := by
      rw [show (256 / 3 : ℝ) = 8 ^ 2 * (4 / 3) by norm_num, Real.sqrt_mul (by norm_num), Real.sqrt_sq (by norm_num)]
    rw [e8]
    refine Real.sqrt_lt_sqrt (by norm_num) ?_
    rw [lt_div_iff₀ (by positivity)]
    linarith
  set L := Real.log (K / Real.sqrt (4 / 3)) with hL
  have hL3 : 3 * Real.log 2 < L := by
    have : 3 * Real.log 2 = Real.log 8 := by
      rw [show (8 : ℝ) = 2 ^ 3 by norm_num, Real.log_pow]; norm_num
    rw [this]
    exact Real.log_lt_log (by norm_num) h8
  have hdrop : L ≤ dropOf true (1 / 1836) 0 1 (Real.sqrt (4 / 3)) := by
    unfold dropOf
    dsimp only
    rw [if_pos rfl, sub_zero, mul_one, one_mul, ← hK, ← hL]
    exact le_max_left _ _
  unfold electronSpeed
  rw [if_neg (by norm_num), sub_zero, mul_one]
  have hA : Real.sqrt (3 / 4 / (2 * Real.pi * (1 / 1836))) = Real.sqrt (3 / 4) * K := by
    rw [hK, ← Real.sqrt_mul (by norm_num)]
    congr 1
    field_simp
  have hE : Real.exp (-dropOf true (1 / 1836) 0 1 (Real.sqrt (4 / 3)) / (3 / 4)) ≤ Real.exp (-L) * Real.exp (-L / 3) := by
    rw [← Real.exp_add]
    refine Real.exp_le_exp.2 ?_
    rw [div_le_iff₀ (by norm_num)]
    linarith
  have hexp : Real.exp (-L) = Real.sqrt (4 / 3) / K := by
    rw [Real.exp_neg, hL, Real.exp_log (by positivity), inv_div]
  have h1 : Real.sqrt (3 / 4) * Real.sqrt (4 / 3) = 1 := by
    rw [← Real.sqrt_mul (by norm_num)]
    norm_num
  have h2 : Real.exp (-L / 3) < 1 / 2 := by
    have : (1 / 2 : ℝ) = Real.exp (-Real.log 2) := by
      rw [Real.exp_neg, Real.exp_log (by norm_num)]; norm_num
    rw [this]
    exact Real.exp_lt_exp.2 (by linarith)
  rw [hA]
  calc Real.sqrt (3 / 4) * K * Real.exp (-dropOf true (1 / 1836) 0 1 (Real.sqrt (4 / 3)) / (3 / 4))
      ≤ Real.sqrt (3 / 4) * K * (Real.exp (-L) * Real.exp (-L / 3)) := mul_le_mul_of_nonneg_left hE (by positivity)
    _ = (Real.sqrt (3 / 4) * Real.sqrt (4 / 3)) * Real.exp (-L / 3) := by rw [hexp]; field_simp
    _ < 1 / 2 := by rw [h1, one_mul]; exact h2

theorem plasma_mirrored (n t : Fin 6 → ℝ) : Mirrored (plasma n t) (plasma n t) := by
  refine ⟨fun _ => rfl, fun s v _ => ?_⟩
  by_cases he : s = "e"
  · subst he
    cases v <;> simp [plasma, stateOf, vals, directed, Value.rev] <;> exact (funext fun _ => neg_zero.symm)
  · by_cases hd : s = "d+"
    · subst hd
      cases v <;> simp [plasma, stateOf, vals, directed, Value.rev] <;> exact (funext fun _ => neg_zero.symm)
    · cases v <;> simp [plasma, stateOf, vals, directed, Value.rev, he, hd]

/-- A plasma at rest, seen from either side. -/
example (n t : Fin 6 → ℝ) : ∃ st' st2', sheathBoundary sheathDefaults line 0 ["d+", "e"] (plasma n t) = (.ok (), st') ∧
    sheathBoundary sheathDefaults.mirror line.mirror 0 ["d+", "e"] (plasma n t) = (.ok (), st2') ∧ Mirrored st' st2' := by
  obtain ⟨st', h⟩ := plasma_runs n t
  obtain ⟨st2', h2⟩ := sheathBoundary_runs sheathDefaults.mirror line.mirror 0 (plasma_ready n t)
  exact ⟨st', st2', h, h2, sheath_mirror line_ok line_long plasma_nodup (plasma_mirrored n t) h h2⟩

end Hermes.Sheath
