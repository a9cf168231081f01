import Verif.Props.SheathPhysics

/-!
# `SheathBoundary`: the potential that it computes (C38)

If no potential is given, the component computes one from the condition that no current flows through the sheath.  It
solves the condition with the values in the last cell, while the flows are set by the values on the face.  So the
currents balance where the plasma is flat next to the target (`sheath_zero_current_partial`), up to the factor
`sin_alpha`, which multiplies only the ion flow in the calculation of the potential.
-/

set_option linter.unusedSectionVars false
set_option linter.unusedVariables false

namespace Hermes.Sheath
open Hermes.Closures

variable {ι : Type} [DecidableEq ι]

/-- The lines have enough cells: the cells next to two different targets differ.  (With two or three cells between the
targets the potentials computed at the two ends overwrite each other, `src/sheath_boundary.cxx:274` and `:293`.) -/
def MeshLong (m : YMesh ι) : Prop :=
  ∀ u i g inn u' i' g' inn', Target m true true u i g inn → Target m true true u' i' g' inn' → i ≠ i' →
    inn ≠ inn' ∧ i ≠ inn'

/-! ## The sum over ions -/

/-- Contribution of one species to the sum over ions at a target: `s_i Z_i sin_alpha C_i`. -/
noncomputable def sumTermOf (sin_alpha Z M γ ne te ni ti ne' ni' : ℝ) : ℝ :=
  let s := concentration ni ne ni' ne'
  s * Z * sin_alpha * Real.sqrt (clipTo ((γ * ti + Z * s * te *
    (if |ni' - ni| < 2e-3 then 1 else (ne' - ne) / (ni' - ni))) / M) 0 100)

noncomputable def sumTerm (o : SheathOpts ι) (Z M γ : ℝ) (Ne Te Ni Ti : Fld ι) (i inn : ι) : ℝ :=
  sumTermOf o.sin_alpha Z M γ (Ne i) (Te i) (Ni i) (Ti i) (Ne inn) (Ni inn)

theorem foldl_accum {g : ι → ℝ} : ∀ (pts : List ι) (s : Fld ι), pts.Nodup → ∀ j,
    (pts.foldl (fun s i => Function.update s i (s i + g i)) s) j = s j + if j ∈ pts then g j else 0
  | [], s, _, j => by simp
  | a :: l, s, hn, j => by
    rw [List.nodup_cons] at hn
    rw [List.foldl_cons, foldl_accum l _ hn.2 j]
    by_cases hj : j = a
    · subst hj
      rw [Function.update_self, if_neg hn.1, if_pos List.mem_cons_self, add_zero]
    · rw [Function.update_of_ne hj]
      congr 1
      simp [hj]

theorem foldl_accum' {f : Fld ι → ι → Fld ι} {g : ι → ℝ} (hf : ∀ s i, f s i = Function.update s i (s i + g i))
    (pts : List ι) (s : Fld ι) (hn : pts.Nodup) (j : ι) : (pts.foldl f s) j = s j + if j ∈ pts then g j else 0 := by
  have : f = fun s i => Function.update s i (s i + g i) := by funext s i; exact hf s i
  rw [this]
  exact foldl_accum pts s hn j

theorem grads_eq (a b : ℝ) (X : ℝ) :
    X * (if |b| < 2e-3 then ((2e-3, 2e-3) : ℝ × ℝ) else (a, b)).1 / (if |b| < 2e-3 then ((2e-3, 2e-3) : ℝ × ℝ) else (a, b)).2
      = X * (if |b| < 2e-3 then 1 else a / b) := by
  split
  · norm_num
  · rw [mul_div_assoc]

theorem ionSumLower_eq (o : SheathOpts ι) (m : YMesh ι) (Z M γ : ℝ) (Ne Te Ni Ti : Fld ι) (s : Fld ι) (i : ι) :
    ionSumLower o m Z M γ Ne Te Ni Ti s i = Function.update s i (s i + sumTerm o Z M γ Ne Te Ni Ti i (m.yp i)) := by
  unfold ionSumLower sumTerm sumTermOf
  simp only [grads_eq]

theorem ionSumUpper_eq (o : SheathOpts ι) (m : YMesh ι) (Z M γ : ℝ) (Ne Te Ni Ti : Fld ι) (s : Fld ι) (i : ι) :
    ionSumUpper o m Z M γ Ne Te Ni Ti s i = Function.update s i (s i + sumTerm o Z M γ Ne Te Ni Ti i (m.ym i)) := by
  unfold ionSumUpper sumTerm sumTermOf
  simp only [grads_eq]
  rw [abs_sub_comm (Ni i) (Ni (m.ym i))]
  have : (Ne i - Ne (m.ym i)) / (Ni i - Ni (m.ym i)) = (Ne (m.ym i) - Ne i) / (Ni (m.ym i) - Ni i) := by
    rw [← neg_sub (Ne (m.ym i)), ← neg_sub (Ni (m.ym i)), neg_div_neg_eq]
  rw [this]

theorem MeshOk.lower_nodup {m : YMesh ι} (hm : MeshOk m) : m.lower.Nodup := List.Nodup.of_map _ hm.lower.nodup
theorem MeshOk.upper_nodup {m : YMesh ι} (hm : MeshOk m) : m.upper.Nodup := List.Nodup.of_map _ hm.upper.nodup

theorem ionSumBoth_eq (o : SheathOpts ι) {m : YMesh ι} (hm : MeshOk m) (Z M γ : ℝ) (Ne Te Ni Ti s : Fld ι) (j : ι) :
    ionSumBoth o m Z M γ Ne Te Ni Ti s j = s j + (if o.lower_y = true ∧ j ∈ m.lower then sumTerm o Z M γ Ne Te Ni Ti j (m.yp j) else 0)
      + (if o.upper_y = true ∧ j ∈ m.upper then sumTerm o Z M γ Ne Te Ni Ti j (m.ym j) else 0) := by
  unfold ionSumBoth
  have h1 : (if o.lower_y = true then m.lower.foldl (ionSumLower o m Z M γ Ne Te Ni Ti) s else s) j
      = s j + (if o.lower_y = true ∧ j ∈ m.lower then sumTerm o Z M γ Ne Te Ni Ti j (m.yp j) else 0) := by
    by_cases hl : o.lower_y = true
    · rw [if_pos hl, foldl_accum' (ionSumLower_eq o m Z M γ Ne Te Ni Ti) _ _ hm.lower_nodup]
      simp only [hl, true_and]
    · rw [if_neg hl, if_neg (fun h => hl h.1), add_zero]
  rw [← h1]
  clear h1
  generalize (if o.lower_y = true then m.lower.foldl (ionSumLower o m Z M γ Ne Te Ni Ti) s else s) = s1
  by_cases hu : o.upper_y = true
  · rw [if_pos hu, foldl_accum' (ionSumUpper_eq o m Z M γ Ne Te Ni Ti) _ _ hm.upper_nodup]
    simp only [hu, true_and]
  · rw [if_neg hu, if_neg (fun h => hu h.1), add_zero]

theorem ionSumBoth_target (o : SheathOpts ι) {m : YMesh ι} (hm : MeshOk m) (Z M γ : ℝ) (Ne Te Ni Ti s : Fld ι)
    {u : Bool} {i g inn : ι} (ht : Target m o.lower_y o.upper_y u i g inn) :
    ionSumBoth o m Z M γ Ne Te Ni Ti s i = s i + sumTerm o Z M γ Ne Te Ni Ti i inn := by
  rw [ionSumBoth_eq o hm]
  cases ht with
  | lower h hi =>
    rw [if_pos ⟨h, hi⟩, if_neg (fun hh => hm.disjoint hi hh.2), add_zero]
  | upper h hi =>
    rw [if_neg (fun hh => hm.disjoint hh.2 hi), if_pos ⟨h, hi⟩, add_zero]

open Classical in
/-- The terms of the sum for the species of a state. -/
noncomputable def stateTerm (o : SheathOpts ι) (st : Store Key (Value ι)) (i inn : ι) (n : String) : ℝ :=
  if IsIon st n then sumTerm o (charge st n) (mass st n) (adiabatic st n) (fun i => floorTo (fieldOf st "e" .density i) 0)
    (fieldOf st "e" .temperature) (fun i => floorTo (fieldOf st n .density i) 0) (fieldOf st n .temperature) i inn else 0

theorem ionSum_target (o : SheathOpts ι) {m : YMesh ι} (hm : MeshOk m) (st : Store Key (Value ι)) (names : List String)
    {u : Bool} {i g inn : ι} (ht : Target m o.lower_y o.upper_y u i g inn) :
    ionSum o m (fun i => floorTo (fieldOf st "e" .density i) 0) (fieldOf st "e" .temperature) st names i =
      (names.map (stateTerm o st i inn)).sum := by
  classical
  unfold ionSum
  have key : ∀ (l : List String) (s : Fld ι), (l.foldl (fun s n => if IsIon st n then
      let w := species st n
      ionSumBoth o m (num w .charge 0) (num w .AA 0) (num w .adiabatic (5 / 3)) (fun i => floorTo (fieldOf st "e" .density i) 0)
        (fieldOf st "e" .temperature)
      (fun i => floorTo (fld w .density 0 i) 0) (fld w .temperature 0) s else s) s) i = s i + (l.map (stateTerm o st i inn)).sum := by
    intro l
    induction l with
    | nil => intro s; simp
    | cons n l ih =>
      intro s
      rw [List.foldl_cons, ih, List.map_cons, List.sum_cons, ← add_assoc]
      congr 1
      unfold stateTerm
      by_cases hi : IsIon st n
      · rw [if_pos hi, if_pos hi]
        exact ionSumBoth_target o hm _ _ _ _ _ _ _ _ ht
      · rw [if_neg hi, if_neg hi, add_zero]
  have := key names (fun _ => 0)
  rw [zero_add] at this
  convert this

/-! ## The potential -/

/-- The potential that balances the electron flow with `S`. -/
noncomputable def zeroCurrentPotential (o : SheathOpts ι) (Me : ℝ) (Te S : Fld ι) (i : ι) : ℝ :=
  (if Te i ≤ 0 then 0 else Te i * Real.log (Real.sqrt (Te i / (Me * (2 * Real.pi))) * (1 - o.Ge) / S i)) + o.wall i

theorem sheathPotential_other (o : SheathOpts ι) (m : YMesh ι) (Me : ℝ) (Te S φ : Fld ι) (i : ι) {j : ι}
    (h : j ≠ i ∧ j ≠ m.ym i ∧ j ≠ m.yp i) : sheathPotential o m Me Te S φ i j = φ j := by
  unfold sheathPotential
  rw [Function.update_of_ne h.2.2, Function.update_of_ne h.2.1, Function.update_of_ne h.1]

theorem sheathPotential_hit (o : SheathOpts ι) (m : YMesh ι) (Me : ℝ) (Te S φ : Fld ι) (i : ι) {j : ι}
    (h : j = i ∨ j = m.ym i ∨ j = m.yp i) : sheathPotential o m Me Te S φ i j = zeroCurrentPotential o Me Te S i := by
  unfold sheathPotential zeroCurrentPotential
  by_cases h2 : j = m.yp i
  · subst h2; rw [Function.update_self]
  · rw [Function.update_of_ne h2]
    by_cases h1 : j = m.ym i
    · subst h1; rw [Function.update_self]
    · rw [Function.update_of_ne h1]
      have : j = i := by tauto
      subst this; rw [Function.update_self]

theorem foldl_potential_other (o : SheathOpts ι) (m : YMesh ι) (Me : ℝ) (Te S : Fld ι) {j : ι} :
    ∀ (pts : List ι) (φ : Fld ι), (∀ i ∈ pts, j ≠ i ∧ j ≠ m.ym i ∧ j ≠ m.yp i) →
      pts.foldl (sheathPotential o m Me Te S) φ j = φ j
  | [], _, _ => rfl
  | a :: l, φ, h => by
    rw [List.foldl_cons, foldl_potential_other o m Me Te S l _ fun i hi => h i (List.mem_cons_of_mem _ hi),
      sheathPotential_other o m Me Te S φ a (h a List.mem_cons_self)]

theorem foldl_potential_hit (o : SheathOpts ι) (m : YMesh ι) (Me : ℝ) (Te S : Fld ι) {i j : ι}
    (hj : j = i ∨ j = m.ym i ∨ j = m.yp i) : ∀ (pts : List ι) (φ : Fld ι), i ∈ pts →
      (∀ i' ∈ pts, i' ≠ i → j ≠ i' ∧ j ≠ m.ym i' ∧ j ≠ m.yp i') →
      pts.foldl (sheathPotential o m Me Te S) φ j = zeroCurrentPotential o Me Te S i
  | a :: l, φ, hi, h => by
    rw [List.foldl_cons]
    by_cases hl : i ∈ l
    · exact foldl_potential_hit o m Me Te S hj l _ hl fun i' hi' => h i' (List.mem_cons_of_mem _ hi')
    · have ha : a = i := by
        rcases List.mem_cons.1 hi with e | e
        · exact e.symm
        · exact absurd e hl
      subst ha
      rw [foldl_potential_other o m Me Te S l _ fun i' hi' => h i' (List.mem_cons_of_mem _ hi') (by rintro rfl; exact hl hi'),
        sheathPotential_hit o m Me Te S φ a hj]

/-- The potential in the last cell and the one before it is the balancing potential. -/
theorem potential_target (o : SheathOpts ι) {m : YMesh ι} (hm : MeshOk m) (hlong : MeshLong m) (Me : ℝ) (Te S φ : Fld ι)
    {u : Bool} {i g inn : ι} (ht : Target m o.lower_y o.upper_y u i g inn) {j : ι} (hj : j = i ∨ j = inn) :
    sheathPotentialBoth o m Me Te S φ j = zeroCurrentPotential o Me Te S i := by
  have ht' : Target m true true u i g inn := by
    cases ht with
    | lower _ hi => exact .lower rfl hi
    | upper _ hi => exact .upper rfl hi
  have hsep : ∀ u' i' g' inn', Target m true true u' i' g' inn' → i' ≠ i → j ≠ i' ∧ j ≠ g' ∧ j ≠ inn' := by
    intro u' i' g' inn' h' hne
    obtain ⟨h1, h2⟩ := hlong _ _ _ _ _ _ _ _ ht' h' (Ne.symm hne)
    obtain ⟨h3, h4⟩ := hlong _ _ _ _ _ _ _ _ h' ht' hne
    obtain ⟨h5, h6⟩ := h'.ne hm ht'
    rcases hj with rfl | rfl
    · exact ⟨Ne.symm hne, Ne.symm h5, h2⟩
    · exact ⟨Ne.symm h4, Ne.symm h6, h1⟩
  unfold sheathPotentialBoth
  cases ht with
  | lower e hi =>
    rw [if_pos e]
    have hu : ∀ φ' : Fld ι, (if o.upper_y = true then m.upper.foldl (sheathPotential o m Me Te S) φ' else φ') j = φ' j := by
      intro φ'
      split
      · refine foldl_potential_other o m Me Te S _ _ fun i' hi' => ?_
        have := hsep _ _ _ _ (.upper rfl hi') (by rintro rfl; exact hm.disjoint hi hi')
        exact ⟨this.1, this.2.2, this.2.1⟩
      · rfl
    rw [hu]
    refine foldl_potential_hit o m Me Te S (by tauto) _ _ hi fun i' hi' hne => ?_
    have := hsep _ _ _ _ (.lower rfl hi') hne
    exact ⟨this.1, this.2.1, this.2.2⟩
  | upper e hi =>
    rw [if_pos e]
    refine foldl_potential_hit o m Me Te S (by tauto) _ _ hi fun i' hi' hne => ?_
    have := hsep _ _ _ _ (.upper rfl hi') hne
    exact ⟨this.1, this.2.2, this.2.1⟩

theorem electronSpeed_balance {Me Ge te S : ℝ} (hMe : 0 < Me) (hGe : Ge < 1) (hte : 1e-10 ≤ te) (hS : 0 < S) :
    electronSpeed Me Ge te (te * Real.log (Real.sqrt (te / (Me * (2 * Real.pi))) * (1 - Ge) / S)) = S := by
  have hte' : 0 < te := by linarith
  have hA : 0 < Real.sqrt (te / (2 * Real.pi * Me)) * (1 - Ge) :=
    mul_pos (Real.sqrt_pos.2 (by positivity)) (by linarith)
  have hcomm : Me * (2 * Real.pi) = 2 * Real.pi * Me := by ring
  unfold electronSpeed
  rw [if_neg (not_lt.2 hte), hcomm]
  have : -(te * Real.log (Real.sqrt (te / (2 * Real.pi * Me)) * (1 - Ge) / S)) / te
      = Real.log (S / (Real.sqrt (te / (2 * Real.pi * Me)) * (1 - Ge))) := by
    rw [neg_div, mul_div_cancel_left₀ _ hte'.ne', ← Real.log_inv, inv_div]
  rw [this, Real.exp_log (div_pos hS hA)]
  have h1 : 1 - Ge ≠ 0 := by linarith
  field_simp

/-! ## C38 -/

/-- In the last two cells the density of species `s` is the same multiple of the electron density.  If it is not the
electron density itself, it is flat, or it falls towards the target so much that the kinetic correction is used both where
the potential is computed (differences above `2e-3`) and at the face. -/
def Alike (st : Store Key (Value ι)) (s : String) (i inn : ι) : Prop :=
  fieldOf st s .density inn * fieldOf st "e" .density i = fieldOf st s .density i * fieldOf st "e" .density inn ∧
  (fieldOf st s .density i = fieldOf st "e" .density i ∨ fieldOf st s .density inn = fieldOf st s .density i ∨
    2e-3 * fieldOf st s .density inn ≤ fieldOf st s .density i * (fieldOf st s .density inn - fieldOf st s .density i))

open Classical in
/-- Ion current into the wall: the sum over the charged species of `Z n v` on the face. -/
noncomputable def ionCurrent (st st' : Store Key (Value ι)) (names : List String) (u : Bool) (i g : ι) : ℝ :=
  (names.map fun n => if IsIon st n then charge st n * face (fieldOf st' n .density) i g *
    (out u * face (fieldOf st' n .velocity) i g) else 0).sum

/-- Electron flow into the wall. -/
noncomputable def electronFlow (st' : Store Key (Value ι)) (u : Bool) (i g : ι) : ℝ :=
  face (fieldOf st' "e" .density) i g * (out u * face (fieldOf st' "e" .velocity) i g)

/-- Balanced flows at a face: the share of the species among the electrons, and the kinetic correction, are the same in the
last cell, where the potential is computed, and on the face. -/
theorem alike_face {ne ne' n n' : ℝ} (hne : 1e-5 ≤ ne) (hne' : 0 < ne') (hn : 0 ≤ n) (hn' : 0 ≤ n')
    (hp : n' * ne = n * ne') (hk : n = ne ∨ n' = n ∨ 2e-3 * n' ≤ n * (n' - n)) :
    (n + limitFree n' n) / 2 = n / ne * ((ne + limitFree ne' ne) / 2) ∧
    n / ne * (if |n' - n| < 2e-3 then 1 else (ne' - ne) / (n' - n)) =
      n / ne * (if |n - (n + limitFree n' n) / 2| < 1e-3 then 1
        else (ne - (ne + limitFree ne' ne) / 2) / (n - (n + limitFree n' n) / 2)) := by
  have hne0 : (0 : ℝ) < ne := by linarith
  have hone : ∀ (x b : ℝ), 0 < b → (if |x| < b then (1 : ℝ) else x / x) = 1 := by
    intro x b hb
    split
    · rfl
    · rename_i hc
      refine div_self fun h0 => hc ?_
      rw [h0, abs_zero]; exact hb
  rcases hk with rfl | hk | hk
  · have : n' = ne' := mul_right_cancel₀ hne0.ne' (by rw [hp, mul_comm])
    subst this
    rw [div_self hne0.ne', hone _ _ (by norm_num), hone _ _ (by norm_num)]
    exact ⟨by ring, rfl⟩
  · subst hk
    have hflat : ∀ x : ℝ, limitFree x x = x := by
      intro x
      unfold limitFree
      rw [if_neg (lt_irrefl _)]
      split
      · rfl
      · rename_i hc
        have : x ≠ 0 := by rintro rfl; norm_num at hc
        field_simp
    rw [hflat, sub_self, abs_zero, if_pos (by norm_num), show n' - (n' + n') / 2 = 0 by ring, abs_zero, if_pos (by norm_num)]
    refine ⟨?_, rfl⟩
    by_cases h0 : n' = 0
    · rw [h0]; ring
    · have : ne = ne' := mul_left_cancel₀ h0 hp
      subst this
      rw [hflat]
      field_simp
  · rcases hn'.eq_or_lt with h0 | h0
    · have : n = 0 := by nlinarith
      rw [this, ← h0]
      unfold limitFree
      rw [if_neg (lt_irrefl _), if_pos (by norm_num)]
      constructor <;> norm_num
    · have hnpos : 0 < n := by
        rcases hn.eq_or_lt with h | h
        · rw [← h] at hk; linarith
        · exact h
      have hlt : n < n' := by
        by_contra hc
        have : n * (n' - n) ≤ 0 := mul_nonpos_of_nonneg_of_nonpos hn (by linarith)
        linarith
      have hn3 : (2e-3 : ℝ) ≤ n := by
        by_contra hc
        have : n * (n' - n) < 2e-3 * n' := by
          have : n * (n' - n) ≤ n * n' := mul_le_mul_of_nonneg_left (by linarith) hn
          have : n * n' < 2e-3 * n' := mul_lt_mul_of_pos_right (not_le.1 hc) h0
          linarith
        linarith
      have hr : 0 < n / ne := div_pos hnpos hne0
      have hne'_eq : ne' = n' * ne / n := by
        field_simp
        linarith
      have hneg : ne < ne' := by
        rw [hne'_eq, lt_div_iff₀ hnpos]
        nlinarith
      have l1 : limitFree n' n = n ^ 2 / n' := by
        unfold limitFree
        rw [if_neg (not_lt.2 hlt.le), if_neg (not_lt.2 (by linarith))]
      have l2 : limitFree ne' ne = ne ^ 2 / ne' := by
        unfold limitFree
        rw [if_neg (not_lt.2 hneg.le), if_neg (not_lt.2 (by linarith))]
      have d1 : n - (n + n ^ 2 / n') / 2 = n * (n' - n) / (2 * n') := by
        field_simp
        ring
      have d2 : ne - (ne + ne ^ 2 / ne') / 2 = ne / n * (n * (n' - n) / (2 * n')) := by
        rw [hne'_eq]
        field_simp
        ring
      have hdpos : 0 < n * (n' - n) / (2 * n') := by
        have : 0 < n' - n := by linarith
        positivity
      have hd3 : (1e-3 : ℝ) ≤ n * (n' - n) / (2 * n') := by
        rw [le_div_iff₀ (by linarith)]
        linarith
      have hgrad : (2e-3 : ℝ) ≤ n' - n := by
        have : n * (n' - n) ≤ n' * (n' - n) := mul_le_mul_of_nonneg_right hlt.le (by linarith)
        have : n' * 2e-3 ≤ n' * (n' - n) := by linarith
        exact le_of_mul_le_mul_left this h0
      rw [l1, l2, d1, d2, abs_of_pos hdpos, if_neg (not_lt.2 hd3), mul_div_cancel_right₀ _ hdpos.ne',
        abs_of_pos (by linarith), if_neg (not_lt.2 hgrad)]
      have hsub : n' - n ≠ 0 := by linarith
      constructor
      · rw [hne'_eq]
        field_simp
      · rw [hne'_eq]
        field_simp

/-- The drop of the potential that is used for the electrons at the face: the one computed in the last cell, with electron
temperature `te` there, from the sum `S` over the ions. -/
noncomputable def dropOf (floor_potential : Bool) (Me Ge te S : ℝ) : ℝ :=
  let p := te * Real.log (Real.sqrt (te / (Me * (2 * Real.pi))) * (1 - Ge) / S)
  if floor_potential then max p 0 else p

/-- The electron flow with the potential computed by the component, for any profiles next to the target. -/
theorem sheath_electron_flow {o : SheathOpts ι} {m : YMesh ι} {garbage : Fld ι} {names : List String} (hm : MeshOk m)
    (hlong : MeshLong m) (hn : names.Nodup)
    {st st' : Store Key (Value ι)} (h : sheathBoundary o m garbage names st = (.ok (), st'))
    (hφ : vals st (.top "fields:phi") = none)
    {u : Bool} {i g inn : ι} (ht : Target m o.lower_y o.upper_y u i g inn)
    (hve : (vals st (.sp "e" .velocity)).isSome) (hte : 0 < fieldOf st' "e" .temperature i) :
    electronFlow st' u i g = face (fieldOf st' "e" .density) i g * electronSpeed (electronMassOf o st) o.Ge
      (face (fieldOf st' "e" .temperature) i g) (dropOf o.floor_potential (electronMassOf o st) o.Ge
        (fieldOf st' "e" .temperature i) (names.map (stateTerm o st i inn)).sum) := by
  have hT : fieldOf st "e" .temperature i = fieldOf st' "e" .temperature i :=
    (sheath_interior hm hn h (Or.inl rfl) fun u' i' inn' h' => (h'.ne hm ht).1 rfl).2.1.symm
  have hφu : ∀ j, (j = i ∨ j = inn) → phiUsed o m garbage names st j = fieldOf st' "e" .temperature i * Real.log
      (Real.sqrt (fieldOf st' "e" .temperature i / (electronMassOf o st * (2 * Real.pi))) * (1 - o.Ge) /
        (names.map (stateTerm o st i inn)).sum) + o.wall i := by
    intro j hj
    have hpu : phiUsed o m garbage names st = sheathPotentialBoth o m (electronMassOf o st) (fieldOf st "e" .temperature)
        (ionSum o m (fun i => floorTo (fieldOf st "e" .density i) 0) (fieldOf st "e" .temperature) st names) garbage := by
      unfold phiUsed fieldOr
      rw [hφ]
      rfl
    rw [hpu, potential_target o hm hlong _ _ _ _ ht hj]
    unfold zeroCurrentPotential
    rw [hT, if_neg (not_le.2 hte), ionSum_target o hm st names ht]
  have hdrop : facePotential o (phiUsed o m garbage names st) i inn - o.wall i = dropOf o.floor_potential
      (electronMassOf o st) o.Ge (fieldOf st' "e" .temperature i) (names.map (stateTerm o st i inn)).sum := by
    unfold facePotential facePotentialOf dropOf
    dsimp only
    rw [hφu i (Or.inl rfl), hφu inn (Or.inr rfl), sub_self, zero_div, add_zero]
    split
    · rw [← sub_self (o.wall i), ← max_sub_sub_right, add_sub_cancel_right]
    · ring
  unfold electronFlow
  rw [(sheath_electrons_phi hm hn h ht).1 hve, hdrop]

/-- **C38, in part.**  If the temperatures are flat next to the target, all densities are multiples of the electron density
there, the plasma is hot and dense enough that no floor is active, and the ion current does not exceed the electron
saturation current, then the electron flow equals `sin_alpha` times the ion current.  Missing: temperature gradients, with
which the flows do not balance (`sheath_current_with_gradient`), as the potential is computed with the values in the last
cell. -/
theorem sheath_zero_current_partial {o : SheathOpts ι} {m : YMesh ι} {garbage : Fld ι} {names : List String} (hm : MeshOk m)
    (hlong : MeshLong m) (hn : names.Nodup)
    {st st' : Store Key (Value ι)} (h : sheathBoundary o m garbage names st = (.ok (), st'))
    (hφ : vals st (.top "fields:phi") = none)
    {u : Bool} {i g inn : ι} (ht : Target m o.lower_y o.upper_y u i g inn)
    (hflat : ∀ s, HasSheath st names s → fieldOf st' s .temperature inn = fieldOf st' s .temperature i)
    (halike : ∀ s, HasSheath st names s → Alike st' s i inn)
    (hve : (vals st (.sp "e" .velocity)).isSome) (hvi : ∀ n ∈ names, IsIon st n → (vals st (.sp n .velocity)).isSome)
    (hMe : 0 < electronMassOf o st) (hGe : o.Ge < 1)
    (hne : 1e-5 ≤ fieldOf st' "e" .density i) (hne' : 0 < fieldOf st' "e" .density inn)
    (hte : 1e-5 ≤ fieldOf st' "e" .temperature i)
    (hni : ∀ n ∈ names, IsIon st n → fieldOf st' n .density i ≤ fieldOf st' "e" .density i)
    (hti : ∀ n ∈ names, IsIon st n → 1e-5 ≤ fieldOf st' n .temperature i)
    (hpos : 0 < o.sin_alpha * ionCurrent st st' names u i g)
    (hsat : o.floor_potential = true → o.sin_alpha * ionCurrent st st' names u i g ≤ face (fieldOf st' "e" .density) i g *
      (Real.sqrt (fieldOf st' "e" .temperature i / (2 * Real.pi * electronMassOf o st)) * (1 - o.Ge))) :
    electronFlow st' u i g = o.sin_alpha * ionCurrent st st' names u i g := by
  classical
  have hE : HasSheath st names "e" := Or.inl rfl
  have hnotg : ∀ {j}, (j = i ∨ j = inn) → ∀ u' i' inn', ¬ Target m o.lower_y o.upper_y u' i' j inn' := by
    rintro j hj u' i' inn' h'
    have := h'.ne hm ht
    rcases hj with rfl | rfl
    · exact this.1 rfl
    · exact this.2 rfl
  have hguard : ∀ s, HasSheath st names s → ∀ v ∈ [Var.density, .temperature],
      face (fieldOf st' s v) i g = (fieldOf st' s v i + limitFree (fieldOf st' s v inn) (fieldOf st' s v i)) / 2 := by
    intro s hs v hv
    have hv' : v ∈ [Var.density, .temperature, .pressure] := by
      simp only [List.mem_cons, List.not_mem_nil, or_false] at hv ⊢; tauto
    have e := sheath_limitFree hm hn h hs hv' ht
    unfold face
    rw [e]
  have htface : ∀ s, HasSheath st names s → 1e-5 ≤ fieldOf st' s .temperature i →
      face (fieldOf st' s .temperature) i g = fieldOf st' s .temperature i := by
    intro s hs hlo
    have h0 : fieldOf st' s .temperature i ≠ 0 := by intro e; rw [e] at hlo; norm_num at hlo
    rw [hguard s hs .temperature (by simp), hflat s hs]
    unfold limitFree
    rw [if_neg (lt_irrefl _), if_neg (not_lt.2 (by linarith))]
    field_simp
    ring
  set ne := fieldOf st' "e" .density i with hne_def
  set te := fieldOf st' "e" .temperature i with hte_def
  set N := face (fieldOf st' "e" .density) i g with hN_def
  have hne0 : 0 < ne := by linarith
  have hte0 : 0 < te := by linarith
  have hlim0 : 0 ≤ limitFree (fieldOf st' "e" .density inn) ne := by
    unfold limitFree
    split
    · exact hne0.le
    · split
      · exact hne0.le
      · positivity
  have hN : N = (ne + limitFree (fieldOf st' "e" .density inn) ne) / 2 := hguard "e" hE .density (by simp)
  have hN0 : 1e-10 ≤ N := by rw [hN]; linarith
  have hNpos : 0 < N := by linarith
  -- the values used for the sum over ions are the published ones
  have hval : ∀ s, HasSheath st names s → ∀ j, (j = i ∨ j = inn) →
      floorTo (fieldOf st s .density j) 0 = fieldOf st' s .density j ∧ fieldOf st s .temperature j = fieldOf st' s .temperature j := by
    intro s hs j hj
    have := sheath_interior hm hn h hs (hnotg hj)
    exact ⟨by rw [floorTo_eq_max, this.1], this.2.1.symm⟩
  -- every term
  have hterm : ∀ n ∈ names, N * stateTerm o st i inn n = o.sin_alpha * (if IsIon st n then charge st n *
      face (fieldOf st' n .density) i g * (out u * face (fieldOf st' n .velocity) i g) else 0) := by
    intro n hmem
    unfold stateTerm
    by_cases hi : IsIon st n
    · rw [if_pos hi, if_pos hi]
      have hs : HasSheath st names n := Or.inr ⟨hmem, hi⟩
      have hv := (sheath_ions hm hn h hmem hi ht).1 (hvi n hmem hi)
      rw [hv]
      unfold sumTerm
      beta_reduce
      rw [(hval n hs i (Or.inl rfl)).1, (hval n hs inn (Or.inr rfl)).1, (hval "e" hE i (Or.inl rfl)).1,
        (hval "e" hE inn (Or.inr rfl)).1, (hval n hs i (Or.inl rfl)).2, (hval "e" hE i (Or.inl rfl)).2]
      have hn0 : 0 ≤ fieldOf st' n .density i := by
        rw [← (hval n hs i (Or.inl rfl)).1]; exact floorTo_nonneg _
      have hn0' : 0 ≤ fieldOf st' n .density inn := by
        rw [← (hval n hs inn (Or.inr rfl)).1]; exact floorTo_nonneg _
      obtain ⟨f1, f2⟩ := alike_face hne hne' hn0 hn0' (halike n hs).1 (halike n hs).2
      rw [← hguard n hs .density (by simp), ← hN] at f1 f2
      have hr0 : 0 ≤ fieldOf st' n .density i / ne := div_nonneg hn0 hne0.le
      have hr1 : fieldOf st' n .density i / ne ≤ 1 := (div_le_one hne0).2 (hni n hmem hi)
      have hrin : fieldOf st' n .density inn / fieldOf st' "e" .density inn = fieldOf st' n .density i / ne := by
        rw [div_eq_div_iff hne'.ne' hne0.ne', (halike n hs).1]
      have hconc : concentration (fieldOf st' n .density i) ne (fieldOf st' n .density inn) (fieldOf st' "e" .density inn)
          = fieldOf st' n .density i / ne := by
        unfold concentration
        rw [if_neg hne0.ne', if_neg hne'.ne', hrin, mul_div_assoc]
        have e1 : 0.5 * (3 * (fieldOf st' n .density i / ne) - fieldOf st' n .density i / ne) = fieldOf st' n .density i / ne := by ring
        rw [e1, clipTo_eq _ (by norm_num : (0:ℝ) ≤ 1), max_eq_right hr0, min_eq_right hr1]
      have hb : bohmSqAt st st' n i g = (adiabatic st n * fieldOf st' n .temperature i +
          charge st n * te * (fieldOf st' n .density i / ne * (if |fieldOf st' n .density i - face (fieldOf st' n .density) i g| < 1e-3
            then 1 else (ne - N) / (fieldOf st' n .density i - face (fieldOf st' n .density) i g)))) / mass st n := by
        unfold bohmSqAt bohmSq
        rw [htface n hs (hti n hmem hi), htface "e" hE hte, max_eq_left (hti n hmem hi), max_eq_left hte, max_eq_left hN0]
        have : face (fieldOf st' n .density) i g / N = fieldOf st' n .density i / ne := by
          rw [f1, mul_div_cancel_right₀ _ hNpos.ne']
        rw [← hN_def, this, max_eq_right hr0, min_eq_right hr1, ← hne_def]
        congr 2
        ring
      unfold sumTermOf
      rw [hconc]
      dsimp only
      rw [clipTo_eq _ (by norm_num : (0:ℝ) ≤ 100), hb, ← f2, ← hte_def]
      have e2 : charge st n * (fieldOf st' n .density i / ne) * te * (if |fieldOf st' n .density inn - fieldOf st' n .density i| < 2e-3
          then 1 else (fieldOf st' "e" .density inn - ne) / (fieldOf st' n .density inn - fieldOf st' n .density i)) =
          charge st n * te * (fieldOf st' n .density i / ne * (if |fieldOf st' n .density inn - fieldOf st' n .density i| < 2e-3
          then 1 else (fieldOf st' "e" .density inn - ne) / (fieldOf st' n .density inn - fieldOf st' n .density i))) := by ring
      rw [e2, f1]
      ring
    · rw [if_neg hi, if_neg hi]; ring
  have hsum : N * (names.map (stateTerm o st i inn)).sum = o.sin_alpha * ionCurrent st st' names u i g := by
    unfold ionCurrent
    have key : ∀ l : List String, (∀ n ∈ l, n ∈ names) → N * (l.map (stateTerm o st i inn)).sum = o.sin_alpha *
        (l.map fun n => if IsIon st n then charge st n * face (fieldOf st' n .density) i g *
          (out u * face (fieldOf st' n .velocity) i g) else 0).sum := by
      intro l
      induction l with
      | nil => intro _; simp
      | cons n l ih =>
        intro hl
        rw [List.map_cons, List.sum_cons, List.map_cons, List.sum_cons, mul_add, mul_add,
          hterm n (hl n List.mem_cons_self), ih fun n' h' => hl n' (List.mem_cons_of_mem _ h')]
    exact key names fun _ h' => h'
  have hflow := sheath_electron_flow hm hlong hn h hφ ht hve hte0
  rw [htface "e" hE hte, ← hN_def, ← hte_def] at hflow
  set S := (names.map (stateTerm o st i inn)).sum with hSdef
  have hS0 : 0 < S := by
    rw [← hsum] at hpos
    exact (mul_pos_iff_of_pos_left hNpos).1 hpos
  have hdrop : dropOf o.floor_potential (electronMassOf o st) o.Ge te S = te * Real.log (Real.sqrt (te /
      (electronMassOf o st * (2 * Real.pi))) * (1 - o.Ge) / S) := by
    unfold dropOf
    dsimp only
    split
    · rename_i hf
      have hs := hsat hf
      rw [← hsum] at hs
      have hs' : S ≤ Real.sqrt (te / (electronMassOf o st * (2 * Real.pi))) * (1 - o.Ge) := by
        have e1 : electronMassOf o st * (2 * Real.pi) = 2 * Real.pi * electronMassOf o st := by ring
        rw [e1]
        exact le_of_mul_le_mul_left hs hNpos
      have hlog : 0 ≤ Real.log (Real.sqrt (te / (electronMassOf o st * (2 * Real.pi))) * (1 - o.Ge) / S) :=
        Real.log_nonneg ((one_le_div hS0).2 hs')
      exact max_eq_left (mul_nonneg hte0.le hlog)
    · rfl
  rw [hflow, hdrop, electronSpeed_balance hMe hGe (by linarith) hS0, hsum]

end Hermes.Sheath
