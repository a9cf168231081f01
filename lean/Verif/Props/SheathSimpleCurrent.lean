import Verif.Props.SheathSimplePhysics

/-!
# `SheathBoundarySimple`: the potential that it computes (C38), and both ends alike (C39)
-/

set_option linter.unusedSectionVars false
set_option linter.unusedVariables false

namespace Hermes.SheathSimple
open Hermes.Closures Hermes.Sheath

variable {ι : Type} [DecidableEq ι]

/-! ## The sum over ions -/

/-- Value on the face that follows from the last two cells. -/
noncomputable def edge (mode : BMode) (f : Fld ι) (i inn : ι) : ℝ := (f i + limitFreeMode (f inn) (f i) mode) / 2

/-- Current of one species into the wall. -/
noncomputable def sumTerm (o : SimpleOpts ι) (Z M : ℝ) (Te Ni Ti Vi : Fld ι) (u : Bool) (i inn : ι) : ℝ :=
  Z * edge o.density_mode Ni i inn * ionSpeed o.sheath_ion_polytropic Z M (edge o.temperature_mode Ti i inn)
    (edge o.temperature_mode Te i inn) (out u * Vi i)

theorem edge_half (mode : BMode) (f : Fld ι) (i inn : ι) :
    0.5 * (limitFreeMode (f inn) (f i) mode + f i) = edge mode f i inn := by unfold edge; ring

theorem sumLower_eq (o : SimpleOpts ι) (m : YMesh ι) (Z M : ℝ) (Te Ni Ti Vi : Fld ι) (s : Fld ι) (i : ι) :
    simpleIonSumLower o m Z M Te Ni Ti Vi s i = Function.update s i (s i + sumTerm o Z M Te Ni Ti Vi false i (m.yp i)) := by
  unfold simpleIonSumLower sumTerm ionSpeed soundSpeed
  simp only [edge_half, floorTo_eq_max, out, Bool.false_eq_true, if_false]
  congr 1
  generalize Real.sqrt _ = K
  split
  · rw [max_eq_left (by linarith)]; ring
  · rw [max_eq_right (by linarith)]; ring

theorem sumUpper_eq (o : SimpleOpts ι) (m : YMesh ι) (Z M : ℝ) (Te Ni Ti Vi : Fld ι) (s : Fld ι) (i : ι) :
    simpleIonSumUpper o m Z M Te Ni Ti Vi s i = Function.update s i (s i + sumTerm o Z M Te Ni Ti Vi true i (m.ym i)) := by
  unfold simpleIonSumUpper sumTerm ionSpeed soundSpeed
  simp only [edge_half, floorTo_eq_max, out, if_true]
  congr 1
  generalize Real.sqrt _ = K
  split
  · rw [max_eq_left (by linarith)]; ring
  · rw [max_eq_right (by linarith)]

theorem sumBoth_eq (o : SimpleOpts ι) {m : YMesh ι} (hm : MeshOk m) (Z M : ℝ) (Te Ni Ti Vi s : Fld ι) (j : ι) :
    simpleIonSumBoth o m Z M Te Ni Ti Vi s j = s j
      + (if o.lower_y = true ∧ j ∈ m.lower then sumTerm o Z M Te Ni Ti Vi false j (m.yp j) else 0)
      + (if o.upper_y = true ∧ j ∈ m.upper then sumTerm o Z M Te Ni Ti Vi true j (m.ym j) else 0) := by
  unfold simpleIonSumBoth
  have h1 : (if o.lower_y = true then m.lower.foldl (simpleIonSumLower o m Z M Te Ni Ti Vi) s else s) j
      = s j + (if o.lower_y = true ∧ j ∈ m.lower then sumTerm o Z M Te Ni Ti Vi false j (m.yp j) else 0) := by
    by_cases hl : o.lower_y = true
    · rw [if_pos hl, foldl_accum' (sumLower_eq o m Z M Te Ni Ti Vi) _ _ hm.lower_nodup]
      simp only [hl, true_and]
    · rw [if_neg hl, if_neg (fun h => hl h.1), add_zero]
  rw [← h1]
  clear h1
  generalize (if o.lower_y = true then m.lower.foldl (simpleIonSumLower o m Z M Te Ni Ti Vi) s else s) = s1
  by_cases hu : o.upper_y = true
  · rw [if_pos hu, foldl_accum' (sumUpper_eq o m Z M Te Ni Ti Vi) _ _ hm.upper_nodup]
    simp only [hu, true_and]
  · rw [if_neg hu, if_neg (fun h => hu h.1), add_zero]

theorem sumBoth_target (o : SimpleOpts ι) {m : YMesh ι} (hm : MeshOk m) (Z M : ℝ) (Te Ni Ti Vi s : Fld ι)
    {u : Bool} {i g inn : ι} (ht : Target m o.lower_y o.upper_y u i g inn) :
    simpleIonSumBoth o m Z M Te Ni Ti Vi s i = s i + sumTerm o Z M Te Ni Ti Vi u i inn := by
  rw [sumBoth_eq o hm]
  cases ht with
  | lower h hi =>
    rw [if_pos ⟨h, hi⟩, if_neg (fun hh => hm.disjoint hi hh.2), add_zero]
  | upper h hi =>
    rw [if_neg (fun hh => hm.disjoint hh.2 hi), if_pos ⟨h, hi⟩, add_zero]

open Classical in
/-- The terms of the sum for the species of a state. -/
noncomputable def stateTerm (o : SimpleOpts ι) (st : Store Key (Value ι)) (u : Bool) (i inn : ι) (n : String) : ℝ :=
  if IsIon st n then sumTerm o (charge st n) (mass st n) (fieldOf st "e" .temperature) (fieldOf st n .density)
    (fieldOf st n .temperature) (fieldOf st n .velocity) u i inn else 0

theorem ionSum_target (o : SimpleOpts ι) {m : YMesh ι} (hm : MeshOk m) (st : Store Key (Value ι)) (names : List String)
    {u : Bool} {i g inn : ι} (ht : Target m o.lower_y o.upper_y u i g inn) :
    ionSum o m (fieldOf st "e" .temperature) st names i = (names.map (stateTerm o st u i inn)).sum := by
  classical
  unfold ionSum
  have key : ∀ (l : List String) (s : Fld ι), (l.foldl (fun s n => if IsIon st n then
      let w := species st n
      simpleIonSumBoth o m (num w .charge 0) (num w .AA 0) (fieldOf st "e" .temperature) (fld w .density 0)
        (fld w .temperature 0) (fld w .velocity 0) s else s) s) i = s i + (l.map (stateTerm o st u i inn)).sum := by
    intro l
    induction l with
    | nil => intro s; simp
    | cons n l ih =>
      intro s
      rw [List.foldl_cons, ih, List.map_cons, List.sum_cons, ← add_assoc]
      congr 1
      unfold stateTerm
      by_cases hi : IsIon st n
      · rw [if_pos hi, if_pos hi]
        exact sumBoth_target o hm _ _ _ _ _ _ _ ht
      · rw [if_neg hi, if_neg hi, add_zero]
  have := key names (fun _ => 0)
  rw [zero_add] at this
  convert this

/-! ## The potential -/

/-- Setting the potential in a cell and both neighbours. -/
def poke (m : YMesh ι) (val : ι → ℝ) (φ : Fld ι) (i : ι) : Fld ι :=
  Function.update (Function.update (Function.update φ i (val i)) (m.ym i) (val i)) (m.yp i) (val i)

theorem foldl_poke_other (m : YMesh ι) (val : ι → ℝ) {j : ι} :
    ∀ (pts : List ι) (φ : Fld ι), (∀ i ∈ pts, j ≠ i ∧ j ≠ m.ym i ∧ j ≠ m.yp i) → pts.foldl (poke m val) φ j = φ j
  | [], _, _ => rfl
  | a :: l, φ, h => by
    rw [List.foldl_cons, foldl_poke_other m val l _ fun i hi => h i (List.mem_cons_of_mem _ hi)]
    have := h a List.mem_cons_self
    unfold poke
    rw [Function.update_of_ne this.2.2, Function.update_of_ne this.2.1, Function.update_of_ne this.1]

theorem poke_hit (m : YMesh ι) (val : ι → ℝ) (φ : Fld ι) (i : ι) {j : ι} (h : j = i ∨ j = m.ym i ∨ j = m.yp i) :
    poke m val φ i j = val i := by
  unfold poke
  by_cases h2 : j = m.yp i
  · subst h2; rw [Function.update_self]
  · rw [Function.update_of_ne h2]
    by_cases h1 : j = m.ym i
    · subst h1; rw [Function.update_self]
    · rw [Function.update_of_ne h1]
      have : j = i := by tauto
      subst this; rw [Function.update_self]

theorem foldl_poke_hit (m : YMesh ι) (val : ι → ℝ) {i j : ι} (hj : j = i ∨ j = m.ym i ∨ j = m.yp i) :
    ∀ (pts : List ι) (φ : Fld ι), i ∈ pts → (∀ i' ∈ pts, i' ≠ i → j ≠ i' ∧ j ≠ m.ym i' ∧ j ≠ m.yp i') →
      pts.foldl (poke m val) φ j = val i
  | a :: l, φ, hi, h => by
    rw [List.foldl_cons]
    by_cases hl : i ∈ l
    · exact foldl_poke_hit m val hj l _ hl fun i' hi' => h i' (List.mem_cons_of_mem _ hi')
    · have ha : a = i := by
        rcases List.mem_cons.1 hi with e | e
        · exact e.symm
        · exact absurd e hl
      subst ha
      rw [foldl_poke_other m val l _ fun i' hi' => h i' (List.mem_cons_of_mem _ hi') (by rintro rfl; exact hl hi'),
        poke_hit m val φ a hj]

/-- The potential for which the electron flow balances `S`. -/
noncomputable def balance (o : SimpleOpts ι) (Me : ℝ) (Ne Te S : Fld ι) (i inn : ι) : ℝ :=
  let T := max (edge o.temperature_mode Te i inn) 1e-5
  T * Real.log (Real.sqrt (T / (Me * (2 * Real.pi))) * (1 - o.Ge) * edge o.density_mode Ne i inn / S i) + o.wall i

theorem simplePotential_poke (o : SimpleOpts ι) (m : YMesh ι) (inner : ι → ι) (Me : ℝ) (Ne Te S : Fld ι) :
    simplePotential o m inner Me Ne Te S = poke m (fun i => balance o Me Ne Te S i (inner i)) := by
  funext φ i
  unfold simplePotential poke balance
  simp only [edge_half, floorTo_eq_max]

/-- The potential next to a target is the balancing potential. -/
theorem potential_target (o : SimpleOpts ι) {m : YMesh ι} (hm : MeshOk m) (hlong : MeshLong m) (Me : ℝ) (Ne Te S φ : Fld ι)
    {u : Bool} {i g inn : ι} (ht : Target m o.lower_y o.upper_y u i g inn) {j : ι} (hj : j = i ∨ j = inn ∨ j = g) :
    simplePotentialBoth o m Me Ne Te S φ j = balance o Me Ne Te S i inn := by
  have ht' : Target m true true u i g inn := by
    cases ht with
    | lower _ hi => exact .lower rfl hi
    | upper _ hi => exact .upper rfl hi
  have hsep : ∀ u' i' g' inn', Target m true true u' i' g' inn' → i' ≠ i → j ≠ i' ∧ j ≠ g' ∧ j ≠ inn' := by
    intro u' i' g' inn' h' hne
    obtain ⟨h1, h2⟩ := hlong _ _ _ _ _ _ _ _ ht' h' (_root_.Ne.symm hne)
    obtain ⟨h3, h4⟩ := hlong _ _ _ _ _ _ _ _ h' ht' hne
    obtain ⟨h5, h6⟩ := h'.ne hm ht'
    obtain ⟨h7, h8⟩ := ht'.ne hm h'
    rcases hj with rfl | rfl | rfl
    · exact ⟨_root_.Ne.symm hne, _root_.Ne.symm h5, h2⟩
    · exact ⟨_root_.Ne.symm h4, _root_.Ne.symm h6, h1⟩
    · exact ⟨h7, ht'.guard_ne hm h' (_root_.Ne.symm hne), h8⟩
  unfold simplePotentialBoth
  simp only [simplePotential_poke]
  cases ht with
  | lower e hi =>
    rw [if_pos e]
    have hu : ∀ φ' : Fld ι, (if o.upper_y = true then m.upper.foldl (poke m fun i => balance o Me Ne Te S i (m.ym i)) φ' else φ') j = φ' j := by
      intro φ'
      split
      · refine foldl_poke_other m _ _ _ fun i' hi' => ?_
        have := hsep _ _ _ _ (.upper rfl hi') (by rintro rfl; exact hm.disjoint hi hi')
        exact ⟨this.1, this.2.2, this.2.1⟩
      · rfl
    rw [hu]
    rw [foldl_poke_hit m _ (i := i) (by tauto) _ _ hi fun i' hi' hne => ?_]
    have := hsep _ _ _ _ (.lower rfl hi') hne
    exact ⟨this.1, this.2.1, this.2.2⟩
  | upper e hi =>
    rw [if_pos e]
    rw [foldl_poke_hit m _ (i := i) (by tauto) _ _ hi fun i' hi' hne => ?_]
    have := hsep _ _ _ _ (.upper rfl hi') hne
    exact ⟨this.1, this.2.2, this.2.1⟩

theorem potential_other (o : SimpleOpts ι) {m : YMesh ι} (Me : ℝ) (Ne Te S φ : Fld ι) {j : ι}
    (h : ∀ u i g inn, Target m o.lower_y o.upper_y u i g inn → ¬ (j = i ∨ j = inn ∨ j = g)) :
    simplePotentialBoth o m Me Ne Te S φ j = φ j := by
  unfold simplePotentialBoth
  simp only [simplePotential_poke]
  have hl : (if o.lower_y = true then m.lower.foldl (poke m fun i => balance o Me Ne Te S i (m.yp i)) φ else φ) j = φ j := by
    split
    · rename_i e
      refine foldl_poke_other m _ _ _ fun i hi => ?_
      have := h _ _ _ _ (.lower e hi)
      tauto
    · rfl
  split
  · rename_i e
    rw [foldl_poke_other m _ _ _ fun i hi => by have := h _ _ _ _ (.upper e hi); tauto]
    exact hl
  · exact hl

/-! ## C38 -/

/-- The electron speed for the balancing potential. -/
theorem electronSpeed_balance {Me Ge te N S wall : ℝ} (hMe : 0 < Me) (hGe : Ge < 1) (hte : 1e-5 ≤ te) (hN : 0 < N) (hS : 0 < S) :
    N * electronSpeed Me Ge te (max (te * Real.log (Real.sqrt (te / (Me * (2 * Real.pi))) * (1 - Ge) * N / S) + wall) wall - wall) =
      min S (N * (Real.sqrt (te / (2 * Real.pi * Me)) * (1 - Ge))) := by
  have hte' : 0 < te := by linarith
  have hA : 0 < Real.sqrt (te / (2 * Real.pi * Me)) * (1 - Ge) :=
    mul_pos (Real.sqrt_pos.2 (by have := Real.pi_pos; positivity)) (by linarith)
  have hcomm : Me * (2 * Real.pi) = 2 * Real.pi * Me := by ring
  unfold electronSpeed
  rw [hcomm, max_eq_left hte]
  set A := Real.sqrt (te / (2 * Real.pi * Me)) * (1 - Ge)
  have hAN : 0 < A * N / S := by positivity
  by_cases hsat : S ≤ N * A
  · have hlog : 0 ≤ Real.log (A * N / S) := by
      refine Real.log_nonneg ?_
      rw [le_div_iff₀ hS]; linarith
    have h1 : wall ≤ te * Real.log (A * N / S) + wall := by
      have := mul_nonneg hte'.le hlog
      linarith
    rw [max_eq_left h1, min_eq_left hsat]
    have h2 : -(te * Real.log (A * N / S) + wall - wall) / te = Real.log (S / (A * N)) := by
      rw [add_sub_cancel_right, neg_div, mul_div_cancel_left₀ _ hte'.ne', ← Real.log_inv, inv_div]
    rw [h2, Real.exp_log (by positivity)]
    field_simp
  · have hlog : Real.log (A * N / S) ≤ 0 := by
      refine Real.log_nonpos hAN.le ?_
      rw [div_le_iff₀ hS]; linarith
    have h1 : te * Real.log (A * N / S) + wall ≤ wall := by
      have := mul_nonneg hte'.le (neg_nonneg.2 hlog)
      linarith
    rw [max_eq_right h1, min_eq_right (by linarith)]
    simp

/-- Values on the face in terms of the values before. -/
theorem face_edge {o : SimpleOpts ι} {m : YMesh ι} {garbage : Fld ι} {names : List String} (hm : MeshOk m)
    (hn : names.Nodup) {st st' : Store Key (Value ι)} (h : sheathBoundarySimple o m garbage names st = (.ok (), st'))
    {s : String} (hs : HasSheath st names s) {u : Bool} {i g inn : ι} (ht : Target m o.lower_y o.upper_y u i g inn) :
    face (fieldOf st' s .temperature) i g = edge o.temperature_mode (fieldOf st s .temperature) i inn ∧
    face (fieldOf st' s .density) i g = edge o.density_mode (fun j => floorTo (fieldOf st s .density j) 0) i inn := by
  have hi := simple_interior hm hn h hs (j := i) fun u' i' inn' h' => (h'.ne hm ht).1 rfl
  have hin := simple_interior hm hn h hs (j := inn) fun u' i' inn' h' => (h'.ne hm ht).2 rfl
  have e1 := simple_limitFree hm hn h hs (v := .temperature) (by decide) ht
  have e2 := simple_limitFree hm hn h hs (v := .density) (by decide) ht
  unfold face edge
  rw [e1, e2, hi.1, hi.2.1, hin.1, hin.2.1]
  simp only [floorTo_eq_max]
  exact ⟨rfl, rfl⟩

/-- **C38.**  If the component computes the potential, the flow of electrons into the wall is equal to the current of all
the ion species, or to the saturation flow if that is smaller: then no potential gives zero current. -/
theorem simple_zero_current {o : SimpleOpts ι} {m : YMesh ι} {garbage : Fld ι} {names : List String} (hm : MeshOk m)
    (hlong : MeshLong m) (hn : names.Nodup)
    {st st' : Store Key (Value ι)} (h : sheathBoundarySimple o m garbage names st = (.ok (), st'))
    (hφ : vals st (.top "fields:phi") = none) (hflow : o.no_flow = false)
    {u : Bool} {i g inn : ι} (ht : Target m o.lower_y o.upper_y u i g inn)
    (hve : (vals st (.sp "e" .velocity)).isSome) (hvi : ∀ n ∈ names, IsIon st n → (vals st (.sp n .velocity)).isSome)
    (hMe : 0 < electronMassOf o st) (hGe : o.Ge < 1)
    (hN : 0 < face (fieldOf st' "e" .density) i g) (hT : 1e-5 ≤ face (fieldOf st' "e" .temperature) i g)
    (hni : ∀ n ∈ names, IsIon st n → 0 ≤ fieldOf st n .density i ∧ 0 ≤ fieldOf st n .density inn)
    (hpos : 0 < ionCurrent st st' names u i g) :
    electronFlow st' u i g = min (ionCurrent st st' names u i g) (face (fieldOf st' "e" .density) i g *
      (Real.sqrt (face (fieldOf st' "e" .temperature) i g / (2 * Real.pi * electronMassOf o st)) * (1 - o.Ge))) := by
  classical
  obtain ⟨fTe, fNe⟩ := face_edge hm hn h (Or.inl rfl) ht
  -- the sum is the current
  have hsum : ionSum o m (fieldOf st "e" .temperature) st names i = ionCurrent st st' names u i g := by
    rw [ionSum_target o hm st names ht]
    unfold ionCurrent
    congr 1
    refine List.map_congr_left fun n hmem => ?_
    unfold stateTerm
    by_cases hi : IsIon st n
    · rw [if_pos hi, if_pos hi, (simple_ions hm hn h hmem hi ht).1 (hvi n hmem hi)]
      obtain ⟨fT, fN⟩ := face_edge hm hn h (Or.inr ⟨hmem, hi⟩) ht
      rw [if_neg (by rw [hflow]; decide), fN]
      unfold sumTerm ionSpeedAt
      rw [fT, fTe]
      obtain ⟨hn1, hn2⟩ := hni n hmem hi
      have : edge o.density_mode (fun j => floorTo (fieldOf st n .density j) 0) i inn = edge o.density_mode (fieldOf st n .density) i inn := by
        unfold edge
        dsimp only
        rw [floorTo_of_le hn1, floorTo_of_le hn2]
      rw [this]
    · rw [if_neg hi, if_neg hi]
  have hphi : ∀ j, j = i ∨ j = inn ∨ j = g → phiUsed o m garbage names st j =
      balance o (electronMassOf o st) (fun j => floorTo (fieldOf st "e" .density j) 0) (fieldOf st "e" .temperature)
        (ionSum o m (fieldOf st "e" .temperature) st names) i inn := by
    intro j hj
    have : phiUsed o m garbage names st = simplePotentialBoth o m (electronMassOf o st) (fun j => floorTo (fieldOf st "e" .density j) 0)
        (fieldOf st "e" .temperature) (ionSum o m (fieldOf st "e" .temperature) st names) garbage := by
      unfold phiUsed fieldOr
      rw [hφ]
      rfl
    rw [this]
    exact potential_target o hm hlong _ _ _ _ _ ht hj
  have hv := (simple_electrons_phi hm hn h ht).1 hve
  rw [if_neg (by rw [hflow]; decide)] at hv
  unfold electronFlow
  rw [hv]
  unfold potentialDrop
  rw [hphi i (Or.inl rfl), hphi inn (Or.inr (Or.inl rfl))]
  unfold balance
  dsimp only
  rw [hsum, ← fTe, ← fNe, max_eq_left hT, sub_self, zero_div, add_zero]
  exact electronSpeed_balance hMe hGe hT hN hpos

/-! ## C39 -/

/-- The settings with the two ends exchanged. -/
def _root_.Hermes.SimpleOpts.mirror (o : SimpleOpts ι) : SimpleOpts ι := { o with lower_y := o.upper_y, upper_y := o.lower_y }

theorem electronBody_mirror (o : SimpleOpts ι) (m : YMesh ι) (Me : ℝ) (u : Bool) (i : ι) (c d : ECell) :
    noFlow (if !u then simpleElectronUpper o.mirror m.mirror Me else simpleElectronLower o.mirror m.mirror Me) i c.rev d.rev =
    ((noFlow (if u then simpleElectronUpper o m Me else simpleElectronLower o m Me) i c d).1.rev,
      (noFlow (if u then simpleElectronUpper o m Me else simpleElectronLower o m Me) i c d).2) := by
  have hg : (if u then m.yp i else m.ym i) = if (!u) then m.mirror.yp i else m.mirror.ym i := by cases u <;> rfl
  have h1 := electronBody_eq o m Me u i _ c d rfl
  have h2 := electronBody_eq o.mirror m.mirror Me (!u) i _ c.rev d.rev hg
  dsimp only at h1 h2
  unfold noFlow
  rw [h1]
  refine (congrArg (fun x => (x.1, x.2.1)) h2).trans ?_
  refine Prod.ext ?_ rfl
  dsimp only
  rw [out_not]
  simp only [ECell.rev, SimpleOpts.mirror]
  congr 1 <;> ring

theorem ionBody_mirror (o : SimpleOpts ι) (m : YMesh ι) (Z M : ℝ) (e e' : ι → ECell) (he : ∀ j, e' j = (e j).rev) (u : Bool) (i : ι) (c d : ICell) :
    noFlow (if !u then simpleIonUpper o.mirror m.mirror Z M e' else simpleIonLower o.mirror m.mirror Z M e') i c.rev d.rev =
    ((noFlow (if u then simpleIonUpper o m Z M e else simpleIonLower o m Z M e) i c d).1.rev,
      (noFlow (if u then simpleIonUpper o m Z M e else simpleIonLower o m Z M e) i c d).2) := by
  have hg : (if u then m.yp i else m.ym i) = if (!u) then m.mirror.yp i else m.mirror.ym i := by cases u <;> rfl
  have h1 := ionBody_eq o m Z M e u i _ c d rfl
  have h2 := ionBody_eq o.mirror m.mirror Z M e' (!u) i _ c.rev d.rev hg
  dsimp only at h1 h2
  unfold noFlow
  rw [h1]
  refine (congrArg (fun x => (x.1, x.2.1)) h2).trans ?_
  have hv : out (!u) * c.rev.v = out u * c.v := by rw [out_not]; simp [ICell.rev]
  simp only [he]
  rw [hv]
  refine Prod.ext ?_ rfl
  dsimp only
  rw [out_not]
  simp only [ICell.rev, ECell.rev, SimpleOpts.mirror]
  congr 1 <;> ring

section
variable {st st2 : Store Key (Value ι)}

theorem Mirrored.stateTerm (h : Mirrored st st2) (o : SimpleOpts ι) (u : Bool) (i inn : ι) (n : String) :
    stateTerm o.mirror st2 (!u) i inn n = SheathSimple.stateTerm o st u i inn n := by
  unfold SheathSimple.stateTerm
  by_cases hi : IsIon st n
  · rw [if_pos hi, if_pos ((h.isIon n).2 hi)]
    unfold charge mass sumTerm
    have hv : out (!u) * fieldOf st2 n .velocity i = out u * fieldOf st n .velocity i := by
      have := h.fld_rev n (v := .velocity) (by decide) rfl 0
      rw [neg_zero] at this
      rw [fieldOf_species, this, out_not]
      show -out u * -(fld (species st n) .velocity 0 i) = _
      rw [neg_mul_neg]; rfl
    rw [hv]
    simp only [fieldOf_species]
    rw [h.fld_same "e" (v := .temperature) (by decide) rfl,
      h.fld_same n (v := .density) (by decide) rfl, h.fld_same n (v := .temperature) (by decide) rfl,
      h.num_same n (v := .charge) (by decide) rfl, h.num_same n (v := .AA) (by decide) rfl]
    rfl
  · rw [if_neg hi, if_neg (fun hh => hi ((h.isIon n).1 hh))]

theorem Mirrored.phiUsed (h : Mirrored st st2) (o : SimpleOpts ι) {m : YMesh ι} (hm : MeshOk m) (hlong : MeshLong m)
    (garbage : Fld ι) (names : List String) :
    phiUsed o.mirror m.mirror garbage names st2 = SheathSimple.phiUsed o m garbage names st := by
  unfold SheathSimple.phiUsed
  dsimp only
  rw [h.fld_same "e" (v := .density) (by decide) rfl, h.fld_same "e" (v := .temperature) (by decide) rfl,
    h.num_same "e" (v := .AA) (by decide) rfl]
  unfold fieldOr
  rw [h.1]
  congr 1
  funext j
  by_cases hj : ∀ u i g inn, Target m o.lower_y o.upper_y u i g inn → ¬ (j = i ∨ j = inn ∨ j = g)
  · rw [potential_other o _ _ _ _ _ hj,
      potential_other o.mirror _ _ _ _ _ fun u i g inn ht => hj _ _ _ _ (Target.of_mirror (lo := o.lower_y) (up := o.upper_y) ht)]
  · push Not at hj
    obtain ⟨u, i, g, inn, ht, hj⟩ := hj
    rw [potential_target o hm hlong _ _ _ _ _ ht hj,
      potential_target o.mirror hm.mirror hlong.mirror _ _ _ _ _ (u := !u) (i := i) (g := g) (inn := inn) ht.mirror hj]
    unfold balance
    have e1 := ionSum_target o hm st names ht
    have e2 := ionSum_target o.mirror hm.mirror st2 names (u := !u) (i := i) (g := g) (inn := inn) ht.mirror
    simp only [fieldOf_species] at e1 e2
    rw [h.fld_same "e" (v := .temperature) (by decide) rfl] at e2
    dsimp only
    rw [e1, e2]
    have : names.map (SheathSimple.stateTerm o.mirror st2 (!u) i inn) = names.map (SheathSimple.stateTerm o st u i inn) :=
      List.map_congr_left fun n _ => Mirrored.stateTerm h o u i inn n
    rw [this]
    rfl

/-- **C39.**  Running the simple sheath component on the mirrored state, with the two ends of the mesh exchanged, gives
the mirrored result. -/
theorem simple_mirror {o : SimpleOpts ι} {m : YMesh ι} {garbage : Fld ι} {names : List String} (hm : MeshOk m)
    (hlong : MeshLong m) (hn : names.Nodup) {st' st2' : Store Key (Value ι)} (hmir : Mirrored st st2)
    (h : sheathBoundarySimple o m garbage names st = (.ok (), st'))
    (h2 : sheathBoundarySimple o.mirror m.mirror garbage names st2 = (.ok (), st2')) : Mirrored st' st2' := by
  obtain ⟨⟨hp, _⟩, hph, hi, hu⟩ := sheathBoundarySimple_ok hn h
  obtain ⟨⟨hp2, _⟩, hph2, hi2, hu2⟩ := sheathBoundarySimple_ok hn h2
  -- the electrons
  have hel : ∀ j, (electronResult o.mirror m.mirror garbage names st2).1.1 j = ((electronResult o m garbage names st).1.1 j).rev ∧
      (electronResult o.mirror m.mirror garbage names st2).1.2 j = (electronResult o m garbage names st).1.2 j := by
    intro j
    rw [electron_result, electron_result, bothEndsFlow_fst, bothEndsFlow_fst, hmir.num_same "e" (v := .AA) (by decide) rfl]
    exact bothEnds_mirror hm (fun j => hmir.electronCells (Mirrored.phiUsed hmir o hm hlong garbage names) j)
      (hmir.fld_same "e" (v := .energy_source) (by decide) rfl 0)
      (fun i c d => electronBody_mirror o m _ true i c d) (fun i c d => electronBody_mirror o m _ false i c d) j
  set E := (electronResult o m garbage names st).1
  set E2 := (electronResult o.mirror m.mirror garbage names st2).1
  have hE1 : ∀ j, E2.1 j = (E.1 j).rev := fun j => (hel j).1
  have hE2 : E2.2 = E.2 := funext fun j => (hel j).2
  refine ⟨fun n => ?_, fun s v hv => ?_⟩
  · by_cases hk : n = "fields:phi"
    · subst hk
      rw [hph, hph2, hmir.1]
      have : (fun i => (E2.1 i).phi) = fun i => (E.1 i).phi := by funext i; rw [hE1]; rfl
      rw [this]
      rfl
    · have hk' : Key.top n ∉ [Key.top "fields:phi", .sp "e" .density, .sp "e" .temperature, .sp "e" .pressure, .sp "e" .velocity,
          .sp "e" .momentum, .sp "e" .energy_source, .sp "e" .energy_flow_ylow] := by simp [hk]
      rw [hu _ hk' (by intros; exact fun e => by cases e), hu2 _ hk' (by intros; exact fun e => by cases e), hmir.1]
  by_cases hs : s = "e"
  · subst hs
    have rest : v ∉ [Var.density, .temperature, .pressure, .velocity, .momentum, .energy_source] →
        vals st2' (.sp "e" v) = if directed v then (vals st' (.sp "e" v)).map Value.rev else vals st' (.sp "e" v) := by
      intro hv'
      have hk' : Key.sp "e" v ∉ [Key.top "fields:phi", .sp "e" .density, .sp "e" .temperature, .sp "e" .pressure, .sp "e" .velocity,
          .sp "e" .momentum, .sp "e" .energy_source, .sp "e" .energy_flow_ylow] := by
        simp only [List.mem_cons, List.not_mem_nil, or_false, Key.sp.injEq, true_and, reduceCtorEq, false_or] at hv' ⊢
        tauto
      have hsp : ∀ n ∈ names, n ≠ "e" → ∀ w, Key.sp "e" v ≠ .sp n w := by
        intro n _ hne w e
        exact hne (Key.sp.inj e).1.symm
      rw [hu _ hk' hsp, hu2 _ hk' hsp, hmir.2 _ _ hv]
    cases v with
    | density => rw [hp.n, hp2.n]; simp only [hE1]; rfl
    | temperature => rw [hp.t, hp2.t]; simp only [hE1]; rfl
    | pressure => rw [hp.p, hp2.p]; simp only [hE1]; rfl
    | velocity =>
      rw [hp.v, hp2.v, hmir.2 _ _ hv]
      simp only [hE1]
      exact ifSet_rev _ _
    | momentum =>
      rw [hp.nv, hp2.nv, hmir.2 _ _ hv]
      simp only [hE1]
      exact ifSet_rev _ _
    | energy_source => rw [hp.src, hp2.src, hE2]; rfl
    | _ => exact rest (by simp)
  · by_cases hmem : s ∈ names
    · obtain ⟨a1, a2⟩ := hi s hmem hs
      obtain ⟨b1, b2⟩ := hi2 s hmem hs
      by_cases hz : num (species st s) .charge 0 = 0
      · have hz2 : num (species st2 s) .charge 0 = 0 := by rw [hmir.num_same s (v := .charge) (by decide) rfl, hz]
        have e1 := congrFun (a1 (Or.inr hz)) v
        have e2 := congrFun (b1 (Or.inr hz2)) v
        show species st2' s v = if directed v then (species st' s v).map Value.rev else species st' s v
        rw [e1, e2]
        exact hmir.2 _ _ hv
      · have hz2 : num (species st2 s) .charge 0 ≠ 0 := by rw [hmir.num_same s (v := .charge) (by decide) rfl]; exact hz
        have p1 := (a2 hs hz).1
        have p2 := (b2 hs hz2).1
        rw [hmir.num_same s (v := .charge) (by decide) rfl, hmir.num_same s (v := .AA) (by decide) rfl] at p2
        have hr : ∀ j, (simpleIonSheath o.mirror m.mirror (num (species st s) .charge 0) (num (species st s) .AA 0)
            E2.1 ((Sheath.ionCells (species st2 s), fld (species st2 s) .energy_source 0), fun _ => 0)).1.1 j =
            ((simpleIonSheath o m (num (species st s) .charge 0) (num (species st s) .AA 0)
            E.1 ((Sheath.ionCells (species st s), fld (species st s) .energy_source 0), fun _ => 0)).1.1 j).rev ∧
            (simpleIonSheath o.mirror m.mirror (num (species st s) .charge 0) (num (species st s) .AA 0)
            E2.1 ((Sheath.ionCells (species st2 s), fld (species st2 s) .energy_source 0), fun _ => 0)).1.2 j =
            (simpleIonSheath o m (num (species st s) .charge 0) (num (species st s) .AA 0)
            E.1 ((Sheath.ionCells (species st s), fld (species st s) .energy_source 0), fun _ => 0)).1.2 j := by
          intro j
          have q1 : ∀ (o : SimpleOpts ι) (m : YMesh ι) Z M e s, (simpleIonSheath o m Z M e s).1 = bothEnds m o.lower_y o.upper_y
              (noFlow (simpleIonLower o m Z M e)) (noFlow (simpleIonUpper o m Z M e)) s.1 :=
            fun o m Z M e s => bothEndsFlow_fst
          rw [q1, q1]
          exact bothEnds_mirror hm (fun j => hmir.ionCells s j) (hmir.fld_same s (v := .energy_source) (by decide) rfl 0)
            (fun i c d => ionBody_mirror o m _ _ E.1 E2.1 hE1 true i c d)
            (fun i c d => ionBody_mirror o m _ _ E.1 E2.1 hE1 false i c d) j
        generalize (simpleIonSheath o.mirror m.mirror (num (species st s) .charge 0) (num (species st s) .AA 0)
            E2.1 ((Sheath.ionCells (species st2 s), fld (species st2 s) .energy_source 0), fun _ => 0)).1 = r2 at p2 hr
        generalize (simpleIonSheath o m (num (species st s) .charge 0) (num (species st s) .AA 0)
            E.1 ((Sheath.ionCells (species st s), fld (species st s) .energy_source 0), fun _ => 0)).1 = r1 at p1 hr
        have hr1 : ∀ j, r2.1 j = (r1.1 j).rev := fun j => (hr j).1
        have hr2 : r2.2 = r1.2 := funext fun j => (hr j).2
        show species st2' s v = if directed v then (species st' s v).map Value.rev else species st' s v
        have rest : v ∉ [Var.density, .temperature, .pressure, .velocity, .momentum, .energy_source, .energy_flow_ylow] →
            species st2' s v = if directed v then (species st' s v).map Value.rev else species st' s v := by
          intro hv'
          rw [p1.other v hv', p2.other v hv']
          exact hmir.2 _ _ hv
        cases v with
        | density => rw [p1.n, p2.n]; simp only [hr1]; rfl
        | temperature => rw [p1.t, p2.t]; simp only [hr1]; rfl
        | pressure => rw [p1.p, p2.p]; simp only [hr1]; rfl
        | velocity =>
          rw [p1.v, p2.v, hmir.rev s hv rfl]
          simp only [hr1]
          exact ifSet_rev _ _
        | momentum =>
          rw [p1.nv, p2.nv, hmir.rev s hv rfl]
          simp only [hr1]
          exact ifSet_rev _ _
        | energy_source => rw [p1.src, p2.src, hr2]; rfl
        | energy_flow_ylow => exact absurd rfl hv
        | _ => exact rest (by simp)
    · have hk' : Key.sp s v ∉ [Key.top "fields:phi", .sp "e" .density, .sp "e" .temperature, .sp "e" .pressure, .sp "e" .velocity,
          .sp "e" .momentum, .sp "e" .energy_source, .sp "e" .energy_flow_ylow] := by simp [hs]
      have hsp : ∀ n ∈ names, n ≠ "e" → ∀ w, Key.sp s v ≠ .sp n w := by
        intro n hn' _ w e
        exact hmem ((Key.sp.inj e).1 ▸ hn')
      rw [hu _ hk' hsp, hu2 _ hk' hsp, hmir.2 _ _ hv]

end
end Hermes.SheathSimple
