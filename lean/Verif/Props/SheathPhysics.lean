import Verif.Props.Sheath

/-!
# `SheathBoundary`: boundary values, flows into the wall and energy loss (C35–C37)
-/

set_option linter.unusedSectionVars false
set_option linter.unusedVariables false

namespace Hermes.Sheath
open Hermes.Closures

variable {ι : Type} [DecidableEq ι]

/-! ## Specification -/

/-- Value on the cell face between the last cell and the guard cell. -/
noncomputable def face (f : Fld ι) (i g : ι) : ℝ := (f i + f g) / 2

/-- The direction out of the plasma along the field line: `+1` at the upper end, `-1` at the lower end. -/
def out (atUpper : Bool) : ℝ := if atUpper then 1 else -1

/-- A species that has a sheath: the electrons and all charged species. -/
def HasSheath (st : Store Key (Value ι)) (names : List String) (s : String) : Prop :=
  s = "e" ∨ s ∈ names ∧ IsIon st s

/-- Bohm speed squared, equation (9) of Tskhakaya 2005: `(γ Tᵢ + Z s Tₑ ∂nₑ/∂nᵢ) / M` with values on the face, the
temperatures at least `1e-5`, the concentration `s = nᵢ/nₑ` between 0 and 1, and the ratio of gradients replaced by one
if the ion density gradient is small. -/
noncomputable def bohmSq (Z M γ ne te ni ti dne dni : ℝ) : ℝ :=
  (γ * max ti 1e-5 + Z * min 1 (max 0 (ni / max ne 1e-10)) * max te 1e-5 * (if |dni| < 1e-3 then 1 else dne / dni)) / M

/-- Area of the face divided by the volume of the cell. -/
noncomputable def areaPerVolume (m : YMesh ι) (i g : ι) : ℝ :=
  (m.J i + m.J g) / (Real.sqrt (m.g22 i) + Real.sqrt (m.g22 g)) / (m.dy i * m.J i)

/-! ## Helper lemmas -/

theorem floorTo_eq_max (x lo : ℝ) : floorTo x lo = max x lo := by
  unfold floorTo
  split
  · rw [max_eq_right (le_of_lt ‹_›)]
  · rw [max_eq_left (not_lt.1 ‹_›)]

theorem clipTo_eq (x : ℝ) {hi : ℝ} (h : 0 ≤ hi) : clipTo x 0 hi = min hi (max 0 x) := by
  unfold clipTo
  split
  · rw [max_eq_left (le_of_lt ‹_›), min_eq_right h]
  · rw [max_eq_right (not_lt.1 ‹_›)]
    split
    · rw [min_eq_left (le_of_lt ‹_›)]
    · rw [min_eq_right (not_lt.1 ‹_›)]

/-- C36.  The concentration that `sheath_boundary` takes for the potential is between 0 and 1, whatever the densities; where they are not zero it is
the extrapolated concentration cut off at 0 and 1, and for the only ion of a quasineutral plasma it is one. -/
theorem concentration_range (ni ne ni' ne' : ℝ) :
    0 ≤ concentration ni ne ni' ne' ∧ concentration ni ne ni' ne' ≤ 1 ∧
      (ne ≠ 0 → ne' ≠ 0 → concentration ni ne ni' ne' = min 1 (max 0 (ni / ne + (ni / ne - ni' / ne') / 2))) ∧
      concentration ne ne ne' ne' = 1 := by
  have c := clipTo_eq (0.5 * (3 * ni / ne - ni' / ne')) (hi := 1) zero_le_one
  unfold concentration
  refine ⟨?_, ?_, ?_, ?_⟩
  · split_ifs <;> first | (rw [c]; exact le_min zero_le_one (le_max_left _ _)) | norm_num
  · split_ifs <;> first | (rw [c]; exact min_le_left _ _) | norm_num
  · intro h h'
    rw [if_neg h, if_neg h', c]
    congr 2
    ring
  · split_ifs with h h'
    · rfl
    · rfl
    · rw [clipTo_eq _ zero_le_one, mul_div_assoc, div_self h, div_self h']
      norm_num

theorem limitFree_nonneg {fm fc : ℝ} (h : 0 ≤ fc) : 0 ≤ limitFree fm fc := by
  unfold limitFree
  split
  · exact h
  · split
    · exact h
    · exact div_nonneg (sq_nonneg _) (by linarith [not_lt.1 ‹¬ fm < 1e-10›])

theorem limitFree_le {fm fc : ℝ} (h : 0 ≤ fc) : limitFree fm fc ≤ fc := by
  unfold limitFree
  split
  · exact le_rfl
  · split
    · exact le_rfl
    · rename_i h1 h2
      have : 0 < fm := by linarith [not_lt.1 h2]
      rw [div_le_iff₀ this]
      nlinarith [not_lt.1 h1]

theorem limitFree_pos {fm fc : ℝ} (h : 0 < fc) : 0 < limitFree fm fc := by
  unfold limitFree
  split
  · exact h
  · split
    · exact h
    · exact div_pos (pow_pos h 2) (by linarith [not_lt.1 ‹¬ fm < 1e-10›])

theorem limitFree_ratio {fm fc : ℝ} (h1 : fc ≤ fm) (h2 : 1e-10 ≤ fm) : limitFree fm fc * fm = fc ^ 2 := by
  unfold limitFree
  rw [if_neg (not_lt.2 h1), if_neg (not_lt.2 h2)]
  have : fm ≠ 0 := by intro e; rw [e] at h2; norm_num at h2
  field_simp

theorem limitFree_neumann {fm fc : ℝ} (h : fm < fc ∨ fm < 1e-10) : limitFree fm fc = fc := by
  unfold limitFree
  rcases h with h | h
  · rw [if_pos h]
  · split
    · rfl
    · rfl

theorem face_comm (f : Fld ι) (i g : ι) : 0.5 * (f g + f i) = face f i g := by unfold face; ring

theorem fieldOf_species (st : Store Key (Value ι)) (s : String) (v : Var) : fieldOf st s v = fld (species st s) v 0 := rfl

theorem fieldOf_ifSet {st st' : Store Key (Value ι)} {s : String} {v : Var} {f : Fld ι}
    (h : vals st' (.sp s v) = ifSet (vals st (.sp s v)) f) (hs : (vals st (.sp s v)).isSome) : fieldOf st' s v = f := by
  rw [ifSet, if_pos hs] at h
  exact fieldOf_some h

/-- Everything about one ion species at one target, in the form used below. -/
theorem ion_target {o : SheathOpts ι} {m : YMesh ι} {garbage : Fld ι} {names : List String} (hm : MeshOk m)
    (hn : names.Nodup) {st st' : Store Key (Value ι)} (h : sheathBoundary o m garbage names st = (.ok (), st'))
    {n : String} (hmem : n ∈ names) (hi : IsIon st n) :
    IonPublished (species st n) (species st' n) (bothEnds m o.lower_y o.upper_y
      (ionLower m (num (species st n) .charge 0) (num (species st n) .AA 0) (num (species st n) .adiabatic (5 / 3))
        (electronResult o m garbage names st).1)
      (ionUpper m (num (species st n) .charge 0) (num (species st n) .AA 0) (num (species st n) .adiabatic (5 / 3))
        (electronResult o m garbage names st).1)
      (ionCells (species st n), fld (species st n) .energy_source 0)) := by
  obtain ⟨_, _, hr, _⟩ := sheathBoundary_ok hn h
  exact (hr n hmem hi.1).2 hi.1 hi.2

theorem electronResult_eq (o : SheathOpts ι) (m : YMesh ι) (garbage : Fld ι) (names : List String)
    (st : Store Key (Value ι)) : electronResult o m garbage names st = bothEnds m o.lower_y o.upper_y
      (electronLower o m (num (species st "e") .AA o.electronMass) (num (species st "e") .adiabatic (5 / 3)))
      (electronUpper o m (num (species st "e") .AA o.electronMass) (num (species st "e") .adiabatic (5 / 3)))
      (electronCells (species st "e") (phiUsed o m garbage names st), fld (species st "e") .energy_source 0) := rfl

/-! ## C35: guard cells -/

/-- Density, temperature and pressure in the guard cell come from `limitFree`. -/
theorem sheath_limitFree {o : SheathOpts ι} {m : YMesh ι} {garbage : Fld ι} {names : List String} (hm : MeshOk m)
    (hn : names.Nodup) {st st' : Store Key (Value ι)} (h : sheathBoundary o m garbage names st = (.ok (), st'))
    {s : String} (hs : HasSheath st names s) {v : Var} (hv : v ∈ [Var.density, .temperature, .pressure])
    {u : Bool} {i g inn : ι} (ht : Target m o.lower_y o.upper_y u i g inn) :
    fieldOf st' s v g = limitFree (fieldOf st' s v inn) (fieldOf st' s v i) := by
  simp only [List.mem_cons, List.not_mem_nil, or_false] at hv
  rcases hs with rfl | ⟨hmem, hi⟩
  · obtain ⟨hp, _⟩ := sheathBoundary_ok hn h
    have hg := (bothEnds_target (s := (electronCells (species st "e") (phiUsed o m garbage names st), fld (species st "e") .energy_source 0))
      (fl := electronLower o m (num (species st "e") .AA o.electronMass) (num (species st "e") .adiabatic (5 / 3)))
      (fu := electronUpper o m (num (species st "e") .AA o.electronMass) (num (species st "e") .adiabatic (5 / 3))) hm ht).1
    rw [← electronResult_eq] at hg
    have hl : (electronResult o m garbage names st).1 i = electronCells (species st "e") (phiUsed o m garbage names st) i :=
      bothEnds_last hm ht
    have hinn : (electronResult o m garbage names st).1 inn = electronCells (species st "e") (phiUsed o m garbage names st) inn :=
      bothEnds_other fun _ _ _ h' => (h'.ne hm ht).2 rfl
    rcases hv with rfl | rfl | rfl
    · rw [fieldOf_some hp.n]; dsimp only; rw [hg, hl, hinn]; cases u <;> rfl
    · rw [fieldOf_some hp.t]; dsimp only; rw [hg, hl, hinn]; cases u <;> rfl
    · rw [fieldOf_some hp.p]; dsimp only; rw [hg, hl, hinn]; cases u <;> rfl
  · have hp := ion_target hm hn h hmem hi
    set r := bothEnds m o.lower_y o.upper_y
      (ionLower m (num (species st s) .charge 0) (num (species st s) .AA 0) (num (species st s) .adiabatic (5 / 3))
        (electronResult o m garbage names st).1)
      (ionUpper m (num (species st s) .charge 0) (num (species st s) .AA 0) (num (species st s) .adiabatic (5 / 3))
        (electronResult o m garbage names st).1)
      (ionCells (species st s), fld (species st s) .energy_source 0) with hr
    have hg := (bothEnds_target (s := (ionCells (species st s), fld (species st s) .energy_source 0))
      (fl := ionLower m (num (species st s) .charge 0) (num (species st s) .AA 0) (num (species st s) .adiabatic (5 / 3))
        (electronResult o m garbage names st).1)
      (fu := ionUpper m (num (species st s) .charge 0) (num (species st s) .AA 0) (num (species st s) .adiabatic (5 / 3))
        (electronResult o m garbage names st).1) hm ht).1
    rw [← hr] at hg
    have hl : r.1 i = ionCells (species st s) i := bothEnds_last hm ht
    have hinn : r.1 inn = ionCells (species st s) inn := bothEnds_other fun _ _ _ h' => (h'.ne hm ht).2 rfl
    rcases hv with rfl | rfl | rfl
    · rw [fieldOf_some hp.n]; dsimp only; rw [hg, hl, hinn]; cases u <;> rfl
    · rw [fieldOf_some hp.t]; dsimp only; rw [hg, hl, hinn]; cases u <;> rfl
    · rw [fieldOf_some hp.p]; dsimp only; rw [hg, hl, hinn]; cases u <;> rfl

/-- **C35.**  For every species with a sheath the guard values of density, temperature and pressure are non-negative,
positive if the last value is, never above the last value, and continue a decay at the same ratio. -/
theorem sheath_guard_values {o : SheathOpts ι} {m : YMesh ι} {garbage : Fld ι} {names : List String} (hm : MeshOk m)
    (hn : names.Nodup) {st st' : Store Key (Value ι)} (h : sheathBoundary o m garbage names st = (.ok (), st'))
    {s : String} (hs : HasSheath st names s) {v : Var} (hv : v ∈ [Var.density, .temperature, .pressure])
    {u : Bool} {i g inn : ι} (ht : Target m o.lower_y o.upper_y u i g inn) (h0 : 0 ≤ fieldOf st' s v i) :
    0 ≤ fieldOf st' s v g ∧ fieldOf st' s v g ≤ fieldOf st' s v i ∧ (0 < fieldOf st' s v i → 0 < fieldOf st' s v g) ∧
    (fieldOf st' s v i ≤ fieldOf st' s v inn → 1e-10 ≤ fieldOf st' s v inn →
      fieldOf st' s v g * fieldOf st' s v inn = fieldOf st' s v i ^ 2) ∧
    (fieldOf st' s v inn < fieldOf st' s v i → fieldOf st' s v g = fieldOf st' s v i) := by
  have e := sheath_limitFree hm hn h hs hv ht
  refine ⟨?_, ?_, fun hp => ?_, fun h1 h2 => ?_, fun h1 => ?_⟩
  · rw [e]; exact limitFree_nonneg h0
  · rw [e]; exact limitFree_le h0
  · rw [e]; exact limitFree_pos hp
  · rw [e]; exact limitFree_ratio h1 h2
  · rw [e]; exact limitFree_neumann (Or.inl h1)

/-- Away from the guard cells the density is limited to non-negative values, and the temperature is unchanged.  The
density of a species is never negative afterwards. -/
theorem sheath_interior {o : SheathOpts ι} {m : YMesh ι} {garbage : Fld ι} {names : List String} (hm : MeshOk m)
    (hn : names.Nodup) {st st' : Store Key (Value ι)} (h : sheathBoundary o m garbage names st = (.ok (), st'))
    {s : String} (hs : HasSheath st names s) {j : ι} (hj : ∀ u i inn, ¬ Target m o.lower_y o.upper_y u i j inn) :
    fieldOf st' s .density j = max (fieldOf st s .density j) 0 ∧
    fieldOf st' s .temperature j = fieldOf st s .temperature j ∧
    ((vals st (.sp s .pressure)).isSome → fieldOf st' s .pressure j = fieldOf st s .pressure j) ∧
    ((vals st (.sp s .velocity)).isSome → fieldOf st' s .velocity j = fieldOf st s .velocity j) ∧
    ((vals st (.sp s .momentum)).isSome → fieldOf st' s .momentum j = fieldOf st s .momentum j) := by
  have hfld : ∀ (w : Var → Option (Value ι)) v d, (w v).isSome → ∃ x, w v = some x ∧ fld w v d = fld w v 0 := by
    intro w v d hx
    obtain ⟨x, hx⟩ := Option.isSome_iff_exists.1 hx
    refine ⟨x, hx, ?_⟩
    unfold fld
    rw [hx]
    cases x <;> rfl
  rcases hs with rfl | ⟨hmem, hi⟩
  · obtain ⟨hp, _⟩ := sheathBoundary_ok hn h
    have hc : (electronResult o m garbage names st).1 j = electronCells (species st "e") (phiUsed o m garbage names st) j :=
      bothEnds_other hj
    refine ⟨?_, ?_, ?_, ?_, ?_⟩
    · rw [fieldOf_some hp.n]; dsimp only; rw [hc, ← floorTo_eq_max]; rfl
    · rw [fieldOf_some hp.t]; dsimp only; rw [hc]; rfl
    · intro hset
      rw [fieldOf_some hp.p]; dsimp only; rw [hc]
      obtain ⟨_, _, e⟩ := hfld (species st "e") .pressure _ hset
      show fld _ _ _ _ = _
      rw [e]; rfl
    · intro hset
      rw [fieldOf_ifSet hp.v hset]; dsimp only; rw [hc]; rfl
    · intro hset
      rw [fieldOf_ifSet hp.nv hset]; dsimp only; rw [hc]; rfl
  · have hp := ion_target hm hn h hmem hi
    set r := bothEnds m o.lower_y o.upper_y
      (ionLower m (num (species st s) .charge 0) (num (species st s) .AA 0) (num (species st s) .adiabatic (5 / 3))
        (electronResult o m garbage names st).1)
      (ionUpper m (num (species st s) .charge 0) (num (species st s) .AA 0) (num (species st s) .adiabatic (5 / 3))
        (electronResult o m garbage names st).1)
      (ionCells (species st s), fld (species st s) .energy_source 0) with hr
    have hc : r.1 j = ionCells (species st s) j := bothEnds_other hj
    refine ⟨?_, ?_, ?_, ?_, ?_⟩
    · rw [fieldOf_some hp.n]; dsimp only; rw [hc, ← floorTo_eq_max]; rfl
    · rw [fieldOf_some hp.t]; dsimp only; rw [hc]; rfl
    · intro hset
      rw [fieldOf_some hp.p]; dsimp only; rw [hc]
      obtain ⟨_, _, e⟩ := hfld (species st s) .pressure _ hset
      show fld _ _ _ _ = _
      rw [e]; rfl
    · intro hset
      rw [fieldOf_ifSet hp.v hset]; dsimp only; rw [hc]; rfl
    · intro hset
      rw [fieldOf_ifSet hp.nv hset]; dsimp only; rw [hc]
      obtain ⟨_, _, e⟩ := hfld (species st s) .momentum _ hset
      show fld _ _ _ _ = _
      rw [e]; rfl

/-! ## C36: flows into the wall -/

/-- Mass, charge and ratio of specific heats of an ion species. -/
def mass (st : Store Key (Value ι)) (n : String) : ℝ := num (species st n) .AA 0
def charge (st : Store Key (Value ι)) (n : String) : ℝ := num (species st n) .charge 0
noncomputable def adiabatic (st : Store Key (Value ι)) (n : String) : ℝ := num (species st n) .adiabatic (5 / 3)

/-- The Bohm speed squared of ion species `n` at a target, from the published values. -/
noncomputable def bohmSqAt (st st' : Store Key (Value ι)) (n : String) (i g : ι) : ℝ :=
  bohmSq (charge st n) (mass st n) (adiabatic st n)
    (face (fieldOf st' "e" .density) i g) (face (fieldOf st' "e" .temperature) i g)
    (face (fieldOf st' n .density) i g) (face (fieldOf st' n .temperature) i g)
    (fieldOf st' "e" .density i - face (fieldOf st' "e" .density) i g)
    (fieldOf st' n .density i - face (fieldOf st' n .density) i g)

/-- The loop body in terms of face values. -/
theorem ionBody_eq (m : YMesh ι) (Z M γ : ℝ) (e : ι → ECell) (u : Bool) (i g : ι) (c inn : ICell)
    (hg : g = if u then m.yp i else m.ym i) :
    let N : ℝ := (c.n + limitFree inn.n c.n) / 2
    let T : ℝ := (c.t + limitFree inn.t c.t) / 2
    let ne : ℝ := ((e i).n + (e g).n) / 2
    let te : ℝ := ((e i).t + (e g).t) / 2
    let C2 : ℝ := min 100 (max 0 (bohmSq Z M γ ne te N T ((e i).n - ne) (c.n - N)))
    let q : ℝ := (((2.5 + 0.5 * M * C2 / max T 1e-5) - 1 - 1 / (γ - 1)) * max T 1e-5 - 0.5 * M * C2) * N * Real.sqrt C2
    (if u then ionUpper m Z M γ e else ionLower m Z M γ e) i c inn =
      (⟨limitFree inn.n c.n, limitFree inn.t c.t, limitFree inn.p c.p, 2 * (out u * Real.sqrt C2) - c.v,
        2 * M * N * (out u * Real.sqrt C2) - c.nv⟩, -(max 0 q * areaPerVolume m i g)) := by
  intro N T ne te C2 q
  have hN : 0.5 * (limitFree inn.n c.n + c.n) = N := by simp only [N]; ring
  have hT : 0.5 * (limitFree inn.t c.t + c.t) = T := by simp only [T]; ring
  have hne : 0.5 * ((e g).n + (e i).n) = ne := by simp only [ne]; ring
  have hte : 0.5 * ((e g).t + (e i).t) = te := by simp only [te]; ring
  have hC : clipTo ((γ * max T 1e-5 + Z * clipTo (N / floorTo ne 1e-10) 0 1 * floorTo te 1e-5 *
      (if |c.n - N| < 1e-3 then ((1e-3, 1e-3) : ℝ × ℝ) else ((e i).n - ne, c.n - N)).1 /
      (if |c.n - N| < 1e-3 then ((1e-3, 1e-3) : ℝ × ℝ) else ((e i).n - ne, c.n - N)).2) / M) 0 100 = C2 := by
    rw [clipTo_eq _ (by norm_num : (0:ℝ) ≤ 100), clipTo_eq _ (by norm_num : (0:ℝ) ≤ 1), floorTo_eq_max, floorTo_eq_max]
    simp only [C2, bohmSq]
    congr 3
    split
    · norm_num
    · rw [mul_div_assoc]
  have hS : ∀ q' : ℝ, sheathPower m i g q' = q' * areaPerVolume m i g := by
    intro q'; unfold sheathPower areaPerVolume; ring
  cases u
  · simp only [Bool.false_eq_true, if_false] at hg ⊢
    unfold ionLower
    subst hg
    simp only [hN, hT, hne, hte, floorTo_eq_max T, hC, hS, out, Bool.false_eq_true, if_false]
    refine Prod.ext ?_ ?_
    · dsimp only
      congr 1 <;> ring
    · dsimp only
      have hq : ((2.5 + 0.5 * M * C2 / max T 1e-5 - 1 - 1 / (γ - 1)) * max T 1e-5 - 0.5 * M * C2) * N * -Real.sqrt C2 = -q := by
        simp only [q]; ring
      rw [hq]
      by_cases h0 : -q > 0
      · rw [if_pos h0, max_eq_left (by linarith)]; ring
      · rw [if_neg h0, max_eq_right (by linarith)]; ring
  · simp only [if_true] at hg ⊢
    unfold ionUpper
    subst hg
    simp only [hN, hT, hne, hte, floorTo_eq_max T, hC, hS, out, if_true]
    refine Prod.ext ?_ ?_
    · dsimp only
      congr 1 <;> ring
    · dsimp only
      have hq : ((2.5 + 0.5 * M * C2 / max T 1e-5 - 1 - 1 / (γ - 1)) * max T 1e-5 - 0.5 * C2 * M) * N * Real.sqrt C2 = q := by
        simp only [q]; ring
      rw [hq]
      by_cases h0 : q < 0
      · rw [if_pos h0, max_eq_left (by linarith)]
      · rw [if_neg h0, max_eq_right (by linarith)]

theorem Target.guard_eq {m : YMesh ι} {lo up u : Bool} {i g inn : ι} (h : Target m lo up u i g inn) :
    g = if u then m.yp i else m.ym i := by cases h <;> rfl

/-- **C36 (ions) and C37 (ions).**  At every target the ions of every charged species enter the wall with the Bohm
speed, limited to at most 10; the momentum on the face is mass times density times velocity there; and the energy
removed from the last cell is the positive part of the sheath heat flux. -/
theorem sheath_ions {o : SheathOpts ι} {m : YMesh ι} {garbage : Fld ι} {names : List String} (hm : MeshOk m)
    (hn : names.Nodup) {st st' : Store Key (Value ι)} (h : sheathBoundary o m garbage names st = (.ok (), st'))
    {n : String} (hmem : n ∈ names) (hi : IsIon st n)
    {u : Bool} {i g inn : ι} (ht : Target m o.lower_y o.upper_y u i g inn) :
    let speed := Real.sqrt (min 100 (max 0 (bohmSqAt st st' n i g)))
    let N := face (fieldOf st' n .density) i g
    let T := max (face (fieldOf st' n .temperature) i g) 1e-5
    let gamma := 2.5 + 0.5 * mass st n * speed ^ 2 / T
    ((vals st (.sp n .velocity)).isSome → out u * face (fieldOf st' n .velocity) i g = speed) ∧
    ((vals st (.sp n .momentum)).isSome → out u * face (fieldOf st' n .momentum) i g = mass st n * N * speed) ∧
    fieldOf st' n .energy_source i = fieldOf st n .energy_source i -
      max 0 (((gamma - 1 - 1 / (adiabatic st n - 1)) * T - 0.5 * mass st n * speed ^ 2) * N * speed)
        * areaPerVolume m i g := by
  intro speed N T gamma
  have hp := ion_target hm hn h hmem hi
  obtain ⟨hpe, _⟩ := sheathBoundary_ok hn h
  set e := (electronResult o m garbage names st).1 with he
  set r := bothEnds m o.lower_y o.upper_y
      (ionLower m (num (species st n) .charge 0) (num (species st n) .AA 0) (num (species st n) .adiabatic (5 / 3)) e)
      (ionUpper m (num (species st n) .charge 0) (num (species st n) .AA 0) (num (species st n) .adiabatic (5 / 3)) e)
      (ionCells (species st n), fld (species st n) .energy_source 0) with hr
  obtain ⟨hg, hsrc⟩ := bothEnds_target (s := (ionCells (species st n), fld (species st n) .energy_source 0))
      (fl := ionLower m (num (species st n) .charge 0) (num (species st n) .AA 0) (num (species st n) .adiabatic (5 / 3)) e)
      (fu := ionUpper m (num (species st n) .charge 0) (num (species st n) .AA 0) (num (species st n) .adiabatic (5 / 3)) e)
      hm ht
  rw [← hr] at hg hsrc
  have hl : r.1 i = ionCells (species st n) i := bothEnds_last hm ht
  have hb := ionBody_eq m (num (species st n) .charge 0) (num (species st n) .AA 0) (num (species st n) .adiabatic (5 / 3)) e
    u i g (ionCells (species st n) i) (ionCells (species st n) inn) ht.guard_eq
  dsimp only at hb
  dsimp only at hg hsrc
  rw [hb] at hg hsrc
  dsimp only at hg hsrc
  -- the face values in terms of the published fields
  have fN : ((ionCells (species st n) i).n + limitFree (ionCells (species st n) inn).n (ionCells (species st n) i).n) / 2 = N := by
    simp only [N, face]; rw [fieldOf_some hp.n]; dsimp only; rw [hg, hl]
  have fT : ((ionCells (species st n) i).t + limitFree (ionCells (species st n) inn).t (ionCells (species st n) i).t) / 2
      = face (fieldOf st' n .temperature) i g := by
    simp only [face]; rw [fieldOf_some hp.t]; dsimp only; rw [hg, hl]
  have fne : ((e i).n + (e g).n) / 2 = face (fieldOf st' "e" .density) i g := by
    simp only [face]; rw [fieldOf_some hpe.n]
  have fte : ((e i).t + (e g).t) / 2 = face (fieldOf st' "e" .temperature) i g := by
    simp only [face]; rw [fieldOf_some hpe.t]
  have fni : (ionCells (species st n) i).n = fieldOf st' n .density i := by rw [fieldOf_some hp.n]; dsimp only; rw [hl]
  have fnei : (e i).n = fieldOf st' "e" .density i := by rw [fieldOf_some hpe.n]
  rw [fN, fT, fne, fte, fnei] at hg hsrc
  have hsp : Real.sqrt (min 100 (max 0 (bohmSq (num (species st n) .charge 0) (num (species st n) .AA 0)
      (num (species st n) .adiabatic (5 / 3)) (face (fieldOf st' "e" .density) i g) (face (fieldOf st' "e" .temperature) i g)
      N (face (fieldOf st' n .temperature) i g) (fieldOf st' "e" .density i - face (fieldOf st' "e" .density) i g)
      ((ionCells (species st n) i).n - N)))) = speed := by
    rw [fni]; rfl
  have hsq : min 100 (max 0 (bohmSq (num (species st n) .charge 0) (num (species st n) .AA 0)
      (num (species st n) .adiabatic (5 / 3)) (face (fieldOf st' "e" .density) i g) (face (fieldOf st' "e" .temperature) i g)
      N (face (fieldOf st' n .temperature) i g) (fieldOf st' "e" .density i - face (fieldOf st' "e" .density) i g)
      ((ionCells (species st n) i).n - N))) = speed ^ 2 := by
    rw [← hsp, Real.sq_sqrt (le_min (by norm_num) (le_max_left _ _))]
  rw [hsp] at hg hsrc
  rw [hsq] at hsrc
  have ho : out u * out u = 1 := by cases u <;> simp [out]
  refine ⟨fun hv => ?_, fun hv => ?_, ?_⟩
  · have := fieldOf_ifSet hp.v hv
    rw [this]
    simp only [face]
    rw [hg, hl]
    linear_combination speed * ho
  · have := fieldOf_ifSet hp.nv hv
    rw [this]
    simp only [face]
    rw [hg, hl]
    show out u * (((ionCells (species st n) i).nv + (2 * mass st n * N * (out u * speed) - (ionCells (species st n) i).nv)) / 2) = _
    linear_combination mass st n * N * speed * ho
  · rw [fieldOf_some hp.src, hsrc]
    show fieldOf st n .energy_source i + _ = _
    rw [← sub_eq_add_neg]
    rfl

/-- Ions never leave the wall. -/
theorem sheath_ions_inward {o : SheathOpts ι} {m : YMesh ι} {garbage : Fld ι} {names : List String} (hm : MeshOk m)
    (hn : names.Nodup) {st st' : Store Key (Value ι)} (h : sheathBoundary o m garbage names st = (.ok (), st'))
    {n : String} (hmem : n ∈ names) (hi : IsIon st n) (hv : (vals st (.sp n .velocity)).isSome)
    {u : Bool} {i g inn : ι} (ht : Target m o.lower_y o.upper_y u i g inn) :
    0 ≤ out u * face (fieldOf st' n .velocity) i g ∧
    (bohmSqAt st st' n i g ≤ 100 → bohmSqAt st st' n i g ≤ (face (fieldOf st' n .velocity) i g) ^ 2) := by
  have hs := (sheath_ions hm hn h hmem hi ht).1 hv
  refine ⟨by rw [hs]; exact Real.sqrt_nonneg _, fun h100 => ?_⟩
  have ho : out u ^ 2 = 1 := by cases u <;> simp [out]
  have : (face (fieldOf st' n .velocity) i g) ^ 2 = (out u * face (fieldOf st' n .velocity) i g) ^ 2 := by
    rw [mul_pow, ho, one_mul]
  rw [this, hs, Real.sq_sqrt (le_min (by norm_num) (le_max_left _ _))]
  exact le_min h100 (le_max_right _ _)

/-- The potential on the face next to the wall: linear extrapolation, and not below the wall potential if
`floor_potential`. -/
noncomputable def facePotentialOf (floor_potential : Bool) (wall φ φinn : ℝ) : ℝ :=
  let ext := φ + (φ - φinn) / 2
  if floor_potential then max ext wall else ext
noncomputable def facePotential (o : SheathOpts ι) (φ : Fld ι) (i inn : ι) : ℝ :=
  facePotentialOf o.floor_potential (o.wall i) (φ i) (φ inn)

/-- The speed of the electrons into the wall. -/
noncomputable def electronSpeed (Me Ge te drop : ℝ) : ℝ :=
  if te < 1e-10 then 0 else Real.sqrt (te / (2 * Real.pi * Me)) * (1 - Ge) * Real.exp (-drop / te)

theorem electronBody_eq (o : SheathOpts ι) (m : YMesh ι) (Me γ : ℝ) (u : Bool) (i g : ι) (c inn : ECell)
    (hg : g = if u then m.yp i else m.ym i) :
    let N : ℝ := (c.n + limitFree inn.n c.n) / 2
    let T : ℝ := (c.t + limitFree inn.t c.t) / 2
    let drop : ℝ := facePotentialOf o.floor_potential (o.wall i) c.phi inn.phi - o.wall i
    let gamma : ℝ := max (2 / (1 - o.Ge) + drop / max T 1e-5) 0
    let speed : ℝ := electronSpeed Me o.Ge T drop
    let q : ℝ := ((gamma - 1 - 1 / (γ - 1)) * T - 0.5 * Me * speed ^ 2) * N * speed
    (if u then electronUpper o m Me γ else electronLower o m Me γ) i c inn =
      (⟨limitFree inn.n c.n, limitFree inn.t c.t, limitFree inn.p c.p, 2 * c.phi - inn.phi, 2 * (out u * speed) - c.v,
        2 * Me * N * (out u * speed) - c.nv⟩, -(max 0 q * areaPerVolume m i g)) := by
  intro N T drop gamma speed q
  have hN : 0.5 * (limitFree inn.n c.n + c.n) = N := by simp only [N]; ring
  have hT : 0.5 * (limitFree inn.t c.t + c.t) = T := by simp only [T]; ring
  have hP : (if o.floor_potential then floorTo (0.5 * (2 * c.phi - inn.phi + c.phi)) (o.wall i)
      else 0.5 * (2 * c.phi - inn.phi + c.phi)) = facePotentialOf o.floor_potential (o.wall i) c.phi inn.phi := by
    have : 0.5 * (2 * c.phi - inn.phi + c.phi) = c.phi + (c.phi - inn.phi) / 2 := by ring
    rw [this, floorTo_eq_max]; rfl
  have hS : ∀ q' : ℝ, sheathPower m i g q' = q' * areaPerVolume m i g := by
    intro q'; unfold sheathPower areaPerVolume; ring
  have hG : floorTo (2 / (1 - o.Ge) + (facePotentialOf o.floor_potential (o.wall i) c.phi inn.phi - o.wall i) / floorTo T 1e-5) 0 = gamma := by
    rw [floorTo_eq_max, floorTo_eq_max]
  cases u
  · simp only [Bool.false_eq_true, if_false] at hg ⊢
    have hV : (if T < 1e-10 then 0 else -Real.sqrt (T / (2 * Real.pi * Me)) * (1 - o.Ge) *
        Real.exp (-(facePotentialOf o.floor_potential (o.wall i) c.phi inn.phi - o.wall i) / T)) = -speed := by
      simp only [speed, electronSpeed, drop]
      split
      · simp
      · ring
    unfold electronLower
    subst hg
    simp only [hN, hT, hP, hG, hV, hS, out, Bool.false_eq_true, if_false]
    refine Prod.ext ?_ ?_
    · dsimp only
      congr 1 <;> ring
    · dsimp only
      have hq : ((gamma - 1 - 1 / (γ - 1)) * T - 0.5 * Me * (-speed) ^ 2) * N * -speed = -q := by
        simp only [q]; ring
      rw [hq]
      by_cases h0 : -q > 0
      · rw [if_pos h0, max_eq_left (by linarith)]; ring
      · rw [if_neg h0, max_eq_right (by linarith)]; ring
  · simp only [if_true] at hg ⊢
    have hV : (if T < 1e-10 then 0 else Real.sqrt (T / (2 * Real.pi * Me)) * (1 - o.Ge) *
        Real.exp (-(facePotentialOf o.floor_potential (o.wall i) c.phi inn.phi - o.wall i) / T)) = speed := rfl
    unfold electronUpper
    subst hg
    simp only [hN, hT, hP, hG, hV, hS, out, if_true]
    refine Prod.ext ?_ ?_
    · dsimp only
      congr 1 <;> ring
    · dsimp only
      show -((if q < 0 then 0 else q) * _) = _
      by_cases h0 : q < 0
      · rw [if_pos h0, max_eq_left (by linarith)]
      · rw [if_neg h0, max_eq_right (by linarith)]

/-- Electron mass and ratio of specific heats. -/
def electronMassOf (o : SheathOpts ι) (st : Store Key (Value ι)) : ℝ := num (species st "e") .AA o.electronMass

/-- Electrons at a target, for any potential `φ` that the component uses. -/
theorem sheath_electrons_phi {o : SheathOpts ι} {m : YMesh ι} {garbage : Fld ι} {names : List String} (hm : MeshOk m)
    (hn : names.Nodup) {st st' : Store Key (Value ι)} (h : sheathBoundary o m garbage names st = (.ok (), st'))
    {u : Bool} {i g inn : ι} (ht : Target m o.lower_y o.upper_y u i g inn) :
    let Me := electronMassOf o st
    let φ := phiUsed o m garbage names st
    let drop := facePotential o φ i inn - o.wall i
    let N := face (fieldOf st' "e" .density) i g
    let T := face (fieldOf st' "e" .temperature) i g
    let gamma := max (2 / (1 - o.Ge) + drop / max T 1e-5) 0
    let speed := electronSpeed Me o.Ge T drop
    ((vals st (.sp "e" .velocity)).isSome → out u * face (fieldOf st' "e" .velocity) i g = speed) ∧
    ((vals st (.sp "e" .momentum)).isSome → out u * face (fieldOf st' "e" .momentum) i g = Me * N * speed) ∧
    fieldOf st' "e" .energy_source i = fieldOf st "e" .energy_source i -
      max 0 (((gamma - 1 - 1 / (adiabatic st "e" - 1)) * T - 0.5 * Me * speed ^ 2) * N * speed) * areaPerVolume m i g ∧
    ((electronResult o m garbage names st).1 g).phi = 2 * φ i - φ inn := by
  intro Me φ drop N T gamma speed
  obtain ⟨hp, _⟩ := sheathBoundary_ok hn h
  set r := electronResult o m garbage names st with hr
  obtain ⟨hg, hsrc⟩ := bothEnds_target (s := (electronCells (species st "e") (phiUsed o m garbage names st), fld (species st "e") .energy_source 0))
      (fl := electronLower o m (num (species st "e") .AA o.electronMass) (num (species st "e") .adiabatic (5 / 3)))
      (fu := electronUpper o m (num (species st "e") .AA o.electronMass) (num (species st "e") .adiabatic (5 / 3))) hm ht
  rw [← electronResult_eq, ← hr] at hg hsrc
  have hl : r.1 i = electronCells (species st "e") (phiUsed o m garbage names st) i := bothEnds_last hm ht
  have hb := electronBody_eq o m Me (adiabatic st "e") u i g (electronCells (species st "e") φ i)
    (electronCells (species st "e") φ inn) ht.guard_eq
  dsimp only at hb hg hsrc
  have hg' : r.1 g = _ := hg.trans (congrArg Prod.fst hb)
  have hsrc' : r.2 i = _ := hsrc.trans (congrArg (fun x => fld (species st "e") .energy_source 0 i + Prod.snd x) hb)
  clear hg hsrc
  dsimp only at hg' hsrc'
  have fN : ((electronCells (species st "e") φ i).n + limitFree (electronCells (species st "e") φ inn).n (electronCells (species st "e") φ i).n) / 2 = N := by
    simp only [N, face]; rw [fieldOf_some hp.n]; dsimp only; rw [hg', hl]
  have fT : ((electronCells (species st "e") φ i).t + limitFree (electronCells (species st "e") φ inn).t (electronCells (species st "e") φ i).t) / 2 = T := by
    simp only [T, face]; rw [fieldOf_some hp.t]; dsimp only; rw [hg', hl]
  rw [fN, fT] at hg' hsrc'
  have ho : out u * out u = 1 := by cases u <;> simp [out]
  refine ⟨fun hv => ?_, fun hv => ?_, ?_, ?_⟩
  · rw [fieldOf_ifSet hp.v hv]
    simp only [face]
    rw [hg', hl]
    show out u * (((electronCells (species st "e") φ i).v + (2 * (out u * speed) - (electronCells (species st "e") φ i).v)) / 2) = _
    linear_combination speed * ho
  · rw [fieldOf_ifSet hp.nv hv]
    simp only [face]
    rw [hg', hl]
    show out u * (((electronCells (species st "e") φ i).nv + (2 * Me * N * (out u * speed) - (electronCells (species st "e") φ i).nv)) / 2) = _
    linear_combination Me * N * speed * ho
  · rw [fieldOf_some hp.src, hsrc', ← sub_eq_add_neg]
    rfl
  · rw [hg']
    rfl

/-- **C36, C37 (electrons)** when the potential is given: the electrons enter the wall with the thermal speed reduced by
the potential drop and by electron emission, with the corresponding momentum and heat flux; the potential is
extrapolated linearly. -/
theorem sheath_electrons {o : SheathOpts ι} {m : YMesh ι} {garbage : Fld ι} {names : List String} (hm : MeshOk m)
    (hn : names.Nodup) {st st' : Store Key (Value ι)} (h : sheathBoundary o m garbage names st = (.ok (), st'))
    {φ : Fld ι} (hφ : vals st (.top "fields:phi") = some (.field φ))
    {u : Bool} {i g inn : ι} (ht : Target m o.lower_y o.upper_y u i g inn) :
    let Me := electronMassOf o st
    let drop := facePotential o φ i inn - o.wall i
    let N := face (fieldOf st' "e" .density) i g
    let T := face (fieldOf st' "e" .temperature) i g
    let gamma := max (2 / (1 - o.Ge) + drop / max T 1e-5) 0
    let speed := electronSpeed Me o.Ge T drop
    ((vals st (.sp "e" .velocity)).isSome → out u * face (fieldOf st' "e" .velocity) i g = speed) ∧
    ((vals st (.sp "e" .momentum)).isSome → out u * face (fieldOf st' "e" .momentum) i g = Me * N * speed) ∧
    fieldOf st' "e" .energy_source i = fieldOf st "e" .energy_source i -
      max 0 (((gamma - 1 - 1 / (adiabatic st "e" - 1)) * T - 0.5 * Me * speed ^ 2) * N * speed) * areaPerVolume m i g ∧
    topField st' "fields:phi" g = 2 * φ i - φ inn := by
  have hu : phiUsed o m garbage names st = φ := by
    unfold phiUsed fieldOr
    rw [hφ]
    rfl
  have hh := sheath_electrons_phi hm hn h ht
  dsimp only at hh ⊢
  rw [hu] at hh
  obtain ⟨h1, h2, h3, h4⟩ := hh
  refine ⟨h1, h2, h3, ?_⟩
  obtain ⟨_, hph, _⟩ := sheathBoundary_ok hn h
  rw [hφ, phiPublished] at hph
  have hph' : vals st' (.top "fields:phi") = some (.field fun i => ((electronResult o m garbage names st).1 i).phi) := by
    rw [hph]
    split
    · rfl
    · rfl
  unfold topField
  rw [hph']
  exact h4

/-- Electrons never come out of the wall, and with `floor_potential` never exceed the thermal flux. -/
theorem sheath_electrons_inward {o : SheathOpts ι} {m : YMesh ι} {garbage : Fld ι} {names : List String} (hm : MeshOk m)
    (hn : names.Nodup) {st st' : Store Key (Value ι)} (h : sheathBoundary o m garbage names st = (.ok (), st'))
    (hv : (vals st (.sp "e" .velocity)).isSome) (hGe : o.Ge ≤ 1)
    {u : Bool} {i g inn : ι} (ht : Target m o.lower_y o.upper_y u i g inn) :
    0 ≤ out u * face (fieldOf st' "e" .velocity) i g ∧
    (o.floor_potential = true → out u * face (fieldOf st' "e" .velocity) i g ≤
      Real.sqrt (face (fieldOf st' "e" .temperature) i g / (2 * Real.pi * electronMassOf o st)) * (1 - o.Ge)) := by
  have hs := (sheath_electrons_phi hm hn h ht).1 hv
  rw [hs]
  have hGe' : 0 ≤ 1 - o.Ge := by linarith
  unfold electronSpeed
  split
  · exact ⟨le_rfl, fun _ => mul_nonneg (Real.sqrt_nonneg _) hGe'⟩
  · rename_i hT
    refine ⟨mul_nonneg (mul_nonneg (Real.sqrt_nonneg _) hGe') (Real.exp_pos _).le, fun hf => ?_⟩
    refine mul_le_of_le_one_right (mul_nonneg (Real.sqrt_nonneg _) hGe') ?_
    rw [Real.exp_le_one_iff]
    have hT' : 0 < face (fieldOf st' "e" .temperature) i g := by
      have := not_lt.1 hT
      linarith
    refine div_nonpos_of_nonpos_of_nonneg ?_ hT'.le
    have : o.wall i ≤ facePotential o (phiUsed o m garbage names st) i inn := by
      unfold facePotential facePotentialOf
      rw [if_pos hf]
      exact le_max_right _ _
    linarith

/-! ## C37: the sheath never heats -/

theorem areaPerVolume_nonneg {m : YMesh ι} (hJ : ∀ j, 0 ≤ m.J j) (hdy : ∀ j, 0 ≤ m.dy j) (i g : ι) :
    0 ≤ areaPerVolume m i g :=
  div_nonneg (div_nonneg (add_nonneg (hJ _) (hJ _)) (add_nonneg (Real.sqrt_nonneg _) (Real.sqrt_nonneg _)))
    (mul_nonneg (hdy _) (hJ _))

/-- **C37.**  For every species with a sheath the energy source is lowered, if anything, and only in the last cells. -/
theorem sheath_never_heats {o : SheathOpts ι} {m : YMesh ι} {garbage : Fld ι} {names : List String} (hm : MeshOk m)
    (hn : names.Nodup) (hJ : ∀ j, 0 ≤ m.J j) (hdy : ∀ j, 0 ≤ m.dy j)
    {st st' : Store Key (Value ι)} (h : sheathBoundary o m garbage names st = (.ok (), st'))
    {s : String} (hs : HasSheath st names s) (j : ι) :
    fieldOf st' s .energy_source j ≤ fieldOf st s .energy_source j ∧
    ((∀ u g inn, ¬ Target m o.lower_y o.upper_y u j g inn) →
      fieldOf st' s .energy_source j = fieldOf st s .energy_source j) := by
  have key : (∀ u g inn, ¬ Target m o.lower_y o.upper_y u j g inn) →
      fieldOf st' s .energy_source j = fieldOf st s .energy_source j := by
    intro hno
    rcases hs with rfl | ⟨hmem, hi⟩
    · obtain ⟨hp, _⟩ := sheathBoundary_ok hn h
      rw [fieldOf_some hp.src, electronResult_eq, bothEnds_src_other hno]
      rfl
    · rw [fieldOf_some (ion_target hm hn h hmem hi).src, bothEnds_src_other hno]
      rfl
  refine ⟨?_, key⟩
  by_cases hno : ∀ u g inn, ¬ Target m o.lower_y o.upper_y u j g inn
  · rw [key hno]
  · push Not at hno
    obtain ⟨u, g, inn, ht⟩ := hno
    rcases hs with rfl | ⟨hmem, hi⟩
    · rw [(sheath_electrons_phi hm hn h ht).2.2.1]
      exact sub_le_self _ (mul_nonneg (le_max_left _ _) (areaPerVolume_nonneg hJ hdy _ _))
    · rw [(sheath_ions hm hn h hmem hi ht).2.2]
      exact sub_le_self _ (mul_nonneg (le_max_left _ _) (areaPerVolume_nonneg hJ hdy _ _))

/-- With the default ratio of specific heats the ions lose no energy beyond what flows with them. -/
theorem sheath_ions_no_extra_loss {o : SheathOpts ι} {m : YMesh ι} {garbage : Fld ι} {names : List String} (hm : MeshOk m)
    (hn : names.Nodup) {st st' : Store Key (Value ι)} (h : sheathBoundary o m garbage names st = (.ok (), st'))
    {n : String} (hmem : n ∈ names) (hi : IsIon st n) (hγ : adiabatic st n = 5 / 3) (j : ι) :
    fieldOf st' n .energy_source j = fieldOf st n .energy_source j := by
  by_cases hno : ∀ u g inn, ¬ Target m o.lower_y o.upper_y u j g inn
  · rw [fieldOf_some (ion_target hm hn h hmem hi).src, bothEnds_src_other hno]
    rfl
  · push Not at hno
    obtain ⟨u, g, inn, ht⟩ := hno
    have := (sheath_ions hm hn h hmem hi ht).2.2
    rw [this, hγ]
    have hT : max (face (fieldOf st' n .temperature) j g) 1e-5 ≠ 0 :=
      ne_of_gt (lt_of_lt_of_le (by norm_num) (le_max_right _ _))
    rw [max_eq_left (le_of_eq ?_)]
    · ring
    · field_simp
      ring

end Hermes.Sheath
