import Verif.Lemmas.ScalingSheath
import Verif.Props.SheathExamples
import Verif.Props.UnitsTransport

/-!
# C75: the sheath boundary conditions in different units

`SheathBoundary::transform` gets a state that was divided by reference values.  The boundary values, the potential and the energy sources that it
publishes, converted back with the factors that are saved in the output files, do not depend on the reference values, as long as none of the limits that
are written into the code (`1e-10`, `1e-5`, `1e-3`, `2e-3`, `100`) is reached.
-/

namespace Hermes.Units
open Hermes Sheath Closures

variable {ι : Type}

/-! ## Specification -/

/-- A value multiplied by a number. -/
def _root_.Hermes.Value.times (k : ℝ) : Value ι → Value ι
  | .real x => .real (k * x)
  | .field f => .field (fun i => k * f i)

/-- `st` in the units `u` and `st'` in the units `u'` are the same state in SI units.  (The diagnostic `energy_flow_ylow` is not compared.) -/
def SameState (c : Consts) (u u' : Normalisation) (st st' : Store Key (Value ι)) : Prop :=
  ∀ k, (∀ s, k ≠ .sp s .energy_flow_ylow) → (vals st k).map (Value.times (u.keyConversion c k)) = (vals st' k).map (Value.times (u'.keyConversion c k))

/-- The metric in one point; the components that the sheath does not use are zero. -/
noncomputable def yMetricAt (m : YMesh ι) (i : ι) : Metric :=
  { dx := m.dx i, Bxy := 0, g11 := 0, g22 := 0, g33 := 0, g12 := 0, g13 := 0, g23 := 0, J := m.J i, g_11 := 0, g_22 := m.g22 i, g_33 := 0, g_12 := 0,
    g_13 := 0, g_23 := 0 }

/-- The mesh after the normalisation of the metric in `Hermes::init`, `hermes-3.cxx:250-267`. -/
noncomputable def yMeshIn (c : Consts) (u : Normalisation) (m : YMesh ι) : YMesh ι :=
  { m with
    J := fun i => (normaliseMetric (u.rho_s0 c) u.Bnorm (yMetricAt m i)).J
    g22 := fun i => (normaliseMetric (u.rho_s0 c) u.Bnorm (yMetricAt m i)).g_22
    dx := fun i => (normaliseMetric (u.rho_s0 c) u.Bnorm (yMetricAt m i)).dx }

/-- The options: the wall potential is given in volts and divided by `Tnorm`, `src/sheath_boundary.cxx:89-95`. -/
noncomputable def sheathOptsIn (u : Normalisation) (o : SheathOpts ι) : SheathOpts ι := { o with wall := fun i => o.wall i / u.Tnorm }

/-- What was published for the targets is away from the limits in the code: in front of every target, densities, temperatures and pressures are at least
`1e-10`, on the face temperatures are at least `1e-5` and the electron density at least `1e-10`; the density of each ion species is constant or changes
by at least `1e-3`; the Bohm speed is at most 10. -/
structure Clear (o : SheathOpts ι) (m : YMesh ι) (names : List String) (st st' : Store Key (Value ι)) : Prop where
  cell : ∀ u i g inn, Target m o.lower_y o.upper_y u i g inn → ∀ s, HasSheath st names s → ∀ v, v ∈ [Var.density, .temperature, .pressure] →
    1e-10 ≤ fieldOf st' s v inn
  temperature : ∀ u i g inn, Target m o.lower_y o.upper_y u i g inn → ∀ s, HasSheath st names s → 1e-5 ≤ face (fieldOf st' s .temperature) i g
  electrons : ∀ u i g inn, Target m o.lower_y o.upper_y u i g inn → 1e-10 ≤ face (fieldOf st' "e" .density) i g
  gradient : ∀ u i g inn, Target m o.lower_y o.upper_y u i g inn → ∀ n ∈ names, IsIon st n →
    fieldOf st' n .density i - face (fieldOf st' n .density) i g = 0 ∨ 1e-3 ≤ |fieldOf st' n .density i - face (fieldOf st' n .density) i g|
  speed : ∀ u i g inn, Target m o.lower_y o.upper_y u i g inn → ∀ n ∈ names, IsIon st n → bohmSqAt st st' n i g ≤ 100

/-- The same for the speeds in the sum over the ions, which is needed if no potential is published. -/
structure ClearSum (o : SheathOpts ι) (m : YMesh ι) (names : List String) (st st' : Store Key (Value ι)) : Prop where
  gradient : ∀ u i g inn, Target m o.lower_y o.upper_y u i g inn → ∀ n ∈ names, IsIon st n →
    fieldOf st' n .density inn - fieldOf st' n .density i = 0 ∨ 2e-3 ≤ |fieldOf st' n .density inn - fieldOf st' n .density i|
  speed : ∀ u i g inn, Target m o.lower_y o.upper_y u i g inn → ∀ n ∈ names, IsIon st n →
    sumSpeedSq (Sheath.charge st n) (Sheath.mass st n) (Sheath.adiabatic st n) (fieldOf st' "e" .density i) (fieldOf st' "e" .temperature i) (fieldOf st' n .density i)
      (fieldOf st' n .temperature i) (fieldOf st' "e" .density inn) (fieldOf st' n .density inn) ≤ 100

/-! ## States that differ by factors -/

/-- `st2` has the values of `st`, multiplied by `κ`. -/
def Times (κ : Key → ℝ) (st st2 : Store Key (Value ι)) : Prop :=
  ∀ k, (∀ s, k ≠ .sp s .energy_flow_ylow) → vals st2 k = (vals st k).map (Value.times (κ k))

theorem Times.get {κ : Key → ℝ} {st st2 : Store Key (Value ι)} (h : Times κ st st2) (s : String) {v : Var} (hv : v ≠ .energy_flow_ylow) :
    vals st2 (.sp s v) = (vals st (.sp s v)).map (Value.times (κ (.sp s v))) := h _ fun _ e => hv (Key.sp.inj e).2

theorem times_times (x y : ℝ) (v : Value ι) : (v.times y).times x = v.times (x * y) := by
  cases v
  · simp only [Value.times, mul_assoc]
  · simp only [Value.times, mul_assoc]

theorem times_one (v : Value ι) : v.times 1 = v := by cases v <;> simp [Value.times]

theorem sameState_iff {c : Consts} (hc : Physical c) {u u' : Normalisation} (hu' : Good u') (st st2 : Store Key (Value ι)) :
    SameState c u u' st st2 ↔ Times (fun k => u.keyConversion c k / u'.keyConversion c k) st st2 := by
  have h : ∀ k, u'.keyConversion c k ≠ 0 := fun k => (keyConversion_pos hc hu' k).ne'
  refine forall_congr' fun k => forall_congr' fun _ => ?_
  dsimp only
  constructor
  · intro e
    have := congrArg (Option.map (Value.times (u'.keyConversion c k)⁻¹)) e
    rw [Option.map_map, Option.map_map] at this
    have e1 : (Value.times (ι := ι) (u'.keyConversion c k)⁻¹ ∘ Value.times (u'.keyConversion c k)) = id := by
      funext x
      rw [Function.comp_apply, times_times, inv_mul_cancel₀ (h k), times_one]; rfl
    have e2 : (Value.times (ι := ι) (u'.keyConversion c k)⁻¹ ∘ Value.times (u.keyConversion c k)) =
        Value.times (u.keyConversion c k / u'.keyConversion c k) := by
      funext x
      rw [Function.comp_apply, times_times, div_eq_inv_mul]
    rw [e1, e2, Option.map_id] at this
    exact this.symm
  · intro e
    rw [e, Option.map_map]
    congr 1
    funext x
    rw [Function.comp_apply, times_times, mul_div_cancel₀ _ (h k)]

section
variable {κ : Key → ℝ} {st st2 : Store Key (Value ι)}

theorem Times.fld (h : Times κ st st2) (s : String) (v : Var) (d : Fld ι) (hv : v ≠ .energy_flow_ylow := by decide) :
    fld (species st2 s) v (fun i => κ (.sp s v) * d i) = fun i => κ (.sp s v) * Sheath.fld (species st s) v d i := by
  unfold Sheath.fld
  have e : species st2 s v = (species st s v).map (Value.times (κ (.sp s v))) := h.get s hv
  rw [e]
  cases species st s v with
  | none => rfl
  | some x => cases x <;> rfl

theorem Times.fld0 (h : Times κ st st2) (s : String) (v : Var) (hv : v ≠ .energy_flow_ylow := by decide) :
    Sheath.fld (species st2 s) v 0 = fun i => κ (.sp s v) * Sheath.fld (species st s) v 0 i := by
  have := h.fld s v 0 hv
  rw [← this]
  congr 1
  funext i
  simp

theorem Times.num (h : Times κ st st2) (s : String) (v : Var) (d : ℝ) (h1 : κ (.sp s v) = 1) (hv : v ≠ .energy_flow_ylow := by decide) :
    num (species st2 s) v d = Sheath.num (species st s) v d := by
  unfold Sheath.num
  have e : species st2 s v = (species st s v).map (Value.times (κ (.sp s v))) := h.get s hv
  rw [e, h1]
  cases species st s v with
  | none => rfl
  | some x => rw [Option.map_some, times_one]

theorem ifSet_times (k : ℝ) (x : Option (Value ι)) (f : Fld ι) : ifSet (x.map (Value.times k)) (fun i => k * f i) = (ifSet x f).map (Value.times k) := by
  cases x <;> rfl
end

/-- The factors of the quantities in the sheath. -/
structure Factors (κ : Key → ℝ) (a w L : ℝ) : Prop where
  density : ∀ s, κ (.sp s .density) = a
  temperature : ∀ s, κ (.sp s .temperature) = w ^ 2
  pressure : ∀ s, κ (.sp s .pressure) = a * w ^ 2
  velocity : ∀ s, κ (.sp s .velocity) = w
  momentum : ∀ s, κ (.sp s .momentum) = a * w
  energy_source : ∀ s, κ (.sp s .energy_source) = a * w ^ 2 * (w * L⁻¹)
  AA : ∀ s, κ (.sp s .AA) = 1
  charge : ∀ s, κ (.sp s .charge) = 1
  adiabatic : ∀ s, κ (.sp s .adiabatic) = 1
  phi : κ (.top "fields:phi") = w ^ 2

section
variable {κ : Key → ℝ} {a w L : ℝ} {st st2 : Store Key (Value ι)}

theorem floor0_by {a : ℝ} (ha : 0 < a) (x : ℝ) : floorTo (a * x) 0 = a * floorTo x 0 := by
  rw [floorTo_eq_max, floorTo_eq_max]
  have := max_by (x := x) (y := 0) ha
  rwa [mul_zero] at this

theorem Times.ionCells (h : Times κ st st2) (hk : Factors κ a w L) (ha : 0 < a) (s : String) (i : ι) :
    Sheath.ionCells (species st2 s) i = (Sheath.ionCells (species st s) i).by a w := by
  unfold Sheath.ionCells ICell.by
  dsimp only
  have hN : (fun i => floorTo (Sheath.fld (species st2 s) .density 0 i) 0) = fun i => a * floorTo (Sheath.fld (species st s) .density 0 i) 0 := by
    funext i
    rw [h.fld0 s .density, hk.density, floor0_by ha]
  have hT : Sheath.fld (species st2 s) .temperature 0 = fun i => w ^ 2 * Sheath.fld (species st s) .temperature 0 i := by rw [h.fld0 s .temperature, hk.temperature]
  have hV : Sheath.fld (species st2 s) .velocity 0 = fun i => w * Sheath.fld (species st s) .velocity 0 i := by rw [h.fld0 s .velocity, hk.velocity]
  have hP := h.fld s .pressure (fun i => floorTo (Sheath.fld (species st s) .density 0 i) 0 * Sheath.fld (species st s) .temperature 0 i)
  have hNV := h.fld s .momentum (fun i => Sheath.num (species st s) .AA 0 * floorTo (Sheath.fld (species st s) .density 0 i) 0 *
    Sheath.fld (species st s) .velocity 0 i)
  rw [hk.pressure] at hP
  rw [hk.momentum] at hNV
  have eP : (fun i => floorTo (Sheath.fld (species st2 s) .density 0 i) 0 * Sheath.fld (species st2 s) .temperature 0 i) =
      fun i => a * w ^ 2 * (floorTo (Sheath.fld (species st s) .density 0 i) 0 * Sheath.fld (species st s) .temperature 0 i) := by
    funext i
    rw [congrFun hN i, hT]
    ring
  have eNV : (fun i => Sheath.num (species st2 s) .AA 0 * floorTo (Sheath.fld (species st2 s) .density 0 i) 0 * Sheath.fld (species st2 s) .velocity 0 i) =
      fun i => a * w * (Sheath.num (species st s) .AA 0 * floorTo (Sheath.fld (species st s) .density 0 i) 0 * Sheath.fld (species st s) .velocity 0 i) := by
    funext i
    rw [congrFun hN i, hV, h.num s .AA 0 (hk.AA s)]
    ring
  rw [eP, eNV, hP, hNV, congrFun hN i, hT, hV]

theorem Times.electronCells (h : Times κ st st2) (hk : Factors κ a w L) (ha : 0 < a) {φ φ' : Fld ι} (hφ : ∀ i, φ' i = w ^ 2 * φ i) (i : ι) :
    Sheath.electronCells (species st2 "e") φ' i = (Sheath.electronCells (species st "e") φ i).by a w := by
  unfold Sheath.electronCells ECell.by
  dsimp only
  have hN : (fun i => floorTo (Sheath.fld (species st2 "e") .density 0 i) 0) = fun i => a * floorTo (Sheath.fld (species st "e") .density 0 i) 0 := by
    funext i
    rw [h.fld0 "e" .density, hk.density, floor0_by ha]
  have hT : Sheath.fld (species st2 "e") .temperature 0 = fun i => w ^ 2 * Sheath.fld (species st "e") .temperature 0 i := by rw [h.fld0 "e" .temperature, hk.temperature]
  have hP := h.fld "e" .pressure (fun i => Sheath.fld (species st "e") .temperature 0 i * floorTo (Sheath.fld (species st "e") .density 0 i) 0)
  rw [hk.pressure] at hP
  have eP : (fun i => Sheath.fld (species st2 "e") .temperature 0 i * floorTo (Sheath.fld (species st2 "e") .density 0 i) 0) =
      fun i => a * w ^ 2 * (Sheath.fld (species st "e") .temperature 0 i * floorTo (Sheath.fld (species st "e") .density 0 i) 0) := by
    funext i
    rw [congrFun hN i, hT]
    ring
  rw [eP, hP, congrFun hN i, hT, h.fld0 "e" .velocity, h.fld0 "e" .momentum, hk.velocity, hk.momentum, hφ]

theorem Times.isIon (h : Times κ st st2) (hk : Factors κ a w L) (n : String) : IsIon st2 n ↔ IsIon st n := by
  unfold IsIon
  rw [h.num n .charge 0 (hk.charge n)]

theorem Times.hasSheath (h : Times κ st st2) (hk : Factors κ a w L) (names : List String) (s : String) :
    HasSheath st2 names s ↔ HasSheath st names s := by
  unfold HasSheath
  rw [h.isIon hk]

variable [DecidableEq ι] {o o' : SheathOpts ι} {m m' : YMesh ι} {names : List String} {garbage garbage' : Fld ι}

omit [DecidableEq ι] in
theorem Times.stateTerm (h : Times κ st st2) (hk : Factors κ a w L) (ha : 0 < a) (hw : 0 < w) (ho : OptsBy w o o') (i inn : ι) {n : String}
    (hcl : IsIon st n → let N := fun i => floorTo (fieldOf st n .density i) 0
      let C := sumSpeedSq (Sheath.charge st n) (Sheath.mass st n) (Sheath.adiabatic st n) (floorTo (fieldOf st "e" .density i) 0) (fieldOf st "e" .temperature i)
        (N i) (fieldOf st n .temperature i) (floorTo (fieldOf st "e" .density inn) 0) (N inn)
      (N inn - N i = 0 ∨ (2e-3 ≤ |N inn - N i| ∧ 2e-3 ≤ a * |N inn - N i|)) ∧ C ≤ 100 ∧ w ^ 2 * C ≤ 100) :
    stateTerm o' st2 i inn n = w * Sheath.stateTerm o st i inn n := by
  unfold Sheath.stateTerm
  by_cases hi : IsIon st n
  · rw [if_pos hi, if_pos ((h.isIon hk n).2 hi)]
    obtain ⟨h1, h2, h3⟩ := hcl hi
    unfold sumTerm
    unfold Sheath.charge Sheath.mass Sheath.adiabatic at h2 h3 ⊢
    simp only [fieldOf_species] at h1 h2 h3 ⊢
    rw [h.num n .charge 0 (hk.charge n), h.num n .AA 0 (hk.AA n), h.num n .adiabatic _ (hk.adiabatic n), h.fld0 "e" .density,
      h.fld0 "e" .temperature, h.fld0 n .density, h.fld0 n .temperature, hk.density,
      hk.density, hk.temperature, hk.temperature, ho.sin_alpha]
    simp only [floor0_by ha]
    exact sumTermOf_by ha hw _ _ _ _ h1 h2 h3
  · rw [if_neg hi, if_neg fun hh => hi ((h.isIon hk n).1 hh), mul_zero]

theorem Times.phiUsed (h : Times κ st st2) (hk : Factors κ a w L) (ha : 0 < a) (hw : 0 < w) (ho : OptsBy w o o') (hmm : MeshBy L m m') (hm : MeshOk m)
    (hlong : MeshLong m) (hg : ∀ i, garbage' i = w ^ 2 * garbage i)
    (hcl : (vals st (.top "fields:phi")).isSome = false → ∀ u i g inn, Target m o.lower_y o.upper_y u i g inn → ∀ n ∈ names, IsIon st n →
      let N := fun i => floorTo (fieldOf st n .density i) 0
      let C := sumSpeedSq (Sheath.charge st n) (Sheath.mass st n) (Sheath.adiabatic st n) (floorTo (fieldOf st "e" .density i) 0) (fieldOf st "e" .temperature i)
        (N i) (fieldOf st n .temperature i) (floorTo (fieldOf st "e" .density inn) 0) (N inn)
      (N inn - N i = 0 ∨ (2e-3 ≤ |N inn - N i| ∧ 2e-3 ≤ a * |N inn - N i|)) ∧ C ≤ 100 ∧ w ^ 2 * C ≤ 100) (j : ι) :
    phiUsed o' m' garbage' names st2 j = w ^ 2 * Sheath.phiUsed o m garbage names st j := by
  unfold Sheath.phiUsed
  have hphi : vals st2 (.top "fields:phi") = (vals st (.top "fields:phi")).map (Value.times (w ^ 2)) := by
    rw [h _ (by simp), hk.phi]
  cases hp : vals st (.top "fields:phi") with
  | some x =>
    unfold fieldOr
    rw [hphi, hp]
    cases x <;> rfl
  | none =>
    rw [fieldOr_unset (by rw [hphi, hp]; rfl), fieldOr_unset (by rw [hp]; rfl)]
    by_cases hj : ∀ u i g inn, Target m o.lower_y o.upper_y u i g inn → ¬ (j = i ∨ j = inn ∨ j = g)
    · rw [potential_other o _ _ _ _ hj, potential_other o' _ _ _ _ fun u i g inn ht => hj u i g inn (by
        rw [ho.lower_y, ho.upper_y] at ht; exact (Target.of_by hmm).1 ht), hg]
    · push Not at hj
      obtain ⟨u, i, g, inn, ht, hj⟩ := hj
      have ht' : Target m' o'.lower_y o'.upper_y u i g inn := by rw [ho.lower_y, ho.upper_y]; exact (Target.of_by hmm).2 ht
      rw [potential_target' o hm hlong _ _ _ _ ht hj, potential_target' o' (MeshOk.of_by hmm hm) (MeshLong.of_by hmm hlong) _ _ _ _ ht' hj,
        h.num "e" .AA _ (hk.AA "e"), ho.electronMass]
      refine zeroCurrentPotential_by hw o o' ho.Ge _ (ho.wall i) ?_ ?_
      · rw [h.fld0 "e" .temperature, hk.temperature]
      · have e1 := ionSum_target o hm st names ht
        have e2 := ionSum_target o' (MeshOk.of_by hmm hm) st2 names ht'
        simp only [fieldOf_species] at e1 e2
        rw [e1, e2, ← List.sum_map_mul_left]
        exact congrArg List.sum (List.map_congr_left fun n hn => h.stateTerm hk ha hw ho i inn (hcl (by rw [hp]; rfl) _ _ _ _ ht n hn))

/-! ## The limits are not reached -/

theorem electron_clear {st' : Store Key (Value ι)} (hm : MeshOk m) (hn : names.Nodup) (h : sheathBoundary o m garbage names st = (.ok (), st'))
    (hcl : Clear o m names st st') {u : Bool} {i g inn : ι} (ht : Target m o.lower_y o.upper_y u i g inn) :
    EClear (Sheath.electronCells (species st "e") (Sheath.phiUsed o m garbage names st) i)
      (Sheath.electronCells (species st "e") (Sheath.phiUsed o m garbage names st) inn) := by
  obtain ⟨hp, -⟩ := sheathBoundary_ok hn h
  have hi : (electronResult o m garbage names st).1 i = Sheath.electronCells (species st "e") (Sheath.phiUsed o m garbage names st) i := by
    rw [electronResult_eq, bothEnds_last hm ht]
  have hin : (electronResult o m garbage names st).1 inn = Sheath.electronCells (species st "e") (Sheath.phiUsed o m garbage names st) inn := by
    rw [electronResult_eq, bothEnds_other fun _ _ _ h' => (h'.ne hm ht).2 rfl]
  have hf := hcl.temperature _ _ _ _ ht "e" (Or.inl rfl)
  unfold face at hf
  rw [sheath_limitFree hm hn h (Or.inl rfl) (v := .temperature) (by decide) ht, fieldOf_some hp.t] at hf
  dsimp only at hf
  rw [hi, hin] at hf
  have hc := hcl.cell _ _ _ _ ht "e" (Or.inl rfl)
  have c1 := hc .density (by decide)
  have c2 := hc .temperature (by decide)
  have c3 := hc .pressure (by decide)
  rw [fieldOf_some hp.n] at c1
  dsimp only at c1
  rw [hin] at c1
  rw [fieldOf_some hp.t] at c2
  dsimp only at c2
  rw [hin] at c2
  rw [fieldOf_some hp.p] at c3
  dsimp only at c3
  rw [hin] at c3
  exact ⟨c1, c2, c3, hf⟩

theorem ion_clear {st' : Store Key (Value ι)} (hm : MeshOk m) (hn : names.Nodup) (h : sheathBoundary o m garbage names st = (.ok (), st'))
    (hcl : Clear o m names st st') {n : String} (hmem : n ∈ names) (hion : IsIon st n) {u : Bool} {i g inn : ι}
    (ht : Target m o.lower_y o.upper_y u i g inn) :
    IClear (Sheath.num (species st n) .charge 0) (Sheath.num (species st n) .AA 0) (Sheath.num (species st n) .adiabatic (5 / 3))
      ((electronResult o m garbage names st).1 i) ((electronResult o m garbage names st).1 g) (Sheath.ionCells (species st n) i)
      (Sheath.ionCells (species st n) inn) := by
  obtain ⟨hp, -⟩ := sheathBoundary_ok hn h
  have q := ion_target hm hn h hmem hion
  have hs : HasSheath st names n := Or.inr ⟨hmem, hion⟩
  have hi := bothEnds_last (fl := ionLower m (Sheath.num (species st n) .charge 0) (Sheath.num (species st n) .AA 0)
    (Sheath.num (species st n) .adiabatic (5 / 3)) (electronResult o m garbage names st).1)
    (fu := ionUpper m (Sheath.num (species st n) .charge 0) (Sheath.num (species st n) .AA 0)
    (Sheath.num (species st n) .adiabatic (5 / 3)) (electronResult o m garbage names st).1)
    (s := (Sheath.ionCells (species st n), Sheath.fld (species st n) .energy_source 0)) hm ht
  have hin := bothEnds_other (m := m) (lo := o.lower_y) (up := o.upper_y) (j := inn)
    (fl := ionLower m (Sheath.num (species st n) .charge 0) (Sheath.num (species st n) .AA 0)
    (Sheath.num (species st n) .adiabatic (5 / 3)) (electronResult o m garbage names st).1)
    (fu := ionUpper m (Sheath.num (species st n) .charge 0) (Sheath.num (species st n) .AA 0)
    (Sheath.num (species st n) .adiabatic (5 / 3)) (electronResult o m garbage names st).1)
    (s := (Sheath.ionCells (species st n), Sheath.fld (species st n) .energy_source 0)) fun _ _ _ h' => (h'.ne hm ht).2 rfl
  generalize bothEnds m o.lower_y o.upper_y _ _ _ = r at q hi hin
  dsimp only at hi hin
  have hd : ∀ j, fieldOf st' n .density j = (r.1 j).n := fun j => congrFun (fieldOf_some q.n) j
  have htt : ∀ j, fieldOf st' n .temperature j = (r.1 j).t := fun j => congrFun (fieldOf_some q.t) j
  have hpp : ∀ j, fieldOf st' n .pressure j = (r.1 j).p := fun j => congrFun (fieldOf_some q.p) j
  have gd := sheath_limitFree hm hn h hs (v := .density) (by decide) ht
  have gt := sheath_limitFree hm hn h hs (v := .temperature) (by decide) ht
  have hc := hcl.cell _ _ _ _ ht n hs
  have c1 := hc .density (by decide)
  have c2 := hc .temperature (by decide)
  have c3 := hc .pressure (by decide)
  have c4 := hcl.temperature _ _ _ _ ht n hs
  have c5 := hcl.electrons _ _ _ _ ht
  have c6 := hcl.temperature _ _ _ _ ht "e" (Or.inl rfl)
  have c7 := hcl.gradient _ _ _ _ ht n hmem hion
  have c8 := hcl.speed _ _ _ _ ht n hmem hion
  unfold bohmSqAt at c8
  unfold face at c4 c5 c6 c7 c8
  rw [gt] at c4
  rw [gd] at c7
  rw [gd, gt] at c8
  rw [fieldOf_some hp.n] at c5 c8
  rw [fieldOf_some hp.t] at c6 c8
  simp only [hd, htt, hpp, hi, hin] at c1 c2 c3 c4 c7 c8
  exact ⟨c1, c2, c3, c4, c5, c6, c7, c8⟩

theorem sum_clear {st' : Store Key (Value ι)} (hm : MeshOk m) (hn : names.Nodup) (h : sheathBoundary o m garbage names st = (.ok (), st'))
    (hcl : ClearSum o m names st st') {n : String} (hmem : n ∈ names) (hion : IsIon st n) {u : Bool} {i g inn : ι}
    (ht : Target m o.lower_y o.upper_y u i g inn) :
    let N := fun i => floorTo (fieldOf st n .density i) 0
    (N inn - N i = 0 ∨ 2e-3 ≤ |N inn - N i|) ∧
    sumSpeedSq (Sheath.charge st n) (Sheath.mass st n) (Sheath.adiabatic st n) (floorTo (fieldOf st "e" .density i) 0) (fieldOf st "e" .temperature i)
        (N i) (fieldOf st n .temperature i) (floorTo (fieldOf st "e" .density inn) 0) (N inn) ≤ 100 := by
  have hs : HasSheath st names n := Or.inr ⟨hmem, hion⟩
  have h1 := fun {s} (hs : HasSheath st names s) => sheath_interior hm hn h hs (j := i) fun _ _ _ h' => (h'.ne hm ht).1 rfl
  have h2 := fun {s} (hs : HasSheath st names s) => sheath_interior hm hn h hs (j := inn) fun _ _ _ h' => (h'.ne hm ht).2 rfl
  have a := hcl.gradient _ _ _ _ ht n hmem hion
  have b := hcl.speed _ _ _ _ ht n hmem hion
  rw [(h1 hs).1, (h2 hs).1] at a
  rw [(h1 hs).1, (h2 hs).1, (h1 hs).2.1, (h1 (Or.inl rfl)).1, (h2 (Or.inl rfl)).1, (h1 (Or.inl rfl)).2.1] at b
  simp only [floorTo_eq_max]
  exact ⟨a, b⟩

/-! ## The component -/

theorem sheath_times (h : Times κ st st2) (hk : Factors κ a w L) (ha : 0 < a) (hw : 0 < w) (hL : 0 < L) (ho : OptsBy w o o') (hmm : MeshBy L m m')
    (hm : MeshOk m) (hlong : MeshLong m) (hn : names.Nodup) (hg : ∀ i, garbage' i = w ^ 2 * garbage i) {st' st2' : Store Key (Value ι)}
    (h1 : sheathBoundary o m garbage names st = (.ok (), st')) (h2 : sheathBoundary o' m' garbage' names st2 = (.ok (), st2'))
    (hcl : Clear o m names st st') (hcl' : Clear o' m' names st2 st2')
    (hsum : (vals st (.top "fields:phi")).isSome = false → ClearSum o m names st st' ∧ ClearSum o' m' names st2 st2') : Times κ st' st2' := by
  obtain ⟨hp, hph, hi, hu⟩ := sheathBoundary_ok hn h1
  obtain ⟨hp2, hph2, hi2, hu2⟩ := sheathBoundary_ok hn h2
  have hm' := MeshOk.of_by hmm hm
  have htt : ∀ {u i g inn}, Target m o.lower_y o.upper_y u i g inn → Target m' o'.lower_y o'.upper_y u i g inn := by
    intro u i g inn ht
    rw [ho.lower_y, ho.upper_y]
    exact (Target.of_by hmm).2 ht
  have hphi : ∀ j, Sheath.phiUsed o' m' garbage' names st2 j = w ^ 2 * Sheath.phiUsed o m garbage names st j := by
    refine h.phiUsed hk ha hw ho hmm hm hlong hg fun hno u i g inn ht n hmem hion => ?_
    obtain ⟨s1, s2⟩ := hsum hno
    obtain ⟨b1, b2⟩ := sum_clear hm hn h1 s1 hmem hion ht
    obtain ⟨d1, d2⟩ := sum_clear hm' hn h2 s2 hmem ((h.isIon hk n).2 hion) (htt ht)
    have hd : ∀ s j, floorTo (fieldOf st2 s .density j) 0 = a * floorTo (fieldOf st s .density j) 0 := by
      intro s j
      rw [fieldOf_species, fieldOf_species, h.fld0 s .density, hk.density, floor0_by ha]
    have hT : ∀ s j, fieldOf st2 s .temperature j = w ^ 2 * fieldOf st s .temperature j := by
      intro s j
      rw [fieldOf_species, fieldOf_species, h.fld0 s .temperature, hk.temperature]
    have e1 : Sheath.charge st2 n = Sheath.charge st n := h.num n .charge 0 (hk.charge n)
    have e2 : Sheath.mass st2 n = Sheath.mass st n := h.num n .AA 0 (hk.AA n)
    have e3 : Sheath.adiabatic st2 n = Sheath.adiabatic st n := h.num n .adiabatic _ (hk.adiabatic n)
    dsimp only at b1 b2 d1 d2 ⊢
    simp only [hd, ← mul_sub, abs_mul, abs_of_pos ha] at d1
    simp only [hd, hT, e1, e2, e3] at d2
    have g1 : floorTo (fieldOf st n .density inn) 0 - floorTo (fieldOf st n .density i) 0 = 0 ∨
        (2e-3 ≤ |floorTo (fieldOf st n .density inn) 0 - floorTo (fieldOf st n .density i) 0| ∧
          2e-3 ≤ a * |floorTo (fieldOf st n .density inn) 0 - floorTo (fieldOf st n .density i) 0|) :=
      b1.elim Or.inl fun k1 => d1.elim (fun k => Or.inl ((mul_eq_zero.1 k).resolve_left ha.ne')) fun k2 => Or.inr ⟨k1, k2⟩
    rw [sumSpeedSq_by ha _ _ _ g1] at d2
    exact ⟨g1, b2, d2⟩
  -- the electrons
  have hcells := fun j => h.electronCells hk ha hphi j
  have hel : ∀ j, (electronResult o' m' garbage' names st2).1 j = ((electronResult o m garbage names st).1 j).by a w ∧
      (electronResult o' m' garbage' names st2).2 j = a * w ^ 2 * (w * L⁻¹) * (electronResult o m garbage names st).2 j := by
    intro j
    rw [electronResult_eq, electronResult_eq, h.num "e" .AA _ (hk.AA "e"), h.num "e" .adiabatic _ (hk.adiabatic "e"), ho.lower_y, ho.upper_y,
      ho.electronMass]
    refine bothEnds_by hmm hm hcells (fun j => ?_) (fun u i g inn ht => ?_) j
    · dsimp only
      rw [h.fld0 "e" .energy_source, hk.energy_source]
    · have q1 := electron_clear hm hn h1 hcl ht
      have q2 := electron_clear hm' hn h2 hcl' (htt ht)
      rw [hcells, hcells] at q2
      exact electronBody_by ha hw hL ho hmm _ _ u i q1 q2
  set E := electronResult o m garbage names st with hE
  set E2 := electronResult o' m' garbage' names st2 with hE'
  have hE1 : ∀ j, E2.1 j = (E.1 j).by a w := fun j => (hel j).1
  have hE2 : E2.2 = fun j => a * w ^ 2 * (w * L⁻¹) * E.2 j := funext fun j => (hel j).2
  intro k hne
  cases k with
  | top n =>
    by_cases hk0 : n = "fields:phi"
    · subst hk0
      have e : (fun i => (E2.1 i).phi) = fun i => w ^ 2 * (E.1 i).phi := by funext i; rw [hE1]; rfl
      rw [hph, hph2, e, h _ hne, hk.phi, ho.always_set_phi]
      unfold phiPublished
      split
      · rfl
      · exact ifSet_times _ _ _
    · have hk' : Key.top n ∉ [Key.top "fields:phi", .sp "e" .density, .sp "e" .temperature, .sp "e" .pressure, .sp "e" .velocity,
          .sp "e" .momentum, .sp "e" .energy_source] := by simp [hk0]
      rw [hu _ hk' (by intros; exact fun e => by cases e), hu2 _ hk' (by intros; exact fun e => by cases e), h _ hne]
  | sp s v =>
    have hv : v ≠ .energy_flow_ylow := fun e => hne s (by rw [e])
    by_cases hs : s = "e"
    · subst hs
      have rest : v ∉ [Var.density, .temperature, .pressure, .velocity, .momentum, .energy_source] →
          vals st2' (.sp "e" v) = (vals st' (.sp "e" v)).map (Value.times (κ (.sp "e" v))) := by
        intro hv'
        have hk' : Key.sp "e" v ∉ [Key.top "fields:phi", .sp "e" .density, .sp "e" .temperature, .sp "e" .pressure, .sp "e" .velocity,
            .sp "e" .momentum, .sp "e" .energy_source] := by
          simp only [List.mem_cons, List.not_mem_nil, or_false, Key.sp.injEq, true_and, reduceCtorEq, false_or] at hv' ⊢
          exact hv'
        have hsp : ∀ n ∈ names, n ≠ "e" → ∀ w, Key.sp "e" v ≠ .sp n w := by
          intro n _ hne w e
          exact hne (Key.sp.inj e).1.symm
        rw [hu _ hk' hsp, hu2 _ hk' hsp, h _ hne]
      cases v with
      | density => rw [hp.n, hp2.n, hk.density]; simp only [hE1]; rfl
      | temperature => rw [hp.t, hp2.t, hk.temperature]; simp only [hE1]; rfl
      | pressure => rw [hp.p, hp2.p, hk.pressure]; simp only [hE1]; rfl
      | velocity =>
        rw [hp.v, hp2.v, h _ hne, hk.velocity]
        simp only [hE1]
        exact ifSet_times _ _ _
      | momentum =>
        rw [hp.nv, hp2.nv, h _ hne, hk.momentum]
        simp only [hE1]
        exact ifSet_times _ _ _
      | energy_source => rw [hp.src, hp2.src, hE2, hk.energy_source]; rfl
      | _ => exact rest (by simp)
    · by_cases hmem : s ∈ names
      · obtain ⟨a1, a2⟩ := hi s hmem hs
        obtain ⟨b1, b2⟩ := hi2 s hmem hs
        show species st2' s v = (species st' s v).map (Value.times (κ (.sp s v)))
        by_cases hz : Sheath.num (species st s) .charge 0 = 0
        · have hz2 : Sheath.num (species st2 s) .charge 0 = 0 := by rw [h.num s .charge 0 (hk.charge s), hz]
          rw [congrFun (a1 (Or.inr hz)) v, congrFun (b1 (Or.inr hz2)) v]
          exact h _ hne
        · have hz2 : Sheath.num (species st2 s) .charge 0 ≠ 0 := by rw [h.num s .charge 0 (hk.charge s)]; exact hz
          have p1 := a2 hs hz
          have p2 := b2 hs hz2
          have hr : ∀ j, (ionSheath o' m' (Sheath.num (species st2 s) .charge 0) (Sheath.num (species st2 s) .AA 0)
              (Sheath.num (species st2 s) .adiabatic (5 / 3)) E2.1 (Sheath.ionCells (species st2 s), Sheath.fld (species st2 s) .energy_source 0)).1 j =
              ((ionSheath o m (Sheath.num (species st s) .charge 0) (Sheath.num (species st s) .AA 0)
              (Sheath.num (species st s) .adiabatic (5 / 3)) E.1 (Sheath.ionCells (species st s), Sheath.fld (species st s) .energy_source 0)).1 j).by a w ∧
              (ionSheath o' m' (Sheath.num (species st2 s) .charge 0) (Sheath.num (species st2 s) .AA 0)
              (Sheath.num (species st2 s) .adiabatic (5 / 3)) E2.1 (Sheath.ionCells (species st2 s), Sheath.fld (species st2 s) .energy_source 0)).2 j =
              a * w ^ 2 * (w * L⁻¹) * (ionSheath o m (Sheath.num (species st s) .charge 0) (Sheath.num (species st s) .AA 0)
              (Sheath.num (species st s) .adiabatic (5 / 3)) E.1 (Sheath.ionCells (species st s), Sheath.fld (species st s) .energy_source 0)).2 j := by
            intro j
            rw [h.num s .charge 0 (hk.charge s), h.num s .AA 0 (hk.AA s), h.num s .adiabatic _ (hk.adiabatic s)]
            unfold ionSheath
            rw [ho.lower_y, ho.upper_y]
            refine bothEnds_by hmm hm (fun j => h.ionCells hk ha s j) (fun j => ?_) (fun u i g inn ht => ?_) j
            · dsimp only
              rw [h.fld0 s .energy_source, hk.energy_source]
            · have q1 := ion_clear hm hn h1 hcl hmem ⟨hs, hz⟩ ht
              have q2 := ion_clear hm' hn h2 hcl' hmem ⟨hs, hz2⟩ (htt ht)
              rw [h.ionCells hk ha, h.ionCells hk ha, h.num s .charge 0 (hk.charge s), h.num s .AA 0 (hk.AA s),
                h.num s .adiabatic _ (hk.adiabatic s)] at q2
              refine ionBody_by ha hw hL hmm _ _ _ hE1 u i g ?_ q1 q2
              cases ht <;> rfl
          generalize ionSheath o' m' _ _ _ E2.1 _ = r2 at p2 hr
          generalize ionSheath o m _ _ _ E.1 _ = r1 at p1 hr
          have hr1 : ∀ j, r2.1 j = (r1.1 j).by a w := fun j => (hr j).1
          have hr2 : r2.2 = fun j => a * w ^ 2 * (w * L⁻¹) * r1.2 j := funext fun j => (hr j).2
          have hx : species st2 s v = (species st s v).map (Value.times (κ (.sp s v))) := h.get s hv
          cases v with
          | density => rw [p1.n, p2.n, hk.density]; simp only [hr1]; rfl
          | temperature => rw [p1.t, p2.t, hk.temperature]; simp only [hr1]; rfl
          | pressure => rw [p1.p, p2.p, hk.pressure]; simp only [hr1]; rfl
          | velocity =>
            rw [p1.v, p2.v, hx, hk.velocity]
            simp only [hr1]
            exact ifSet_times _ _ _
          | momentum =>
            rw [p1.nv, p2.nv, hx, hk.momentum]
            simp only [hr1]
            exact ifSet_times _ _ _
          | energy_source => rw [p1.src, p2.src, hr2, hk.energy_source]; rfl
          | energy_flow_ylow => exact absurd rfl hv
          | _ => rw [p1.other _ (by simp), p2.other _ (by simp)]; exact hx
      · have hk' : Key.sp s v ∉ [Key.top "fields:phi", .sp "e" .density, .sp "e" .temperature, .sp "e" .pressure, .sp "e" .velocity,
            .sp "e" .momentum, .sp "e" .energy_source] := by simp [hs]
        have hsp : ∀ n ∈ names, n ≠ "e" → ∀ w, Key.sp s v ≠ .sp n w := by
          intro n hn' _ w e
          exact hmem ((Key.sp.inj e).1 ▸ hn')
        rw [hu _ hk' hsp, hu2 _ hk' hsp, h _ hne]


end

/-! ## C75 for the sheath -/

section
variable [DecidableEq ι] {c : Consts} {u u' : Normalisation}

theorem factors (hc : Physical c) (hu : Good u) (hu' : Good u') :
    Factors (fun k => u.keyConversion c k / u'.keyConversion c k) (u.Nnorm / u'.Nnorm) (u.Cs0 c / u'.Cs0 c) (u.rho_s0 c / u'.rho_s0 c) := by
  obtain ⟨h1, h2, h3, h4, h5, h6, h7, -⟩ := conversion_by hc hu hu'
  have hp : ∀ v, u'.conversion c v ≠ 0 := fun v => (conversion_pos hc hu' v).ne'
  have key : ∀ {v : Var} {x : ℝ}, u'.conversion c v * x = u.conversion c v → u.conversion c v / u'.conversion c v = x := by
    intro v x e
    rw [← e, mul_div_cancel_left₀ _ (hp v)]
  have hL := Lb_eq hc hu hu'
  have hr : u.rho_s0 c / u'.rho_s0 c ≠ 0 := (div_pos (rho_pos hc hu) (rho_pos hc hu')).ne'
  have hO : u.Cs0 c / u'.Cs0 c * (u.rho_s0 c / u'.rho_s0 c)⁻¹ = u.Omega_ci c / u'.Omega_ci c := by
    rw [← hL, mul_comm, inv_mul_cancel_left₀ hr]
  refine ⟨fun _ => key h1, fun _ => key h4, fun _ => key h5, fun _ => key h2, fun _ => key h3, fun _ => ?_, fun _ => div_one _, fun _ => div_one _,
    fun _ => div_one _, key h4⟩
  rw [hO]
  exact key h7

omit [DecidableEq ι] in
theorem yMeshIn_by (hc : Physical c) (hu : Good u) (hu' : Good u') (m : YMesh ι) : MeshBy (u.rho_s0 c / u'.rho_s0 c) (yMeshIn c u m) (yMeshIn c u' m) := by
  have a := (rho_pos hc hu).ne'
  have b := (rho_pos hc hu').ne'
  have d := hu.B.ne'
  have e := hu'.B.ne'
  refine ⟨rfl, rfl, rfl, rfl, ⟨u'.Bnorm / u'.rho_s0 c / (u.Bnorm / u.rho_s0 c), ?_, fun i => ?_⟩, fun i => ?_, rfl⟩
  · exact div_ne_zero (div_ne_zero e b) (div_ne_zero d a)
  · show m.J i * (u'.Bnorm / u'.rho_s0 c) = _ * (m.J i * (u.Bnorm / u.rho_s0 c))
    field_simp
  · show m.g22 i / u'.rho_s0 c ^ 2 = _ * (m.g22 i / u.rho_s0 c ^ 2)
    field_simp

omit [DecidableEq ι] in
theorem sheathOptsIn_by (hc : Physical c) (hu : Good u) (hu' : Good u') (o : SheathOpts ι) :
    OptsBy (u.Cs0 c / u'.Cs0 c) (sheathOptsIn u o) (sheathOptsIn u' o) := by
  refine ⟨rfl, rfl, rfl, rfl, rfl, rfl, rfl, fun i => ?_⟩
  show o.wall i / u'.Tnorm = _ * (o.wall i / u.Tnorm)
  have h : u.Tnorm / u'.Tnorm = (u.Cs0 c / u'.Cs0 c) ^ 2 := (factors hc hu hu').phi
  have := hu.T.ne'
  have := hu'.T.ne'
  rw [← h]
  field_simp

/-- **C75** for the sheath: `SheathBoundary` started from the same state in two systems of units publishes the same state, if the limits in the code are not
reached in either of them.  What is missing is the case where they are: `sheath_speed_depends_on_units` and `sheath_gradient_depends_on_units`.
`garbage` is the content of freshly allocated memory, in volts. -/
theorem sheath_in_any_units_partial (hc : Physical c) (hu : Good u) (hu' : Good u') {o : SheathOpts ι} {m : YMesh ι} (hm : MeshOk m) (hlong : MeshLong m)
    {names : List String} (hn : names.Nodup) (garbage : Fld ι) {st st2 st' st2' : Store Key (Value ι)} (hs : SameState c u u' st st2)
    (h1 : sheathBoundary (sheathOptsIn u o) (yMeshIn c u m) (fun i => garbage i / u.Tnorm) names st = (.ok (), st'))
    (h2 : sheathBoundary (sheathOptsIn u' o) (yMeshIn c u' m) (fun i => garbage i / u'.Tnorm) names st2 = (.ok (), st2'))
    (hcl : Clear o m names st st') (hcl' : Clear o m names st2 st2')
    (hsum : (vals st (.top "fields:phi")).isSome = false → ClearSum o m names st st' ∧ ClearSum o m names st2 st2') : SameState c u u' st' st2' := by
  rw [sameState_iff hc hu'] at hs ⊢
  have ht : ∀ {u} {lo up v : Bool} {i g inn : ι}, Target (yMeshIn c u m) lo up v i g inn → Target m lo up v i g inn := by
    intro u lo up v i g inn h
    cases h with
    | lower e hi => exact .lower (m := m) e hi
    | upper e hi => exact .upper (m := m) e hi
  have cl : ∀ {u st st'}, Clear o m names st st' → Clear (sheathOptsIn u o) (yMeshIn c u m) names st st' := fun h =>
    ⟨fun v i g inn t => h.cell v i g inn (ht t), fun v i g inn t => h.temperature v i g inn (ht t), fun v i g inn t => h.electrons v i g inn (ht t),
      fun v i g inn t => h.gradient v i g inn (ht t), fun v i g inn t => h.speed v i g inn (ht t)⟩
  have cs : ∀ {u st st'}, ClearSum o m names st st' → ClearSum (sheathOptsIn u o) (yMeshIn c u m) names st st' := fun h =>
    ⟨fun v i g inn t => h.gradient v i g inn (ht t), fun v i g inn t => h.speed v i g inn (ht t)⟩
  refine sheath_times hs (factors hc hu hu') (div_pos hu.N hu'.N) (div_pos (Cs0_pos hc hu) (Cs0_pos hc hu')) (div_pos (rho_pos hc hu) (rho_pos hc hu'))
    (sheathOptsIn_by hc hu hu' o) (yMeshIn_by hc hu hu' m) ⟨hm.nodup, hm.sep⟩ ?_ hn ?_ h1 h2 (cl hcl) (cl hcl') fun h => ⟨cs (hsum h).1, cs (hsum h).2⟩
  · intro v i g inn v' i' g' inn' t t' hne
    exact hlong _ _ _ _ _ _ _ _ (ht t) (ht t') hne
  · intro i
    have h : u.Tnorm / u'.Tnorm = (u.Cs0 c / u'.Cs0 c) ^ 2 := (factors hc hu hu').phi
    have := hu.T.ne'
    have := hu'.T.ne'
    rw [← h]
    field_simp

/-! ## Where the units matter -/

/-- Reference temperature `T` and density `N`. -/
noncomputable def unitsTN (T N : ℝ) : Normalisation := ⟨T, N, 1⟩

theorem unitsTN_good {T N : ℝ} (hT : 0 < T) (hN : 0 < N) : Good (unitsTN T N) := ⟨hT, hN, one_pos⟩

theorem unitsTN_Cs0 (T N : ℝ) : (unitsTN T N).Cs0 unitConsts = Real.sqrt T := by simp [Normalisation.Cs0, unitsTN, unitConsts]

omit [DecidableEq ι] in
theorem sheathDefaults_in (u : Normalisation) : sheathOptsIn u (sheathDefaults (ι := ι)) = sheathDefaults := by
  unfold sheathOptsIn sheathDefaults
  simp

omit [DecidableEq ι] in
/-- A plasma of electrons and deuterium ions given in SI units, in two systems of units. -/
theorem plasma_same (n t : ι → ℝ) {T N T' N' : ℝ} (hT : 0 < T) (hN : 0 < N) (hT' : 0 < T') (hN' : 0 < N') :
    SameState unitConsts (unitsTN T N) (unitsTN T' N') (plasma (fun i => n i / N) fun i => t i / T) (plasma (fun i => n i / N') fun i => t i / T') := by
  intro k _
  cases k with
  | top x => rfl
  | sp s v =>
    have hd : Value.times N (.field fun i => n i / N) = Value.times N' (.field fun i => n i / N') := by
      show Value.field _ = Value.field _
      congr 1
      funext i
      field_simp
    have htt : Value.times T (.field fun i => t i / T) = Value.times T' (.field fun i => t i / T') := by
      show Value.field _ = Value.field _
      congr 1
      funext i
      field_simp
    have hv : ∀ x y : ℝ, Value.times x (.field fun _ : ι => (0 : ℝ)) = Value.times y (.field fun _ => 0) := by
      intro x y
      show Value.field _ = Value.field _
      simp
    by_cases he : s = "e"
    · subst he
      cases v with
      | density => exact congrArg some hd
      | temperature => exact congrArg some htt
      | velocity => exact congrArg some (hv _ _)
      | _ => rfl
    · by_cases hd' : s = "d+"
      · subst hd'
        cases v with
        | density => exact congrArg some hd
        | temperature => exact congrArg some htt
        | velocity => exact congrArg some (hv _ _)
        | _ => rfl
      · simp [plasma, stateOf, vals, he, hd']

end

/-- The field line of `line`, in the units of a simulation, has the same targets. -/
theorem yline_ok (c : Consts) (u : Normalisation) : MeshOk (yMeshIn c u line) := ⟨line_ok.nodup, line_ok.sep⟩

theorem sheath_velocity_same [DecidableEq ι] {c : Consts} {u u' : Normalisation} {st' st2' : Store Key (Value ι)} (h : SameState c u u' st' st2') (s : String) (i g : ι) :
    u.Cs0 c * face (fieldOf st' s .velocity) i g = u'.Cs0 c * face (fieldOf st2' s .velocity) i g := by
  have e := h (.sp s .velocity) (by simp)
  have key : ∀ j, u.Cs0 c * fieldOf st' s .velocity j = u'.Cs0 c * fieldOf st2' s .velocity j := by
    intro j
    rw [fieldOf_species, fieldOf_species]
    unfold Sheath.fld species
    change (vals st' (.sp s .velocity)).map (Value.times (u.Cs0 c)) = (vals st2' (.sp s .velocity)).map (Value.times (u'.Cs0 c)) at e
    cases h1 : vals st' (.sp s .velocity) with
    | none =>
      rw [h1] at e
      cases h2 : vals st2' (.sp s .velocity) with
      | none => simp
      | some y => rw [h2] at e; cases e
    | some x =>
      rw [h1] at e
      cases h2 : vals st2' (.sp s .velocity) with
      | none => rw [h2] at e; cases e
      | some y =>
        rw [h2] at e
        cases x <;> cases y <;> simp only [Option.map_some, Option.some.injEq, Value.times, Value.real.injEq, Value.field.injEq, reduceCtorEq] at e
        · exact e
        · exact congrFun e j
  unfold face
  have h1 := key i
  have h2 := key g
  linear_combination (h1 + h2) / 2

/-- **C75 fails** in hot plasma: at 300 eV, ions leave with the speed 20 (in the units of `unitConsts`) if the reference temperature is 400 eV, and with the
speed 10 if it is 1 eV, because the speed is limited to ten times the reference speed. -/
theorem sheath_speed_depends_on_units : ∃ st' st2',
    sheathBoundary (sheathOptsIn (unitsTN 1 1) sheathDefaults) (yMeshIn unitConsts (unitsTN 1 1) line) 0 ["d+", "e"]
      (plasma (fun _ => 1 / 1) fun _ => 300 / 1) = (.ok (), st') ∧
    sheathBoundary (sheathOptsIn (unitsTN 400 1) sheathDefaults) (yMeshIn unitConsts (unitsTN 400 1) line) 0 ["d+", "e"]
      (plasma (fun _ => 1 / 1) fun _ => 300 / 400) = (.ok (), st2') ∧
    SameState unitConsts (unitsTN 1 1) (unitsTN 400 1) (plasma (ι := Fin 6) (fun _ => 1 / 1) fun _ => 300 / 1)
      (plasma (fun _ => 1 / 1) fun _ => 300 / 400) ∧
    (unitsTN 1 1).Cs0 unitConsts * face (fieldOf st' "d+" .velocity) 4 5 = 10 ∧
    (unitsTN 400 1).Cs0 unitConsts * face (fieldOf st2' "d+" .velocity) 4 5 = 20 ∧
    ¬ SameState unitConsts (unitsTN 1 1) (unitsTN 400 1) st' st2' := by
  rw [sheathDefaults_in, sheathDefaults_in]
  obtain ⟨st', h1⟩ := sheathBoundary_runs sheathDefaults (yMeshIn unitConsts (unitsTN 1 1) line) 0
    (plasma_ready (ι := Fin 6) (fun _ => 1 / 1) fun _ => 300 / 1)
  obtain ⟨st2', h2⟩ := sheathBoundary_runs sheathDefaults (yMeshIn unitConsts (unitsTN 400 1) line) 0
    (plasma_ready (ι := Fin 6) (fun _ => 1 / 1) fun _ => 300 / 400)
  have ht : ∀ u, Target (yMeshIn unitConsts u line) true true true 4 5 3 := fun u => Target.upper (m := yMeshIn unitConsts u line) rfl (show (4 : Fin 6) ∈ line.upper by decide)
  have v1 := (flat_plasma (yline_ok _ _) h1 (ht _) (by norm_num) (by norm_num) rfl rfl).2.2
  have v2 := (flat_plasma (yline_ok _ _) h2 (ht _) (by norm_num) (by norm_num) rfl rfl).2.2
  have ho : out true = 1 := rfl
  rw [ho, one_mul] at v1 v2
  have s100 : Real.sqrt 100 = 10 := by rw [show (100 : ℝ) = 10 ^ 2 by norm_num]; exact Real.sqrt_sq (by norm_num)
  have s400 : Real.sqrt 400 = 20 := by rw [show (400 : ℝ) = 20 ^ 2 by norm_num]; exact Real.sqrt_sq (by norm_num)
  have e1 : (unitsTN 1 1).Cs0 unitConsts * face (fieldOf st' "d+" .velocity) 4 5 = 10 := by
    rw [v1, unitsTN_Cs0, show min (100 : ℝ) (4 / 3 * (300 / 1)) = 100 by norm_num, s100, Real.sqrt_one, one_mul]
  have e2 : (unitsTN 400 1).Cs0 unitConsts * face (fieldOf st2' "d+" .velocity) 4 5 = 20 := by
    rw [v2, unitsTN_Cs0, show min (100 : ℝ) (4 / 3 * (300 / 400)) = 1 by norm_num, s400, Real.sqrt_one, mul_one]
  refine ⟨st', st2', h1, h2, plasma_same (fun _ => 1) (fun _ => 300) one_pos one_pos (by norm_num) one_pos, e1, e2, fun hs => ?_⟩
  have := sheath_velocity_same hs "d+" 4 5
  rw [e1, e2] at this
  norm_num at this

/-- Plasma with constant density and temperature does not reach the limits, if it is neither cold nor hot. -/
theorem flat_clear {c : Consts} {u : Normalisation} {n t : ℝ} (hn : 1e-4 ≤ n) (ht : 1e-4 ≤ t) (ht' : 4 / 3 * t ≤ 100) {st' : Store Key (Value (Fin 6))}
    (h : sheathBoundary sheathDefaults (yMeshIn c u line) 0 ["d+", "e"] (plasma (fun _ => n) fun _ => t) = (.ok (), st')) :
    Clear sheathDefaults line ["d+", "e"] (plasma (fun _ => n) fun _ => t) st' ∧ ClearSum sheathDefaults line ["d+", "e"] (plasma (fun _ => n) fun _ => t) st' := by
  have hm := yline_ok c u
  have tg : ∀ {lo up v : Bool} {i g inn : Fin 6}, Target line lo up v i g inn → Target (yMeshIn c u line) lo up v i g inn := by
    intro lo up v i g inn t
    cases t with
    | lower e hi => exact Target.lower (m := yMeshIn c u line) e hi
    | upper e hi => exact Target.upper (m := yMeshIn c u line) e hi
  have key : ∀ {v : Bool} {i g inn : Fin 6}, Target line true true v i g inn → _ := fun {v i g inn} t =>
    flat_plasma hm h (tg t) (by norm_num at *; linarith) (by norm_num at *; linarith) rfl rfl
  have ion : ∀ s ∈ ["d+", "e"], IsIon (plasma (fun _ : Fin 6 => n) fun _ => t) s → s = "d+" := fun s hs hi => plasma_ions hs hi
  have hn0 : (0 : ℝ) < n := lt_of_lt_of_le (by norm_num) hn
  have ht0 : (0 : ℝ) < t := lt_of_lt_of_le (by norm_num) ht
  have hmax : max n 0 = n := max_eq_left hn0.le
  refine ⟨⟨?_, ?_, ?_, ?_, ?_⟩, ⟨?_, ?_⟩⟩
  · intro v i g inn tt s hs x hx
    have hs' := (plasma_sheath _ _ s).1 hs
    obtain ⟨hv, -⟩ := key tt
    have h1 := hv s hs' inn (Or.inr (Or.inl rfl))
    simp only [List.mem_cons, List.not_mem_nil, or_false] at hx
    rcases hx with rfl | rfl | rfl
    · rw [h1.1]; norm_num at *; linarith
    · rw [h1.2]; norm_num at *; linarith
    · have hno : ∀ u' i' inn', ¬ Target (yMeshIn c u line) true true u' i' inn inn' := fun u' i' inn' h' => (h'.ne hm (tg tt)).2 rfl
      have hp : fieldOf st' s .pressure inn = n * t := by
        rcases hs' with rfl | rfl
        · rw [fieldOf_some (ion_target hm plasma_nodup h (by simp) (plasma_ion _ _)).p]
          dsimp only
          rw [bothEnds_other (lo := sheathDefaults.lower_y) (up := sheathDefaults.upper_y) hno]
          show floorTo n 0 * t = n * t
          rw [floorTo_eq_max, hmax]
        · obtain ⟨hp, _⟩ := sheathBoundary_ok plasma_nodup h
          have hc : (electronResult sheathDefaults (yMeshIn c u line) 0 ["d+", "e"] (plasma (fun _ => n) fun _ => t)).1 inn =
            electronCells (species (plasma (fun _ => n) fun _ => t) "e") _ inn := bothEnds_other hno
          rw [fieldOf_some hp.p]
          dsimp only
          rw [hc]
          show t * floorTo n 0 = n * t
          rw [floorTo_eq_max, hmax, mul_comm]
      rw [hp]
      calc (1e-10 : ℝ) ≤ 1e-4 * 1e-4 := by norm_num
        _ ≤ n * t := mul_le_mul hn ht (by norm_num) hn0.le
  · intro v i g inn tt s hs
    have hs' := (plasma_sheath _ _ s).1 hs
    obtain ⟨hv, -⟩ := key tt
    unfold face
    rw [(hv s hs' i (Or.inl rfl)).2, (hv s hs' g (Or.inr (Or.inr rfl))).2]
    norm_num at *; linarith
  · intro v i g inn tt
    obtain ⟨hv, -⟩ := key tt
    unfold face
    rw [(hv "e" (Or.inr rfl) i (Or.inl rfl)).1, (hv "e" (Or.inr rfl) g (Or.inr (Or.inr rfl))).1]
    norm_num at *; linarith
  · intro v i g inn tt s hs hi
    obtain rfl := ion s hs hi
    obtain ⟨hv, -⟩ := key tt
    unfold face
    rw [(hv "d+" (Or.inl rfl) i (Or.inl rfl)).1, (hv "d+" (Or.inl rfl) g (Or.inr (Or.inr rfl))).1]
    left
    ring
  · intro v i g inn tt s hs hi
    obtain rfl := ion s hs hi
    rw [(key tt).2.1]
    exact ht'
  · intro v i g inn tt s hs hi
    obtain rfl := ion s hs hi
    obtain ⟨hv, -⟩ := key tt
    rw [(hv "d+" (Or.inl rfl) i (Or.inl rfl)).1, (hv "d+" (Or.inl rfl) inn (Or.inr (Or.inl rfl))).1]
    left
    ring
  · intro v i g inn tt s hs hi
    obtain rfl := ion s hs hi
    obtain ⟨hv, -⟩ := key tt
    rw [(hv "d+" (Or.inl rfl) i (Or.inl rfl)).1, (hv "d+" (Or.inl rfl) inn (Or.inr (Or.inl rfl))).1, (hv "e" (Or.inr rfl) i (Or.inl rfl)).1,
      (hv "e" (Or.inr rfl) i (Or.inl rfl)).2, (hv "e" (Or.inr rfl) inn (Or.inr (Or.inl rfl))).1, (hv "d+" (Or.inl rfl) i (Or.inl rfl)).2]
    have e : sumSpeedSq (Sheath.charge (plasma (fun _ : Fin 6 => n) fun _ => t) "d+") (Sheath.mass (plasma (fun _ : Fin 6 => n) fun _ => t) "d+")
        (Sheath.adiabatic (plasma (fun _ : Fin 6 => n) fun _ => t) "d+") n t n t n n = 4 / 3 * t := by
      show sumSpeedSq 1 2 (5 / 3) n t n t n n = _
      have e2 : n / n = 1 := div_self hn0.ne'
      have e3 : concentration n n n n = 1 := by
        unfold concentration
        rw [if_neg hn0.ne', if_neg hn0.ne', mul_div_assoc, e2]
        unfold clipTo
        norm_num
      unfold sumSpeedSq
      rw [e3, if_pos (by norm_num)]
      ring
    rw [e]
    exact ht'

/-- Plasma at 8 eV and density 8, simulated with the reference values 1, 1 and 4, 2: the published states are the same. -/
example : ∃ st' st2',
    sheathBoundary (sheathOptsIn (unitsTN 1 1) sheathDefaults) (yMeshIn unitConsts (unitsTN 1 1) line) (fun i => (0 : Fld (Fin 6)) i / 1) ["d+", "e"]
      (plasma (fun _ => 8 / 1) fun _ => 8 / 1) = (.ok (), st') ∧
    sheathBoundary (sheathOptsIn (unitsTN 4 2) sheathDefaults) (yMeshIn unitConsts (unitsTN 4 2) line) (fun i => (0 : Fld (Fin 6)) i / 4) ["d+", "e"]
      (plasma (fun _ => 8 / 2) fun _ => 8 / 4) = (.ok (), st2') ∧
    SameState unitConsts (unitsTN 1 1) (unitsTN 4 2) st' st2' := by
  obtain ⟨st', h1⟩ := sheathBoundary_runs (sheathOptsIn (unitsTN 1 1) sheathDefaults) (yMeshIn unitConsts (unitsTN 1 1) line)
    (fun i => (0 : Fld (Fin 6)) i / 1) (plasma_ready (ι := Fin 6) (fun _ => 8 / 1) fun _ => 8 / 1)
  obtain ⟨st2', h2⟩ := sheathBoundary_runs (sheathOptsIn (unitsTN 4 2) sheathDefaults) (yMeshIn unitConsts (unitsTN 4 2) line)
    (fun i => (0 : Fld (Fin 6)) i / 4) (plasma_ready (ι := Fin 6) (fun _ => 8 / 2) fun _ => 8 / 4)
  have z : ∀ x : ℝ, (fun i => (0 : Fld (Fin 6)) i / x) = 0 := fun x => by funext i; simp
  have c1 := flat_clear (c := unitConsts) (u := unitsTN 1 1) (n := 8 / 1) (t := 8 / 1) (by norm_num) (by norm_num) (by norm_num) (st' := st')
    (by rw [sheathDefaults_in, z] at h1; exact h1)
  have c2 := flat_clear (c := unitConsts) (u := unitsTN 4 2) (n := 8 / 2) (t := 8 / 4) (by norm_num) (by norm_num) (by norm_num) (st' := st2')
    (by rw [sheathDefaults_in, z] at h2; exact h2)
  exact ⟨st', st2', h1, h2, sheath_in_any_units_partial unitConsts_physical (unitsTN_good one_pos one_pos) (unitsTN_good (by norm_num) (by norm_num))
    line_ok line_long plasma_nodup 0 (plasma_same (fun _ => 8) (fun _ => 8) one_pos one_pos (by norm_num) (by norm_num)) h1 h2 c1.1 c2.1
    fun _ => ⟨c1.2, c2.2⟩⟩

/-- Fully ionised helium with ion density `n`, electron density `2 n` and temperature `t`. -/
noncomputable def helium {ι : Type} (n t : ι → ℝ) : Store Key (Value ι) := Hermes.Closures.stateOf fun s v =>
  if s = "e" then
    match v with
    | .density => some (.field fun i => 2 * n i)
    | .temperature => some (.field t)
    | .velocity => some (.field fun _ => 0)
    | _ => none
  else if s = "he+2" then
    match v with
    | .AA => some (.real 4)
    | .charge => some (.real 2)
    | .density => some (.field n)
    | .temperature => some (.field t)
    | .velocity => some (.field fun _ => 0)
    | _ => none
  else none

theorem helium_ion {ι : Type} (n t : ι → ℝ) : IsIon (helium n t) "he+2" := ⟨by decide, two_ne_zero⟩

theorem helium_nodup : ["he+2", "e"].Nodup := by decide

theorem helium_sheath {ι : Type} (n t : ι → ℝ) {s : String} (h : s = "he+2" ∨ s = "e") : HasSheath (helium n t) ["he+2", "e"] s := by
  rcases h with rfl | rfl
  · exact Or.inr ⟨by simp, helium_ion n t⟩
  · exact Or.inl rfl

theorem helium_ready {ι : Type} (n t : ι → ℝ) : Ready ["he+2", "e"] (sheathInputs ["he+2", "e"]) (helium n t) := by
  refine ⟨?_, ?_, fun _ _ _ _ => rfl, rfl, fun _ _ _ _ => ⟨rfl, rfl⟩⟩
  · intro s v hv x hx
    simp only [List.mem_cons, List.not_mem_nil, or_false] at hv
    by_cases he : s = "e"
    · subst he
      rcases hv with rfl | rfl | rfl <;> exact absurd hx (by simp [helium, Hermes.Closures.stateOf, vals])
    · by_cases hd : s = "he+2"
      · subst hd
        rcases hv with rfl | rfl | rfl
        · exact ⟨4, by simpa [helium, Hermes.Closures.stateOf, vals] using hx.symm⟩
        · exact ⟨2, by simpa [helium, Hermes.Closures.stateOf, vals] using hx.symm⟩
        · exact absurd hx (by simp [helium, Hermes.Closures.stateOf, vals])
      · exact absurd hx (by simp [helium, Hermes.Closures.stateOf, vals, he, hd])
  · rintro k (⟨s, hs, rfl | rfl⟩ | ⟨s, hs, hne, rfl⟩)
    · simp only [List.mem_cons, List.not_mem_nil, or_false] at hs
      rcases hs with rfl | rfl | rfl <;> rfl
    · simp only [List.mem_cons, List.not_mem_nil, or_false] at hs
      rcases hs with rfl | rfl | rfl <;> rfl
    · simp only [List.mem_cons, List.not_mem_nil, or_false] at hs
      rcases hs with rfl | rfl
      · rfl
      · exact absurd rfl hne

theorem helium_same {ι : Type} (n t : ι → ℝ) {T N T' N' : ℝ} (hT : 0 < T) (hN : 0 < N) (hT' : 0 < T') (hN' : 0 < N') :
    SameState unitConsts (unitsTN T N) (unitsTN T' N') (helium (fun i => n i / N) fun i => t i / T) (helium (fun i => n i / N') fun i => t i / T') := by
  intro k _
  cases k with
  | top x => rfl
  | sp s v =>
    have hd : Value.times N (.field fun i => n i / N) = Value.times N' (.field fun i => n i / N') := by
      show Value.field _ = Value.field _
      congr 1
      funext i
      field_simp
    have he2 : Value.times N (.field fun i => 2 * (n i / N)) = Value.times N' (.field fun i => 2 * (n i / N')) := by
      show Value.field _ = Value.field _
      congr 1
      funext i
      field_simp
    have htt : Value.times T (.field fun i => t i / T) = Value.times T' (.field fun i => t i / T') := by
      show Value.field _ = Value.field _
      congr 1
      funext i
      field_simp
    have hv : ∀ x y : ℝ, Value.times x (.field fun _ : ι => (0 : ℝ)) = Value.times y (.field fun _ => 0) := by
      intro x y
      show Value.field _ = Value.field _
      simp
    by_cases he : s = "e"
    · subst he
      cases v with
      | density => exact congrArg some he2
      | temperature => exact congrArg some htt
      | velocity => exact congrArg some (hv _ _)
      | _ => rfl
    · by_cases hd' : s = "he+2"
      · subst hd'
        cases v with
        | density => exact congrArg some hd
        | temperature => exact congrArg some htt
        | velocity => exact congrArg some (hv _ _)
        | _ => rfl
      · simp [helium, Hermes.Closures.stateOf, vals, he, hd']

/-- Helium at one temperature with density falling by half over the last two cells: the square of the speed of the ions into the wall. -/
theorem helium_speed {c : Consts} {u : Normalisation} {a : ℝ} (ha : 1e-5 ≤ a) {st' : Store Key (Value (Fin 6))}
    (h : sheathBoundary sheathDefaults (yMeshIn c u line) 0 ["he+2", "e"] (helium (fun i => falling i / a⁻¹) fun _ => 12) = (.ok (), st')) :
    face (fieldOf st' "he+2" .velocity) 4 5 = Real.sqrt (if a / 2 < 1e-3 then 8 else 11) := by
  have hm := yline_ok c u
  have ht : Target (yMeshIn c u line) true true true 4 5 3 := Target.upper (m := yMeshIn c u line) rfl (show (4 : Fin 6) ∈ line.upper by decide)
  have ha0 : (0 : ℝ) < a := lt_of_lt_of_le (by norm_num) ha
  have hcell : ∀ s, s = "he+2" ∨ s = "e" → ∀ j, j = 3 ∨ j = 4 →
      fieldOf st' s .density j = max (fieldOf (helium (fun i => falling i / a⁻¹) fun _ => 12) s .density j) 0 ∧ fieldOf st' s .temperature j = 12 := by
    intro s hs j hj
    obtain ⟨h1, h2, -⟩ := sheath_interior hm helium_nodup h (helium_sheath _ _ hs) (j := j) (by
      intro u' i' inn' h'
      have := h'.ne hm ht
      rcases hj with rfl | rfl
      · exact this.2 rfl
      · exact this.1 rfl)
    rw [h1, h2]
    exact ⟨rfl, by rcases hs with rfl | rfl <;> rfl⟩
  have f3 : falling 3 / a⁻¹ = 4 * a := by rw [falling3]; field_simp
  have f4 : falling 4 / a⁻¹ = 2 * a := by rw [falling4]; field_simp
  have e3 : fieldOf st' "e" .density 3 = 8 * a := by
    rw [(hcell "e" (Or.inr rfl) 3 (Or.inl rfl)).1]
    show max (2 * (falling 3 / a⁻¹)) 0 = _
    rw [f3, max_eq_left (by positivity)]; ring
  have e4 : fieldOf st' "e" .density 4 = 4 * a := by
    rw [(hcell "e" (Or.inr rfl) 4 (Or.inr rfl)).1]
    show max (2 * (falling 4 / a⁻¹)) 0 = _
    rw [f4, max_eq_left (by positivity)]; ring
  have i3 : fieldOf st' "he+2" .density 3 = 4 * a := by
    rw [(hcell "he+2" (Or.inl rfl) 3 (Or.inl rfl)).1]
    show max (falling 3 / a⁻¹) 0 = _
    rw [f3, max_eq_left (by positivity)]
  have i4 : fieldOf st' "he+2" .density 4 = 2 * a := by
    rw [(hcell "he+2" (Or.inl rfl) 4 (Or.inr rfl)).1]
    show max (falling 4 / a⁻¹) 0 = _
    rw [f4, max_eq_left (by positivity)]
  have e5 : fieldOf st' "e" .density 5 = 2 * a := by
    rw [sheath_limitFree hm helium_nodup h (helium_sheath _ _ (Or.inr rfl)) (v := .density) (by decide) ht, e3, e4]
    unfold limitFree
    rw [if_neg (by linarith), if_neg (by norm_num at *; linarith)]
    field_simp; norm_num
  have i5 : fieldOf st' "he+2" .density 5 = a := by
    rw [sheath_limitFree hm helium_nodup h (helium_sheath _ _ (Or.inl rfl)) (v := .density) (by decide) ht, i3, i4]
    unfold limitFree
    rw [if_neg (by linarith), if_neg (by norm_num at *; linarith)]
    field_simp; norm_num
  have t5 : ∀ s, s = "he+2" ∨ s = "e" → face (fieldOf st' s .temperature) 4 5 = 12 := by
    intro s hs
    unfold face
    rw [sheath_limitFree hm helium_nodup h (helium_sheath _ _ hs) (v := .temperature) (by decide) ht, (hcell s hs 3 (Or.inl rfl)).2,
      (hcell s hs 4 (Or.inr rfl)).2]
    unfold limitFree
    norm_num
  have hb : bohmSqAt (helium (fun i => falling i / a⁻¹) fun _ => 12) st' "he+2" 4 5 = if a / 2 < 1e-3 then 8 else 11 := by
    unfold bohmSqAt
    rw [t5 _ (Or.inl rfl), t5 _ (Or.inr rfl)]
    unfold face
    rw [e4, e5, i4, i5]
    show Sheath.bohmSq 2 4 (5 / 3) _ _ _ _ _ _ = _
    unfold Sheath.bohmSq
    rw [max_eq_left (show (1e-10 : ℝ) ≤ (4 * a + 2 * a) / 2 by norm_num at *; linarith), show (2 * a + a) / 2 / ((4 * a + 2 * a) / 2) = 1 / 2 by field_simp; norm_num,
      show 2 * a - (2 * a + a) / 2 = a / 2 by ring, show 4 * a - (4 * a + 2 * a) / 2 = a by ring, abs_of_pos (by positivity : (0 : ℝ) < a / 2),
      show a / (a / 2) = 2 by field_simp]
    split <;> norm_num
  have key := (sheath_ions hm helium_nodup h (by simp) (helium_ion _ _) ht).1 rfl
  have ho : out true = 1 := rfl
  rw [ho, one_mul] at key
  rw [key, hb]
  split <;> norm_num

/-- **C75 fails** where the density falls towards the target: the ratio of the density gradients in the Bohm speed is used only if the difference of the ion
densities is at least `1e-3` of the reference density.  Helium at 12 eV enters the wall with the speed `√11` with the reference density 1, and with `√8` with the
reference density 1000. -/
theorem sheath_gradient_depends_on_units : ∃ st' st2',
    sheathBoundary (sheathOptsIn (unitsTN 1 1) sheathDefaults) (yMeshIn unitConsts (unitsTN 1 1) line) 0 ["he+2", "e"]
      (helium (fun i => falling i / 1) fun _ => 12 / 1) = (.ok (), st') ∧
    sheathBoundary (sheathOptsIn (unitsTN 1 1000) sheathDefaults) (yMeshIn unitConsts (unitsTN 1 1000) line) 0 ["he+2", "e"]
      (helium (fun i => falling i / 1000) fun _ => 12 / 1) = (.ok (), st2') ∧
    SameState unitConsts (unitsTN 1 1) (unitsTN 1 1000) (helium (fun i => falling i / 1) fun _ => 12 / 1)
      (helium (fun i => falling i / 1000) fun _ => 12 / 1) ∧
    (unitsTN 1 1).Cs0 unitConsts * face (fieldOf st' "he+2" .velocity) 4 5 = Real.sqrt 11 ∧
    (unitsTN 1 1000).Cs0 unitConsts * face (fieldOf st2' "he+2" .velocity) 4 5 = Real.sqrt 8 ∧
    ¬ SameState unitConsts (unitsTN 1 1) (unitsTN 1 1000) st' st2' := by
  rw [sheathDefaults_in, sheathDefaults_in]
  obtain ⟨st', h1⟩ := sheathBoundary_runs sheathDefaults (yMeshIn unitConsts (unitsTN 1 1) line) 0
    (helium_ready (fun i => falling i / 1) fun _ => 12 / 1)
  obtain ⟨st2', h2⟩ := sheathBoundary_runs sheathDefaults (yMeshIn unitConsts (unitsTN 1 1000) line) 0
    (helium_ready (fun i => falling i / 1000) fun _ => 12 / 1)
  have e1 : (unitsTN 1 1).Cs0 unitConsts * face (fieldOf st' "he+2" .velocity) 4 5 = Real.sqrt 11 := by
    rw [helium_speed (a := 1) (c := unitConsts) (u := unitsTN 1 1) (by norm_num) (by rw [inv_one]; simpa using h1), unitsTN_Cs0, Real.sqrt_one, one_mul,
      if_neg (by norm_num)]
  have e2 : (unitsTN 1 1000).Cs0 unitConsts * face (fieldOf st2' "he+2" .velocity) 4 5 = Real.sqrt 8 := by
    rw [helium_speed (a := 1 / 1000) (c := unitConsts) (u := unitsTN 1 1000) (by norm_num) (by
        rw [show ((1 : ℝ) / 1000)⁻¹ = 1000 by norm_num]
        simpa using h2), unitsTN_Cs0, Real.sqrt_one, one_mul, if_pos (by norm_num)]
  refine ⟨st', st2', h1, h2, helium_same falling (fun _ => 12) one_pos one_pos one_pos (by norm_num), e1, e2, fun hs => ?_⟩
  have := sheath_velocity_same hs "he+2" 4 5
  rw [e1, e2, Real.sqrt_inj (by norm_num) (by norm_num)] at this
  norm_num at this

end Hermes.Units
