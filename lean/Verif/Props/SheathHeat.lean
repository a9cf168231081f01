import Verif.Props.SheathTransmission

/-!
# C106: the heat that leaves through the sheath of `sheath_boundary`

The sheath of `sheath_boundary` has the heat transmission coefficients `γ_e = 2 / (1 - G_e) + drop / T_e` and
`γ_i = 5/2 + M v² / (2 T_i)`.  As in C105 the flow through the wall of the energy equation and the energy that the sheath takes from the
last cell are put together.
-/

namespace Hermes.Sheath
open Hermes Hermes.Closures Hermes.Limiters Hermes.PerpOps Hermes.Rhs
open Hermes.SheathSimple (Walls onGrid lastCell guardCell carried faceArea)

variable {ι : Type} [DecidableEq ι] {nz : ℕ} [NeZero nz]

/-- Energy per time that leaves through the wall at the end `u` of the line `(i, k)`: carried by the flow, as the energy equation has it,
and taken from the last cell. -/
noncomputable def heatLost (g : Grid) (B : RhsOps nz) (lim : Limiter) (m : YMesh ι) (cell : ℤ → ℤ → Fin nz → ι) (E₀ w : F3 nz) (M : ℝ)
    (st st' : Store Key (Value ι)) (s : String) (u : Bool) (i : ℤ) (k : Fin nz) : ℝ :=
  let P := onGrid cell (fieldOf st' s .pressure)
  let N := onGrid cell (fieldOf st' s .density)
  let V := onGrid cell (fieldOf st' s .velocity)
  let a := cell i (lastCell g u) k
  out u * parFlow g B lim (energyBoundary g B (3 / 2) M P N V E₀ + P) V w i (if u then g.yend + 1 else g.ystart) k
    - added st st' s .energy_source a * (m.J a * m.dx a * m.dy a * m.dz a)

omit [DecidableEq ι] in
theorem area_volume (m : YMesh ι) {i : ι} (g : ι) (hJ : m.J i ≠ 0) (hdy : m.dy i ≠ 0) (q : ℝ) :
    q * areaPerVolume m i g * (m.J i * m.dx i * m.dy i * m.dz i) = q * faceArea m i g := by
  unfold areaPerVolume faceArea
  field_simp

/-- C106, electrons with the ratio of specific heats 5/3.  The wall receives `γ_e T n v`, or what the flow carries if that is more; in the
former case with an additional 5/2 of the difference between the pressure at the wall and the product of density and temperature. -/
theorem wall_heat_electrons {o : SheathOpts ι} {m : YMesh ι} {garbage : Fld ι} {names : List String} (hm : MeshOk m)
    (hn : names.Nodup) {st st' : Store Key (Value ι)} (h : sheathBoundary o m garbage names st = (.ok (), st'))
    (hv : (vals st (.sp "e" .velocity)).isSome) (hγ : adiabatic st "e" = 5 / 3)
    {g : Grid} {B : RhsOps nz} {cell : ℤ → ℤ → Fin nz → ι} {i : ℤ} (hw : Walls g B m cell i) (lim : Limiter) (E₀ w : F3 nz)
    {u : Bool} {k : Fin nz} {inn : ι} (ht : Target m o.lower_y o.upper_y u (cell i (lastCell g u) k) (cell i (guardCell g u) k) inn)
    (hJ : m.J (cell i (lastCell g u) k) ≠ 0) (hdy : m.dy (cell i (lastCell g u) k) ≠ 0) :
    let a := cell i (lastCell g u) k
    let b := cell i (guardCell g u) k
    let Me := electronMassOf o st
    let drop := facePotential o (phiUsed o m garbage names st) a inn - o.wall a
    let N := face (fieldOf st' "e" .density) a b
    let T := face (fieldOf st' "e" .temperature) a b
    let P := face (fieldOf st' "e" .pressure) a b
    let gamma := max (2 / (1 - o.Ge) + drop / max T 1e-5) 0
    let v := electronSpeed Me o.Ge T drop
    heatLost g B lim m cell E₀ w Me st st' "e" u i k =
      max ((5 / 2 * P + 1 / 2 * Me * N * v ^ 2) * v) (gamma * T * N * v + 5 / 2 * (P - N * T) * v) * faceArea m a b := by
  intro a b Me drop N T P gamma v
  obtain ⟨h1, -, h3, -⟩ := sheath_electrons_phi hm hn h ht
  have hc := carried hw.regular hw.separable hw.toFA hw.fromFA hw.same lim Me E₀ w (fieldOf st' "e" .pressure)
    (fieldOf st' "e" .density) (fieldOf st' "e" .velocity) hw.periodic hw.first hw.last u k
  unfold heatLost
  dsimp only at hc ⊢
  unfold added
  rw [hc, h3, h1 hv, sub_sub_cancel_left, neg_mul, sub_neg_eq_add, area_volume m _ hJ hdy, ← add_mul, hγ]
  congr 1
  rw [add_comm, max_add]
  refine congr_arg₂ max ?_ ?_
  · simp only [zero_add]; rfl
  · norm_num
    simp only [P, N, T, v, Me, a, b, gamma, drop]
    norm_num
    ring

/-- C106, ions with the ratio of specific heats 5/3: the flow carries `γ_i T n v`, and the sheath takes nothing in addition. -/
theorem wall_heat_ions {o : SheathOpts ι} {m : YMesh ι} {garbage : Fld ι} {names : List String} (hm : MeshOk m)
    (hn : names.Nodup) {st st' : Store Key (Value ι)} (h : sheathBoundary o m garbage names st = (.ok (), st'))
    {s : String} (hmem : s ∈ names) (hi : IsIon st s) (hv : (vals st (.sp s .velocity)).isSome) (hγ : adiabatic st s = 5 / 3)
    {g : Grid} {B : RhsOps nz} {cell : ℤ → ℤ → Fin nz → ι} {i : ℤ} (hw : Walls g B m cell i) (lim : Limiter) (E₀ w : F3 nz)
    {u : Bool} {k : Fin nz} {inn : ι} (ht : Target m o.lower_y o.upper_y u (cell i (lastCell g u) k) (cell i (guardCell g u) k) inn) :
    let a := cell i (lastCell g u) k
    let b := cell i (guardCell g u) k
    let N := face (fieldOf st' s .density) a b
    let T := max (face (fieldOf st' s .temperature) a b) 1e-5
    let P := face (fieldOf st' s .pressure) a b
    let v := √(min 100 (max 0 (bohmSqAt st st' s a b)))
    let gamma := 5 / 2 + mass st s * v ^ 2 / (2 * T)
    heatLost g B lim m cell E₀ w (mass st s) st st' s u i k = (gamma * T * N * v + 5 / 2 * (P - N * T) * v) * faceArea m a b := by
  intro a b N T P v gamma
  obtain ⟨h1, -, -⟩ := sheath_ions hm hn h hmem hi ht
  have h3 := sheath_ions_no_extra_loss hm hn h hmem hi hγ (cell i (lastCell g u) k)
  have hc := carried hw.regular hw.separable hw.toFA hw.fromFA hw.same lim (mass st s) E₀ w (fieldOf st' s .pressure)
    (fieldOf st' s .density) (fieldOf st' s .velocity) hw.periodic hw.first hw.last u k
  have hT : T ≠ 0 := ne_of_gt (lt_of_lt_of_le (by norm_num) (le_max_right _ _))
  unfold heatLost
  dsimp only at hc ⊢
  unfold added
  rw [hc, h3, h1 hv, sub_self, zero_mul, sub_zero]
  congr 1
  have e : gamma * T = 5 / 2 * T + 1 / 2 * mass st s * v ^ 2 := by simp only [gamma]; field_simp
  rw [e]
  simp only [P, N, T, v, a, b]
  ring

/-- C106.  An ideal gas of electrons loses at least `γ_e T n v`. -/
theorem electrons_lose_at_least {o : SheathOpts ι} {m : YMesh ι} {garbage : Fld ι} {names : List String} (hm : MeshOk m)
    (hn : names.Nodup) {st st' : Store Key (Value ι)} (h : sheathBoundary o m garbage names st = (.ok (), st'))
    (hv : (vals st (.sp "e" .velocity)).isSome) (hγ : adiabatic st "e" = 5 / 3)
    {g : Grid} {B : RhsOps nz} {cell : ℤ → ℤ → Fin nz → ι} {i : ℤ} (hw : Walls g B m cell i) (lim : Limiter) (E₀ w : F3 nz)
    {u : Bool} {k : Fin nz} {inn : ι} (ht : Target m o.lower_y o.upper_y u (cell i (lastCell g u) k) (cell i (guardCell g u) k) inn)
    (hJ : m.J (cell i (lastCell g u) k) ≠ 0) (hdy : m.dy (cell i (lastCell g u) k) ≠ 0)
    (hA : 0 ≤ faceArea m (cell i (lastCell g u) k) (cell i (guardCell g u) k))
    (hP : face (fieldOf st' "e" .pressure) (cell i (lastCell g u) k) (cell i (guardCell g u) k) =
      face (fieldOf st' "e" .density) (cell i (lastCell g u) k) (cell i (guardCell g u) k)
        * face (fieldOf st' "e" .temperature) (cell i (lastCell g u) k) (cell i (guardCell g u) k)) :
    let a := cell i (lastCell g u) k
    let b := cell i (guardCell g u) k
    let drop := facePotential o (phiUsed o m garbage names st) a inn - o.wall a
    let N := face (fieldOf st' "e" .density) a b
    let T := face (fieldOf st' "e" .temperature) a b
    let gamma := max (2 / (1 - o.Ge) + drop / max T 1e-5) 0
    gamma * T * N * electronSpeed (electronMassOf o st) o.Ge T drop * faceArea m a b ≤ heatLost g B lim m cell E₀ w (electronMassOf o st) st st' "e" u i k := by
  intro a b drop N T gamma
  rw [wall_heat_electrons hm hn h hv hγ hw lim E₀ w ht hJ hdy, hP, sub_self, mul_zero, zero_mul, add_zero]
  exact mul_le_mul_of_nonneg_right (le_max_right _ _) hA

/-- C106.  If the coefficient is at least 2.6, and the wall is not above the potential of the plasma, an ideal gas of electrons loses exactly `γ_e T n v`.  Partial: for smaller coefficients
it loses more (`electrons_lose_more`); the three quantities are extrapolated separately, as in C105. -/
theorem electrons_lose_partial {o : SheathOpts ι} {m : YMesh ι} {garbage : Fld ι} {names : List String} (hm : MeshOk m)
    (hn : names.Nodup) {st st' : Store Key (Value ι)} (h : sheathBoundary o m garbage names st = (.ok (), st'))
    (hv : (vals st (.sp "e" .velocity)).isSome) (hγ : adiabatic st "e" = 5 / 3)
    {g : Grid} {B : RhsOps nz} {cell : ℤ → ℤ → Fin nz → ι} {i : ℤ} (hw : Walls g B m cell i) (lim : Limiter) (E₀ w : F3 nz)
    {u : Bool} {k : Fin nz} {inn : ι} (ht : Target m o.lower_y o.upper_y u (cell i (lastCell g u) k) (cell i (guardCell g u) k) inn)
    (hJ : m.J (cell i (lastCell g u) k) ≠ 0) (hdy : m.dy (cell i (lastCell g u) k) ≠ 0)
    (hP : face (fieldOf st' "e" .pressure) (cell i (lastCell g u) k) (cell i (guardCell g u) k) =
      face (fieldOf st' "e" .density) (cell i (lastCell g u) k) (cell i (guardCell g u) k)
        * face (fieldOf st' "e" .temperature) (cell i (lastCell g u) k) (cell i (guardCell g u) k))
    (hMe : 0 < electronMassOf o st) (hG0 : 0 ≤ o.Ge) (hG1 : o.Ge ≤ 1)
    (hN : 0 ≤ face (fieldOf st' "e" .density) (cell i (lastCell g u) k) (cell i (guardCell g u) k))
    (hT : 0 < face (fieldOf st' "e" .temperature) (cell i (lastCell g u) k) (cell i (guardCell g u) k))
    (hd : 0 ≤ facePotential o (phiUsed o m garbage names st) (cell i (lastCell g u) k) inn - o.wall (cell i (lastCell g u) k)) :
    let a := cell i (lastCell g u) k
    let b := cell i (guardCell g u) k
    let drop := facePotential o (phiUsed o m garbage names st) a inn - o.wall a
    let N := face (fieldOf st' "e" .density) a b
    let T := face (fieldOf st' "e" .temperature) a b
    let gamma := max (2 / (1 - o.Ge) + drop / max T 1e-5) 0
    2.6 ≤ gamma →
    heatLost g B lim m cell E₀ w (electronMassOf o st) st st' "e" u i k =
      gamma * T * N * electronSpeed (electronMassOf o st) o.Ge T drop * faceArea m a b := by
  intro a b drop N T gamma hgam
  have hw' := wall_heat_electrons hm hn h hv hγ hw lim E₀ w ht hJ hdy
  dsimp only at hw'
  rw [hw', hP, sub_self, mul_zero, zero_mul, add_zero]
  congr 1
  refine max_eq_right ?_
  change (5 / 2 * (N * T) + 1 / 2 * electronMassOf o st * N * electronSpeed (electronMassOf o st) o.Ge T drop ^ 2) *
    electronSpeed (electronMassOf o st) o.Ge T drop ≤ gamma * T * N * electronSpeed (electronMassOf o st) o.Ge T drop
  have hT' : 0 < T := hT
  have hN' : 0 ≤ N := hN
  have hd' : 0 ≤ drop := hd
  clear_value T N drop gamma
  generalize electronMassOf o st = Me at hMe ⊢
  have hpi := Real.pi_gt_three
  have hv0 : 0 ≤ electronSpeed Me o.Ge T drop := by
    unfold electronSpeed
    split
    · exact le_rfl
    · have : 0 ≤ 1 - o.Ge := by linarith
      positivity
  have hv1 : electronSpeed Me o.Ge T drop ≤ √(T / (2 * Real.pi * Me)) := by
    unfold electronSpeed
    split
    · exact Real.sqrt_nonneg _
    · have h1 : Real.exp (-drop / T) ≤ 1 := by
        rw [Real.exp_le_one_iff]
        exact div_nonpos_of_nonpos_of_nonneg (by linarith) hT'.le
      have h2 : (1 - o.Ge) * Real.exp (-drop / T) ≤ 1 := mul_le_one₀ (by linarith) (Real.exp_nonneg _) h1
      rw [mul_assoc]
      exact mul_le_of_le_one_right (Real.sqrt_nonneg _) h2
  generalize electronSpeed Me o.Ge T drop = v at hv0 hv1 ⊢
  have h4 : v ^ 2 ≤ T / (2 * Real.pi * Me) := by
    calc v ^ 2 ≤ √(T / (2 * Real.pi * Me)) ^ 2 := by gcongr
      _ = _ := Real.sq_sqrt (by positivity)
  have h5 : 1 / 2 * Me * v ^ 2 ≤ 1 / 12 * T := by
    calc 1 / 2 * Me * v ^ 2 ≤ 1 / 2 * Me * (T / (2 * Real.pi * Me)) := by gcongr
      _ = 1 / (4 * Real.pi) * T := by field_simp; norm_num
      _ ≤ 1 / 12 * T := by
        have : 1 / (4 * Real.pi) ≤ 1 / 12 := one_div_le_one_div_of_le (by norm_num) (by linarith)
        gcongr
  have h6 : 5 / 2 * T + 1 / 2 * Me * v ^ 2 ≤ gamma * T := by
    have : 2.6 * T ≤ gamma * T := by gcongr
    norm_num at this
    linarith
  calc (5 / 2 * (N * T) + 1 / 2 * Me * N * v ^ 2) * v = (5 / 2 * T + 1 / 2 * Me * v ^ 2) * (N * v) := by ring
    _ ≤ gamma * T * (N * v) := mul_le_mul_of_nonneg_right h6 (mul_nonneg hN' hv0)
    _ = gamma * T * N * v := by ring

/-! ## A potential equal to that of the wall -/

/-- Uniform plasma with the potential `φ`. -/
def biased (φ : ℝ) : Store Key (Value (Fin 6)) :=
  ⟨true, fun k => if k = .top "fields:phi" then ⟨some (.field fun _ => φ), false, false⟩ else (plasma (fun _ => 1) fun _ => 1).ent k⟩

theorem biased_ready (φ : ℝ) : Ready ["d+", "e"] (sheathInputs ["d+", "e"]) (biased φ) := by
  obtain ⟨h1, h2, h3, -, h5⟩ := plasma_ready (ι := Fin 6) (fun _ => 1) fun _ => 1
  refine ⟨fun s v hv x hx => h1 s v hv x hx, fun k hk => ?_, fun s v a b => h3 s v a b, rfl, fun s hs v hv => h5 s hs v hv⟩
  by_cases hkt : k = .top "fields:phi"
  · subst hkt; rfl
  · have := h2 k hk
    unfold vals biased
    dsimp only
    rw [if_neg hkt]
    exact this

theorem box_target : Target line (sheathDefaults (ι := Fin 6)).lower_y (sheathDefaults (ι := Fin 6)).upper_y true
    (SheathSimple.boxCell 2 (lastCell boxGrid true) 0) (SheathSimple.boxCell 2 (guardCell boxGrid true) 0) 3 := Target.upper (m := line) rfl (by decide)

/-- Values of the electrons at the upper wall. -/
theorem biased_wall {φ : ℝ} {st' : Store Key (Value (Fin 6))} (h : sheathBoundary sheathDefaults line 0 ["d+", "e"] (biased φ) = (.ok (), st')) :
    face (fieldOf st' "e" .density) 4 5 = 1 ∧ face (fieldOf st' "e" .temperature) 4 5 = 1 ∧ face (fieldOf st' "e" .pressure) 4 5 = 1 := by
  have ht : Target line true true true 4 5 3 := Target.upper (m := line) rfl (by decide)
  have hS : HasSheath (biased φ) ["d+", "e"] "e" := Or.inl rfl
  have hno : ∀ j : Fin 6, j = 3 ∨ j = 4 → ∀ u' i' inn', ¬ Target line true true u' i' j inn' := by
    intro j hj u' i' inn' h'
    rcases line_target h' with ⟨-, -, rfl, -⟩ | ⟨-, -, rfl, -⟩ <;> rcases hj with hj | hj <;> exact absurd hj (by decide)
  have hcell : ∀ j, j = 3 ∨ j = 4 → fieldOf st' "e" .density j = 1 ∧ fieldOf st' "e" .temperature j = 1 := by
    intro j hj
    obtain ⟨h1, h2, -⟩ := sheath_interior line_ok plasma_nodup h hS (hno j hj)
    rw [h1, h2, show fieldOf (biased φ) "e" .density j = 1 from rfl, show fieldOf (biased φ) "e" .temperature j = 1 from rfl]
    norm_num
  have hpress : ∀ j, j = 3 ∨ j = 4 → fieldOf st' "e" .pressure j = 1 := by
    intro j hj
    obtain ⟨hp, _⟩ := sheathBoundary_ok plasma_nodup h
    rw [electronResult_eq] at hp
    rw [fieldOf_some hp.p]
    dsimp only
    rw [bothEnds_other (lo := (sheathDefaults (ι := Fin 6)).lower_y) (up := (sheathDefaults (ι := Fin 6)).upper_y) (hno j hj)]
    show (1 : ℝ) * floorTo 1 0 = 1
    rw [floorTo_eq_max]
    norm_num
  have lf : limitFree 1 1 = 1 := by unfold limitFree; norm_num
  have hl := fun (v : Var) (hv : v ∈ [Var.density, .temperature, .pressure]) => sheath_limitFree line_ok plasma_nodup h hS (v := v) hv ht
  refine ⟨?_, ?_, ?_⟩ <;> unfold face
  · rw [hl .density (by decide), (hcell 3 (Or.inl rfl)).1, (hcell 4 (Or.inr rfl)).1, lf]; norm_num
  · rw [hl .temperature (by decide), (hcell 3 (Or.inl rfl)).2, (hcell 4 (Or.inr rfl)).2, lf]; norm_num
  · rw [hl .pressure (by decide), hpress 3 (Or.inl rfl), hpress 4 (Or.inr rfl), lf]; norm_num

theorem biased_drop {φ : ℝ} (hφ : 0 ≤ φ) : facePotential sheathDefaults (fun _ : Fin 6 => φ) 4 3 - (sheathDefaults (ι := Fin 6)).wall 4 = φ := by
  unfold facePotential facePotentialOf; simp [sheathDefaults, hφ]

/-- C106 fails where the potential drop is small: the potential is that of the wall, `γ_e = 2`.  The electrons lose more than `5/2 T n v`. -/
theorem electrons_lose_more : ∃ st', sheathBoundary sheathDefaults line 0 ["d+", "e"] (biased 0) = (.ok (), st') ∧
    ∀ (lim : Limiter) (E₀ w : F3 2),
      let N := face (fieldOf st' "e" .density) 4 5
      let T := face (fieldOf st' "e" .temperature) 4 5
      let drop := facePotential sheathDefaults (fun _ : Fin 6 => 0) 4 3 - (sheathDefaults (ι := Fin 6)).wall 4
      let v := electronSpeed (1 / 1836) 0 T drop
      N = 1 ∧ T = 1 ∧ 0 < v ∧ 2 / (1 - (sheathDefaults (ι := Fin 6)).Ge) + drop / T = 2 ∧
      5 / 2 * T * N * v < heatLost boxGrid (DensityEquation.plainRhs 2) lim line SheathSimple.boxCell E₀ w (1 / 1836) (biased 0) st' "e" true 2 0 := by
  obtain ⟨st', h⟩ := sheathBoundary_runs (sheathDefaults (ι := Fin 6)) line 0 (biased_ready 0)
  refine ⟨st', h, fun lim E₀ w => ?_⟩
  obtain ⟨fN, fT, fP⟩ := biased_wall h
  have hdrop := biased_drop (φ := 0) le_rfl
  intro N T drop v
  have hv : 0 < v := by
    simp only [v, drop, T]
    rw [hdrop, fT]
    unfold electronSpeed
    rw [if_neg (by norm_num)]
    have := Real.pi_pos
    positivity
  refine ⟨fN, fT, hv, ?_, ?_⟩
  · simp only [drop, hdrop]; norm_num [sheathDefaults]
  · have hw := wall_heat_electrons line_ok plasma_nodup h rfl rfl SheathSimple.box_walls lim E₀ w box_target one_ne_zero one_ne_zero
    dsimp only at hw
    have ha : SheathSimple.boxCell 2 (lastCell boxGrid true) 0 = 4 := rfl
    have hb : SheathSimple.boxCell 2 (guardCell boxGrid true) 0 = 5 := rfl
    have hM : electronMassOf (sheathDefaults (ι := Fin 6)) (biased 0) = 1 / 1836 := rfl
    have hφ : phiUsed (sheathDefaults (ι := Fin 6)) line 0 ["d+", "e"] (biased 0) = fun _ => 0 := rfl
    have hA : faceArea line 4 5 = 1 := by unfold faceArea; simp only [line]; norm_num
    rw [hM, hφ, ha, hb, hA, mul_one, fN, fP] at hw
    rw [hw]
    refine lt_max_of_lt_left ?_
    change 5 / 2 * T * N * v < (5 / 2 * 1 + 1 / 2 * (1 / 1836) * 1 * v ^ 2) * v
    simp only [show N = 1 from fN, show T = 1 from fT]
    have : 0 < v ^ 2 := by positivity
    nlinarith

/-- With a potential drop of one electron temperature `γ_e = 3`, and that is what the electrons lose. -/
example : ∃ st', sheathBoundary sheathDefaults line 0 ["d+", "e"] (biased 1) = (.ok (), st') ∧
    ∀ (lim : Limiter) (E₀ w : F3 2), heatLost boxGrid (DensityEquation.plainRhs 2) lim line SheathSimple.boxCell E₀ w (1 / 1836) (biased 1) st' "e" true 2 0 =
      3 * electronSpeed (1 / 1836) 0 1 1 := by
  obtain ⟨st', h⟩ := sheathBoundary_runs (sheathDefaults (ι := Fin 6)) line 0 (biased_ready 1)
  refine ⟨st', h, fun lim E₀ w => ?_⟩
  obtain ⟨fN, fT, fP⟩ := biased_wall h
  have hdrop := biased_drop (φ := 1) zero_le_one
  have ha : SheathSimple.boxCell 2 (lastCell boxGrid true) 0 = 4 := rfl
  have hb : SheathSimple.boxCell 2 (guardCell boxGrid true) 0 = 5 := rfl
  have hM : electronMassOf (sheathDefaults (ι := Fin 6)) (biased 1) = 1 / 1836 := rfl
  have hG : (sheathDefaults (ι := Fin 6)).Ge = 0 := rfl
  have hφ : phiUsed (sheathDefaults (ι := Fin 6)) line 0 ["d+", "e"] (biased 1) = fun _ => 1 := rfl
  have hA : faceArea line 4 5 = 1 := by unfold faceArea; simp only [line]; norm_num
  have hw := electrons_lose_partial line_ok plasma_nodup h rfl rfl SheathSimple.box_walls lim E₀ w box_target one_ne_zero one_ne_zero
    (by rw [ha, hb, fN, fT, fP]; norm_num) (by rw [hM]; norm_num) (by rw [hG]) (by rw [hG]; norm_num) (by rw [ha, hb, fN]; norm_num)
    (by rw [ha, hb, fT]; norm_num) (by rw [ha, hφ, hdrop]; norm_num)
  dsimp only at hw
  rw [ha, hb, hφ, hdrop, hM, hG, hA, fN, fT] at hw
  rw [hw (by norm_num)]
  norm_num

end Hermes.Sheath
