import Verif.Props.SheathBudget

/-!
# C105: `sheath_boundary_simple` only cools

With heat transmission coefficients of at least 5/2, and extrapolation that is not linear, no species gains energy at a target.
-/

namespace Hermes.SheathSimple
open Finset Hermes Hermes.Closures Hermes.Sheath Hermes.Limiters Hermes.PerpOps Hermes.Rhs

variable {ι : Type} [DecidableEq ι] {nz : ℕ} [NeZero nz]

/-- The mass with which the sheath computes. -/
noncomputable def massUsed (o : SimpleOpts ι) (st : Store Key (Value ι)) (s : String) : ℝ := if s = "e" then electronMassOf o st else Sheath.mass st s

/-- The heat transmission coefficient of the species. -/
noncomputable def coefficient (o : SimpleOpts ι) (s : String) : ℝ := if s = "e" then o.gamma_e else o.gamma_i

/-- Heat through the wall for non-negative values there. -/
theorem wall_heat_nonneg {no_flow : Bool} {γ T N P v A : ℝ} (hγ : (if no_flow then 0 else 5 / 2) ≤ γ) (hT : 0 ≤ T) (hN : 0 ≤ N) (hP : 0 ≤ P)
    (hv : 0 ≤ v) (hA : 0 ≤ A) : 0 ≤ (γ * T * N * v + if no_flow then 0 else 5 / 2 * (P - N * T) * v) * A := by
  refine mul_nonneg ?_ hA
  cases no_flow
  · rw [if_neg Bool.false_ne_true] at hγ ⊢
    have e : γ * T * N * v + 5 / 2 * (P - N * T) * v = (γ - 5 / 2) * (T * N * v) + 5 / 2 * (P * v) := by ring
    rw [e]
    have : 0 ≤ γ - 5 / 2 := by linarith
    positivity
  · rw [if_pos rfl] at hγ ⊢
    positivity

/-- C105.  No species gains energy at a target. -/
theorem simple_heat_nonneg {o : SimpleOpts ι} {m : YMesh ι} {garbage : Fld ι} {names : List String} (hm : MeshOk m)
    (hn : names.Nodup) {st st' : Store Key (Value ι)} (h : sheathBoundarySimple o m garbage names st = (.ok (), st')) (hG : o.Ge ≤ 1)
    {s : String} (hs : HasSheath st names s) (hv : (vals st (.sp s .velocity)).isSome)
    (hmode : ∀ v ∈ [Var.density, .temperature, .pressure], modeOf o v ≠ .linear) (hγ : (if o.no_flow then 0 else 5 / 2) ≤ coefficient o s)
    {g : Grid} {B : RhsOps nz} {cell : ℤ → ℤ → Fin nz → ι} {i : ℤ} (hw : Walls g B m cell i) (lim : Limiter) (E₀ w : F3 nz)
    {u : Bool} {k : Fin nz} {inn : ι} (ht : Target m o.lower_y o.upper_y u (cell i (lastCell g u) k) (cell i (guardCell g u) k) inn)
    (hA : 0 ≤ faceArea m (cell i (lastCell g u) k) (cell i (guardCell g u) k))
    (hpos : ∀ v ∈ [Var.density, .temperature, .pressure], 0 ≤ fieldOf st' s v (cell i (lastCell g u) k)) :
    0 ≤ heatToWall g B lim cell E₀ w (massUsed o st s) st st' s u i k := by
  have hf : ∀ v ∈ [Var.density, .temperature, .pressure], 0 ≤ face (fieldOf st' s v) (cell i (lastCell g u) k) (cell i (guardCell g u) k) := by
    intro v hmem
    have := ((simple_guard_values_partial hm hn h hs hmem ht (hpos v hmem)).1 (hmode v hmem)).1
    have := hpos v hmem
    unfold face
    positivity
  have fN := hf .density (by decide)
  have fT := hf .temperature (by decide)
  have fP := hf .pressure (by decide)
  by_cases he : s = "e"
  · subst he
    unfold massUsed
    unfold coefficient at hγ
    rw [if_pos rfl] at hγ ⊢
    rw [wall_heat_electrons hm hn h hv hw lim E₀ w ht]
    refine wall_heat_nonneg hγ fT fN fP ?_ hA
    unfold electronSpeed
    have : 0 ≤ 1 - o.Ge := by linarith
    positivity
  · unfold massUsed
    unfold coefficient at hγ
    rw [if_neg he] at hγ ⊢
    rcases hs with rfl | ⟨hmem, hi⟩
    · exact absurd rfl he
    · rw [wall_heat_ions hm hn h hmem hi hv hw lim E₀ w ht]
      refine wall_heat_nonneg hγ (le_max_of_le_left fT) fN fP ?_ hA
      exact le_max_of_le_right (Real.sqrt_nonneg _)

/-- C105.  Between two sheaths the energy of a species grows by no more than the sources and the work of the momentum sources give it. -/
theorem simple_sheaths_only_cool {o : SimpleOpts ι} {m : YMesh ι} {garbage : Fld ι} {names : List String} (hm : MeshOk m)
    (hn : names.Nodup) {st st' : Store Key (Value ι)} (h : sheathBoundarySimple o m garbage names st = (.ok (), st')) (hG : o.Ge ≤ 1)
    {s : String} (hs : HasSheath st names s) (hv : (vals st (.sp s .velocity)).isSome)
    (hmode : ∀ v ∈ [Var.density, .temperature, .pressure], modeOf o v ≠ .linear) (hγ : (if o.no_flow then 0 else 5 / 2) ≤ coefficient o s)
    {g : Grid} (hg : Regular g) (hsep : Separable g) {B : RhsOps nz} (hB : DensityEquation.Assumed g B) {cell : ℤ → ℤ → Fin nz → ι} (hd : Domain g B m cell o.lower_y o.upper_y)
    (hA : ∀ i, g.xstart ≤ i ∧ i ≤ g.xend → ∀ k u, 0 ≤ faceArea m (cell i (lastCell g u) k) (cell i (guardCell g u) k))
    (hpos : ∀ i, g.xstart ≤ i ∧ i ≤ g.xend → ∀ k u, ∀ v ∈ [Var.density, .temperature, .pressure], 0 ≤ fieldOf st' s v (cell i (lastCell g u) k))
    {oE : EnergyOpts} (hCv : oE.Cv = 3 / 2) {lim : Limiter} {E₀ source T w : F3 nz} {sp : SpeciesIn nz} {f : FieldsIn nz}
    (hsc : f.scale_timederivs = none) (hAp : f.Apar_flutter = none)
    (hP : sp.pressure = some (onGrid cell (fieldOf st' s .pressure))) (hT : sp.temperature = some T)
    (hN : sp.density = some (onGrid cell (fieldOf st' s .density))) (hV : sp.velocity = some (onGrid cell (fieldOf st' s .velocity)))
    (hS : sp.energy_source = some (onGrid cell (fieldOf st' s .energy_source)))
    (hAA : sp.AA = some (massUsed o st s)) (hw : waveSpeed sp f = .ok w)
    (hi : EnergyEquation.Sides oE g B sp f (energyBoundary g B oE.Cv (massUsed o st s) (onGrid cell (fieldOf st' s .pressure)) (onGrid cell (fieldOf st' s .density))
      (onGrid cell (fieldOf st' s .velocity)) E₀) (onGrid cell (fieldOf st' s .pressure)) T (onGrid cell (fieldOf st' s .density)) (massUsed o st s))
    {r : F3 nz} (hr : energyRhs oE g B lim E₀ source sp f = .ok r) :
    content g r ≤ content g source + content g (onGrid cell (fieldOf st s .energy_source))
      + content g (onGrid cell (fieldOf st' s .velocity) * sp.momentum_source.getD 0) := by
  rw [energy_between_sheaths hm hn h hs hg hsep hB hd hCv hsc hAp hP hT hN hV hS hAA hw hi hr]
  refine sub_le_self _ (sum_nonneg fun i hi' => sum_nonneg fun k _ => ?_)
  have hx := mem_Icc.mp hi'
  have hend : ∀ u, 0 ≤ heatToWall g B lim cell E₀ w (massUsed o st s) st st' s u i k := by
    intro u
    obtain ⟨inn, ht⟩ := hd.ends i hx k u
    exact simple_heat_nonneg hm hn h hG hs hv hmode hγ (hd.walls i hx) lim E₀ w ht (hA i hx k u) (hpos i hx k u)
  exact add_nonneg (hend false) (hend true)

/-- A density that falls toward the upper end by a factor of 7 from one cell to the next. -/
noncomputable def steep : Fin 6 → ℝ := fun j => if j = 3 then 7 else 1

/-- C105 fails for linear extrapolation of the density, one of the options: the density at the wall is negative, and the wall gives energy to the ions. -/
theorem linear_sheath_heats : ∃ st', sheathBoundarySimple (defaults .linear) line 0 ["d+", "e"] (twoTemp steep (fun _ => 1) fun _ => 1) = (.ok (), st') ∧
    (∀ j, 0 < steep j) ∧
    ∀ (lim : Limiter) (E₀ w : F3 2), heatToWall boxGrid (DensityEquation.plainRhs 2) lim boxCell E₀ w 2 (twoTemp steep (fun _ => 1) fun _ => 1) st' "d+" true 2 0 < 0 := by
  obtain ⟨st', h⟩ := twoTemp_runs .linear steep (fun _ => 1) fun _ => 1
  have hpos' : ∀ j : Fin 6, (0 : ℝ) < steep j := by intro j; unfold steep; split <;> norm_num
  have hpos : ∀ j : Fin 6, (0 : ℝ) ≤ steep j := fun j => (hpos' j).le
  have f4 : steep 4 = 1 := if_neg (by decide)
  have f3 : steep 3 = 7 := if_pos rfl
  have h4 := last_cells _ _ _ _ hpos h (s := "d+") (Or.inl rfl) (j := 4) (Or.inl rfl)
  have h3 := last_cells _ _ _ _ hpos h (s := "d+") (Or.inl rfl) (j := 3) (Or.inr rfl)
  have p4 := interior_pressure _ _ _ _ hpos h (j := 4) (Or.inl rfl)
  have p3 := interior_pressure _ _ _ _ hpos h (j := 3) (Or.inr rfl)
  rw [if_neg (by decide)] at h4 h3
  have hl := fun (v : Var) (hv : v ∈ [Var.density, .temperature, .pressure]) =>
    simple_limitFree line_ok plasma_nodup h (twoTemp_sheath steep (fun _ => 1) (fun _ => 1) (Or.inl rfl)) (v := v) hv (upper_end .linear)
  have hn5 := hl .density (by decide)
  have ht5 := hl .temperature (by decide)
  have hp5 := hl .pressure (by decide)
  have lf : ∀ {x y : ℝ}, 1e-10 ≤ x → limitFreeMode x y .linear = 2 * y - x := by
    intro x y hx
    unfold limitFreeMode
    rw [if_neg (by rintro ⟨-, h⟩; exact absurd h (by decide)), if_neg (not_lt.mpr hx), if_neg (by decide)]
  have le : ∀ {x y : ℝ}, 1e-10 ≤ x → limitFreeMode x y .exponential = y ^ 2 / x := by
    intro x y hx
    unfold limitFreeMode
    rw [if_neg (by rintro ⟨-, h⟩; exact absurd h (by decide)), if_neg (not_lt.mpr hx), if_pos (Or.inr rfl)]
  simp only [modeOf, defaults] at hn5 ht5 hp5
  rw [h4.1, h3.1, f4, f3, lf (by norm_num)] at hn5
  rw [h4.2, h3.2, le (by norm_num)] at ht5
  rw [p4, p3, f4, f3, le (by norm_num)] at hp5
  have fN : face (fieldOf st' "d+" .density) 4 5 = -2 := by unfold face; rw [h4.1, hn5, f4]; norm_num
  have fT : face (fieldOf st' "d+" .temperature) 4 5 = 1 := by unfold face; rw [h4.2, ht5]; norm_num
  have fP : face (fieldOf st' "d+" .pressure) 4 5 = 4 / 7 := by unfold face; rw [p4, hp5, f4]; norm_num
  refine ⟨st', h, hpos', fun lim E₀ w => ?_⟩
  have hsp : 0 < ionSpeedAt (defaults .linear) (twoTemp steep (fun _ => 1) fun _ => 1) st' "d+" true 4 5 := by
    unfold ionSpeedAt ionSpeed soundSpeed
    refine lt_max_of_lt_right (Real.sqrt_pos.mpr ?_)
    have hq : Sheath.charge (twoTemp steep (fun _ => 1) fun _ => 1) "d+" = 1 := rfl
    have hM : Sheath.mass (twoTemp steep (fun _ => 1) fun _ => 1) "d+" = 2 := rfl
    have e1 : (0 : ℝ) < max (face (fieldOf st' "d+" .temperature) 4 5) 1e-5 := lt_max_of_lt_right (by norm_num)
    have e2 : (0 : ℝ) < max (face (fieldOf st' "e" .temperature) 4 5) 1e-5 := lt_max_of_lt_right (by norm_num)
    rw [hq, hM]
    simp only [defaults]
    positivity
  have hw := wall_heat_ions line_ok plasma_nodup h (s := "d+") (by simp) (twoTemp_ion _ _ _) rfl box_walls lim E₀ w (box_target .linear)
  dsimp only at hw
  have hM : Sheath.mass (twoTemp steep (fun _ => 1) fun _ => 1) "d+" = 2 := rfl
  rw [hM] at hw
  rw [hw, show (boxCell 2 (lastCell boxGrid true) 0) = 4 from rfl, show (boxCell 2 (guardCell boxGrid true) 0) = 5 from rfl, fN, fT, fP]
  have hA : faceArea line 4 5 = 1 := by unfold faceArea; simp only [line]; norm_num
  rw [hA, show (defaults .linear).no_flow = false from rfl, if_neg Bool.false_ne_true, max_eq_left (by norm_num)]
  simp only [defaults] at hsp ⊢
  norm_num
  linarith

/-- The ions of the example are cooled at the upper target, for all profiles of positive density and temperature. -/
example (n te ti : Fin 6 → ℝ) (hn : ∀ j, 0 ≤ n j) (ht : ∀ j, 0 ≤ ti j) (lim : Limiter) (E₀ w : F3 2) :
    ∃ st', sheathBoundarySimple (defaults .exponential) line 0 ["d+", "e"] (twoTemp n te ti) = (.ok (), st') ∧
      0 ≤ heatToWall boxGrid (DensityEquation.plainRhs 2) lim boxCell E₀ w 2 (twoTemp n te ti) st' "d+" true 2 0 := by
  obtain ⟨st', h⟩ := twoTemp_runs .exponential n te ti
  have h4 := last_cells _ _ _ _ hn h (s := "d+") (Or.inl rfl) (j := 4) (Or.inl rfl)
  have p4 := interior_pressure _ _ _ _ hn h (j := 4) (Or.inl rfl)
  rw [if_neg (by decide)] at h4
  have hM : massUsed (defaults .exponential) (twoTemp n te ti) "d+" = 2 := rfl
  refine ⟨st', h, ?_⟩
  rw [← hM]
  refine simple_heat_nonneg line_ok plasma_nodup h (by norm_num [defaults]) (twoTemp_sheath n te ti (Or.inl rfl)) rfl
    (fun v _ => by cases v <;> simp [modeOf, defaults]) (by simp [coefficient, defaults]; norm_num) box_walls lim E₀ w (box_target .exponential) ?_ ?_
  · unfold faceArea; simp [line]
  · rw [show (boxCell 2 (lastCell boxGrid true) 0) = 4 from rfl]
    intro v hv
    simp only [List.mem_cons, List.not_mem_nil, or_false] at hv
    rcases hv with rfl | rfl | rfl
    · rw [h4.1]; exact hn 4
    · rw [h4.2]; exact ht 4
    · rw [p4]; exact mul_nonneg (hn 4) (ht 4)

/-- Without sources the ions of the example lose energy, for all profiles of positive density and temperature. -/
example (n te ti : Fin 6 → ℝ) (hn : ∀ j, 0 ≤ n j) (ht : ∀ j, 0 ≤ ti j) (E₀ : F3 2) :
    ∃ st' r, sheathBoundarySimple (defaults .exponential) line 0 ["d+", "e"] (twoTemp n te ti) = (.ok (), st') ∧
      energyRhs { bndry_flux := false, thermal_conduction := false, kappa_coefficient := 3 } longBox (DensityEquation.plainRhs 2) mc E₀ 0 (ionsIn st') { fastest_wave := some 1 } = .ok r ∧
      content longBox r ≤ 0 := by
  obtain ⟨st', h⟩ := twoTemp_runs .exponential n te ti
  have hB : DensityEquation.Assumed longBox (DensityEquation.plainRhs 2) :=
    ⟨⟨fun _ _ _ => rfl⟩, ⟨rfl, rfl, fun _ _ _ _ _ => rfl⟩, (DensityEquation.plainRhs_assumed 2).d4dz4⟩
  have hS := twoTemp_sheath n te ti (s := "d+") (Or.inl rfl)
  have hpos : ∀ j : Fin 6, j = 1 ∨ j = 4 → ∀ v ∈ [Var.density, .temperature, .pressure], 0 ≤ fieldOf st' "d+" v j := by
    intro j hj v hv
    have hno : ∀ u' i' inn', ¬ Target line (defaults .exponential).lower_y (defaults .exponential).upper_y u' i' j inn' := by
      intro u' i' inn' h'
      rcases line_target h' with ⟨-, -, rfl, -⟩ | ⟨-, -, rfl, -⟩ <;> rcases hj with hj | hj <;> exact absurd hj (by decide)
    obtain ⟨h1, h2, -⟩ := simple_interior line_ok plasma_nodup h hS hno
    simp only [List.mem_cons, List.not_mem_nil, or_false] at hv
    rcases hv with rfl | rfl | rfl
    · rw [h1]; exact le_max_right _ _
    · rw [h2]; exact ht j
    · obtain ⟨r, hr, hp, -⟩ := ion_published plasma_nodup h (n := "d+") (by simp) (twoTemp_ion n te ti)
      rw [hr, bothEndsFlow_fst] at hp
      rw [fieldOf_some hp.p]
      dsimp only
      rw [bothEnds_other hno]
      show 0 ≤ floorTo (n j) 0 * ti j
      rw [floorTo_eq_max]
      exact mul_nonneg (le_max_right _ _) (ht j)
  refine ⟨st', _, h, rfl, ?_⟩
  have key := simple_sheaths_only_cool line_ok plasma_nodup h (by norm_num [defaults]) hS rfl
    (fun v _ => by cases v <;> simp [modeOf, defaults]) (by simp [coefficient, defaults]; norm_num) longBox_regular
    ⟨fun _ _ _ => rfl, fun _ _ _ => rfl, fun _ _ _ _ => rfl⟩ hB longBox_domain
    (fun i _ k u => by unfold faceArea; cases u <;> simp [line])
    (fun i _ k u => hpos _ (by cases u; exacts [Or.inl rfl, Or.inr rfl]))
    (oE := { bndry_flux := false, thermal_conduction := false, kappa_coefficient := 3 }) rfl (E₀ := E₀) (source := 0) (sp := ionsIn st') (f := { fastest_wave := some 1 })
    rfl rfl rfl rfl rfl rfl rfl rfl rfl
    { radial := rfl, lines := fun i _ => Or.inl ⟨rfl, rfl, rfl, fun V hV => by cases hV⟩, lowN := fun c hc => by cases hc } rfl (lim := mc)
  have z1 : onGrid lineCell (fieldOf (twoTemp n te ti) "d+" .energy_source) = (0 : F3 2) := rfl
  have z2 : (ionsIn st').momentum_source.getD 0 = (0 : F3 2) := rfl
  rw [z1, z2, mul_zero, content_zero] at key
  linarith

end Hermes.SheathSimple
