import Verif.Props.SheathHeat
import Verif.Props.SheathBudget

/-!
# C106: the energy of a species between two sheaths of `sheath_boundary`

The energy equation is evaluated with the fields and the energy source that the sheath has published.
-/

namespace Hermes.Sheath
open Finset Hermes Hermes.Closures Hermes.Limiters Hermes.PerpOps Hermes.Rhs
open Hermes.SheathSimple (Walls onGrid lastCell guardCell carried faceArea Domain longBox lineCell longBox_domain longBox_regular ionsIn)

variable {ι : Type} [DecidableEq ι] {nz : ℕ} [NeZero nz]

/-- The sheath takes no energy from cells that are not next to a target. -/
theorem source_interior {o : SheathOpts ι} {m : YMesh ι} {garbage : Fld ι} {names : List String} (hm : MeshOk m)
    (hn : names.Nodup) {st st' : Store Key (Value ι)} (h : sheathBoundary o m garbage names st = (.ok (), st'))
    {s : String} (hs : HasSheath st names s) {j : ι} (hj : ∀ u b inn, ¬ Target m o.lower_y o.upper_y u j b inn) :
    added st st' s .energy_source j = 0 := by
  unfold added
  rcases hs with rfl | ⟨hmem, hi⟩
  · obtain ⟨hp, _⟩ := sheathBoundary_ok hn h
    rw [electronResult_eq] at hp
    rw [fieldOf_some hp.src, bothEnds_src_other hj]
    exact sub_self _
  · rw [fieldOf_some (ion_target hm hn h hmem hi).src, bothEnds_src_other hj]
    exact sub_self _

/-- C106.  The energy of a species in the domain changes by the sources, other than that of the sheath, by the work of the momentum
sources, and by the heat that is lost to the targets. -/
theorem energy_between_targets {o : SheathOpts ι} {m : YMesh ι} {garbage : Fld ι} {names : List String} (hm : MeshOk m)
    (hn : names.Nodup) {st st' : Store Key (Value ι)} (h : sheathBoundary o m garbage names st = (.ok (), st'))
    {s : String} (hs : HasSheath st names s)
    {g : Grid} (hg : Regular g) (hsep : Separable g) {B : RhsOps nz} (hB : DensityEquation.Assumed g B) {cell : ℤ → ℤ → Fin nz → ι} (hd : Domain g B m cell o.lower_y o.upper_y)
    {oE : EnergyOpts} (hCv : oE.Cv = 3 / 2) {lim : Limiter} {E₀ source T w : F3 nz} {M : ℝ} {sp : SpeciesIn nz} {f : FieldsIn nz}
    (hsc : f.scale_timederivs = none) (hA : f.Apar_flutter = none)
    (hP : sp.pressure = some (onGrid cell (fieldOf st' s .pressure))) (hT : sp.temperature = some T)
    (hN : sp.density = some (onGrid cell (fieldOf st' s .density))) (hV : sp.velocity = some (onGrid cell (fieldOf st' s .velocity)))
    (hS : sp.energy_source = some (onGrid cell (fieldOf st' s .energy_source)))
    (hAA : sp.AA = some M) (hw : waveSpeed sp f = .ok w)
    (hi : EnergyEquation.Sides oE g B sp f (energyBoundary g B oE.Cv M (onGrid cell (fieldOf st' s .pressure)) (onGrid cell (fieldOf st' s .density))
      (onGrid cell (fieldOf st' s .velocity)) E₀) (onGrid cell (fieldOf st' s .pressure)) T (onGrid cell (fieldOf st' s .density)) M)
    {r : F3 nz} (hr : energyRhs oE g B lim E₀ source sp f = .ok r) :
    content g r = content g source + content g (onGrid cell (fieldOf st s .energy_source))
      + content g (onGrid cell (fieldOf st' s .velocity) * sp.momentum_source.getD 0)
      - ∑ i ∈ Icc g.xstart g.xend, ∑ k, (heatLost g B lim m cell E₀ w M st st' s false i k + heatLost g B lim m cell E₀ w M st st' s true i k) := by
  rw [EnergyEquation.energy_balance hg hsep hB hsc hP hT hN hV hAA hw hi hr]
  have h1 : ∀ F V, EnergyEquation.flutterOut g f F V = 0 := fun F V => by unfold EnergyEquation.flutterOut; rw [hA]
  have h2 : EnergyEquation.flutterHeat oE g B sp f (onGrid cell (fieldOf st' s .pressure)) T (onGrid cell (fieldOf st' s .density)) M = 0 := by
    unfold EnergyEquation.flutterHeat
    rw [hA]
    cases oE.thermal_conduction <;> cases sp.collision_frequency <;> rfl
  rw [h1, h2, sub_zero, add_zero, hS, Option.getD_some, hCv]
  let taken (u : Bool) (i : ℤ) (k : Fin nz) : ℝ := added st st' s .energy_source (cell i (lastCell g u) k) * (m.J (cell i (lastCell g u) k)
    * m.dx (cell i (lastCell g u) k) * m.dy (cell i (lastCell g u) k) * m.dz (cell i (lastCell g u) k))
  have hsrc : content g (onGrid cell (fieldOf st' s .energy_source)) = content g (onGrid cell (fieldOf st s .energy_source))
      + ∑ i ∈ Icc g.xstart g.xend, ∑ k, (taken false i k + taken true i k) := by
    have key : content g (onGrid cell (fieldOf st' s .energy_source) - onGrid cell (fieldOf st s .energy_source)) =
        ∑ i ∈ Icc g.xstart g.xend, ∑ k, (taken false i k + taken true i k) := by
      unfold content
      refine sum_congr rfl fun i hi' => ?_
      have hx := mem_Icc.mp hi'
      have hsm := (hd.walls i hx).same
      rw [sum_comm]
      refine sum_congr rfl fun k _ => ?_
      have hcell : ∀ j, (onGrid cell (fieldOf st' s .energy_source) - onGrid cell (fieldOf st s .energy_source)) i j k * volume g i j =
          added st st' s .energy_source (cell i j k) * (m.J (cell i j k) * m.dx (cell i j k) * m.dy (cell i j k) * m.dz (cell i j k)) := by
        intro j
        rw [hsm.J, hsm.dx, hsm.dz, hd.dy]
        rfl
      simp only [hcell]
      have hl := hd.long
      rw [sum_eq_add_of_mem g.ystart g.yend (mem_Icc.mpr ⟨le_rfl, hl.le⟩) (mem_Icc.mpr ⟨hl.le, le_rfl⟩) hl.ne]
      · rfl
      · intro j hj hne
        have hj' := mem_Icc.mp hj
        rw [source_interior hm hn h hs (hd.inside i j k hx (lt_of_le_of_ne hj'.1 (Ne.symm hne.1)) (lt_of_le_of_ne hj'.2 hne.2)), zero_mul]
    rw [content_sub] at key
    linarith
  rw [hsrc]
  unfold EnergyEquation.endOutflow heatLost
  simp only [taken, out, if_true, if_neg Bool.false_ne_true, sum_add_distrib, sum_sub_distrib, ← mul_sum]
  ring

/-! ## Sheaths only cool -/

omit [DecidableEq ι] in
theorem face_nonneg {f : Fld ι} {a b inn : ι} (h : f b = limitFree (f inn) (f a)) (ha : 0 ≤ f a) : 0 ≤ face f a b := by
  unfold face
  rw [h]
  have := limitFree_nonneg (fm := f inn) ha
  linarith

theorem electronSpeed_nonneg {Me Ge te drop : ℝ} (hG : Ge ≤ 1) : 0 ≤ electronSpeed Me Ge te drop := by
  unfold electronSpeed
  split
  · exact le_rfl
  · have : 0 ≤ 1 - Ge := by linarith
    positivity

/-- The mass with which the sheath computes. -/
noncomputable def massUsed (o : SheathOpts ι) (st : Store Key (Value ι)) (s : String) : ℝ := if s = "e" then electronMassOf o st else mass st s

/-- C106.  No species gains energy at a target: with the density and the pressure of the last cell not negative, the heat lost is not negative. -/
theorem heat_lost_nonneg {o : SheathOpts ι} {m : YMesh ι} {garbage : Fld ι} {names : List String} (hm : MeshOk m)
    (hn : names.Nodup) {st st' : Store Key (Value ι)} (h : sheathBoundary o m garbage names st = (.ok (), st')) (hG : o.Ge ≤ 1)
    {s : String} (hs : HasSheath st names s) (hv : (vals st (.sp s .velocity)).isSome) (hγ : adiabatic st s = 5 / 3) (hM : 0 ≤ massUsed o st s)
    {g : Grid} {B : RhsOps nz} {cell : ℤ → ℤ → Fin nz → ι} {i : ℤ} (hw : Walls g B m cell i) (lim : Limiter) (E₀ w : F3 nz)
    {u : Bool} {k : Fin nz} {inn : ι} (ht : Target m o.lower_y o.upper_y u (cell i (lastCell g u) k) (cell i (guardCell g u) k) inn)
    (hJ : m.J (cell i (lastCell g u) k) ≠ 0) (hdy : m.dy (cell i (lastCell g u) k) ≠ 0)
    (hA : 0 ≤ faceArea m (cell i (lastCell g u) k) (cell i (guardCell g u) k))
    (hN : 0 ≤ fieldOf st' s .density (cell i (lastCell g u) k)) (hP : 0 ≤ fieldOf st' s .pressure (cell i (lastCell g u) k)) :
    0 ≤ heatLost g B lim m cell E₀ w (massUsed o st s) st st' s u i k := by
  have fN := face_nonneg (sheath_limitFree hm hn h hs (v := .density) (by decide) ht) hN
  have fP := face_nonneg (sheath_limitFree hm hn h hs (v := .pressure) (by decide) ht) hP
  by_cases he : s = "e"
  · subst he
    unfold massUsed at hM ⊢
    rw [if_pos rfl] at hM ⊢
    rw [wall_heat_electrons hm hn h hv hγ hw lim E₀ w ht hJ hdy]
    have hs' := electronSpeed_nonneg (Me := electronMassOf o st) (te := face (fieldOf st' "e" .temperature) (cell i (lastCell g u) k) (cell i (guardCell g u) k))
      (drop := facePotential o (phiUsed o m garbage names st) (cell i (lastCell g u) k) inn - o.wall (cell i (lastCell g u) k)) hG
    refine mul_nonneg (le_max_of_le_left ?_) hA
    positivity
  · unfold massUsed at hM ⊢
    rw [if_neg he] at hM ⊢
    rcases hs with rfl | ⟨hmem, hi⟩
    · exact absurd rfl he
    · rw [wall_heat_ions hm hn h hmem hi hv hγ hw lim E₀ w ht]
      refine mul_nonneg ?_ hA
      set T := max (face (fieldOf st' s .temperature) (cell i (lastCell g u) k) (cell i (guardCell g u) k)) 1e-5 with hTdef
      have hT : T ≠ 0 := ne_of_gt (lt_of_lt_of_le (by norm_num) (le_max_right _ _))
      set v := √(min 100 (max 0 (bohmSqAt st st' s (cell i (lastCell g u) k) (cell i (guardCell g u) k))))
      have hv0 : 0 ≤ v := Real.sqrt_nonneg _
      have e : (5 / 2 + mass st s * v ^ 2 / (2 * T)) * T = 5 / 2 * T + 1 / 2 * mass st s * v ^ 2 := by field_simp
      rw [e]
      generalize face (fieldOf st' s .density) _ _ = N at fN ⊢
      generalize face (fieldOf st' s .pressure) _ _ = P at fP ⊢
      have e2 : (5 / 2 * T + 1 / 2 * mass st s * v ^ 2) * N * v + 5 / 2 * (P - N * T) * v = (5 / 2 * P + 1 / 2 * mass st s * N * v ^ 2) * v := by ring
      rw [e2]
      positivity

/-- C106.  Between two sheaths the energy of a species grows by no more than the sources and the work of the momentum sources give it. -/
theorem sheaths_only_cool {o : SheathOpts ι} {m : YMesh ι} {garbage : Fld ι} {names : List String} (hm : MeshOk m)
    (hn : names.Nodup) {st st' : Store Key (Value ι)} (h : sheathBoundary o m garbage names st = (.ok (), st')) (hG : o.Ge ≤ 1)
    {s : String} (hs : HasSheath st names s) (hv : (vals st (.sp s .velocity)).isSome) (hγ : adiabatic st s = 5 / 3) (hM : 0 ≤ massUsed o st s)
    {g : Grid} (hg : Regular g) (hsep : Separable g) {B : RhsOps nz} (hB : DensityEquation.Assumed g B) {cell : ℤ → ℤ → Fin nz → ι} (hd : Domain g B m cell o.lower_y o.upper_y)
    (hA : ∀ i, g.xstart ≤ i ∧ i ≤ g.xend → ∀ k u, 0 ≤ faceArea m (cell i (lastCell g u) k) (cell i (guardCell g u) k))
    (hpos : ∀ i, g.xstart ≤ i ∧ i ≤ g.xend → ∀ k u, 0 ≤ fieldOf st' s .density (cell i (lastCell g u) k) ∧ 0 ≤ fieldOf st' s .pressure (cell i (lastCell g u) k))
    {oE : EnergyOpts} (hCv : oE.Cv = 3 / 2) {lim : Limiter} {E₀ source T w : F3 nz} {sp : SpeciesIn nz} {f : FieldsIn nz}
    (hsc : f.scale_timederivs = none) (hAp : f.Apar_flutter = none)
    (hP : sp.pressure = some (onGrid cell (fieldOf st' s .pressure))) (hT : sp.temperature = some T)
    (hN : sp.density = some (onGrid cell (fieldOf st' s .density))) (hV : sp.velocity = some (onGrid cell (fieldOf st' s .velocity)))
    (hS : sp.energy_source = some (onGrid cell (fieldOf st' s .energy_source)))
    (hAA : sp.AA = some (massUsed o st s)) (hw : waveSpeed sp f = .ok w)
    (hi : EnergyEquation.Sides oE g B sp f (energyBoundary g B oE.Cv (massUsed o st s) (onGrid cell (fieldOf st' s .pressure)) (onGrid cell (fieldOf st' s .density))
      (onGrid cell (fieldOf st' s .velocity)) E₀) (onGrid cell (fieldOf st' s .pressure)) T (onGrid cell (fieldOf st' s .density)) (massUsed o st s))
    {r : F3 nz} (hr : energyRhs oE g B lim E₀ source sp f = .ok r) :
    content g r ≤ content g source + content g (onGrid cell (fieldOf st s .energy_source))
      + content g (onGrid cell (fieldOf st' s .velocity) * sp.momentum_source.getD 0) := by
  rw [energy_between_targets hm hn h hs hg hsep hB hd hCv hsc hAp hP hT hN hV hS hAA hw hi hr]
  refine sub_le_self _ (sum_nonneg fun i hi' => sum_nonneg fun k _ => ?_)
  have hx := mem_Icc.mp hi'
  have hend : ∀ u, 0 ≤ heatLost g B lim m cell E₀ w (massUsed o st s) st st' s u i k := by
    intro u
    obtain ⟨inn, ht⟩ := hd.ends i hx k u
    exact heat_lost_nonneg hm hn h hG hs hv hγ hM (hd.walls i hx) lim E₀ w ht (by rw [(hd.walls i hx).same.J]; exact hg.J_ne _ _)
      (by rw [hd.dy]; exact hg.dy_ne _ _) (hA i hx k u) (hpos i hx k u).1 (hpos i hx k u).2
  exact add_nonneg (hend false) (hend true)

/-- The budget applies to the ions of the example, for any potential. -/
example (φ : ℝ) (E₀ source : F3 2) : ∃ st' r, sheathBoundary sheathDefaults line 0 ["d+", "e"] (biased φ) = (.ok (), st') ∧
    energyRhs { bndry_flux := false, thermal_conduction := false, kappa_coefficient := 3 } longBox (DensityEquation.plainRhs 2) mc E₀ source (ionsIn st') { fastest_wave := some 1 } = .ok r ∧
    content longBox r = content longBox source + content longBox (onGrid lineCell (fieldOf (biased φ) "d+" .energy_source))
      + content longBox (onGrid lineCell (fieldOf st' "d+" .velocity) * 0)
      - ∑ i ∈ Icc longBox.xstart longBox.xend, ∑ k, (heatLost longBox (DensityEquation.plainRhs 2) mc line lineCell E₀ 1 2 (biased φ) st' "d+" false i k
        + heatLost longBox (DensityEquation.plainRhs 2) mc line lineCell E₀ 1 2 (biased φ) st' "d+" true i k) := by
  obtain ⟨st', h⟩ := sheathBoundary_runs (sheathDefaults (ι := Fin 6)) line 0 (biased_ready φ)
  have hB : DensityEquation.Assumed longBox (DensityEquation.plainRhs 2) :=
    ⟨⟨fun _ _ _ => rfl⟩, ⟨rfl, rfl, fun _ _ _ _ _ => rfl⟩, (DensityEquation.plainRhs_assumed 2).d4dz4⟩
  refine ⟨st', _, h, rfl, ?_⟩
  exact energy_between_targets line_ok plasma_nodup h (s := "d+") (Or.inr ⟨by decide, by decide, one_ne_zero⟩) longBox_regular ⟨fun _ _ _ => rfl, fun _ _ _ => rfl, fun _ _ _ _ => rfl⟩
    hB longBox_domain (oE := { bndry_flux := false, thermal_conduction := false, kappa_coefficient := 3 }) rfl (sp := ionsIn st') (f := { fastest_wave := some 1 })
    rfl rfl rfl rfl rfl rfl rfl rfl rfl
    { radial := rfl, lines := fun i _ => Or.inl ⟨rfl, rfl, rfl, fun V hV => by cases hV⟩, lowN := fun c hc => by cases hc } rfl

/-- The electrons of such a plasma as the energy equation reads them. -/
noncomputable def electronsIn (st' : Store Key (Value (Fin 6))) : SpeciesIn 2 :=
  { AA := some (1 / 1836), velocity := some (onGrid lineCell (fieldOf st' "e" .velocity)), density := some (onGrid lineCell (fieldOf st' "e" .density)), pressure := some (onGrid lineCell (fieldOf st' "e" .pressure)), temperature := some (onGrid lineCell (fieldOf st' "e" .temperature)), energy_source := some (onGrid lineCell (fieldOf st' "e" .energy_source)) }

/-- Without sources the electrons of the example lose energy, whatever the potential. -/
example (φ : ℝ) (E₀ : F3 2) : ∃ st' r, sheathBoundary sheathDefaults line 0 ["d+", "e"] (biased φ) = (.ok (), st') ∧
    energyRhs { bndry_flux := false, thermal_conduction := false, kappa_coefficient := 3 } longBox (DensityEquation.plainRhs 2) mc E₀ 0 (electronsIn st') { fastest_wave := some 1 } = .ok r ∧
    content longBox r ≤ 0 := by
  obtain ⟨st', h⟩ := sheathBoundary_runs (sheathDefaults (ι := Fin 6)) line 0 (biased_ready φ)
  have hB : DensityEquation.Assumed longBox (DensityEquation.plainRhs 2) :=
    ⟨⟨fun _ _ _ => rfl⟩, ⟨rfl, rfl, fun _ _ _ _ _ => rfl⟩, (DensityEquation.plainRhs_assumed 2).d4dz4⟩
  have hS : HasSheath (biased φ) ["d+", "e"] "e" := Or.inl rfl
  have hno : ∀ j : Fin 6, j = 1 ∨ j = 4 → ∀ u' i' inn', ¬ Target line true true u' i' j inn' := by
    intro j hj u' i' inn' h'
    rcases line_target h' with ⟨-, -, rfl, -⟩ | ⟨-, -, rfl, -⟩ <;> rcases hj with hj | hj <;> exact absurd hj (by decide)
  have hpos : ∀ j : Fin 6, j = 1 ∨ j = 4 → 0 ≤ fieldOf st' "e" .density j ∧ 0 ≤ fieldOf st' "e" .pressure j := by
    intro j hj
    obtain ⟨h1, -, -⟩ := sheath_interior line_ok plasma_nodup h hS (hno j hj)
    refine ⟨by rw [h1]; exact le_max_right _ _, ?_⟩
    obtain ⟨hp, _⟩ := sheathBoundary_ok plasma_nodup h
    rw [electronResult_eq] at hp
    rw [fieldOf_some hp.p]
    dsimp only
    rw [bothEnds_other (lo := (sheathDefaults (ι := Fin 6)).lower_y) (up := (sheathDefaults (ι := Fin 6)).upper_y) (hno j hj)]
    show (0 : ℝ) ≤ 1 * floorTo 1 0
    rw [floorTo_eq_max]
    norm_num
  have hM : massUsed (sheathDefaults (ι := Fin 6)) (biased φ) "e" = 1 / 1836 := rfl
  refine ⟨st', _, h, rfl, ?_⟩
  have key := sheaths_only_cool line_ok plasma_nodup h (by norm_num [sheathDefaults]) hS rfl rfl (by rw [hM]; norm_num) longBox_regular
    ⟨fun _ _ _ => rfl, fun _ _ _ => rfl, fun _ _ _ _ => rfl⟩ hB longBox_domain
    (fun i _ k u => by unfold faceArea; cases u <;> simp [line])
    (fun i _ k u => hpos _ (by cases u; exacts [Or.inl rfl, Or.inr rfl]))
    (oE := { bndry_flux := false, thermal_conduction := false, kappa_coefficient := 3 }) rfl (E₀ := E₀) (source := 0) (sp := electronsIn st') (f := { fastest_wave := some 1 })
    rfl rfl rfl rfl rfl rfl rfl rfl rfl
    { radial := rfl, lines := fun i _ => Or.inl ⟨rfl, rfl, rfl, fun V hV => by cases hV⟩, lowN := fun c hc => by cases hc } rfl (lim := mc)
  have z1 : onGrid lineCell (fieldOf (biased φ) "e" .energy_source) = (0 : F3 2) := rfl
  have z2 : (electronsIn st').momentum_source.getD 0 = (0 : F3 2) := rfl
  rw [z1, z2, mul_zero, content_zero] at key
  linarith

end Hermes.Sheath
