import Verif.Props.SheathTransmission

/-!
# C105: the energy of a species between two sheaths of `sheath_boundary_simple`

The energy equation is evaluated with the fields and the energy source that the sheath has published.
-/

namespace Hermes.SheathSimple
open Finset Hermes Hermes.Closures Hermes.Sheath Hermes.Limiters Hermes.PerpOps Hermes.Rhs

variable {ι : Type} [DecidableEq ι] {nz : ℕ} [NeZero nz]

/-- All lines of the domain end at targets, and have at least two cells. -/
structure Domain (g : Grid) (B : RhsOps nz) (m : YMesh ι) (cell : ℤ → ℤ → Fin nz → ι) (lo up : Bool) : Prop where
  walls : ∀ i, g.xstart ≤ i ∧ i ≤ g.xend → Walls g B m cell i
  dy : ∀ i j k, m.dy (cell i j k) = g.dy i j
  long : g.ystart < g.yend
  ends : ∀ i, g.xstart ≤ i ∧ i ≤ g.xend → ∀ k u, ∃ inn, Target m lo up u (cell i (lastCell g u) k) (cell i (guardCell g u) k) inn
  inside : ∀ i j k, g.xstart ≤ i ∧ i ≤ g.xend → g.ystart < j → j < g.yend → ∀ u b inn, ¬ Target m lo up u (cell i j k) b inn

/-- The sheath takes no energy from cells that are not next to a target. -/
theorem simple_source_interior {o : SimpleOpts ι} {m : YMesh ι} {garbage : Fld ι} {names : List String}
    (hn : names.Nodup) {st st' : Store Key (Value ι)} (h : sheathBoundarySimple o m garbage names st = (.ok (), st'))
    {s : String} (hs : HasSheath st names s) {j : ι} (hj : ∀ u b inn, ¬ Target m o.lower_y o.upper_y u j b inn) :
    added st st' s .energy_source j = 0 := by
  unfold added
  rcases hs with rfl | ⟨hmem, hi⟩
  · obtain ⟨⟨hp, _⟩, _⟩ := sheathBoundarySimple_ok hn h
    rw [electron_result, bothEndsFlow_fst] at hp
    rw [fieldOf_some hp.src, bothEnds_src_other hj]
    exact sub_self _
  · obtain ⟨r, hr, hp, _⟩ := ion_published hn h hmem hi
    rw [hr, bothEndsFlow_fst] at hp
    rw [fieldOf_some hp.src, bothEnds_src_other hj]
    exact sub_self _

/-- C105.  The energy of a species in the domain changes by the sources, other than that of the sheath, by the work of the momentum
sources, and by the heat that goes to the targets. -/
theorem energy_between_sheaths {o : SimpleOpts ι} {m : YMesh ι} {garbage : Fld ι} {names : List String} (hm : MeshOk m)
    (hn : names.Nodup) {st st' : Store Key (Value ι)} (h : sheathBoundarySimple o m garbage names st = (.ok (), st'))
    {s : String} (hs : HasSheath st names s)
    {g : Grid} (hg : Regular g) (hsep : Separable g) {B : RhsOps nz} (hB : DensityEquation.Assumed g B) {cell : ℤ → ℤ → Fin nz → ι} (hd : Domain g B m cell o.lower_y o.upper_y)
    {oE : EnergyOpts} (hCv : oE.Cv = 3 / 2) {lim : Limiter} {E₀ source T w : F3 nz} {M : ℝ} {sp : SpeciesIn nz} {f : FieldsIn nz}
    (hsc : f.scale_timederivs = none) (hA : f.Apar_flutter = none)
    (hP : sp.pressure = some (onGrid cell (fieldOf st' s .pressure))) (hT : sp.temperature = some T)
    (hN : sp.density = some (onGrid cell (fieldOf st' s .density))) (hV : sp.velocity = some (onGrid cell (fieldOf st' s .velocity)))
    (hS : sp.energy_source = some (onGrid cell (fieldOf st' s .energy_source)))
    (hAA : sp.AA = some M) (hw : waveSpeed sp f = .ok w)
    (hi : EnergyEquation.Sides oE g B sp f (energyBoundary g B oE.Cv M (onGrid cell (fieldOf st' s .pressure)) (onGrid cell (fieldOf st' s .density))
      (onGrid cell (fieldOf st' s .velocity)) E₀) (onGrid cell (fieldOf st' s .pressure)) T (onGrid cell (fieldOf st' s .density)) M)
    {r : F3 nz} (hr : energyRhs oE g B lim E₀ source sp f = .ok r) :
    content g r = content g source + content g (onGrid cell (fieldOf st s .energy_source))
      + content g (onGrid cell (fieldOf st' s .velocity) * sp.momentum_source.getD 0)
      - ∑ i ∈ Icc g.xstart g.xend, ∑ k, (heatToWall g B lim cell E₀ w M st st' s false i k + heatToWall g B lim cell E₀ w M st st' s true i k) := by
  rw [EnergyEquation.energy_balance hg hsep hB hsc hP hT hN hV hAA hw hi hr]
  have h1 : ∀ F V, EnergyEquation.flutterOut g f F V = 0 := fun F V => by unfold EnergyEquation.flutterOut; rw [hA]
  have h2 : EnergyEquation.flutterHeat oE g B sp f (onGrid cell (fieldOf st' s .pressure)) T (onGrid cell (fieldOf st' s .density)) M = 0 := by
    unfold EnergyEquation.flutterHeat
    rw [hA]
    cases oE.thermal_conduction <;> cases sp.collision_frequency <;> rfl
  rw [h1, h2, sub_zero, add_zero, hS, Option.getD_some, hCv]
  have hsrc : content g (onGrid cell (fieldOf st' s .energy_source)) = content g (onGrid cell (fieldOf st s .energy_source))
      - ∑ i ∈ Icc g.xstart g.xend, ∑ k, (out false * added st st' s .energy_flow_ylow (cell i g.ystart k)
        + out true * added st st' s .energy_flow_ylow (cell i (g.yend + 1) k)) := by
    have key : content g (onGrid cell (fieldOf st' s .energy_source) - onGrid cell (fieldOf st s .energy_source)) =
        -∑ i ∈ Icc g.xstart g.xend, ∑ k, (out false * added st st' s .energy_flow_ylow (cell i g.ystart k)
          + out true * added st st' s .energy_flow_ylow (cell i (g.yend + 1) k)) := by
      unfold content
      rw [← sum_neg_distrib]
      refine sum_congr rfl fun i hi' => ?_
      have hx := mem_Icc.mp hi'
      have hsm := (hd.walls i hx).same
      rw [sum_comm, ← sum_neg_distrib]
      refine sum_congr rfl fun k _ => ?_
      have hcell : ∀ j, (onGrid cell (fieldOf st' s .energy_source) - onGrid cell (fieldOf st s .energy_source)) i j k * volume g i j =
          added st st' s .energy_source (cell i j k) * (m.J (cell i j k) * m.dx (cell i j k) * m.dy (cell i j k) * m.dz (cell i j k)) := by
        intro j
        rw [hsm.J, hsm.dx, hsm.dz, hd.dy]
        rfl
      simp only [hcell]
      have hl := hd.long
      rw [sum_eq_add_of_mem g.ystart g.yend (mem_Icc.mpr ⟨le_rfl, hl.le⟩) (mem_Icc.mpr ⟨hl.le, le_rfl⟩) hl.ne]
      · have hend : ∀ u, added st st' s .energy_source (cell i (lastCell g u) k) * (m.J (cell i (lastCell g u) k) * m.dx (cell i (lastCell g u) k)
            * m.dy (cell i (lastCell g u) k) * m.dz (cell i (lastCell g u) k)) =
            -(out u * added st st' s .energy_flow_ylow (if u then cell i (guardCell g u) k else cell i (lastCell g u) k)) := by
          intro u
          obtain ⟨inn, ht⟩ := hd.ends i hx k u
          exact simple_flow_reported hm hn h hs ht (by rw [hsm.J]; exact hg.J_ne _ _) (by rw [hd.dy]; exact hg.dy_ne _ _)
        have e0 := hend false
        have e1 := hend true
        simp only [lastCell, guardCell, if_true, if_neg Bool.false_ne_true] at e0 e1
        rw [e0, e1]
        ring
      · intro j hj hne
        have hj' := mem_Icc.mp hj
        rw [simple_source_interior hn h hs (hd.inside i j k hx (lt_of_le_of_ne hj'.1 (Ne.symm hne.1)) (lt_of_le_of_ne hj'.2 hne.2)), zero_mul]
    rw [content_sub] at key
    linarith
  rw [hsrc]
  unfold EnergyEquation.endOutflow heatToWall
  simp only [out, if_true, if_neg Bool.false_ne_true, sum_add_distrib, sum_sub_distrib, ← mul_sum]
  ring

/-! ## A line between two targets -/

/-- The small box, with four cells along the field. -/
noncomputable def longBox : Grid := { boxGrid with ystart := 1, yend := 4 }

/-- Its lines are those of the example: cells 1 to 4, with a guard cell at either end. -/
def lineCell (_ j : ℤ) (_ : Fin 2) : Fin 6 := if j = 5 then 5 else if j = 4 then 4 else if j = 3 then 3 else if j = 2 then 2 else if j = 1 then 1 else 0

theorem longBox_regular : Regular longBox := by
  constructor <;> intros <;> norm_num [longBox, boxGrid]

theorem longBox_domain : Domain longBox (DensityEquation.plainRhs 2) line lineCell true true where
  walls i _ :=
    { regular := longBox_regular, separable := ⟨fun _ _ _ => rfl, fun _ _ _ => rfl, fun _ _ _ _ => rfl⟩, toFA := fun _ => rfl, fromFA := fun _ => rfl,
      same := ⟨fun _ _ _ => rfl, fun _ _ _ => rfl, fun _ _ _ => rfl, fun _ _ _ => rfl⟩, periodic := rfl, first := rfl, last := rfl }
  dy _ _ _ := rfl
  long := by norm_num [longBox]
  ends i _ k u := by
    cases u
    · exact ⟨2, Target.lower (m := line) (i := 1) rfl (by decide)⟩
    · exact ⟨3, Target.upper (m := line) (i := 4) rfl (by decide)⟩
  inside i j k _ h1 h2 u b inn ht := by
    have h1' : 1 < j := h1
    have h2' : j < 4 := h2
    have hc : lineCell i j k = 2 ∨ lineCell i j k = 3 := by
      rcases (by omega : j = 2 ∨ j = 3) with rfl | rfl
      · exact Or.inl rfl
      · exact Or.inr rfl
    rcases line_target ht with ⟨-, h, -, -⟩ | ⟨-, h, -, -⟩ <;> rcases hc with hc | hc <;> rw [hc] at h <;> exact absurd h (by decide)

/-- The ions of such a plasma as the energy equation reads them. -/
noncomputable def ionsIn (st' : Store Key (Value (Fin 6))) : SpeciesIn 2 :=
  { AA := some 2, velocity := some (onGrid lineCell (fieldOf st' "d+" .velocity)), density := some (onGrid lineCell (fieldOf st' "d+" .density)), pressure := some (onGrid lineCell (fieldOf st' "d+" .pressure)), temperature := some (onGrid lineCell (fieldOf st' "d+" .temperature)), energy_source := some (onGrid lineCell (fieldOf st' "d+" .energy_source)) }

/-- The budget applies to the ions of the example, with any profiles. -/
example (n te ti : Fin 6 → ℝ) (E₀ source : F3 2) : ∃ st' r, sheathBoundarySimple (defaults .exponential) line 0 ["d+", "e"] (twoTemp n te ti) = (.ok (), st') ∧
    energyRhs { bndry_flux := false, thermal_conduction := false, kappa_coefficient := 3 } longBox (DensityEquation.plainRhs 2) mc E₀ source (ionsIn st') { fastest_wave := some 1 } = .ok r ∧
    content longBox r = content longBox source + content longBox (onGrid lineCell (fieldOf (twoTemp n te ti) "d+" .energy_source))
      + content longBox (onGrid lineCell (fieldOf st' "d+" .velocity) * 0)
      - ∑ i ∈ Icc longBox.xstart longBox.xend, ∑ k, (heatToWall longBox (DensityEquation.plainRhs 2) mc lineCell E₀ 1 2 (twoTemp n te ti) st' "d+" false i k
        + heatToWall longBox (DensityEquation.plainRhs 2) mc lineCell E₀ 1 2 (twoTemp n te ti) st' "d+" true i k) := by
  obtain ⟨st', h⟩ := twoTemp_runs .exponential n te ti
  have hB : DensityEquation.Assumed longBox (DensityEquation.plainRhs 2) :=
    ⟨⟨fun _ _ _ => rfl⟩, ⟨rfl, rfl, fun _ _ _ _ _ => rfl⟩, (DensityEquation.plainRhs_assumed 2).d4dz4⟩
  refine ⟨st', _, h, rfl, ?_⟩
  exact energy_between_sheaths line_ok plasma_nodup h (twoTemp_sheath n te ti (Or.inl rfl)) longBox_regular ⟨fun _ _ _ => rfl, fun _ _ _ => rfl, fun _ _ _ _ => rfl⟩
    hB longBox_domain (oE := { bndry_flux := false, thermal_conduction := false, kappa_coefficient := 3 }) rfl (sp := ionsIn st') (f := { fastest_wave := some 1 })
    rfl rfl rfl rfl rfl rfl rfl rfl rfl
    { radial := rfl, lines := fun i _ => Or.inl ⟨rfl, rfl, rfl, fun V hV => by cases hV⟩, lowN := fun c hc => by cases hc } rfl

end Hermes.SheathSimple
