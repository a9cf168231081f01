import Verif.Props.ParMomentum

/-!
# C15 parallel conduction, and index-space diffusion along the line (C18)

`q = flow_ylow` is the flow of heat in the direction of increasing `y`.
-/

namespace Hermes.ParOps
open Finset Hermes Hermes.Limiters

theorem condFluxDown_succ (g : Line) (K f : ℤ → ℝ) (i : ℤ) :
    g.condFluxDown K f (i + 1) = g.condFluxUp K f i := by
  unfold Line.condFluxDown Line.condFluxUp
  simp only [add_sub_cancel_right]
  rw [add_comm (K (i + 1)), add_comm (g.J (i + 1)), add_comm (g.g22 (i + 1)), add_comm (g.dy (i + 1))]

/-- Two neighbouring cells of one processor agree on whether their common face is open. -/
theorem condDown_succ {g : Line} (b : Bool) {i : ℤ} (h1 : g.ystart ≤ i) (h2 : i < g.yend) :
    g.condDown b (i + 1) = true ∧ g.condUp b i = true := by
  unfold Line.condDown Line.condUp
  have e1 : (i + 1 != g.ystart) = true := by simp; omega
  have e2 : (i != g.yend) = true := by simp; omega
  simp [e1, e2]

/-- The heat flux through the upper face of `i` as the code includes it. -/
noncomputable def openUp (g : Line) (K f : ℤ → ℝ) (b : Bool) (i : ℤ) : ℝ :=
  if g.condUp b i then g.condFluxUp K f i else 0
noncomputable def openDown (g : Line) (K f : ℤ → ℝ) (b : Bool) (i : ℤ) : ℝ :=
  if g.condDown b i then g.condFluxDown K f i else 0

theorem divParKGradPar_eq (g : Line) (K f : ℤ → ℝ) (b : Bool) (i : ℤ) :
    g.divParKGradPar K f b i = (openUp g K f b i - openDown g K f b i) / (g.dy i * g.J i) := by
  unfold Line.divParKGradPar openUp openDown
  split_ifs <;> ring

/-- C15, C13.  Inside a processor's cells the reported heat flows reproduce the divergence. -/
theorem conduction_flow_reproduces {g : Line} (hg : Regular g) (hu : UniformPerp g) (K f : ℤ → ℝ) (b : Bool)
    {i : ℤ} (h1 : g.ystart ≤ i) (h2 : i < g.yend) :
    g.divParKGradPar K f b i * volume g i = -(g.condFlow K f b (i + 1) - g.condFlow K f b i) := by
  rw [divParKGradPar_eq, volume_cancel hg hu h1 h2.le]
  unfold Line.condFlow openUp openDown
  rw [(hu (i + 1) g.ystart).1, (hu (i + 1) g.ystart).2, (hu i g.ystart).1, (hu i g.ystart).2,
    condFluxDown_succ, if_pos (condDown_succ b h1 h2).1, if_pos (condDown_succ b h1 h2).2]
  split_ifs <;> ring

theorem openDown_succ {g : Line} (K f : ℤ → ℝ) (b : Bool) {i : ℤ} (h1 : g.ystart ≤ i) (h2 : i < g.yend) :
    openDown g K f b (i + 1) = openUp g K f b i := by
  unfold openDown openUp
  rw [if_pos (condDown_succ b h1 h2).1, if_pos (condDown_succ b h1 h2).2, condFluxDown_succ]

/-- Discrete integration by parts: weighting with any `h`. -/
theorem conduction_weighted {g : Line} (hg : Regular g) (hu : UniformPerp g) (K f h : ℤ → ℝ) (b : Bool) :
    content g (fun i => h i * g.divParKGradPar K f b i) =
      (h g.yend * openUp g K f b g.yend - h g.ystart * openDown g K f b g.ystart
        - ∑ i ∈ Icc g.ystart (g.yend - 1), (h (i + 1) - h i) * g.condFluxUp K f i)
        * (g.dx g.ystart * g.dz g.ystart) := by
  have hn := hg.nonempty
  have s1 : content g (fun i => h i * g.divParKGradPar K f b i) =
      (∑ i ∈ Icc g.ystart g.yend, (h i * openUp g K f b i - h i * openDown g K f b i))
        * (g.dx g.ystart * g.dz g.ystart) := by
    unfold content
    rw [Finset.sum_mul]
    refine Finset.sum_congr rfl fun i hi => ?_
    obtain ⟨h1, h2⟩ := mem_Icc.1 hi
    simp only
    rw [divParKGradPar_eq, mul_assoc, volume_cancel hg hu h1 h2]
    ring
  rw [s1]
  congr 1
  rw [Finset.sum_sub_distrib, sum_Icc_split_last hn]
  have e : ∑ i ∈ Icc g.ystart g.yend, h i * openDown g K f b i =
      h g.ystart * openDown g K f b g.ystart + ∑ i ∈ Icc g.ystart (g.yend - 1), h (i + 1) * openUp g K f b i := by
    have := sum_Icc_shift_pred hn (fun i => h (i + 1) * openDown g K f b (i + 1))
    simp only [sub_add_cancel] at this
    rw [this]
    congr 1
    refine Finset.sum_congr rfl fun i hi => ?_
    obtain ⟨h1, h2⟩ := mem_Icc.1 hi
    rw [openDown_succ K f b h1 (by omega)]
  rw [e]
  have e2 : ∑ i ∈ Icc g.ystart (g.yend - 1), (h (i + 1) - h i) * g.condFluxUp K f i =
      ∑ i ∈ Icc g.ystart (g.yend - 1), h (i + 1) * openUp g K f b i
        - ∑ i ∈ Icc g.ystart (g.yend - 1), h i * openUp g K f b i := by
    rw [← Finset.sum_sub_distrib]
    refine Finset.sum_congr rfl fun i hi => ?_
    obtain ⟨h1, h2⟩ := mem_Icc.1 hi
    unfold openUp
    rw [if_pos (condDown_succ b h1 (by omega)).2]
    ring
  rw [e2]
  ring

theorem closed_ends {g : Line} (hc : Closed g) (K f : ℤ → ℝ) :
    openUp g K f false g.yend = 0 ∧ openDown g K f false g.ystart = 0 := by
  obtain ⟨h1, h2, h3⟩ := hc
  simp [openUp, openDown, Line.condUp, Line.condDown, h1, h2, h3]

/-- C15.  Conduction along a closed line without boundary flux conserves the heat content. -/
theorem conduction_conserves {g : Line} (hg : Regular g) (hu : UniformPerp g) (hc : Closed g)
    (K f : ℤ → ℝ) : content g (g.divParKGradPar K f false) = 0 := by
  have := conduction_weighted hg hu K f (fun _ => 1) false
  simp only [one_mul, sub_self, zero_mul, Finset.sum_const_zero, (closed_ends hc K f).1,
    (closed_ends hc K f).2] at this
  exact this

/-- C15.  Conduction never increases `∑ f² V`: it smooths the temperature, for every non-negative
conductivity and positive metric. -/
theorem conduction_smooths {g : Line} (hg : Regular g) (hpos : Positive g) (hu : UniformPerp g)
    (hc : Closed g) (K f : ℤ → ℝ) (hK : ∀ i, 0 ≤ K i) :
    content g (fun i => f i * g.divParKGradPar K f false i) ≤ 0 := by
  rw [conduction_weighted hg hu, (closed_ends hc K f).1, (closed_ends hc K f).2]
  have s : 0 ≤ ∑ i ∈ Icc g.ystart (g.yend - 1), (f (i + 1) - f i) * g.condFluxUp K f i := by
    refine Finset.sum_nonneg fun i _ => ?_
    unfold Line.condFluxUp
    simp only
    have k := add_nonneg (hK i) (hK (i + 1))
    have j := add_pos (hpos.J i) (hpos.J (i + 1))
    have gg := add_pos (hpos.g22 i) (hpos.g22 (i + 1))
    have d := add_pos (hpos.dy i) (hpos.dy (i + 1))
    have e : (f (i + 1) - f i) * (0.5 * (K i + K (i + 1)) * (0.5 * (g.J i + g.J (i + 1)))
        * (2 * (f (i + 1) - f i) / (g.dy i + g.dy (i + 1))) / (0.5 * (g.g22 i + g.g22 (i + 1)))) =
        (f (i + 1) - f i) ^ 2 * ((0.5 * (K i + K (i + 1)) * (0.5 * (g.J i + g.J (i + 1))) * 2)
          / (g.dy i + g.dy (i + 1)) / (0.5 * (g.g22 i + g.g22 (i + 1)))) := by ring
    rw [e]
    positivity
  have d := mul_pos (hpos.dx g.ystart) (hpos.dz g.ystart)
  nlinarith [mul_nonneg s d.le]

/-- The sign of the face flux. -/
theorem condFluxUp_sign {g : Line} (hpos : Positive g) (K f : ℤ → ℝ) (hK : ∀ i, 0 ≤ K i) (i : ℤ) :
    (f (i + 1) ≤ f i → g.condFluxUp K f i ≤ 0) ∧ (f i ≤ f (i + 1) → 0 ≤ g.condFluxUp K f i) := by
  unfold Line.condFluxUp
  simp only
  have k := add_nonneg (hK i) (hK (i + 1))
  have j := add_pos (hpos.J i) (hpos.J (i + 1))
  have gg := add_pos (hpos.g22 i) (hpos.g22 (i + 1))
  have d := add_pos (hpos.dy i) (hpos.dy (i + 1))
  have e : 0.5 * (K i + K (i + 1)) * (0.5 * (g.J i + g.J (i + 1)))
      * (2 * (f (i + 1) - f i) / (g.dy i + g.dy (i + 1))) / (0.5 * (g.g22 i + g.g22 (i + 1))) =
      (f (i + 1) - f i) * ((0.5 * (K i + K (i + 1)) * (0.5 * (g.J i + g.J (i + 1))) * 2)
        / (g.dy i + g.dy (i + 1)) / (0.5 * (g.g22 i + g.g22 (i + 1)))) := by ring
  rw [e]
  have p : 0 ≤ (0.5 * (K i + K (i + 1)) * (0.5 * (g.J i + g.J (i + 1))) * 2)
        / (g.dy i + g.dy (i + 1)) / (0.5 * (g.g22 i + g.g22 (i + 1))) := by positivity
  constructor
  · intro h; exact mul_nonpos_of_nonpos_of_nonneg (by linarith) p
  · intro h; exact mul_nonneg (by linarith) p

/-- C15.  A cell at least as hot as its neighbours is not heated by conduction and a cell at most as hot is
not cooled, with or without boundary flux. -/
theorem conduction_downhill {g : Line} (hpos : Positive g) (K f : ℤ → ℝ) (hK : ∀ i, 0 ≤ K i) (b : Bool)
    (i : ℤ) :
    (f (i - 1) ≤ f i ∧ f (i + 1) ≤ f i → g.divParKGradPar K f b i ≤ 0) ∧
    (f i ≤ f (i - 1) ∧ f i ≤ f (i + 1) → 0 ≤ g.divParKGradPar K f b i) := by
  have u := condFluxUp_sign hpos K f hK i
  have l := condFluxUp_sign hpos K f hK (i - 1)
  have hd := condFluxDown_succ g K f (i - 1)
  rw [sub_add_cancel] at hd l
  have p := mul_pos (hpos.dy i) (hpos.J i)
  rw [divParKGradPar_eq]
  unfold openUp openDown
  rw [hd]
  constructor
  · rintro ⟨h1, h2⟩
    refine div_nonpos_of_nonpos_of_nonneg ?_ p.le
    have := u.1 h2
    have := l.2 h1
    split_ifs <;> linarith
  · rintro ⟨h1, h2⟩
    refine div_nonneg ?_ p.le
    have := u.2 h2
    have := l.1 h1
    split_ifs <;> linarith

/-- C15.  The reported heat flow goes from hot to cold. -/
theorem conduction_flow_direction {g : Line} (hpos : Positive g) (K f : ℤ → ℝ) (hK : ∀ i, 0 ≤ K i) (b : Bool)
    (i : ℤ) : (f i ≤ f (i - 1) → 0 ≤ g.condFlow K f b i) ∧ (f (i - 1) ≤ f i → g.condFlow K f b i ≤ 0) := by
  have l := condFluxUp_sign hpos K f hK (i - 1)
  have hd := condFluxDown_succ g K f (i - 1)
  rw [sub_add_cancel] at hd l
  have d := mul_pos (hpos.dx i) (hpos.dz i)
  unfold Line.condFlow
  rw [hd]
  constructor
  · intro h
    have := l.1 h
    split_ifs
    · nlinarith
    · exact le_refl _
  · intro h
    have := l.2 h
    split_ifs
    · nlinarith
    · exact le_refl _

/-- C15.  A uniform temperature is not changed. -/
theorem conduction_of_constant (g : Line) (K : ℤ → ℝ) (c : ℝ) (b : Bool) (i : ℤ) :
    g.divParKGradPar K (fun _ => c) b i = 0 := by
  simp [Line.divParKGradPar, Line.condFluxUp, Line.condFluxDown]

/-! ## `Div_par_diffusion_index` -/

/-- Flux through the upper face of `j` in index space, if the face is open. -/
noncomputable def indexFlux (g : Line) (f : ℤ → ℝ) (b : Bool) (j : ℤ) : ℝ :=
  if !b && !g.periodicY && ((j == g.yend) && g.lastY) then 0
  else if !b && !g.periodicY && ((j == g.ystart - 1) && g.firstY) then 0
  else (g.J j + g.J (j + 1)) / 2 * (f (j + 1) - f j)

theorem diffIndex_gather (g : Line) (f : ℤ → ℝ) (b : Bool) {i : ℤ} (h1 : g.ystart ≤ i) (h2 : i ≤ g.yend) :
    g.diffIndex f b i = (indexFlux g f b i - indexFlux g f b (i - 1)) / g.J i := by
  unfold Line.diffIndex
  rw [foldl_observe (g.diffIndexStep f b) (fun r => r i)
    (fun j => (if i = j then indexFlux g f b j / g.J j else 0)
      + (if i = j + 1 then -(indexFlux g f b j / g.J (j + 1)) else 0))]
  · rw [sum_forRange, Finset.sum_add_distrib, sum_pick, sum_pick_succ, if_pos ⟨by omega, h2⟩,
      if_pos ⟨by omega, by omega⟩, sub_add_cancel]
    ring
  · intro r j
    unfold Line.diffIndexStep indexFlux
    by_cases c1 : (!b && !g.periodicY && ((j == g.yend) && g.lastY)) = true
    · rw [if_pos c1, if_pos c1]; simp
    · rw [if_neg c1, if_neg c1]
      by_cases c2 : (!b && !g.periodicY && ((j == g.ystart - 1) && g.firstY)) = true
      · rw [if_pos c2, if_pos c2]; simp
      · rw [if_neg c2, if_neg c2]
        simp only [addAt_apply]
        have e : (0.5 : ℝ) * (g.J j + g.J (j + 1)) = (g.J j + g.J (j + 1)) / 2 := by ring
        rw [e, add_assoc]

/-- C18.  Index-space parallel diffusion conserves `∑ J f` on a closed line without boundary flux … -/
theorem diffIndex_conserves {g : Line} (hg : Regular g) (hc : Closed g) (f : ℤ → ℝ) :
    ∑ i ∈ Icc g.ystart g.yend, g.J i * g.diffIndex f false i = 0 := by
  have e : ∀ i ∈ Icc g.ystart g.yend, g.J i * g.diffIndex f false i =
      indexFlux g f false i - indexFlux g f false (i - 1) := by
    intro i hi
    obtain ⟨h1, h2⟩ := mem_Icc.1 hi
    rw [diffIndex_gather g f false h1 h2, mul_div_cancel₀ _ (hg.J_ne i h1 h2)]
  rw [Finset.sum_congr rfl e, sum_telescope _ _ _ (by have := hg.nonempty; omega)]
  obtain ⟨h1, h2, h3⟩ := hc
  simp [indexFlux, h1, h2, h3]

/-- … and does not raise a maximum or lower a minimum. -/
theorem diffIndex_downhill {g : Line} (hpos : Positive g) (f : ℤ → ℝ) (b : Bool) {i : ℤ}
    (h1 : g.ystart ≤ i) (h2 : i ≤ g.yend) :
    (f (i - 1) ≤ f i ∧ f (i + 1) ≤ f i → g.diffIndex f b i ≤ 0) ∧
    (f i ≤ f (i - 1) ∧ f i ≤ f (i + 1) → 0 ≤ g.diffIndex f b i) := by
  rw [diffIndex_gather g f b h1 h2]
  have u := add_pos (hpos.J i) (hpos.J (i + 1))
  have l := add_pos (hpos.J (i - 1)) (hpos.J i)
  unfold indexFlux
  rw [sub_add_cancel]
  constructor
  · rintro ⟨a1, a2⟩
    refine div_nonpos_of_nonpos_of_nonneg ?_ (hpos.J i).le
    have t1 : (g.J i + g.J (i + 1)) / 2 * (f (i + 1) - f i) ≤ 0 :=
      mul_nonpos_of_nonneg_of_nonpos (by linarith) (by linarith)
    have t2 : 0 ≤ (g.J (i - 1) + g.J i) / 2 * (f i - f (i - 1)) := mul_nonneg (by linarith) (by linarith)
    split_ifs <;> linarith
  · rintro ⟨a1, a2⟩
    refine div_nonneg ?_ (hpos.J i).le
    have t1 : 0 ≤ (g.J i + g.J (i + 1)) / 2 * (f (i + 1) - f i) := mul_nonneg (by linarith) (by linarith)
    have t2 : (g.J (i - 1) + g.J i) / 2 * (f i - f (i - 1)) ≤ 0 :=
      mul_nonpos_of_nonneg_of_nonpos (by linarith) (by linarith)
    split_ifs <;> linarith

/-- Non-vacuity for the conduction theorems: a closed line with varying metric and a temperature peak. -/
example : ∃ (g : Line) (K f : ℤ → ℝ), Regular g ∧ Positive g ∧ UniformPerp g ∧ Closed g ∧ (∀ i, 0 ≤ K i) ∧
    f 2 > f 1 ∧ f 2 > f 3 ∧ K 2 > 0 := by
  let g : Line := ⟨0, 5, true, true, false, fun i => 1 + (i : ℝ) ^ 2, fun i => 2 + (i : ℝ) ^ 2, fun _ => 1,
    fun _ => 1, fun _ => 1⟩
  have hp : Positive g := ⟨fun i => by change 0 < 1 + (i : ℝ) ^ 2; positivity,
    fun i => by change 0 < 2 + (i : ℝ) ^ 2; positivity, fun _ => one_pos, fun _ => one_pos, fun _ => one_pos⟩
  exact ⟨g, fun i => |(i : ℝ)|, fun i => if i = 2 then 1 else 0,
    ⟨by decide, fun i _ _ => (hp.J i).ne', fun i _ _ => (hp.dy i).ne'⟩, hp, fun _ _ => ⟨rfl, rfl⟩,
    ⟨rfl, rfl, rfl⟩, fun i => abs_nonneg _, by norm_num, by norm_num, by norm_num⟩

end Hermes.ParOps
