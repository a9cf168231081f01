import Verif.Props.NeutralDiffusion
import Mathlib.Analysis.SpecialFunctions.Log.Deriv
import Mathlib.Analysis.Complex.ExponentialBounds

/-!
# C65, C66: conduction, binormal diffusion and electron viscosity along the field

C65: `simpleConduction`, `binormalSTPM` and `snbConduction` move heat, momentum and particles along a line without making any.
C66: `electronViscosity` slows the electron flow and respects its flux limit.
-/

namespace Hermes.ParTransport
open Finset Hermes Hermes.ParOps Hermes.Sheath Hermes.ParDiffusion
open Hermes.Closures hiding added fieldOf_congr realOf_congr

variable {st st' : Store Key (Value ℤ)}

/-! ## A line with no flux at its ends -/

/-- Without flux at the ends the guard cells do not matter. -/
theorem shut_congr {g : Line} (hc : Closed g) {K K' f f' : Fld ℤ} (hK : ∀ i, g.ystart ≤ i → i ≤ g.yend → K i = K' i)
    (hf : ∀ i, g.ystart ≤ i → i ≤ g.yend → f i = f' i) {i : ℤ} (h1 : g.ystart ≤ i) (h2 : i ≤ g.yend) : g.divK K f false i = g.divK K' f' false i := by
  unfold Line.divK
  rw [divParKGradPar_eq, divParKGradPar_eq]
  have up : openUp g K f false i = openUp g K' f' false i := by
    rcases lt_or_eq_of_le h2 with h | h
    · unfold openUp Line.condFluxUp
      simp only
      rw [hK i h1 h2, hK (i + 1) (by omega) (by omega), hf i h1 h2, hf (i + 1) (by omega) (by omega)]
    · rw [h, (closed_ends hc K f).1, (closed_ends hc K' f').1]
  have dn : openDown g K f false i = openDown g K' f' false i := by
    rcases lt_or_eq_of_le h1 with h | h
    · unfold openDown Line.condFluxDown
      simp only
      rw [hK i h1 h2, hK (i - 1) (by omega) (by omega), hf i h1 h2, hf (i - 1) (by omega) (by omega)]
    · rw [← h, (closed_ends hc K f).2, (closed_ends hc K' f').2]
  rw [up, dn]

theorem shut_neumann {g : Line} (hc : Closed g) (K f : Fld ℤ) {i : ℤ} (h1 : g.ystart ≤ i) (h2 : i ≤ g.yend) :
    g.divK K f false i = g.divK K (g.neumann f) false i :=
  shut_congr hc (fun _ _ _ => rfl) (fun _ a b => (neumann_inside f a b).symm) h1 h2

/-- `i` is a lowest cell among the cells of the line next to it. -/
def Lowest (g : Line) (f : Fld ℤ) (i : ℤ) : Prop := (i = g.ystart ∨ f i ≤ f (i - 1)) ∧ (i = g.yend ∨ f i ≤ f (i + 1))

/-- At a lowest cell the operator is not negative; nothing is asked of the guard cells. -/
theorem shut_fills {g : Line} (hg : Regular g) (hp : Positive g) (hc : Closed g) {K f : Fld ℤ} (hK : ∀ i, g.ystart ≤ i → i ≤ g.yend → 0 ≤ K i) {i : ℤ}
    (h1 : g.ystart ≤ i) (h2 : i ≤ g.yend) (hm : Lowest g f i) : 0 ≤ g.divK K f false i := by
  rw [shut_neumann hc K f h1 h2]
  have hf := flat_neumann hg hc f
  refine flat_fills hp hf hK false h1 h2 ⟨?_, ?_⟩
  · rcases lt_or_eq_of_le h1 with hlt | heq
    · rw [neumann_inside f h1 h2, neumann_inside f (by omega) (by omega)]
      exact hm.1.resolve_left (by omega)
    · rw [← heq]; exact le_of_eq hf.1.symm
  · rcases lt_or_eq_of_le h2 with hlt | heq
    · rw [neumann_inside f h1 h2, neumann_inside f (by omega) (by omega)]
      exact hm.2.resolve_left (by omega)
    · rw [heq]; exact le_of_eq hf.2.symm

theorem divK_neg (g : Line) (K f : Fld ℤ) (b : Bool) (i : ℤ) : g.divK K (fun i => -f i) b i = -g.divK K f b i := by
  unfold Line.divK
  rw [divParKGradPar_eq, divParKGradPar_eq]
  have u : openUp g K (fun i => -f i) b i = -openUp g K f b i := by
    unfold openUp Line.condFluxUp
    split_ifs <;> ring
  have d : openDown g K (fun i => -f i) b i = -openDown g K f b i := by
    unfold openDown Line.condFluxDown
    split_ifs <;> ring
  rw [u, d]
  ring

/-- At a highest cell it is not positive. -/
theorem shut_drains {g : Line} (hg : Regular g) (hp : Positive g) (hc : Closed g) {K f : Fld ℤ} (hK : ∀ i, g.ystart ≤ i → i ≤ g.yend → 0 ≤ K i) {i : ℤ}
    (h1 : g.ystart ≤ i) (h2 : i ≤ g.yend) (hm : Lowest g (fun i => -f i) i) : g.divK K f false i ≤ 0 := by
  have := shut_fills hg hp hc hK h1 h2 hm
  rw [divK_neg] at this
  linarith

theorem content_scale (g : Line) (c : ℝ) (f : Fld ℤ) : content g (fun i => c * f i) = c * content g f := by
  unfold content
  rw [Finset.mul_sum]
  exact Finset.sum_congr rfl fun i _ => by ring

/-! ## Simple conduction -/

/-- The density used in the coefficient. -/
noncomputable def conductionN (o : ConductionOpts) (st : Store Key (Value ℤ)) (n : String) : Fld ℤ :=
  if o.density > 0 then fun _ => o.density else fieldOf st n .density

/-- Conductivity in a state. -/
noncomputable def conductivity (o : ConductionOpts) (st : Store Key (Value ℤ)) (n : String) : Fld ℤ :=
  conductionKappa o (realOf st n .AA) (conductionN o st n) (fieldOf st n .temperature)

theorem simpleConduction_ok {g : Line} {o : ConductionOpts} {n : String} {u : Unit} (h : simpleConduction g o n st = (.ok u, st')) :
    (∀ i, added st st' n .energy_source i = g.divK (conductivity o st n) (fieldOf st n .temperature) o.boundary_flux i) ∧
    ∀ k, k ≠ .sp n .energy_source → vals st' k = vals st k := by
  unfold simpleConduction at h
  obtain ⟨s1, e1, h⟩ := getNoBndryF_bind h
  have : ∃ s2, vals s2 = vals st ∧ ((getR n .AA : Prog ℤ ℝ) >>= fun AA => addF n .energy_source
      (g.divK (conductionKappa o AA (conductionN o st n) (fieldOf st n .temperature)) (fieldOf st n .temperature) o.boundary_flux)) s2 = (.ok u, st') := by
    unfold conductionN
    by_cases hd : o.density > 0
    · rw [if_pos hd] at h ⊢
      obtain ⟨N, s2, a, h⟩ := M_bind_ok h
      obtain ⟨rfl, rfl⟩ := pure_ok a
      exact ⟨_, e1, h⟩
    · rw [if_neg hd] at h ⊢
      obtain ⟨s2, e2, h⟩ := getNoBndryF_bind h
      rw [fieldOf_congr (congrFun e1 _)] at h
      exact ⟨s2, e2.trans e1, h⟩
  obtain ⟨s2, e2, h⟩ := this
  obtain ⟨s3, e3, h⟩ := getR_bind h
  rw [realOf_congr (congrFun e2 _)] at h
  have e3' := e3.trans e2
  obtain ⟨d, k⟩ := add_field_ok h
  refine ⟨fun i => ?_, fun q hq => by rw [k q hq, e3']⟩
  unfold added
  rw [d i, fieldOf_congr (congrFun e3' _)]
  unfold conductivity
  ring

/-- **C65.**  With the boundary flux off, as by default, conduction moves heat along a closed line without making any, whatever the guard
cells contain and whatever the sign of the Coulomb logarithm. -/
theorem conduction_keeps_heat {g : Line} (hg : Regular g) (hu : UniformPerp g) (hc : Closed g) {o : ConductionOpts} (hb : o.boundary_flux = false) {n : String} {u : Unit}
    (h : simpleConduction g o n st = (.ok u, st')) : content g (added st st' n .energy_source) = 0 := by
  rw [content_ext (simpleConduction_ok h).1, hb]
  exact conduction_conserves hg hu hc _ _

/-- **C65.**  Heat flows from hot to cold where the Coulomb logarithm is positive: the coldest cell does not lose heat and the hottest
does not gain any. -/
theorem conduction_downhill_partial {g : Line} (hg : Regular g) (hp : Positive g) (hc : Closed g) {o : ConductionOpts} (hb : o.boundary_flux = false) {n : String} {u : Unit}
    (h : simpleConduction g o n st = (.ok u, st')) (hk : 0 ≤ o.kappa0) (hT : ∀ i, g.ystart ≤ i → i ≤ g.yend → 0 ≤ fieldOf st n .temperature i)
    (hlog : ∀ i, g.ystart ≤ i → i ≤ g.yend → 0 < coulombLog o (conductionN o st n i) (conductionT o (fieldOf st n .temperature) i)) {i : ℤ}
    (h1 : g.ystart ≤ i) (h2 : i ≤ g.yend) :
    (Lowest g (fieldOf st n .temperature) i → 0 ≤ added st st' n .energy_source i) ∧
    (Lowest g (fun i => -fieldOf st n .temperature i) i → added st st' n .energy_source i ≤ 0) := by
  have hK : ∀ i, g.ystart ≤ i → i ≤ g.yend → 0 ≤ conductivity o st n i := by
    intro i a b
    unfold conductivity conductionKappa
    refine div_nonneg (mul_nonneg hk (Real.rpow_nonneg ?_ _)) (mul_nonneg (hlog i a b).le (Real.sqrt_nonneg _))
    unfold conductionT
    split_ifs with ht
    · exact le_of_lt ht
    · exact hT i a b
  rw [(simpleConduction_ok h).1 i, hb]
  exact ⟨shut_fills hg hp hc hK h1 h2, shut_drains hg hp hc hK h1 h2⟩

/-- The Coulomb logarithm is positive in every plasma of at least 1 eV and at most `10²⁴` particles per cubic metre. -/
theorem coulombLog_pos {o : ConductionOpts} {N T : ℝ} (hN : 0 < N * o.Nnorm) (hN' : N * o.Nnorm ≤ 1e24) (hT : 1 ≤ T * o.Tnorm) : 0 < coulombLog o N T := by
  unfold coulombLog
  have a : Real.log (N * o.Nnorm / 1e20) ≤ 14 * Real.log 2 := by
    rw [show 14 * Real.log 2 = Real.log (2 ^ 14) by rw [Real.log_pow]; norm_num]
    refine Real.log_le_log (by positivity) ?_
    rw [div_le_iff₀ (by norm_num)]
    linarith
  have b := Real.log_two_lt_d9
  have c := Real.log_nonneg hT
  linarith

section
open Hermes.Runs

/-- Access of a component that reads `F` and adds to the sources. -/
def srcAccess (F : Key → Prop) : Access where
  found := F
  own k := (∃ s, k = .sp s .density_source) ∨ (∃ s, k = .sp s .momentum_source) ∨ ∃ s, k = .sp s .energy_source
  edge _ := False
  num k := ∃ s, k = .sp s .AA

theorem src_not_own {F : Key → Prop} (s : String) {v : Var} (h1 : v ≠ .density_source) (h2 : v ≠ .momentum_source) (h3 : v ≠ .energy_source) :
    ¬(srcAccess F).own (.sp s v) := by
  rintro (⟨_, e⟩ | ⟨_, e⟩ | ⟨_, e⟩)
  · exact h1 (Key.sp.inj e).2
  · exact h2 (Key.sp.inj e).2
  · exact h3 (Key.sp.inj e).2

theorem src_add {F : Key → Prop} {s : String} {v : Var} {f : Fld ℤ} (hv : v = .density_source ∨ v = .momentum_source ∨ v = .energy_source) :
    Runs (srcAccess F) (addF s v f) := by
  refine runs_add ?_ ?_
  · rcases hv with rfl | rfl | rfl
    · exact Or.inl ⟨_, rfl⟩
    · exact Or.inr (Or.inl ⟨_, rfl⟩)
    · exact Or.inr (Or.inr ⟨_, rfl⟩)
  · rintro ⟨_, e⟩
    rcases hv with rfl | rfl | rfl <;> cases e

/-- Conduction ends normally if temperature, density and mass are known. -/
theorem simpleConduction_runs (g : Line) (o : ConductionOpts) (n : String) :
    Runs (srcAccess fun k => k = .sp n .temperature ∨ k = .sp n .density ∨ k = .sp n .AA) (simpleConduction g o n) := by
  unfold simpleConduction
  refine Runs.bind (runs_getNB (Or.inl rfl) (src_not_own _ (by decide) (by decide) (by decide))) fun T => ?_
  refine Runs.bind (Runs.ite (fun _ => Runs.pure _) fun _ => runs_getNB (Or.inr (Or.inl rfl)) (src_not_own _ (by decide) (by decide) (by decide))) fun N => ?_
  refine Runs.bind (runs_getR (Or.inr (Or.inr rfl)) ⟨_, rfl⟩ (src_not_own _ (by decide) (by decide) (by decide)) id) fun AA => ?_
  exact src_add (Or.inr (Or.inr rfl))

/-- Binormal diffusion ends normally if the mass of every species is known. -/
theorem binormalSTPM_runs (g : Line) (o : StpmOpts) (names : List String) :
    Runs (srcAccess fun k => ∃ s ∈ names, k = .sp s .AA) (binormalSTPM g o names) := by
  have rd : ∀ s v, v ≠ .density_source → v ≠ .momentum_source → v ≠ .energy_source →
      Runs (srcAccess fun k => ∃ s ∈ names, k = .sp s .AA) (readOrZero s v) := by
    intro s v h1 h2 h3
    unfold readOrZero
    exact Runs.ifSet tests_isSet (runs_getNB (Or.inr rfl) (src_not_own _ h1 h2 h3)) (Runs.pure _)
  unfold binormalSTPM
  refine Runs.forM names fun n hn => ?_
  unfold stpmSpecies
  refine Runs.bind (runs_getR ⟨n, hn, rfl⟩ ⟨_, rfl⟩ (src_not_own _ (by decide) (by decide) (by decide)) id) fun AA => ?_
  refine Runs.bind (rd _ _ (by decide) (by decide) (by decide)) fun N => ?_
  refine Runs.bind (rd _ _ (by decide) (by decide) (by decide)) fun T => ?_
  refine Runs.bind (rd _ _ (by decide) (by decide) (by decide)) fun NV => ?_
  refine Runs.bind (src_add (Or.inr (Or.inr rfl))) fun _ => ?_
  refine Runs.bind (src_add (Or.inr (Or.inl rfl))) fun _ => ?_
  exact src_add (Or.inl rfl)

/-- Species of mass `m` with density `N`, temperature `T` and velocity `V`. -/
noncomputable def matter (m : ℝ) (N T V : Fld ℤ) : Store Key (Value ℤ) where
  ent
    | .sp _ .density => { val := some (.field N), final := false, finalDomain := false }
    | .sp _ .temperature => { val := some (.field T), final := false, finalDomain := false }
    | .sp _ .pressure => { val := some (.field fun i => N i * T i), final := false, finalDomain := false }
    | .sp _ .velocity => { val := some (.field V), final := false, finalDomain := false }
    | .sp _ .momentum => { val := some (.field fun i => m * N i * V i), final := false, finalDomain := false }
    | .sp _ .collision_frequency => { val := some (.field fun _ => 1), final := false, finalDomain := false }
    | .sp _ .AA => { val := some (.real m), final := false, finalDomain := false }
    | .top "mesh:dy" => { val := some (.field fun _ => 1), final := false, finalDomain := false }
    | _ => { val := none, final := false, finalDomain := false }
  check := true

theorem matter_fits {F : Key → Prop} {m : ℝ} {N T V : Fld ℤ} (hF : ∀ k, F k → (vals (matter m N T V) k).isSome) : Fit (srcAccess F) (matter m N T V) :=
  ⟨by rintro k ⟨s, rfl⟩ x hx; exact ⟨_, (Option.some.inj hx).symm⟩, hF,
   by rintro k (⟨s, rfl⟩ | ⟨s, rfl⟩ | ⟨s, rfl⟩) <;> exact ⟨rfl, rfl⟩, fun k hk => hk.elim⟩

theorem matter_conducts (g : Line) (o : ConductionOpts) (m : ℝ) (N T V : Fld ℤ) : ∃ st', simpleConduction g o "e" (matter m N T V) = (.ok (), st') := by
  obtain ⟨_, st', h, -⟩ := simpleConduction_runs g o "e" (matter m N T V) (matter_fits (by rintro k (rfl | rfl | rfl) <;> rfl))
  exact ⟨st', h⟩

end

/-- Temperature in eV: a dip in the middle. -/
noncomputable def dip (a b : ℝ) : Fld ℤ := fun i => if i = 1 then a else b

/-- The hypotheses of the theorems above are met. -/
example : ∃ st', simpleConduction threeCells ⟨1, 1e20, 1, -1, -1, false⟩ "e" (matter (1 / 1836) (fun _ => 1) (dip 5 10) fun _ => 0) = (.ok (), st') ∧
    (∀ i, 0 < coulombLog ⟨1, 1e20, 1, -1, -1, false⟩ 1 (dip 5 10 i)) ∧ Lowest threeCells (dip 5 10) 1 := by
  obtain ⟨st', h⟩ := matter_conducts threeCells ⟨1, 1e20, 1, -1, -1, false⟩ (1 / 1836) (fun _ => 1) (dip 5 10) (fun _ => 0)
  refine ⟨st', h, fun i => coulombLog_pos (by norm_num) (by norm_num) ?_, Or.inr ?_, Or.inr ?_⟩
  · unfold dip; split_ifs <;> norm_num
  · norm_num [dip]
  · norm_num [dip]

theorem log_ten_gt : 2.28 < Real.log 10 := by
  have h : Real.log (2 ^ 33) < Real.log (10 ^ 10) := Real.log_lt_log (by norm_num) (by norm_num)
  rw [Real.log_pow, Real.log_pow] at h
  have := Real.log_two_gt_d9
  push_cast at h
  linarith

theorem cold_log_neg {T : ℝ} (h0 : 0 < T) (h : T ≤ 1e-2) : coulombLog ⟨1, 1e20, 1, -1, -1, false⟩ 1 T < 0 := by
  unfold coulombLog
  have a : Real.log T ≤ -(2 * Real.log 10) := by
    have : Real.log T ≤ Real.log 1e-2 := Real.log_le_log h0 h
    rw [show (1e-2 : ℝ) = (10 ^ 2)⁻¹ by norm_num, Real.log_inv, Real.log_pow] at this
    push_cast at this
    exact this
  have b := log_ten_gt
  rw [show (1 : ℝ) * 1e20 / 1e20 = 1 by norm_num, Real.log_one, mul_one]
  linarith

/-- **C65 fails in cold plasma.**  Below about 0.012 eV at `10²⁰` m⁻³ the Coulomb logarithm is negative, and so is the conductivity: a closed
plasma with a cold cell at 0.005 eV between cells at 0.01 eV cools that cell further. -/
theorem cold_plasma_conducts_uphill :
    ∃ st', simpleConduction threeCells ⟨1, 1e20, 1, -1, -1, false⟩ "e" (matter 1 (fun _ => 1) (dip 0.005 0.01) fun _ => 0) = (.ok (), st') ∧
      added (matter 1 (fun _ => 1) (dip 0.005 0.01) fun _ => 0) st' "e" .energy_source 1 < 0 := by
  obtain ⟨st', h⟩ := matter_conducts threeCells ⟨1, 1e20, 1, -1, -1, false⟩ 1 (fun _ => 1) (dip 0.005 0.01) (fun _ => 0)
  refine ⟨st', h, ?_⟩
  rw [(simpleConduction_ok h).1 1]
  set K := conductivity ⟨1, 1e20, 1, -1, -1, false⟩ (matter 1 (fun _ => 1) (dip 0.005 0.01) fun _ => 0) "e" with hK
  have neg : ∀ i, K i < 0 := by
    intro i
    have e : K i = 1 * dip 0.005 0.01 i ^ (2.5 : ℝ) / (coulombLog ⟨1, 1e20, 1, -1, -1, false⟩ 1 (dip 0.005 0.01 i) * Real.sqrt 1) := by
      rw [hK]
      unfold conductivity conductionKappa conductionN conductionT
      rw [if_neg (show ¬((-1 : ℝ) > 0) by norm_num), if_neg (show ¬((-1 : ℝ) > 0) by norm_num)]
      rfl
    have hT : 0 < dip 0.005 0.01 i ∧ dip 0.005 0.01 i ≤ 1e-2 := by
      unfold dip
      split_ifs <;> norm_num
    rw [e, Real.sqrt_one, mul_one, one_mul]
    exact div_neg_of_pos_of_neg (Real.rpow_pos_of_pos hT.1 _) (cold_log_neg hT.1 hT.2)
  have hT : fieldOf (matter 1 (fun _ => 1) (dip 0.005 0.01) fun _ => 0) "e" .temperature = dip 0.005 0.01 := rfl
  rw [hT]
  have a := neg 0
  have b := neg 1
  have c := neg 2
  norm_num [Line.divK, Line.divParKGradPar, Line.condUp, Line.condDown, Line.condFluxUp, Line.condFluxDown, threeCells, dip]
  linarith

/-! ## Binormal diffusion -/

theorem readOrZero_bind {β : Type} {n : String} {v : Var} {f : Fld ℤ → Prog ℤ β} {st st'' : Store Key (Value ℤ)} {b : β}
    (h : (readOrZero n v >>= f) st = (.ok b, st'')) : ∃ s, vals s = vals st ∧ f (fieldOf st n v) s = (.ok b, st'') := by
  obtain ⟨x, s1, h1, h2⟩ := M_bind_ok h
  unfold readOrZero at h1
  replace h1 := isSet_bind h1
  cases hs : (vals st (.sp n v)).isSome
  · rw [hs] at h1
    obtain ⟨rfl, rfl⟩ := pure_ok h1
    refine ⟨_, rfl, ?_⟩
    have : fieldOf s1 n v = fun _ => 0 := by
      unfold fieldOf
      rw [show vals s1 (.sp n v) = none from Option.not_isSome_iff_eq_none.1 (by rw [hs]; simp)]
      rfl
    rw [this]
    exact h2
  · rw [hs] at h1
    have h' : (getNoBndryF n v >>= f) st = (.ok b, st'') := by
      show M.bind (getNoBndryF n v) f st = _
      unfold M.bind
      rw [show getNoBndryF n v st = (.ok x, s1) from h1]
      exact h2
    exact getNoBndryF_bind h'

theorem stpmSpecies_ok {g : Line} {o : StpmOpts} {n : String} {u : Unit} (h : stpmSpecies g o n st = (.ok u, st')) :
    (∀ i, added st st' n .energy_source i = 1 / o.Theta * g.divK (fun i => o.chi / o.Theta * fieldOf st n .density i) (fieldOf st n .temperature) false i) ∧
    (∀ i, added st st' n .momentum_source i = 1 / o.Theta * g.divK (fun _ => realOf st n .AA * (o.nu / o.Theta)) (fieldOf st n .momentum) false i) ∧
    (∀ i, added st st' n .density_source i = 1 / o.Theta * g.divK (fun _ => o.D / o.Theta) (fieldOf st n .density) false i) ∧
    ∀ k, k ≠ .sp n .density_source → k ≠ .sp n .energy_source → k ≠ .sp n .momentum_source → vals st' k = vals st k := by
  unfold stpmSpecies at h
  obtain ⟨s1, e1, h⟩ := getR_bind h
  obtain ⟨s2, e2, h⟩ := readOrZero_bind h
  obtain ⟨s3, e3, h⟩ := readOrZero_bind h
  obtain ⟨s4, e4, h⟩ := readOrZero_bind h
  have e2' := e2.trans e1
  have e3' := e3.trans e2'
  have e4' := e4.trans e3'
  rw [fieldOf_congr (congrFun e1 _), fieldOf_congr (congrFun e2' _), fieldOf_congr (congrFun e3' _)] at h
  obtain ⟨_, s5, a5, h⟩ := M_bind_ok h
  obtain ⟨_, s6, a6, h⟩ := M_bind_ok h
  obtain ⟨d5, k5⟩ := add_field_ok a5
  obtain ⟨d6, k6⟩ := add_field_ok a6
  obtain ⟨d7, k7⟩ := add_field_ok h
  refine ⟨fun i => ?_, fun i => ?_, fun i => ?_, fun k h1 h2 h3 => ?_⟩
  · unfold added
    rw [fieldOf_congr (show vals st' (.sp n .energy_source) = vals s5 _ by rw [k7 _ (by simp), k6 _ (by simp)]), d5 i, fieldOf_congr (congrFun e4' _)]
    ring
  · unfold added
    rw [fieldOf_congr (show vals st' (.sp n .momentum_source) = vals s6 _ by rw [k7 _ (by simp)]), d6 i,
      fieldOf_congr (show vals s5 (.sp n .momentum_source) = vals st _ by rw [k5 _ (by simp), e4'])]
    ring
  · unfold added
    rw [d7 i, fieldOf_congr (show vals s6 (.sp n .density_source) = vals st _ by rw [k6 _ (by simp), k5 _ (by simp), e4'])]
    ring
  · rw [k7 k h1, k6 k h3, k5 k h2, e4']

/-- What a successful call does to each species. -/
theorem binormal_ok {g : Line} {o : StpmOpts} {names : List String} {u : Unit} (hn : names.Nodup) (h : binormalSTPM g o names st = (.ok u, st')) {n : String} (hmem : n ∈ names) :
    (∀ i, added st st' n .energy_source i = 1 / o.Theta * g.divK (fun i => o.chi / o.Theta * fieldOf st n .density i) (fieldOf st n .temperature) false i) ∧
    (∀ i, added st st' n .momentum_source i = 1 / o.Theta * g.divK (fun _ => realOf st n .AA * (o.nu / o.Theta)) (fieldOf st n .momentum) false i) ∧
    ∀ i, added st st' n .density_source i = 1 / o.Theta * g.divK (fun _ => o.D / o.Theta) (fieldOf st n .density) false i := by
  obtain ⟨t, t', u', ht, b, a⟩ := (forM_bodies (fun n s u s' h k hk => (stpmSpecies_ok h).2.2.2 k (hk _) (hk _) (hk _)) hn h).1 n hmem
  obtain ⟨r1, r2, r3, -⟩ := stpmSpecies_ok ht
  rw [added_congr (b _) (a _), fieldOf_congr (b _), fieldOf_congr (b _)] at r1
  rw [added_congr (b _) (a _), fieldOf_congr (b _), realOf_congr (b _)] at r2
  rw [added_congr (b _) (a _), fieldOf_congr (b _)] at r3
  exact ⟨r1, r2, r3⟩

/-- **C65.**  Binormal diffusion keeps the particles, the momentum and the heat of every species on a closed line. -/
theorem binormal_conserves {g : Line} (hg : Regular g) (hu : UniformPerp g) (hc : Closed g) {o : StpmOpts} {names : List String} {u : Unit} (hn : names.Nodup)
    (h : binormalSTPM g o names st = (.ok u, st')) {n : String} (hmem : n ∈ names) :
    content g (added st st' n .density_source) = 0 ∧ content g (added st st' n .momentum_source) = 0 ∧ content g (added st st' n .energy_source) = 0 := by
  obtain ⟨r1, r2, r3⟩ := binormal_ok hn h hmem
  have z : ∀ K f, content g (fun i => 1 / o.Theta * g.divK K f false i) = 0 := by
    intro K f
    rw [content_scale, show content g (fun i => g.divK K f false i) = 0 from conduction_conserves hg hu hc K f, mul_zero]
  exact ⟨(content_ext r3).trans (z _ _), (content_ext r2).trans (z _ _), (content_ext r1).trans (z _ _)⟩

/-- **C65.**  The emptiest cell does not lose particles and the coldest does not lose heat. -/
theorem binormal_fills {g : Line} (hg : Regular g) (hp : Positive g) (hc : Closed g) {o : StpmOpts} {names : List String} {u : Unit} (hn : names.Nodup)
    (h : binormalSTPM g o names st = (.ok u, st')) {n : String} (hmem : n ∈ names) (hth : 0 < o.Theta) (hD : 0 ≤ o.D) (hchi : 0 ≤ o.chi)
    (hN : ∀ i, g.ystart ≤ i → i ≤ g.yend → 0 ≤ fieldOf st n .density i) {i : ℤ} (h1 : g.ystart ≤ i) (h2 : i ≤ g.yend) :
    (Lowest g (fieldOf st n .density) i → 0 ≤ added st st' n .density_source i) ∧
    (Lowest g (fieldOf st n .temperature) i → 0 ≤ added st st' n .energy_source i) := by
  obtain ⟨r1, -, r3⟩ := binormal_ok hn h hmem
  rw [r1 i, r3 i]
  have t : 0 ≤ 1 / o.Theta := by positivity
  exact ⟨fun hl => mul_nonneg t (shut_fills hg hp hc (fun _ _ _ => div_nonneg hD hth.le) h1 h2 hl),
    fun hl => mul_nonneg t (shut_fills hg hp hc (fun j a b => mul_nonneg (div_nonneg hchi hth.le) (hN j a b)) h1 h2 hl)⟩

theorem matter_diffuses (g : Line) (o : StpmOpts) (m : ℝ) (N T V : Fld ℤ) : ∃ st', binormalSTPM g o ["d+", "e"] (matter m N T V) = (.ok (), st') := by
  obtain ⟨_, st', h, -⟩ := binormalSTPM_runs g o ["d+", "e"] (matter m N T V) (matter_fits (by rintro k ⟨s, -, rfl⟩; rfl))
  exact ⟨st', h⟩

theorem unit_divK (K : ℝ) (f : Fld ℤ) : threeCells.divK (fun _ => K) f false 1 = K * (f 2 - f 1) - K * (f 1 - f 0) := by
  norm_num [Line.divK, Line.divParKGradPar, Line.condUp, Line.condDown, Line.condFluxUp, Line.condFluxDown, threeCells]
  ring

/-- **C65 fails for the mass.**  `NV` contains the mass and the coefficient multiplies it by the mass again: if particles and momentum of a species diffuse with equal
coefficients, a plasma that moves with one velocity should go on doing so; for mass 2 it does not: `∂(NV)/∂t ≠ AA V ∂N/∂t`. -/
theorem binormal_counts_mass_twice : ∃ st', binormalSTPM threeCells ⟨1, 0, 1, 1⟩ ["d+", "e"] (matter 2 (dip 1 2) (fun _ => 1) fun _ => 1) = (.ok (), st') ∧
    added (matter 2 (dip 1 2) (fun _ => 1) fun _ => 1) st' "d+" .momentum_source 1 = 2 * (2 * 1 * added (matter 2 (dip 1 2) (fun _ => 1) fun _ => 1) st' "d+" .density_source 1) ∧
    added (matter 2 (dip 1 2) (fun _ => 1) fun _ => 1) st' "d+" .density_source 1 = 2 := by
  obtain ⟨st', h⟩ := matter_diffuses threeCells ⟨1, 0, 1, 1⟩ 2 (dip 1 2) (fun _ => 1) (fun _ => 1)
  obtain ⟨-, r2, r3⟩ := binormal_ok (by decide) h (n := "d+") (by simp)
  have hNV : fieldOf (matter 2 (dip 1 2) (fun _ => 1) fun _ => 1) "d+" .momentum = fun i => 2 * dip 1 2 i * 1 := rfl
  have hN : fieldOf (matter 2 (dip 1 2) (fun _ => 1) fun _ => 1) "d+" .density = dip 1 2 := rfl
  have hA : realOf (matter 2 (dip 1 2) (fun _ => 1) fun _ => 1) "d+" .AA = 2 := rfl
  refine ⟨st', h, ?_, ?_⟩
  · rw [r2, r3, hNV, hN, hA, unit_divK, unit_divK]
    norm_num [dip]
  · rw [r3, hN, unit_divK]
    norm_num [dip]

/-- **C65 fails for the heat the particles carry.**  In plasma of one temperature particles diffuse into the emptier cell, no heat comes with them, and
that cell cools below the temperature of its surroundings: the rate of `N T`, two thirds of the energy source, is less than `T ∂N/∂t`. -/
theorem binormal_cools_uniform_plasma : ∃ st', binormalSTPM threeCells ⟨1, 1, 1, 1⟩ ["d+", "e"] (matter 2 (dip 1 2) (fun _ => 1) fun _ => 0) = (.ok (), st') ∧
    2 / 3 * added (matter 2 (dip 1 2) (fun _ => 1) fun _ => 0) st' "d+" .energy_source 1 <
      fieldOf (matter 2 (dip 1 2) (fun _ => 1) fun _ => 0) "d+" .temperature 1 * added (matter 2 (dip 1 2) (fun _ => 1) fun _ => 0) st' "d+" .density_source 1 := by
  obtain ⟨st', h⟩ := matter_diffuses threeCells ⟨1, 1, 1, 1⟩ 2 (dip 1 2) (fun _ => 1) (fun _ => 0)
  obtain ⟨r1, -, r3⟩ := binormal_ok (by decide) h (n := "d+") (by simp)
  have hT : fieldOf (matter 2 (dip 1 2) (fun _ => 1) fun _ => 0) "d+" .temperature = fun _ => 1 := rfl
  have hN : fieldOf (matter 2 (dip 1 2) (fun _ => 1) fun _ => 0) "d+" .density = dip 1 2 := rfl
  refine ⟨st', h, ?_⟩
  rw [r1, r3, hT, hN, unit_divK, divK_const]
  norm_num [dip]

/-- The hypotheses of the theorems above are met. -/
example : ∃ st', binormalSTPM threeCells ⟨1, 1, 1, 1⟩ ["d+", "e"] (matter 2 (dip 1 2) (dip 3 4) fun _ => 0) = (.ok (), st') ∧
    Lowest threeCells (dip 1 2) 1 ∧ Lowest threeCells (dip 3 4) 1 := by
  obtain ⟨st', h⟩ := matter_diffuses threeCells ⟨1, 1, 1, 1⟩ 2 (dip 1 2) (dip 3 4) (fun _ => 0)
  exact ⟨st', h, ⟨Or.inr (by norm_num [dip]), Or.inr (by norm_num [dip])⟩, ⟨Or.inr (by norm_num [dip]), Or.inr (by norm_num [dip])⟩⟩

/-! ## SNB conduction -/

theorem dy_bind {β : Type} {f : Fld ℤ → Prog ℤ β} {st st'' : Store Key (Value ℤ)} {b : β} (h : (getNonFinal asField dyKey >>= f) st = (.ok b, st'')) :
    f (topField st "mesh:dy") st = (.ok b, st'') := by
  obtain ⟨a, s', h1, h2⟩ := M_bind_ok h
  unfold getNonFinal at h1
  unfold topField
  cases e : vals st dyKey with
  | none => rw [show (st.ent dyKey).val = none from e] at h1; cases h1
  | some x =>
    rw [show (st.ent dyKey).val = some x from e] at h1
    have e' : vals st (.top "mesh:dy") = some x := e
    rw [e']
    cases x with
    | real r => cases h1; exact h2
    | field q => cases h1; exact h2

/-- **C65.**  After a call that ends normally the mesh spacing is what it was, and the electrons have lost the divergence of the non-local heat flux, computed from
the temperature in eV, the density in m⁻³ and distances in metres, and divided by the units of an energy source. -/
theorem snb_ok {F : Fld ℤ → Fld ℤ → Fld ℤ → Option (Fld ℤ)} {rho_s0 Tnorm Nnorm Omega_ci : ℝ} {u : Unit}
    (h : snbConduction F rho_s0 Tnorm Nnorm Omega_ci st = (.ok u, st')) :
    (∃ q, F (fun i => topField st "mesh:dy" i * rho_s0) (fun i => fieldOf st "e" .temperature i * Tnorm) (fun i => fieldOf st "e" .density i * Nnorm) = some q ∧
      ∀ i, added st st' "e" .energy_source i = -(q i / (Tnorm * Nnorm * Omega_ci))) ∧
    topField st' "mesh:dy" = topField st "mesh:dy" ∧
    ∀ k, k ≠ dyKey → k ≠ .sp "e" .energy_source → vals st' k = vals st k := by
  unfold snbConduction at h
  obtain ⟨s1, e1, h⟩ := getF_bind h
  obtain ⟨s2, e2, h⟩ := getF_bind h
  have e2' := e2.trans e1
  replace h := dy_bind h
  rw [fieldOf_congr (congrFun e1 _), show topField s2 "mesh:dy" = topField st "mesh:dy" by unfold topField; rw [e2']] at h
  obtain ⟨_, s3, a3, h⟩ := M_bind_ok h
  obtain ⟨q, s4, a4, h⟩ := M_bind_ok h
  obtain ⟨_, s5, a5, h⟩ := M_bind_ok h
  have f3 : ∀ k, vals s3 k = if k = dyKey then some (.field fun i => topField st "mesh:dy" i * rho_s0) else vals s2 k := by
    cases a3
    exact fun k => force_val s2 dyKey k _
  unfold snbFlux at a4
  obtain ⟨d, k⟩ := sub_field_ok h
  cases hF : F (fun i => topField st "mesh:dy" i * rho_s0) (fun i => fieldOf st "e" .temperature i * Tnorm) (fun i => fieldOf st "e" .density i * Nnorm) with
  | none => rw [hF] at a4; cases a4
  | some q' =>
    rw [hF] at a4
    obtain ⟨rfl, rfl⟩ := pure_ok a4
    have f5 : ∀ k, vals s5 k = if k = dyKey then some (.field (topField st "mesh:dy")) else vals s4 k := by
      cases a5
      exact fun k => force_val s4 dyKey k _
    have other : ∀ k, k ≠ dyKey → vals s5 k = vals st k := by
      intro k hk
      rw [f5, if_neg hk, f3, if_neg hk, e2']
    refine ⟨⟨q, rfl, fun i => ?_⟩, ?_, fun k' h1 h2 => ?_⟩
    · unfold added
      rw [d i, fieldOf_congr (other _ (by unfold dyKey; simp))]
      ring
    · unfold topField
      rw [k _ (by simp), f5, if_pos (show Key.top "mesh:dy" = dyKey from rfl)]
      rfl
    · rw [k k' h2, other k' h1]

/-- **C65 fails when the heat flux calculation throws**: the exception leaves the spacing of the mesh, which everything else uses, multiplied by `rho_s0`. -/
theorem snb_exception_leaves_mesh_scaled :
    ∃ st', snbConduction (fun _ _ _ => none) 2 1 1 1 (matter 1 (fun _ => 1) (fun _ => 1) fun _ => 0) = (.error .custom, st') ∧
      (∀ i, topField (matter 1 (fun _ => 1) (fun _ => 1) fun _ => 0) "mesh:dy" i = 1) ∧ ∀ i, topField st' "mesh:dy" i = 2 := by
  refine ⟨_, rfl, fun i => rfl, fun i => ?_⟩
  show (1 : ℝ) * 2 = 2
  norm_num

/-- The hypothesis of `snb_ok` is met. -/
example : ∃ st', snbConduction (fun dy T _ => some fun i => T i / dy i) 2 1 1 1 (matter 1 (fun _ => 1) (fun _ => 1) fun _ => 0) = (.ok (), st') := ⟨_, rfl⟩

/-! ## Electron viscosity -/

variable {gradPar : Fld ℤ → Fld ℤ} {B : Fld ℤ} {alpha : ℝ}

/-- The viscosity used in a state. -/
noncomputable def etaOf (g : Line) (gradPar : Fld ℤ → Fld ℤ) (alpha : ℝ) (st : Store Key (Value ℤ)) : Fld ℤ :=
  electronEta g gradPar alpha (fieldOf st "e" .collision_frequency) (fieldOf st "e" .pressure) (fieldOf st "e" .velocity)

theorem electronViscosity_ok {g : Line} {u : Unit} (h : electronViscosity g gradPar B alpha st = (.ok u, st')) :
    (vals st (.sp "e" .pressure)).isSome ∧ (vals st (.sp "e" .velocity)).isSome ∧
    (∀ i, added st st' "e" .momentum_source i =
      Real.sqrt (B i) * g.divK (fun i => etaOf g gradPar alpha st i / B i) (fun i => Real.sqrt (B i) * fieldOf st "e" .velocity i) true i) ∧
    ∀ k, k ≠ .sp "e" .momentum_source → vals st' k = vals st k := by
  unfold electronViscosity at h
  obtain ⟨s1, e1, h⟩ := isSetFinal_bind h
  obtain ⟨hp, h⟩ := throwIf_bind h
  obtain ⟨s2, e2, h⟩ := isSetFinal_bind h
  obtain ⟨hv, h⟩ := throwIf_bind h
  obtain ⟨s3, e3, h⟩ := getF_bind h
  obtain ⟨s4, e4, h⟩ := getF_bind h
  obtain ⟨s5, e5, h⟩ := getF_bind h
  have e2' := e2.trans e1
  have e3' := e3.trans e2'
  have e4' := e4.trans e3'
  have e5' := e5.trans e4'
  rw [fieldOf_congr (congrFun e2' _), fieldOf_congr (congrFun e3' _), fieldOf_congr (congrFun e4' _)] at h
  obtain ⟨d, k⟩ := add_field_ok h
  refine ⟨Bool.eq_true_of_not_eq_false hp, ?_, fun i => ?_, fun q hq => by rw [k q hq, e5']⟩
  · rw [congrFun e1 _] at hv
    exact Bool.eq_true_of_not_eq_false hv
  · unfold added etaOf
    rw [d i, fieldOf_congr (congrFun e5' _)]
    ring

/-- **C66.**  Without pressure or velocity of the electrons the component refuses to run, and it changes nothing but the momentum source of the electrons. -/
theorem viscosity_needs_electrons {g : Line} (hm : vals st (.sp "e" .pressure) = none ∨ vals st (.sp "e" .velocity) = none) (u : Unit) :
    electronViscosity g gradPar B alpha st ≠ (.ok u, st') := by
  intro h
  obtain ⟨a, b, -⟩ := electronViscosity_ok h
  rcases hm with e | e
  · rw [e] at a; cases a
  · rw [e] at b; cases b

/-- Electrons with pressure and collisions in a magnetic field. -/
structure Electrons (g : Line) (B : Fld ℤ) (st : Store Key (Value ℤ)) : Prop where
  field : ∀ i, g.ystart ≤ i → i ≤ g.yend → 0 < B i
  pressure : ∀ i, g.ystart ≤ i → i ≤ g.yend → 0 ≤ fieldOf st "e" .pressure i
  collisions : ∀ i, g.ystart ≤ i → i ≤ g.yend → 0 < fieldOf st "e" .collision_frequency i

theorem etaOf_nonneg {g : Line} (h : Electrons g B st) {i : ℤ} (h1 : g.ystart ≤ i) (h2 : i ≤ g.yend) : 0 ≤ etaOf g gradPar alpha st i := by
  have e : 0 ≤ 4 / 3 * 0.73 * fieldOf st "e" .pressure i * (1 / fieldOf st "e" .collision_frequency i) :=
    mul_nonneg (mul_nonneg (by norm_num) (h.pressure i h1 h2)) (one_div_pos.2 (h.collisions i h1 h2)).le
  unfold etaOf electronEta
  dsimp only
  split_ifs
  · rw [neumann_inside _ h1 h2]
    exact div_nonneg e (by positivity)
  · exact e

/-- **C66.**  If no stress acts at the ends, viscosity takes kinetic energy from the electron flow: it never drives it, limited or not. -/
theorem viscosity_slows {g : Line} (hg : Regular g) (hp : Positive g) (hu : UniformPerp g) {u : Unit} (h : electronViscosity g gradPar B alpha st = (.ok u, st'))
    (he : Electrons g B st) (hf : FlatEnds g fun i => Real.sqrt (B i) * fieldOf st "e" .velocity i) :
    content g (fun i => fieldOf st "e" .velocity i * added st st' "e" .momentum_source i) ≤ 0 := by
  have e : content g (fun i => fieldOf st "e" .velocity i * added st st' "e" .momentum_source i) =
      content g (fun i => (Real.sqrt (B i) * fieldOf st "e" .velocity i) * g.divK (fun i => etaOf g gradPar alpha st i / B i)
        (fun i => Real.sqrt (B i) * fieldOf st "e" .velocity i) true i) := content_ext fun i => by
    rw [(electronViscosity_ok h).2.2.1 i]
    ring
  rw [e]
  exact flat_dissipates hg hp hu hf (fun i a b => div_nonneg (etaOf_nonneg he a b) (he.field i a b).le) true

/-- **C66.**  The limiter keeps the stress `η ∂V` within `alpha` times the pressure and never raises the viscosity. -/
theorem flux_limit_respected {g : Line} (ha : 0 < alpha) {i : ℤ} (h1 : g.ystart ≤ i) (h2 : i ≤ g.yend) (hP : 0 < fieldOf st "e" .pressure i)
    (hnu : 0 < fieldOf st "e" .collision_frequency i) :
    |etaOf g gradPar alpha st i * gradPar (fieldOf st "e" .velocity) i| ≤ alpha * fieldOf st "e" .pressure i ∧
    etaOf g gradPar alpha st i ≤ 4 / 3 * 0.73 * fieldOf st "e" .pressure i / fieldOf st "e" .collision_frequency i := by
  set P := fieldOf st "e" .pressure i
  set nu := fieldOf st "e" .collision_frequency i
  set G := gradPar (fieldOf st "e" .velocity) i
  have e0 : 0 < 4 / 3 * 0.73 * P * (1 / nu) := by positivity
  have he : etaOf g gradPar alpha st i = 4 / 3 * 0.73 * P * (1 / nu) / (1 + |4 / 3 * 0.73 * P * (1 / nu) * G / (alpha * P)|) := by
    unfold etaOf electronEta
    dsimp only
    rw [if_pos ha, neumann_inside _ h1 h2]
  set E := 4 / 3 * 0.73 * P * (1 / nu)
  have aP : 0 < alpha * P := mul_pos ha hP
  have d : 0 < 1 + |E * G / (alpha * P)| := by positivity
  refine ⟨?_, ?_⟩
  · rw [he, abs_mul, abs_div, abs_of_pos d, abs_of_pos e0, div_mul_eq_mul_div, div_le_iff₀ d, mul_add, abs_div, abs_mul, abs_of_pos e0, abs_of_pos aP,
      mul_div_cancel₀ _ aP.ne']
    linarith
  · rw [he, show 4 / 3 * 0.73 * P / nu = E by show _ = 4 / 3 * 0.73 * P * (1 / nu); ring, div_le_iff₀ d]
    nlinarith [abs_nonneg (E * G / (alpha * P))]

section
open Hermes.Runs

/-- Electron viscosity ends normally if collision frequency, pressure and velocity of the electrons are known. -/
theorem electronViscosity_runs {g : Line} {m : ℝ} {N T V : Fld ℤ} : ∃ st', electronViscosity g gradPar B alpha (matter m N T V) = (.ok (), st') := ⟨_, rfl⟩

end

/-- **C66 fails for the energy.**  Electrons of uniform pressure between two walls lose kinetic energy by viscosity, and the energy source is not changed. -/
theorem electron_viscous_heat_lost :
    ∃ st', electronViscosity threeCells (fun f => f) (fun _ => 1) (-1) (matter 1 (fun _ => 1) (fun _ => 1) lastMoves) = (.ok (), st') ∧
      Electrons threeCells (fun _ => 1) (matter 1 (fun _ => 1) (fun _ => 1) lastMoves) ∧
      (∀ i, added (matter 1 (fun _ => 1) (fun _ => 1) lastMoves) st' "e" .energy_source i = 0) ∧
      content threeCells (fun i => fieldOf (matter 1 (fun _ => 1) (fun _ => 1) lastMoves) "e" .velocity i *
        added (matter 1 (fun _ => 1) (fun _ => 1) lastMoves) st' "e" .momentum_source i) = -(4 / 3 * 0.73) := by
  obtain ⟨st', h⟩ := electronViscosity_runs (g := threeCells) (gradPar := fun f => f) (B := fun _ => 1) (alpha := -1) (m := 1) (N := fun _ => 1) (T := fun _ => 1) (V := lastMoves)
  obtain ⟨-, -, r, k⟩ := electronViscosity_ok h
  refine ⟨st', h, ⟨fun _ _ _ => one_pos, fun i _ _ => ?_, fun i _ _ => ?_⟩, fun i => ?_, ?_⟩
  · show (0 : ℝ) ≤ 1 * 1
    norm_num
  · show (0 : ℝ) < 1
    norm_num
  · unfold added
    rw [fieldOf_congr (k _ (by simp)), sub_self]
  · have hV : fieldOf (matter 1 (fun _ => 1) (fun _ => 1) lastMoves) "e" .velocity = lastMoves := rfl
    have hE : (fun i => etaOf threeCells (fun f => f) (-1) (matter 1 (fun _ => 1) (fun _ => 1) lastMoves) i / 1) = fun _ => 4 / 3 * 0.73 := by
      funext i
      unfold etaOf electronEta
      dsimp only
      rw [if_neg (by norm_num)]
      show 4 / 3 * 0.73 * (1 * 1) * (1 / 1) / 1 = _
      norm_num
    rw [hV, hE, Real.sqrt_one] at r
    unfold content
    rw [show Icc threeCells.ystart threeCells.yend = {0, 1, 2} from by decide]
    rw [Finset.sum_insert (by decide), Finset.sum_insert (by decide), Finset.sum_singleton]
    beta_reduce
    rw [hV, r, r, r]
    norm_num [lastMoves, volume, threeCells, Line.divK, Line.divParKGradPar, Line.condUp, Line.condDown, Line.condFluxUp, Line.condFluxDown]

end Hermes.ParTransport
