import Verif.Props.RelaxPotential
import Verif.Lemmas.DriftRuns
import Mathlib.Data.Fin.VecNotation
import Mathlib.Algebra.BigOperators.Fin

/-!
# Drifts: states that meet the hypotheses, and states in which the properties fail (C67, C68, C69)
-/

set_option linter.unusedSectionVars false

namespace Hermes.Drifts
open Hermes.Closures Hermes.Effects Hermes.Runs

noncomputable section

/-- Three cells in a ring. -/
def nxt : Fin 3 → Fin 3 := ![1, 2, 0]
def prv : Fin 3 → Fin 3 := ![2, 0, 1]

/-- Central differences on the ring, in a field of strength one. -/
def ring3 : DriftOps (Fin 3) where
  curv f := fun i => f (nxt i) - f (prv i)
  divCurv f := fun i => f (nxt i) - f (prv i)
  divFlow f a := fun i => f (nxt i) * a (nxt i) - f (prv i) * a (prv i)
  divAGrad a f := fun i => (a i + a (nxt i)) / 2 * (f (nxt i) - f i) - (a i + a (prv i)) / 2 * (f i - f (prv i))
  divPar f := fun i => f (nxt i) - f (prv i)
  neumann f := f
  freeP f := f
  freePhi f := f
  Bsq _ := 1

def vort3 : VortOps (Fin 3) where
  exb n f := fun i => n (nxt i) * f i - n i * f (prv i)
  bracket f g := fun i => f i * (g (nxt i) - g (prv i))
  delp2 f := fun i => f (nxt i) - 2 * f i + f (prv i)
  free f := f
  parDiss f c := fun i => (c i + c (nxt i)) * (f i - f (nxt i)) - (c i + c (prv i)) * (f (prv i) - f i)
  d4dz4 f := fun i => 3 * (2 * f i - f (nxt i) - f (prv i))
  sheathPhi f i := if i = 0 then some (f 0) else none
  fromFA f := f
  coreAvg _ := fun _ => 0
  B _ := 1

theorem ring_adjoint : Adjoint ring3 (fun _ => 1) Finset.univ := by
  intro f g
  simp only [Fin.sum_univ_three, ring3, nxt, prv, Matrix.cons_val]
  ring

theorem ring_linear : Linear ring3.curv := ⟨fun f g i => by simp only [ring3]; ring, fun c f i => by simp only [ring3]; ring⟩

theorem ring_linear_coef (phi : Fld (Fin 3)) : Linear fun a => ring3.divAGrad a phi :=
  ⟨fun f g i => by simp only [ring3]; ring, fun c f i => by simp only [ring3]; ring⟩

theorem ring_linear_flow (a : Fld (Fin 3)) : Linear (ring3.divAGrad a) :=
  ⟨fun f g i => by simp only [ring3]; ring, fun c f i => by simp only [ring3]; ring⟩

theorem ring_conservative : Conservative ring3 vort3 (fun _ => 1) Finset.univ := by
  constructor <;> intros <;> unfold amount <;> simp only [Fin.sum_univ_three, ring3, vort3, nxt, prv, Matrix.cons_val] <;> ring

theorem ring_flow (f a : Fld (Fin 3)) : amount (fun _ => 1) Finset.univ (ring3.divFlow f a) = 0 := by
  unfold amount
  simp only [Fin.sum_univ_three, ring3, nxt, prv, Matrix.cons_val]
  ring

theorem ring_dissipates : Dissipates ring3 (fun _ => 1) Finset.univ := by
  intro a f ha
  simp only [Fin.sum_univ_three, ring3, nxt, prv, Matrix.cons_val]
  have h0 := ha 0
  have h1 := ha 1
  have h2 := ha 2
  have a1 := mul_nonneg (add_nonneg h0 h1) (sq_nonneg (f 1 - f 0))
  have a2 := mul_nonneg (add_nonneg h1 h2) (sq_nonneg (f 2 - f 1))
  have a3 := mul_nonneg (add_nonneg h2 h0) (sq_nonneg (f 0 - f 2))
  nlinarith

theorem ring_once : FreeOnce ring3 := fun _ => rfl
theorem ring_guards (D : Finset (Fin 3)) : GuardsOnly ring3 D := fun _ _ _ => ⟨rfl, rfl, rfl⟩

/-- Electrons, and ions of mass two and charge `Z`. -/
def masses (n : String) : ℝ := if n = "e" then 1 / 1836 else 2
def charges (Z : ℝ) (n : String) : ℝ := if n = "e" then -1 else Z

/-- Fields of the species: density `N`, pressure `Pe` and `Pi`, momentum, collision frequency. -/
def content (N Pe Pi NV nu : Fld (Fin 3)) : Var → String → Option (Fld (Fin 3))
  | .density, _ => some N
  | .pressure, n => some (if n = "e" then Pe else Pi)
  | .temperature, n => some fun i => (if n = "e" then Pe else Pi) i / N i
  | .momentum, n => some (if n = "e" then fun _ => 0 else NV)
  | .collision_frequency, n => some (if n = "e" then fun _ => 0 else nu)
  | _, _ => none

/-- Nothing outside the species. -/
def bare : String → Option (Fld (Fin 3)) := fun _ => none

/-- A plasma of electrons and ions. -/
def pair (Z : ℝ) (N Pe Pi NV nu : Fld (Fin 3)) (top : String → Option (Fld (Fin 3))) : Store Key (Value (Fin 3)) :=
  plasma masses (charges Z) (content N Pe Pi NV nu) top

theorem pair_fits {K T : String → Prop} (Z : ℝ) (N Pe Pi NV nu : Fld (Fin 3)) {top : String → Option (Fld (Fin 3))} (h : ∀ k, K k → (top k).isSome = true) :
    Fit (driftAccess K T) (pair Z N Pe Pi NV nu top) := plasma_fits (fun _ => rfl) h

theorem Fit.forget {ι : Type} {K T : String → Prop} {st : Store Key (Value ι)} (h : Fit (driftAccess K T) st) : Fit (driftAccess K fun _ => False) st := by
  refine ⟨h.typed, h.found, fun k hk => ?_, h.edge⟩
  cases k with
  | sp n v => exact h.own _ hk
  | top k => exact hk.elim

/-- Which fields are found does not matter beyond their being set. -/
theorem Fit.find {ι : Type} {K K' T : String → Prop} {st : Store Key (Value ι)} (h : Fit (driftAccess K T) st) (hk : ∀ k, K' k → (vals st (.top k)).isSome = true) :
    Fit (driftAccess K' T) st := by
  refine ⟨h.typed, fun k hf => ?_, h.own, h.edge⟩
  cases k with
  | sp n v => exact h.found (.sp n v) (by cases v <;> first | exact trivial | exact hf)
  | top k => exact hk k hf

theorem pair_charged (Z : ℝ) (hZ : 1 ≤ |Z|) (N Pe Pi NV nu : Fld (Fin 3)) (top : String → Option (Fld (Fin 3))) (n : String) :
    Charged (vals (pair Z N Pe Pi NV nu top)) n := by
  refine ⟨rfl, ?_⟩
  show 1e-5 ≤ |charges Z n|
  unfold charges
  split
  · norm_num
  · exact le_trans (by norm_num) hZ

/-- All fields the drift components set. -/
abbrev drifting : String → Prop := fun _ => True

/-- The three components one after the other. -/
theorem chain_runs (form : Fld (Fin 3)) (p : VortOpts (Fin 3)) (q : PolOpts) (solve : Fld (Fin 3) → Fld (Fin 3)) (solve' : Fld (Fin 3) → Fld (Fin 3) → Fld (Fin 3))
    (Vort : Fld (Fin 3)) (hq : q.diamagnetic_polarisation = true → q.boussinesq = true) (Z : ℝ) (N Pe Pi NV nu : Fld (Fin 3)) (top : String → Option (Fld (Fin 3))) :
    ∃ a s1 s2 s3, diamagneticDrift ring3 form ["e", "d+"] (pair Z N Pe Pi NV nu top) = (.ok (), s1) ∧
      vorticityTransform ring3 p solve Vort ["e", "d+"] s1 = (.ok a, s2) ∧ polarisationDrift ring3 q solve' ["e", "d+"] s2 = (.ok (), s3) := by
  obtain ⟨_, s1, h1, f1⟩ := diamagnetic_runs (.refl) ring3 form ["e", "d+"] _ (pair_fits (K := fun _ => False) (T := drifting) Z N Pe Pi NV nu (top := top) fun k h => h.elim)
  obtain ⟨a, s2, h2, f2⟩ := vorticity_runs (.refl) ring3 p solve Vort ["e", "d+"] trivial trivial trivial trivial _ f1
  obtain ⟨_, s3, h3, -⟩ := polarisation_runs (.refl) ring3 q solve' ["e", "d+"] (fun _ h => h) hq _ (Fit.forget f2)
  exact ⟨a, s1, s2, s3, h1, h2, h3⟩

/-- Options with everything off that could be. -/
def plainVort : VortOpts (Fin 3) :=
  { exb_advection := false, viscosity := fun _ => 0, phi_dissipation := false }

/-- The hypotheses of `drift_charge`, `drift_conserves`, `vorticity_energy` and `drift_energy_conserved` are met. -/
example : ∃ a s1 s2 s3, diamagneticDrift ring3 (fun _ => 1) ["e", "d+"] (pair 1 ![1, 2, 3] ![1, 0, 0] ![0, 1, 0] ![0, 0, 1] ![1, 1, 2] bare) = (.ok (), s1) ∧
      vorticityTransform ring3 plainVort (fun Pi i => 3 - Pi i) ![1, -1, 0] ["e", "d+"] s1 = (.ok a, s2) ∧
      polarisationDrift ring3 { advection := false } (fun _ _ => 0) ["e", "d+"] s2 = (.ok (), s3) ∧ ["e", "d+"].Nodup ∧ plainVort.diamagnetic = true ∧
      plainVort.diamagnetic_polarisation = true ∧ plainVort.collisional_friction = false ∧ ({ advection := false } : PolOpts).average_atomic_mass = plainVort.avg ∧
      Adjoint ring3 (fun _ => 1) Finset.univ ∧ GuardsOnly ring3 Finset.univ ∧ FreeOnce ring3 ∧ Linear ring3.curv ∧
      (∀ f a, amount (fun _ => 1) Finset.univ (ring3.divFlow f a) = 0) ∧ s1 ≠ s2 := by
  obtain ⟨a, s1, s2, s3, h1, h2, h3⟩ := chain_runs (fun _ => 1) plainVort { advection := false } (fun Pi i => 3 - Pi i) (fun _ _ => 0) ![1, -1, 0] (fun _ => rfl)
    1 ![1, 2, 3] ![1, 0, 0] ![0, 1, 0] ![0, 0, 1] ![1, 1, 2] bare
  refine ⟨a, s1, s2, s3, h1, h2, h3, by decide, rfl, rfl, rfl, rfl, ring_adjoint, ring_guards _, ring_once, ring_linear, ring_flow, ?_⟩
  rintro rfl
  have hv := (vorticity_transform ring_once (by decide) h2).2.2.2.2.2.1
  have hs := (drift_sources (by decide) h1).1 (.top "fields:phi") rfl
  rw [hs] at hv
  cases hv

/-- One cell between two walls: the solver of the polarisation potential. -/
def wallSolve (C b : Fld (Fin 3)) : Fld (Fin 3) := fun i => if i = 1 then -(C 1 * b 1) / ((C 1 + C 2) / 2 + (C 1 + C 0) / 2) else 0

theorem wall_solves {C : Fld (Fin 3)} (h : (C 1 + C 2) / 2 + (C 1 + C 0) / 2 ≠ 0) : Solves ring3 wallSolve C {1} := by
  intro b i hi
  rw [Finset.mem_singleton] at hi
  subst hi
  have e0 : wallSolve C b 0 = 0 := if_neg (by decide)
  have e2 : wallSolve C b 2 = 0 := if_neg (by decide)
  have e1 : wallSolve C b 1 = -(C 1 * b 1) / ((C 1 + C 2) / 2 + (C 1 + C 0) / 2) := if_pos rfl
  simp only [ring3, nxt, prv, Matrix.cons_val]
  rw [e0, e1, e2]
  have h' : C 1 + C 2 + (C 1 + C 0) ≠ 0 := fun e => h (by linear_combination e / 2)
  field_simp
  ring

theorem pair_mass (Z : ℝ) (hZ : 1 ≤ |Z|) (N Pe Pi NV nu : Fld (Fin 3)) (top : String → Option (Fld (Fin 3))) (i : Fin 3) :
    massDensity (vals (pair Z N Pe Pi NV nu top)) ["e", "d+"] i = (1 / 1836 + 2) * N i := by
  unfold massDensity total
  rw [List.map_cons, List.map_cons, List.map_nil, when_pos ⟨rfl, pair_charged Z hZ ..⟩, when_pos ⟨rfl, pair_charged Z hZ ..⟩]
  show [masses "e" * N i, masses "d+" * N i].sum = _
  unfold masses
  rw [if_pos rfl, if_neg (by decide)]
  simp only [List.sum_cons, List.sum_nil]
  ring

/-- The hypotheses of `polarisation_closes_current` and `drifts_close_current` are met. -/
example : ∃ a s1 s2 s3, diamagneticDrift ring3 (fun _ => 0) ["e", "d+"] (pair 1 ![1, 2, 3] ![1, 0, 0] ![0, 1, 0] ![0, 0, 1] ![1, 1, 2] bare) = (.ok (), s1) ∧
      vorticityTransform ring3 plainVort (fun Pi i => 3 - Pi i) ![1, -1, 0] ["e", "d+"] s1 = (.ok a, s2) ∧
      polarisationDrift ring3 { boussinesq := false, diamagnetic_polarisation := false } wallSolve ["e", "d+"] s2 = (.ok (), s3) ∧
      Solves ring3 wallSolve (fun i => massDensity (vals (pair 1 ![1, 2, 3] ![1, 0, 0] ![0, 1, 0] ![0, 0, 1] ![1, 1, 2] bare)) ["e", "d+"] i / ring3.Bsq i) {1} ∧
      (∀ i, polDensity { boussinesq := false, diamagnetic_polarisation := false } (vals (pair 1 ![1, 2, 3] ![1, 0, 0] ![0, 1, 0] ![0, 0, 1] ![1, 1, 2] bare)) ["e", "d+"] i =
        massDensity (vals (pair 1 ![1, 2, 3] ![1, 0, 0] ![0, 1, 0] ![0, 0, 1] ![1, 1, 2] bare)) ["e", "d+"] i) ∧
      ring3.divCurv (chargedPressure ring3.freeP (vals (pair 1 ![1, 2, 3] ![1, 0, 0] ![0, 1, 0] ![0, 0, 1] ![1, 1, 2] bare)) ["e", "d+"]) 1 =
        ring3.curv (driftPressure (vals (pair 1 ![1, 2, 3] ![1, 0, 0] ![0, 1, 0] ![0, 0, 1] ![1, 1, 2] bare)) ["e", "d+"]) 1 ∧
      (∀ phi, Linear fun a => ring3.divAGrad a phi) := by
  obtain ⟨a, s1, s2, s3, h1, h2, h3⟩ := chain_runs (fun _ => 0) plainVort { boussinesq := false, diamagnetic_polarisation := false } (fun Pi i => 3 - Pi i) wallSolve
    ![1, -1, 0] (fun h => by cases h) 1 ![1, 2, 3] ![1, 0, 0] ![0, 1, 0] ![0, 0, 1] ![1, 1, 2] bare
  have hm := pair_mass 1 (by norm_num) ![1, 2, 3] ![1, 0, 0] ![0, 1, 0] ![0, 0, 1] ![1, 1, 2] bare
  refine ⟨a, s1, s2, s3, h1, h2, h3, wall_solves ?_, fun i => polDensity_eq rfl ?_, ?_, ring_linear_coef⟩
  · simp only [hm]
    show ((1 / 1836 + 2) * 2 / 1 + (1 / 1836 + 2) * 3 / 1) / 2 + ((1 / 1836 + 2) * 2 / 1 + (1 / 1836 + 2) * 1 / 1) / 2 ≠ (0 : ℝ)
    norm_num
  · rw [hm]
    fin_cases i <;> norm_num
  · have c := pair_charged 1 (by norm_num) ![1, 2, 3] ![1, 0, 0] ![0, 1, 0] ![0, 0, 1] ![1, 1, 2] bare
    have eN : ∀ i : Fin 3, (![1, 2, 3] : Fld (Fin 3)) i ≠ 0 := by intro i; fin_cases i <;> norm_num
    have e : chargedPressure ring3.freeP (vals (pair 1 ![1, 2, 3] ![1, 0, 0] ![0, 1, 0] ![0, 0, 1] ![1, 1, 2] bare)) ["e", "d+"] =
        driftPressure (vals (pair 1 ![1, 2, 3] ![1, 0, 0] ![0, 1, 0] ![0, 0, 1] ![1, 1, 2] bare)) ["e", "d+"] := by
      funext i
      unfold chargedPressure driftPressure
      refine total_congr fun n _ => ?_
      rw [when_pos ⟨rfl, c n⟩, when_pos ⟨c n, rfl, rfl⟩]
      show (if n = "e" then _ else _ : Fld (Fin 3)) i = ![1, 2, 3] i * ((if n = "e" then _ else _ : Fld (Fin 3)) i / ![1, 2, 3] i)
      rw [mul_div_cancel₀ _ (eN i)]
    rw [e]
    rfl

/-- **C67 (fails in the Boussinesq approximation).**  The potential of the polarisation drift is found with the average mass density, the drift is applied to the actual density:
at twice the density of the normalisation the drift gathers twice the charge that the currents carry away, and charge remains. -/
theorem boussinesq_leaves_charge : ∃ s1, polarisationDrift ring3 { diamagnetic_polarisation := false } wallSolve ["e", "d+"]
      (pair 1 (fun _ => 2) (fun _ => 0) (fun _ => 0) ![0, 0, 1] (fun _ => 0) bare) = (.ok (), s1) ∧
    allJ ring3 (vals (pair 1 (fun _ => 2) (fun _ => 0) (fun _ => 0) ![0, 0, 1] (fun _ => 0) bare)) ["e", "d+"] 1 = 1 / 2 ∧
    total ["e", "d+"] (fun n => realOf (pair 1 (fun _ => 2) (fun _ => 0) (fun _ => 0) ![0, 0, 1] (fun _ => 0) bare) n .charge *
      grew (pair 1 (fun _ => 2) (fun _ => 0) (fun _ => 0) ![0, 0, 1] (fun _ => 0) bare) s1 n .density_source 1) = (2 + 1 / 1836) * (1 / 2) := by
  set st := pair 1 (fun _ => 2) (fun _ => 0) (fun _ => 0) ![0, 0, 1] (fun _ => 0) bare with hst
  obtain ⟨_, s1, h, -⟩ := polarisation_runs (.refl) ring3 { diamagnetic_polarisation := false } wallSolve ["e", "d+"] (fun _ h => h) (fun _ => rfl) _
    (pair_fits (K := fun _ => False) (T := fun _ => False) 1 (fun _ => 2) (fun _ => 0) (fun _ => 0) ![0, 0, 1] (fun _ => 0) (top := bare) fun k h => h.elim)
  have c := pair_charged 1 (by norm_num) (fun _ => 2) (fun _ => 0) (fun _ => 0) ![0, 0, 1] (fun _ => 0) bare
  have hm := pair_mass 1 (by norm_num) (fun _ => 2) (fun _ => 0) (fun _ => 0) ![0, 0, 1] (fun _ => 0) bare
  have hJ : allJ ring3 (vals st) ["e", "d+"] 1 = 1 / 2 := by
    unfold allJ polJ divJpar total
    rw [List.map_cons, List.map_cons, List.map_nil, when_pos ⟨rfl, c "e"⟩, when_pos ⟨rfl, c "d+"⟩]
    show 0 + ([(charges 1 "e" / masses "e" * 0 - charges 1 "e" / masses "e" * 0), (charges 1 "d+" / masses "d+" * (![0, 0, 1] : Fld (Fin 3)) 2
      - charges 1 "d+" / masses "d+" * (![0, 0, 1] : Fld (Fin 3)) 0)] : List ℝ).sum + 0 + 0 = 1 / 2
    simp only [charges, masses, if_neg (show ¬("d+" = "e") by decide), Matrix.cons_val, List.sum_cons, List.sum_nil]
    norm_num
  refine ⟨s1, h, hJ, ?_⟩
  rw [polarisation_current (by decide) h rfl ring_linear_coef (fun n _ _ => rfl) (D := {1}) (wall_solves ?_) (c := 2 + 1 / 1836) (fun i => ?_) (by simp) one_ne_zero ?_, hJ]
  · show ((2 : ℝ) / 1 + 2 / 1) / 2 + (2 / 1 + 2 / 1) / 2 ≠ 0
    norm_num
  · show (2 : ℝ) ≠ 0
    norm_num
  · rw [hm]
    show (1 / 1836 + 2) * 2 = (2 + 1 / 1836) * (2 : ℝ)
    norm_num

/-- **C67.**  `diamagnetic_polarisation` without the Boussinesq approximation is refused. -/
theorem polarisation_refuses {ι : Type} (o : DriftOps ι) {p : PolOpts} (hp : p.diamagnetic_polarisation = true) (hb : p.boussinesq = false)
    (solve : Fld ι → Fld ι → Fld ι) (names : List String) (st st' : Store Key (Value ι)) (u : Unit) : polarisationDrift o p solve names st ≠ (.ok u, st') := by
  intro h
  obtain ⟨J, s1, h1, h2⟩ := M_bind_ok h
  obtain ⟨J', s2, h3, h4⟩ := M_bind_ok h2
  obtain ⟨_, s3, h5, h6⟩ := M_bind_ok h4
  rw [if_pos hp] at h5
  obtain ⟨_, s4, h7, h8⟩ := M_bind_ok h5
  unfold throwIf at h7
  rw [if_pos hb] at h7
  cases h7

/-! ## Vorticity -/

/-- The hypotheses of `vorticity_conserved`, `same_currents_and_flutter` and `friction_damps` are met. -/
example : ∃ a s1 s2 r, vorticityTransform ring3 { plainVort with collisional_friction := true } (fun Pi i => 3 - Pi i) ![1, -1, 0] ["e", "d+"]
      (pair 1 ![1, 2, 3] ![1, 0, 0] ![0, 1, 0] ![0, 0, 1] ![1, 1, 2] fun k => if k = "sound_speed" then some fun _ => 1 else none) = (.ok a, s1) ∧
    vorticityFinally ring3 vort3 { plainVort with collisional_friction := true } ![1, -1, 0] a ["e", "d+"] s1 = (.ok r, s2) ∧
    Conservative ring3 vort3 (fun _ => 1) Finset.univ ∧ Dissipates ring3 (fun _ => 1) Finset.univ ∧ ¬HasTop (vals s1) "fields:Apar_flutter" ∧
    (∀ i, ring3.divAGrad plainVort.viscosity ![1, -1, 0] i = 0) := by
  obtain ⟨a, s1, h1, f1⟩ := vorticity_runs (.refl) ring3 { plainVort with collisional_friction := true } (fun Pi i => 3 - Pi i) ![1, -1, 0] ["e", "d+"] trivial trivial trivial trivial _
    (pair_fits (K := fun k => k = "sound_speed") (T := drifting) 1 ![1, 2, 3] ![1, 0, 0] ![0, 1, 0] ![0, 0, 1] ![1, 1, 2]
      (top := fun k => if k = "sound_speed" then some fun _ => 1 else none) (by rintro k rfl; rfl))
  obtain ⟨-, -, -, -, -, hphi, -, -, -, hk⟩ := vorticity_transform ring_once (by decide) h1
  have f2 := Fit.find (K' := fun k => k = "sound_speed" ∨ k = "fields:phi") (Fit.forget f1) (by
    rintro k (rfl | rfl)
    · rw [hk _ (by decide) (by decide) (fun _ => by decide) fun _ => by decide]; rfl
    · rw [hphi]; rfl)
  obtain ⟨r, s2, h2, -⟩ := finally_runs (K := fun k => k = "sound_speed" ∨ k = "fields:phi") (.refl) ring3 vort3 { plainVort with collisional_friction := true } ![1, -1, 0] a ["e", "d+"] (fun _ h => h) (Or.inr rfl) (Or.inl rfl) _ f2
  refine ⟨a, s1, s2, r, h1, h2, ring_conservative, ring_dissipates, ?_, fun i => ?_⟩
  · unfold HasTop
    rw [hk _ (by decide) (by decide) (fun _ => by decide) fun _ => by decide]
    decide
  · simp [ring3, plainVort]

/-- **C69 (fails with friction).**  The energy the friction takes from the flow is given to nobody: a flow slows down, and no energy source changes. -/
theorem friction_heat_is_lost : ∃ a s1, vorticityTransform ring3 { plainVort with collisional_friction := true, diamagnetic := false, diamagnetic_polarisation := false }
      (fun _ => ![1, 0, 0]) ![1, -1, 0] ["e", "d+"] (pair 1 (fun _ => 1) (fun _ => 1) (fun _ => 1) (fun _ => 0) (fun _ => 1) bare) = (.ok a, s1) ∧
    flowPower (fun _ => 1) Finset.univ (topField s1 "fields:phi") a.Pi a.ddt < 0 ∧
    ∀ n v i, isSource v = true → grew (pair 1 (fun _ => 1) (fun _ => 1) (fun _ => 1) (fun _ => 0) (fun _ => 1) bare) s1 n v i = 0 := by
  obtain ⟨a, s1, h1, -⟩ := vorticity_runs (.refl) ring3 { plainVort with collisional_friction := true, diamagnetic := false, diamagnetic_polarisation := false }
    (fun _ => ![1, 0, 0]) ![1, -1, 0] ["e", "d+"] trivial trivial trivial trivial _
    (pair_fits (K := fun _ => False) (T := drifting) 1 (fun _ => 1) (fun _ => 1) (fun _ => 1) (fun _ => 0) (fun _ => 1) (top := bare) fun k h => h.elim)
  obtain ⟨hPi, hddt, -, he, hz, hphi, -, -, -, -⟩ := vorticity_transform ring_once (by decide) h1
  have hm := pair_mass 1 (by norm_num) (fun _ => 1) (fun _ => 1) (fun _ => 1) (fun _ => 0) (fun _ => 1) bare
  have c := pair_charged 1 (by norm_num) (fun _ => 1) (fun _ => 1) (fun _ => 1) (fun _ => 0) (fun _ => 1) bare
  have hnu : ∀ i, weightedNu (vals (pair 1 (fun _ => 1) (fun _ => 1) (fun _ => 1) (fun _ => 0) (fun _ => 1) bare)) ["e", "d+"] i = 2 := by
    intro i
    unfold weightedNu total
    rw [List.map_cons, List.map_cons, List.map_nil, when_pos ⟨rfl, c "e", rfl⟩, when_pos ⟨rfl, c "d+", rfl⟩]
    show [masses "e" * 1 * 0, masses "d+" * 1 * 1].sum = (2 : ℝ)
    unfold masses
    rw [if_neg (show ¬("d+" = "e") by decide)]
    simp
  refine ⟨a, s1, h1, ?_, fun n v i hv => ?_⟩
  · have ePhi : topField s1 "fields:phi" = ![1, 0, 0] := by
      unfold topField; rw [hphi]
      unfold vortPhi
      rw [if_neg (by rintro ⟨h, -⟩; cases h)]
      rfl
    have ePi : a.Pi = fun _ => 0 := by
      rw [hPi]
      unfold vortPi
      funext i
      exact when_neg (by decide) _
    rw [ePhi, ePi, show a.ddt = _ from funext hddt]
    unfold flowPower divJcol
    simp only [hnu, hm, when_neg (show ¬(({ plainVort with collisional_friction := true, diamagnetic := false, diamagnetic_polarisation := false } : VortOpts (Fin 3)).diamagnetic = true) by decide),
      when_pos (show ({ plainVort with collisional_friction := true, diamagnetic := false, diamagnetic_polarisation := false } : VortOpts (Fin 3)).collisional_friction = true from rfl)]
    have eP : vortPi ring3 { plainVort with collisional_friction := true, diamagnetic := false, diamagnetic_polarisation := false }
        (vals (pair 1 (fun _ => 1) (fun _ => 1) (fun _ => 1) (fun _ => 0) (fun _ => 1) bare)) ["e", "d+"] = fun _ => 0 := by rw [← hPi, ePi]
    have eF : vortPhi ring3 { plainVort with collisional_friction := true, diamagnetic := false, diamagnetic_polarisation := false } (fun _ => ![1, 0, 0])
        (vals (pair 1 (fun _ => 1) (fun _ => 1) (fun _ => 1) (fun _ => 0) (fun _ => 1) bare)) ["e", "d+"] = ![1, 0, 0] := by
      unfold vortPhi
      rw [if_neg (by rintro ⟨h, -⟩; cases h)]
    rw [eP, eF]
    simp only [Fin.sum_univ_three, ring3, plainVort, nxt, prv, Matrix.cons_val]
    norm_num
    rw [when_pos trivial]
    norm_num
  · by_cases hn : n ∈ ["e", "d+"] ∧ v = .energy_source
    · obtain ⟨h1, rfl⟩ := hn
      rw [he n h1 i]
      exact when_neg (by decide) _
    · exact hz n v hv (by by_contra hh; push_neg at hh; exact hn ⟨by simpa using hh.1, hh.2⟩) i

/-- The state with a fluctuating magnetic field. -/
def fluttering : Store Key (Value (Fin 3)) :=
  pair 1 (fun _ => 1) (fun _ => 1) (fun _ => 1) (fun _ => 2) (fun _ => 1) fun k => if k = "fields:Apar_flutter" then some ![0, 1, 3] else none

/-- **C67, C69 (fails with magnetic flutter).**  The current along the fluctuating field enters the vorticity equation, and the polarisation drift does not know it. -/
theorem flutter_not_closed : flutterJ vort3 (vals fluttering) ["e", "d+"] 0 ≠ 0 ∧ allJ ring3 (vals fluttering) ["e", "d+"] 0 = 0 := by
  have c := pair_charged 1 (by norm_num) (fun _ => 1) (fun _ => 1) (fun _ => 1) (fun _ => 2) (fun _ => 1) fun k => if k = "fields:Apar_flutter" then some ![0, 1, 3] else none
  constructor
  · unfold flutterJ total
    rw [List.map_cons, List.map_cons, List.map_nil, when_pos ⟨⟨rfl, c "e"⟩, rfl⟩, when_pos ⟨⟨rfl, c "d+"⟩, rfl⟩]
    show ([1 * (charges 1 "e" / masses "e" * 0 / 1 * ((![0, 1, 3] : Fld (Fin 3)) 1 - (![0, 1, 3] : Fld (Fin 3)) 2)),
      1 * (charges 1 "d+" / masses "d+" * 2 / 1 * ((![0, 1, 3] : Fld (Fin 3)) 1 - (![0, 1, 3] : Fld (Fin 3)) 2))] : List ℝ).sum ≠ 0
    simp only [charges, masses, if_neg (show ¬("d+" = "e") by decide), Matrix.cons_val, List.sum_cons, List.sum_nil]
    norm_num
  · unfold allJ polJ divJpar total
    rw [List.map_cons, List.map_cons, List.map_nil, when_pos ⟨rfl, c "e"⟩, when_pos ⟨rfl, c "d+"⟩]
    show 0 + ([(charges 1 "e" / masses "e" * 0 - charges 1 "e" / masses "e" * 0), (charges 1 "d+" / masses "d+" * 2 - charges 1 "d+" / masses "d+" * 2)] : List ℝ).sum + 0 + 0 = 0
    norm_num

/-! ## Relaxation of the potential -/

/-- The hypotheses of `relax_energy_conserved` and `relax_conserved` are met. -/
example : ∃ d s1 s2 r, relaxTransform ring3 { diamagnetic_polarisation := false, exb_advection := false, bndry_flux := none } ![10, 20, 0] ![1, -1, 0] ["e", "d+"]
      (pair 1 ![1, 2, 3] ![1, 0, 0] ![0, 1, 0] ![0, 0, 1] ![1, 1, 2] bare) = (.ok d, s1) ∧
    relaxFinally ring3 { diamagnetic_polarisation := false, exb_advection := false, bndry_flux := none } (fun _ => vort3.exb) d ["e", "d+"] s1 = (.ok (some r), s2) ∧
    Adjoint ring3 (fun _ => 1) Finset.univ ∧ Conservative ring3 vort3 (fun _ => 1) Finset.univ := by
  obtain ⟨d, s1, h1, f1⟩ := relax_runs (.refl) ring3 { diamagnetic_polarisation := false, exb_advection := false, bndry_flux := none } ![10, 20, 0] ![1, -1, 0] ["e", "d+"]
    trivial trivial trivial _ (pair_fits (K := fun _ => False) (T := drifting) 1 ![1, 2, 3] ![1, 0, 0] ![0, 1, 0] ![0, 0, 1] ![1, 1, 2] (top := bare) fun k h => h.elim)
  have f2 := Fit.find (K' := fun k => k = "fields:vorticity" ∨ k = "fields:phi") (Fit.forget f1) (relax_sets h1)
  obtain ⟨r, s2, h2, -⟩ := relaxFinally_runs (K := fun k => k = "fields:vorticity" ∨ k = "fields:phi") (.refl) ring3 { diamagnetic_polarisation := false, exb_advection := false, bndry_flux := none } (fun _ => vort3.exb) d ["e", "d+"]
    (fun _ h => h) (Or.inr rfl) (Or.inl rfl) _ f2
  obtain ⟨r', rfl⟩ := relax_defined rfl h2
  exact ⟨d, s1, s2, r', h1, h2, ring_adjoint, ring_conservative⟩

/-- `relax_undefined` is about something: with the default options the components run up to the point where the behaviour is undefined. -/
example : ∃ d s1 s2, relaxTransform ring3 (relaxConstructor true true true true 2 true 1 10) ![10, 20, 0] ![1, -1, 0] ["e", "d+"]
      (pair 1 ![1, 2, 3] ![1, 0, 0] ![0, 1, 0] ![0, 0, 1] ![1, 1, 2] bare) = (.ok d, s1) ∧
    relaxFinally ring3 (relaxConstructor true true true true 2 true 1 10) (fun _ => vort3.exb) d ["e", "d+"] s1 = (.ok none, s2) := by
  obtain ⟨d, s1, h1, f1⟩ := relax_runs (.refl) ring3 (relaxConstructor true true true true 2 true 1 10) ![10, 20, 0] ![1, -1, 0] ["e", "d+"]
    trivial trivial trivial _ (pair_fits (K := fun _ => False) (T := drifting) 1 ![1, 2, 3] ![1, 0, 0] ![0, 1, 0] ![0, 0, 1] ![1, 1, 2] (top := bare) fun k h => h.elim)
  have f2 := Fit.find (K' := fun k => k = "fields:vorticity" ∨ k = "fields:phi") (Fit.forget f1) (relax_sets h1)
  obtain ⟨r, s2, h2, -⟩ := relaxFinally_runs (K := fun k => k = "fields:vorticity" ∨ k = "fields:phi") (.refl) ring3 (relaxConstructor true true true true 2 true 1 10) (fun _ => vort3.exb) d ["e", "d+"]
    (fun _ h => h) (Or.inr rfl) (Or.inl rfl) _ f2
  obtain rfl := relax_undefined h2
  exact ⟨d, s1, s2, h1, h2⟩

theorem pair_carries (Z : ℝ) (hZ : Z ≠ 0) (N Pe Pi NV nu : Fld (Fin 3)) (top : String → Option (Fld (Fin 3))) (n : String) :
    Carries (vals (pair Z N Pe Pi NV nu top)) n := by
  refine ⟨rfl, rfl, ?_⟩
  show charges Z n ≠ 0
  unfold charges
  split
  · norm_num
  · exact hZ

/-- **C68 (fails with `diamagnetic_polarisation`, the default).**  The energy given back is `3/2 P ∇·J` to every species, electrons included; the flow with the `p̂` of the
equation for the potential gives up `p̂ ∇·J`.  A closed plasma gains energy. -/
theorem relax_makes_energy : ∃ d s1, relaxTransform ring3 { bndry_flux := none } (fun _ => 0) (fun _ => 0) ["e", "d+"]
      (pair 1 (fun _ => 1) ![1, 0, 0] ![0, 1, 0] (fun _ => 0) (fun _ => 0) bare) = (.ok d, s1) ∧
    0 < ∑ i, 1 * total ["e", "d+"] (fun n => grew (pair 1 (fun _ => 1) ![1, 0, 0] ![0, 1, 0] (fun _ => 0) (fun _ => 0) bare) s1 n .energy_source i)
      + flowPower (fun _ => 1) Finset.univ (topField s1 "fields:phi") (relaxPi 2 (vals s1) ["e", "d+"]) d := by
  set st := pair 1 (fun _ => 1) ![1, 0, 0] ![0, 1, 0] (fun _ => 0) (fun _ => 0) bare with hst
  obtain ⟨d, s1, h1, -⟩ := relax_runs (.refl) ring3 { bndry_flux := none } (fun _ => 0) (fun _ => 0) ["e", "d+"]
    trivial trivial trivial _ (pair_fits (K := fun _ => False) (T := drifting) 1 (fun _ => 1) ![1, 0, 0] ![0, 1, 0] (fun _ => 0) (fun _ => 0) (top := bare) fun k h => h.elim)
  obtain ⟨hd, hsp, he, -, hphi, -⟩ := relax_transform (by decide) h1
  have c := pair_charged 1 (by norm_num) (fun _ => 1) ![1, 0, 0] ![0, 1, 0] (fun _ => 0) (fun _ => 0) bare
  have k := pair_carries 1 (by norm_num) (fun _ => 1) ![1, 0, 0] ![0, 1, 0] (fun _ => 0) (fun _ => 0) bare
  have eP : relaxP (vals st) ["e", "d+"] = ![1, 1, 0] := by
    funext i
    unfold relaxP total
    rw [List.map_cons, List.map_cons, List.map_nil, when_pos (k "e"), when_pos (k "d+")]
    show ([(![1, 0, 0] : Fld (Fin 3)) i, (![0, 1, 0] : Fld (Fin 3)) i] : List ℝ).sum = _
    fin_cases i <;> norm_num
  have eG : ∀ i, total ["e", "d+"] (fun n => grew st s1 n .energy_source i) = 3 / 2 * (![1, 1, 0] : Fld (Fin 3)) i * ring3.divCurv ![1, 1, 0] i := by
    intro i
    unfold total
    rw [List.map_cons, List.map_cons, List.map_nil, he "e" (by simp) i, he "d+" (by simp) i, when_pos (show ({ bndry_flux := none } : RelaxOpts).diamagnetic = true from rfl),
      when_pos (show ({ bndry_flux := none } : RelaxOpts).diamagnetic = true from rfl)]
    unfold relaxGain
    rw [when_pos (k "e"), when_pos (k "d+"), when_pos ⟨rfl, rfl, rfl, rfl⟩, when_pos ⟨rfl, rfl, rfl, rfl⟩, eP]
    show [-((![1, 0, 0] : Fld (Fin 3)) i * (0 / 10 - 0 / 10)) + 3 / 2 * (![1, 0, 0] : Fld (Fin 3)) i * ring3.divCurv ![1, 1, 0] i,
      -((![0, 1, 0] : Fld (Fin 3)) i * (0 / 10 - 0 / 10)) + 3 / 2 * (![0, 1, 0] : Fld (Fin 3)) i * ring3.divCurv ![1, 1, 0] i].sum = _
    have : (![1, 1, 0] : Fld (Fin 3)) i = (![1, 0, 0] : Fld (Fin 3)) i + (![0, 1, 0] : Fld (Fin 3)) i := by fin_cases i <;> norm_num
    rw [this]
    simp only [List.sum_cons, List.sum_nil]
    ring
  have ePi : ∀ i, relaxPi 2 (vals s1) ["e", "d+"] i = 1 / 3672 * (![1, 0, 0] : Fld (Fin 3)) i + (![0, 1, 0] : Fld (Fin 3)) i := by
    intro i
    have e : relaxPi 2 (vals s1) ["e", "d+"] i = relaxPi 2 (vals st) ["e", "d+"] i := by
      unfold relaxPi Charged Has rAt fAt
      simp only [hsp _ .pressure rfl, hsp _ .charge rfl, hsp _ .AA rfl]
      rfl
    rw [e]
    unfold relaxPi total
    rw [List.map_cons, List.map_cons, List.map_nil, when_pos ⟨c "e", rfl⟩, when_pos ⟨c "d+", rfl⟩]
    show [masses "e" / 2 * (![1, 0, 0] : Fld (Fin 3)) i, masses "d+" / 2 * (![0, 1, 0] : Fld (Fin 3)) i].sum = _
    simp only [masses, if_neg (show ¬("d+" = "e") by decide), List.sum_cons, List.sum_nil]
    norm_num
  refine ⟨d, s1, h1, ?_⟩
  unfold flowPower
  rw [hphi, show d = _ from funext hd, eP]
  simp only [eG, ePi, when_pos (show ({ bndry_flux := none } : RelaxOpts).diamagnetic = true from rfl), Fin.sum_univ_three, ring3, nxt, prv, Matrix.cons_val]
  norm_num
  rw [when_pos trivial, when_pos trivial]
  norm_num

/-- **C68 (fails for neutrals).**  With `diamagnetic_polarisation` a species whose charge is set to zero exchanges energy with a current it has no part in. -/
theorem relax_heats_neutrals : ∃ d s1, relaxTransform ring3 { bndry_flux := none } (fun _ => 0) (fun _ => 0) ["e", "d"]
      (pair 0 (fun _ => 1) ![1, 0, 0] ![0, 1, 0] (fun _ => 0) (fun _ => 0) bare) = (.ok d, s1) ∧
    realOf (pair 0 (fun _ => 1) ![1, 0, 0] ![0, 1, 0] (fun _ => 0) (fun _ => 0) bare) "d" .charge = 0 ∧
    grew (pair 0 (fun _ => 1) ![1, 0, 0] ![0, 1, 0] (fun _ => 0) (fun _ => 0) bare) s1 "d" .energy_source 1 < 0 := by
  set st := pair 0 (fun _ => 1) ![1, 0, 0] ![0, 1, 0] (fun _ => 0) (fun _ => 0) bare with hst
  obtain ⟨d, s1, h1, -⟩ := relax_runs (.refl) ring3 { bndry_flux := none } (fun _ => 0) (fun _ => 0) ["e", "d"]
    trivial trivial trivial _ (pair_fits (K := fun _ => False) (T := drifting) 0 (fun _ => 1) ![1, 0, 0] ![0, 1, 0] (fun _ => 0) (fun _ => 0) (top := bare) fun k h => h.elim)
  obtain ⟨-, -, he, -⟩ := relax_transform (by decide) h1
  have q0 : rAt (vals st) "d" .charge = 0 := by
    show charges 0 "d" = 0
    unfold charges
    rw [if_neg (by decide)]
  have ke : Carries (vals st) "e" := ⟨rfl, rfl, by show charges 0 "e" ≠ 0; unfold charges; rw [if_pos rfl]; norm_num⟩
  have kd : ¬Carries (vals st) "d" := fun h => h.2.2 q0
  have eP : relaxP (vals st) ["e", "d"] = ![1, 0, 0] := by
    funext i
    unfold relaxP total
    rw [List.map_cons, List.map_cons, List.map_nil, when_pos ke, when_neg kd]
    show ([(![1, 0, 0] : Fld (Fin 3)) i, 0] : List ℝ).sum = _
    simp
  refine ⟨d, s1, h1, q0, ?_⟩
  rw [he "d" (by simp) 1, when_pos (show ({ bndry_flux := none } : RelaxOpts).diamagnetic = true from rfl)]
  unfold relaxGain
  rw [when_neg kd, when_pos ⟨rfl, rfl, rfl, rfl⟩, eP]
  show 0 + 3 / 2 * (![0, 1, 0] : Fld (Fin 3)) 1 * ring3.divCurv ![1, 0, 0] 1 < 0
  simp only [ring3, nxt, prv, Matrix.cons_val]
  norm_num

/-- **C68 (differs from `vorticity`).**  For a doubly charged ion the pressure in the steady state of the potential is twice that of the vorticity equation. -/
theorem relax_pressure_differs : ∀ i, relaxPi 2 (vals (pair 2 (fun _ => 1) (fun _ => 0) (fun _ => 1) (fun _ => 0) (fun _ => 0) bare)) ["e", "he+2"] i = 1 ∧
    ionPressure 2 (vals (pair 2 (fun _ => 1) (fun _ => 0) (fun _ => 1) (fun _ => 0) (fun _ => 0) bare)) ["e", "he+2"] i = 1 / 2 := by
  intro i
  have c := pair_charged 2 (by norm_num) (fun _ => 1) (fun _ => 0) (fun _ => 1) (fun _ => 0) (fun _ => 0) bare
  constructor
  · unfold relaxPi total
    rw [List.map_cons, List.map_cons, List.map_nil, when_pos ⟨c "e", rfl⟩, when_pos ⟨c "he+2", rfl⟩]
    show [masses "e" / 2 * 0, masses "he+2" / 2 * 1].sum = 1
    simp only [masses, if_neg (show ¬("he+2" = "e") by decide), List.sum_cons, List.sum_nil]
    norm_num
  · unfold ionPressure total
    rw [List.map_cons, List.map_cons, List.map_nil, when_pos ⟨rfl, rfl, c "e"⟩, when_pos ⟨rfl, rfl, c "he+2"⟩]
    show [0 * (masses "e" / 2 / charges 2 "e"), 1 * (masses "he+2" / 2 / charges 2 "he+2")].sum = 1 / 2
    simp only [masses, charges, if_neg (show ¬("he+2" = "e") by decide), List.sum_cons, List.sum_nil]
    norm_num

end
end Hermes.Drifts
