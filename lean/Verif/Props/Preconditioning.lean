import Verif.Model.RhsEnergy
import Verif.Model.NeutralPrecon
import Verif.Props.DensityEquation

/-!
# C71: preconditioning of heat conduction

`preconditioned v precon d r` is what the solver gets back for the vector `r` when the variable `v` evolves.
-/

namespace Hermes.Preconditioning
open Hermes Hermes.DensityEquation

variable {nz : ℕ} [NeZero nz]

/-- `solve b r` solves `x + Div_par(b Grad_par x) = r`, when `b` is nowhere positive. -/
def Solves (L : F3 nz → F3 nz → F3 nz) (solve : F3 nz → F3 nz → F3 nz) : Prop :=
  ∀ b r, (∀ i j k, b i j k ≤ 0) → solve b r + L b (solve b r) = r

/-- `L K x` is `Div_par(K Grad_par x)`: linear in both. -/
structure Linear (L : F3 nz → F3 nz → F3 nz) : Prop where
  coef : ∀ (c : ℝ) K x, L (c • K) x = c • L K x
  field : ∀ (c : ℝ) K x, L K (c • x) = c • L K x

/-- Conduction in the pressure equation, linearised at fixed density `n` and conductivity: change of `ddt(P)` when the pressure changes by `x`. -/
noncomputable def conductionJacobian (L : F3 nz → F3 nz → F3 nz) (kappa : F3 nz) (n : ℝ) (x : F3 nz) : F3 nz := (2 / 3 : ℝ) • L kappa (n⁻¹ • x)

theorem coef_uniform {density_floor n : ℝ} (hn : density_floor ≤ n) (c : ℝ) (kappa : F3 nz) :
    (fun i j k => c * kappa i j k / floor3 (fun _ _ _ => n) density_floor i j k) = (c * n⁻¹) • kappa := by
  funext i j k
  unfold floor3
  rw [if_neg (not_lt.2 hn)]
  simp only [Pi.smul_apply, smul_eq_mul]
  ring

/-- C71.  With uniform density the preconditioner of `evolve_pressure` inverts `1 - γ J` for the conduction `J` exactly, for every
conductivity, time step and vector; with time derivatives scaled by `σ`, it inverts `1 - γ σ J`.  Partial: uniform density above the floor,
uniform `scale_timederivs`, boundary cells of the vector as set. -/
theorem pressure_precon_inverts_partial {L solve : F3 nz → F3 nz → F3 nz} (hL : Linear L) (hs : Solves L solve) {density_floor n gamma σ : ℝ}
    (hn : density_floor ≤ n) (hn0 : 0 < n) (hγ : 0 ≤ gamma) (kappa : F3 nz) (hk : ∀ i j k, 0 ≤ kappa i j k) {neumann : F3 nz → F3 nz} {s : SpeciesIn nz} {f : FieldsIn nz} (hN : s.density = some fun _ _ _ => n)
    (hσ : 0 ≤ σ) (hsc : f.scale_timederivs.getD 1 = fun _ _ _ => σ) (d : Derivs nz) (r : F3 nz) :
    ∃ x, preconditioned .P (pressurePrecon true solve neumann density_floor kappa s f gamma) d r = .ok x ∧
      x - (gamma * σ) • conductionJacobian L kappa n x = neumann r := by
  have e : scaled f (fun i j k => -(2 / 3) * gamma * kappa i j k / floor3 (fun _ _ _ => n) density_floor i j k) =
      (-(2 / 3) * (gamma * σ) * n⁻¹) • kappa := by
    unfold scaled
    rw [coef_uniform hn _ kappa]
    cases h : f.scale_timederivs with
    | none =>
      rw [h] at hsc
      have : σ = 1 := (congrFun (congrFun (congrFun hsc 0) 0) 0).symm
      simp [this]
    | some sc =>
      rw [h] at hsc
      simp only [Option.getD_some] at hsc
      subst hsc
      funext i j k
      simp only [Pi.smul_apply, Pi.mul_apply, smul_eq_mul]
      ring
  refine ⟨solve ((-(2 / 3) * (gamma * σ) * n⁻¹) • kappa) (neumann r), ?_, ?_⟩
  · unfold preconditioned pressurePrecon
    rw [if_pos rfl, hN]
    simp only [need]
    show Except.ok (solve (scaled f fun i j k => -(2 / 3) * gamma * kappa i j k / floor3 (fun _ _ _ => n) density_floor i j k) (neumann r)) = _
    rw [e]
  · have h := hs ((-(2 / 3) * (gamma * σ) * n⁻¹) • kappa) (neumann r) (by
      intro i j k
      have h1 := mul_nonneg (mul_nonneg (mul_nonneg hγ hσ) (inv_nonneg.2 hn0.le)) (hk i j k)
      simp only [Pi.smul_apply, smul_eq_mul]
      linarith)
    rw [hL.coef] at h
    unfold conductionJacobian
    rw [hL.field]
    refine Eq.trans ?_ h
    rw [sub_eq_add_neg, ← neg_smul, smul_smul, smul_smul]
    congr 2
    ring

/-- C71.  The result is the only one, if conduction dissipates: two solutions of the preconditioning equation differ by a field in the kernel.  `Q` is
any positive definite square, e.g. the integral of the square over the domain. -/
theorem precon_unique {L : F3 nz → F3 nz → F3 nz} {kappa : F3 nz} {n gamma : ℝ} (hadd : ∀ K x y, L K (x - y) = L K x - L K y) (hγ : 0 ≤ gamma)
    (ip : F3 nz → F3 nz → ℝ) (ip_sub : ∀ a b c, ip a (b - c) = ip a b - ip a c) (ip_smul : ∀ (t : ℝ) a b, ip a (t • b) = t * ip a b)
    (ip_pos : ∀ a, ip a a ≤ 0 → a = 0) (ip_zero : ∀ a, ip a 0 = 0) (hd : ∀ x, ip x (conductionJacobian L kappa n x) ≤ 0) {x y r : F3 nz}
    (hx : x - gamma • conductionJacobian L kappa n x = r) (hy : y - gamma • conductionJacobian L kappa n y = r) : x = y := by
  have hJ : conductionJacobian L kappa n (x - y) = conductionJacobian L kappa n x - conductionJacobian L kappa n y := by
    unfold conductionJacobian
    rw [smul_sub, hadd, smul_sub]
  have e : (x - y) - gamma • conductionJacobian L kappa n (x - y) = 0 := by
    rw [hJ, smul_sub, show x - y - (gamma • conductionJacobian L kappa n x - gamma • conductionJacobian L kappa n y) =
      (x - gamma • conductionJacobian L kappa n x) - (y - gamma • conductionJacobian L kappa n y) by abel, hx, hy, sub_self]
  have h := ip_zero (x - y)
  rw [← e, ip_sub, ip_smul] at h
  have := hd (x - y)
  have h2 := ip_pos (x - y) (by nlinarith)
  exact sub_eq_zero.1 h2

/-- C71, negation.  When the energy evolves, or the logarithm of the energy or of the pressure, preconditioning does nothing: what the solver gets
back is the vector it gave (`src/evolve_energy.cxx:522-524` and `src/evolve_pressure.cxx:598-600` read and write `ddt(P)`). -/
theorem precon_without_effect (enabled : Bool) (solve : F3 nz → F3 nz → F3 nz) (neumann : F3 nz → F3 nz) (density_floor gamma : ℝ) (kappa : F3 nz)
    (s : SpeciesIn nz) (f : FieldsIn nz) (d : Derivs nz) (r x : F3 nz) :
    (preconditioned .E (energyPrecon enabled solve neumann density_floor kappa s f gamma) d r = .ok x → x = r) ∧
    (preconditioned .logE (energyPrecon enabled solve neumann density_floor kappa s f gamma) d r = .ok x → x = r) ∧
    (preconditioned .logP (pressurePrecon enabled solve neumann density_floor kappa s f gamma) d r = .ok x → x = r) := by
  unfold preconditioned energyPrecon pressurePrecon
  refine ⟨fun h => ?_, fun h => ?_, fun h => ?_⟩ <;>
  · cases enabled with
    | false => cases h; rfl
    | true =>
      rw [if_pos rfl] at h
      cases hN : s.density with
      | none => rw [hN] at h; cases h
      | some N => rw [hN] at h; cases h; rfl

/-- With the option off nothing changes. -/
theorem precon_off (v : Evolving) (solve : F3 nz → F3 nz → F3 nz) (neumann : F3 nz → F3 nz) (density_floor gamma : ℝ) (kappa : F3 nz)
    (s : SpeciesIn nz) (f : FieldsIn nz) (d : Derivs nz) (r : F3 nz) :
    preconditioned v (pressurePrecon false solve neumann density_floor kappa s f gamma) d r = .ok r ∧
    preconditioned v (energyPrecon false solve neumann density_floor kappa s f gamma) d r = .ok r := by
  cases v <;> exact ⟨rfl, rfl⟩

/-! ## Diffusion of the neutral gas -/

/-- `solve D r` solves `D Delp2(x) + x = r`, when `D` is nowhere positive. -/
def SolvesPerp (delp2 : F3 nz → F3 nz) (solve : F3 nz → F3 nz → F3 nz) : Prop :=
  ∀ D r, (∀ i j k, D i j k ≤ 0) → (∀ i j k, D i j k * delp2 (solve D r) i j k + solve D r i j k = r i j k)

/-- C71.  The preconditioner of `neutral_mixed` inverts `1 - γ J` for the diffusion `J x = σ Dnn Delp2(x)` of density, momentum and pressure,
for every diffusion coefficient, time step, vector and scaling `σ` of the time derivatives.  A momentum that does not evolve is not changed;
without `precondition` nothing is. -/
theorem neutral_precon_inverts {delp2 : F3 nz → F3 nz} {solve : F3 nz → F3 nz → F3 nz} (hs : SolvesPerp delp2 solve) {gamma : ℝ} (hγ : 0 ≤ gamma)
    {Dnn σ : F3 nz} (hD : ∀ i j k, 0 ≤ Dnn i j k) {f : FieldsIn nz} (hsc : f.scale_timederivs.getD 1 = σ) (hσ : ∀ i j k, 0 ≤ σ i j k)
    (evolve_momentum : Bool) (d : NeutralDerivs nz) :
    (∀ get ∈ [NeutralDerivs.Nn, NeutralDerivs.Pn] ++ (if evolve_momentum then [NeutralDerivs.NVn] else []), ∀ i j k,
      get (neutralPrecon true evolve_momentum solve Dnn f gamma d) i j k -
        gamma * (σ i j k * Dnn i j k * delp2 (get (neutralPrecon true evolve_momentum solve Dnn f gamma d)) i j k) = get d i j k) ∧
    (neutralPrecon true false solve Dnn f gamma d).NVn = d.NVn ∧ neutralPrecon false evolve_momentum solve Dnn f gamma d = d := by
  obtain ⟨D, hDef⟩ : ∃ D, D = scaled f fun i j k => -gamma * Dnn i j k := ⟨_, rfl⟩
  have val : ∀ i j k, D i j k = -(gamma * (σ i j k * Dnn i j k)) := by
    intro i j k
    rw [hDef, ← hsc]
    unfold scaled
    cases f.scale_timederivs with
    | none => simp
    | some sc => simp only [Pi.mul_apply, Option.getD_some]; ring
  have sol : ∀ r i j k, solve D r i j k - gamma * (σ i j k * Dnn i j k * delp2 (solve D r) i j k) = r i j k := by
    intro r i j k
    have := hs D r (fun i j k => by
      have := mul_nonneg hγ (mul_nonneg (hσ i j k) (hD i j k))
      rw [val]; linarith) i j k
    rw [val] at this
    linarith
  refine ⟨?_, by simp [neutralPrecon], by simp [neutralPrecon]⟩
  intro get hget i j k
  unfold neutralPrecon
  simp only [if_true, ← hDef]
  cases evolve_momentum
  · simp only [Bool.false_eq_true, if_false, List.append_nil, List.mem_cons, List.not_mem_nil, or_false] at hget
    rcases hget with rfl | rfl <;> exact sol _ i j k
  · simp only [if_true, List.cons_append, List.nil_append, List.mem_cons, List.not_mem_nil, or_false] at hget
    rcases hget with rfl | rfl | rfl <;> exact sol _ i j k

/-! ## A case -/

noncomputable def decaySolvePerp (D r : F3 1) : F3 1 := fun i j k => r i j k / (1 - D i j k)

example : SolvesPerp (fun x : F3 1 => -x) decaySolvePerp := by
  intro D r hD i j k
  have h := hD i j k
  have : (1 - D i j k) ≠ 0 := by linarith
  simp only [decaySolvePerp, Pi.neg_apply]
  field_simp
  ring


/-- A decay at the rate of the conductivity in each cell: linear, dissipative and solvable. -/
noncomputable def decayOp (K x : F3 1) : F3 1 := fun i j k => -(K i j k * x i j k)

open Classical in
noncomputable def decaySolve (b r : F3 1) : F3 1 := fun i j k => r i j k / (1 - b i j k)

example : Linear decayOp ∧ Solves decayOp decaySolve := by
  refine ⟨⟨fun c K x => ?_, fun c K x => ?_⟩, fun b r hb => ?_⟩
  · funext i j k; simp only [decayOp, Pi.smul_apply, smul_eq_mul]; ring
  · funext i j k; simp only [decayOp, Pi.smul_apply, smul_eq_mul]; ring
  · funext i j k
    have h := hb i j k
    have : (1 - b i j k) ≠ 0 := by linarith
    simp only [decayOp, decaySolve, Pi.add_apply]
    field_simp
    ring

end Hermes.Preconditioning
