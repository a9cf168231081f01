import Mathlib.Analysis.Calculus.Deriv.Inv
import Mathlib.Analysis.Calculus.Deriv.Pow
import Verif.Model.InputSources
import Verif.Props.Detachment
import Verif.Props.EnergyEquation
import Verif.Props.MomentumEquation
import Verif.Props.PIControllers
import Verif.Props.PressureEquation
import Verif.Props.UnitsTransport

/-!
# C81: sources given in the input act as stated

A user gives a source of particles in `m^-3 s^-1`, of pressure in `Pa / s` or of energy in `W / m^3`, in the grid file or in the input options, perhaps only
in the core, perhaps with a prefactor that depends on the time in seconds.
-/

namespace Hermes.InputSources
open Hermes Hermes.Closures Hermes.Controllers

variable {nz : ℕ}

/-! ## What the user means -/

/-- A cell that the solver evolves on this processor. -/
abbrev InDomain (g : Grid) (i j : ℤ) : Prop := (g.xstart ≤ i ∧ i ≤ g.xend) ∧ g.ystart ≤ j ∧ j ≤ g.yend

/-- The option if it is set, otherwise the field of the grid file, otherwise zero. -/
def asGiven (option mesh : Option (F3 nz)) : F3 nz := (option.or mesh).getD 0

/-- The prefactor at the time `t` in seconds. -/
def prefactorAt (inp : SourceInput nz) (t : ℝ) : ℝ := (inp.prefactor.map (· t)).getD 1

/-- The source in SI units, in a cell and at a time: the given one, except outside the core if it is wanted only there. -/
def wanted (periodicY : ℤ → Bool) (inp : SourceInput nz) (S : F3 nz) (t : ℝ) (i j : ℤ) (k : Fin nz) : ℝ :=
  if inp.only_in_core = true ∧ periodicY i = false then 0 else prefactorAt inp t * S i j k

/-! ## Reading -/

theorem zeroRow_apply (ys : List (ℤ × Fin nz)) (x : ℤ) (s : F3 nz) (i j : ℤ) (k : Fin nz) :
    ys.foldl (fun (s : F3 nz) q => Function.update s x (Function.update (s x) q.1 (Function.update (s x q.1) q.2 0))) s i j k =
      if i = x ∧ (j, k) ∈ ys then 0 else s i j k := by
  induction ys generalizing s with
  | nil => simp
  | cons q l ih =>
    rw [List.foldl_cons, ih]
    by_cases hx : i = x
    · subst hx
      by_cases hl : (j, k) ∈ l
      · simp [hl]
      · by_cases hj : j = q.1
        · subst hj
          by_cases hk : k = q.2
          · subst hk; simp
          · rw [if_neg (by simp [hl]), if_neg (by rintro ⟨-, h⟩; rcases List.mem_cons.1 h with h | h; exacts [hk (Prod.mk.inj h).2, hl h]),
              Function.update_self, Function.update_self, Function.update_of_ne hk]
        · rw [if_neg (by simp [hl]), if_neg (by rintro ⟨-, h⟩; rcases List.mem_cons.1 h with h | h; exacts [hj (congrArg Prod.fst h), hl h]),
            Function.update_self, Function.update_of_ne hj]
    · rw [if_neg (fun h => hx h.1), if_neg (fun h => hx h.1), Function.update_of_ne hx]

theorem zeroRows_apply (xs : List ℤ) (g : Grid) (p : ℤ → Bool) (s : F3 nz) (i j : ℤ) (k : Fin nz) :
    xs.foldl (fun s x => if !p x then (forRange g.ystart g.yend ×ˢ List.finRange nz).foldl
      (fun (s : F3 nz) q => Function.update s x (Function.update (s x) q.1 (Function.update (s x q.1) q.2 0))) s else s) s i j k =
      if i ∈ xs ∧ p i = false ∧ g.ystart ≤ j ∧ j ≤ g.yend then 0 else s i j k := by
  induction xs generalizing s with
  | nil => simp
  | cons x l ih =>
    rw [List.foldl_cons, ih]
    by_cases hl : i ∈ l ∧ p i = false ∧ g.ystart ≤ j ∧ j ≤ g.yend
    · rw [if_pos hl, if_pos ⟨List.mem_cons_of_mem _ hl.1, hl.2⟩]
    · rw [if_neg hl]
      by_cases hp : p x = false
      · rw [if_pos (by simp [hp]), zeroRow_apply]
        have hq : (j, k) ∈ forRange g.ystart g.yend ×ˢ List.finRange nz ↔ g.ystart ≤ j ∧ j ≤ g.yend := by
          refine List.pair_mem_product.trans ?_
          rw [mem_forRange]
          exact ⟨fun h => h.1, fun h => ⟨h, List.mem_finRange _⟩⟩
        refine if_congr ?_ rfl rfl
        rw [hq, List.mem_cons]
        constructor
        · rintro ⟨rfl, h⟩; exact ⟨.inl rfl, hp, h⟩
        · rintro ⟨h | h, h2⟩
          · exact ⟨h, h2.2⟩
          · exact absurd ⟨h, h2⟩ hl
      · rw [if_neg (by simpa using hp), if_neg]
        rintro ⟨h, h2⟩
        rcases List.mem_cons.1 h with rfl | h
        · exact hp h2.1
        · exact hl ⟨h, h2⟩

/-- The loops zero exactly the cells of the domain that are not in the core. -/
theorem zeroOutsideCore_apply (g : Grid) (p : ℤ → Bool) (s : F3 nz) (i j : ℤ) (k : Fin nz) :
    zeroOutsideCore g p s i j k = if InDomain g i j ∧ p i = false then 0 else s i j k := by
  unfold zeroOutsideCore
  rw [zeroRows_apply]
  refine if_congr ?_ rfl rfl
  rw [mem_forRange]
  unfold InDomain
  tauto

theorem inputSource_apply {g : Grid} (p : ℤ → Bool) (var : String) (factor norm : ℝ) (inp : SourceInput nz) {i j : ℤ} (hd : InDomain g i j) (k : Fin nz) :
    inputSource g p var factor norm inp i j k =
      if inp.only_in_core = true ∧ p i = false then 0 else asGiven inp.source ((inp.mesh var).map (factor • ·)) i j k / norm := by
  have e : inp.source.getD (factor • (inp.mesh var).getD 0) = asGiven inp.source ((inp.mesh var).map (factor • ·)) := by
    unfold asGiven
    cases inp.source <;> cases inp.mesh var <;> simp
  unfold inputSource
  simp only [e]
  by_cases hc : inp.only_in_core = true
  · rw [if_pos hc, zeroOutsideCore_apply]
    exact if_congr ⟨fun h => ⟨hc, h.2⟩, fun h => ⟨hd, h.2⟩⟩ rfl rfl
  · rw [if_neg hc, if_neg (fun h => hc h.1)]

section
variable {c : Consts} (hc : Units.Physical c) {u : Normalisation} (hu : Units.Good u)

theorem freqNorm_eq : freqNorm c u = u.Omega_ci c := by unfold freqNorm; rw [one_div_one_div]

include hc hu

theorem final_apply {norm conv : ℝ} (hn : norm = conv) (h0 : conv ≠ 0) {g : Grid} (p : ℤ → Bool) (var : String) (factor : ℝ) (inp : SourceInput nz) (t : ℝ)
    {i j : ℤ} (hd : InDomain g i j) (k : Fin nz) :
    conv * finalSource c u inp.prefactor (t * u.Omega_ci c) (inputSource g p var factor norm inp) i j k =
      wanted p inp (asGiven inp.source ((inp.mesh var).map (factor • ·))) t i j k := by
  subst hn
  have ho := (Units.Omega_pos hc hu).ne'
  have ht : t * u.Omega_ci c * (1 / freqNorm c u) = t := by rw [freqNorm_eq]; field_simp
  have e : finalSource c u inp.prefactor (t * u.Omega_ci c) (inputSource g p var factor norm inp) i j k =
      prefactorAt inp t * inputSource g p var factor norm inp i j k := by
    unfold finalSource prefactorAt
    cases inp.prefactor with
    | none => simp
    | some f => simp only [ht, Option.map_some, Option.getD_some, Pi.smul_apply, smul_eq_mul]
  rw [e, inputSource_apply p var factor norm inp hd]
  unfold wanted
  split
  · simp
  · field_simp

/-- **C81.**  The source of particles, in `m^-3 s^-1`, in every cell of the domain and at every time `t` in seconds, for every choice of the reference
values: what the user gave. -/
theorem density_source_as_given (g : Grid) (p : ℤ → Bool) (name : String) (inp : SourceInput nz) (t : ℝ) {i j : ℤ} (hd : InDomain g i j) (k : Fin nz) :
    u.conversion c .density_source * finalSource c u inp.prefactor (t * u.Omega_ci c) (densityInput c u g p name inp) i j k =
      wanted p inp (asGiven inp.source (inp.mesh ("N" ++ name ++ "_src"))) t i j k := by
  have h := final_apply hc hu (norm := u.Nnorm * freqNorm c u) (conv := u.conversion c .density_source) (by rw [freqNorm_eq]; rfl)
    (Units.conversion_pos hc hu _).ne' p ("N" ++ name ++ "_src") 1 inp t hd k
  simpa [densityInput] using h

/-- **C81.**  The source of pressure, in `Pa / s`. -/
theorem pressure_source_as_given (g : Grid) (p : ℤ → Bool) (name : String) (inp : SourceInput nz) (t : ℝ) {i j : ℤ} (hd : InDomain g i j) (k : Fin nz) :
    u.conversion c .pressure * u.Omega_ci c * finalSource c u inp.prefactor (t * u.Omega_ci c) (pressureInput c u g p name inp) i j k =
      wanted p inp (asGiven inp.source (inp.mesh ("P" ++ name ++ "_src"))) t i j k := by
  have h := final_apply hc hu (norm := c.qe * u.Nnorm * u.Tnorm * freqNorm c u) (conv := u.conversion c .pressure * u.Omega_ci c)
    (by rw [freqNorm_eq]; simp only [Normalisation.conversion]; ring)
    (mul_pos (Units.conversion_pos hc hu _) (Units.Omega_pos hc hu)).ne' p ("P" ++ name ++ "_src") 1 inp t hd k
  simpa [pressureInput] using h

/-- **C81.**  The source of energy, in `W / m^3`.  A source of pressure in the grid file is multiplied with `Cv`, so that it is the same heating.  *Missing for
the full property*: the prefactor, see `energy_prefactor_ignored`. -/
theorem energy_source_as_given_partial (g : Grid) (p : ℤ → Bool) (Cv : ℝ) (name : String) (inp : SourceInput nz) (hp : inp.prefactor = none) (t : ℝ) {i j : ℤ}
    (hd : InDomain g i j) (k : Fin nz) :
    u.conversion c .energy_source * energyInput c u g p Cv name inp i j k =
      wanted p inp (asGiven inp.source ((inp.mesh ("P" ++ name ++ "_src")).map (Cv • ·))) t i j k := by
  have h := final_apply hc hu (norm := c.qe * u.Nnorm * u.Tnorm * freqNorm c u) (conv := u.conversion c .energy_source)
    (by rw [freqNorm_eq]; simp only [Normalisation.conversion]; ring)
    (Units.conversion_pos hc hu _).ne' p ("P" ++ name ++ "_src") Cv inp t hd k
  rw [hp] at h
  exact h

end

/-! ## From the sources to the time derivatives -/

/-- The factor with which all time derivatives are multiplied, if there is one. -/
def scaleOf (f : FieldsIn nz) : F3 nz := f.scale_timederivs.getD 1

theorem map_bind' {α β γ : Type} (x : Except Err α) (k : α → Except Err β) (h : β → γ) : (x >>= k).map h = x >>= fun a => (k a).map h := by
  cases x <;> rfl

variable [NeZero nz]

/-- **C81.**  The density equation: what is added to the published source is added to `ddt(N)`. -/
theorem density_rate (o : DensityOpts) (g : Grid) (B : RhsOps nz) (lim : Limiter) (N₀ : F3 nz) (s : SpeciesIn nz) (f : FieldsIn nz) (S d : F3 nz) :
    densityRhs o g B lim N₀ { s with density_source := some (S + d) } f =
      (densityRhs o g B lim N₀ { s with density_source := some S } f).map (· + d * scaleOf f) := by
  unfold densityRhs
  simp only [map_bind']
  refine bind_congr fun density => bind_congr fun d1 => bind_congr fun d2 => bind_congr fun d3 => ?_
  simp only [need, Units.okb]
  unfold scaleOf
  cases f.scale_timederivs <;> simp only [Option.getD_none, Option.getD_some, Except.map, Except.ok.injEq] <;> ring

omit [NeZero nz] in
theorem charged_energy (s : SpeciesIn nz) (x : Option (F3 nz)) : SpeciesIn.isCharged { s with energy_source := x } = s.isCharged := rfl
theorem pressureLow_energy (o : PressureOpts) (g : Grid) (B : RhsOps nz) (s : SpeciesIn nz) (x : Option (F3 nz)) (P T N : F3 nz) :
    pressureLow o g B { s with energy_source := x } P T N = pressureLow o g B s P T N := rfl
omit [NeZero nz] in
theorem energyLow_energy (B : RhsOps nz) (s : SpeciesIn nz) (x : Option (F3 nz)) (P T N : F3 nz) :
    energyLow B { s with energy_source := x } P T N = energyLow B s P T N := rfl

/-- **C81.**  The pressure equation: the source of the input is added to `ddt(P)`, and 2/3 of the published source of energy. -/
theorem pressure_rate (o : PressureOpts) (g : Grid) (B : RhsOps nz) (lim : Limiter) (P₀ source : F3 nz) (s : SpeciesIn nz) (f : FieldsIn nz) (E d : F3 nz) :
    pressureRhs o g B lim P₀ source { s with energy_source := some (E + d) } f =
      (pressureRhs o g B lim P₀ 0 { s with energy_source := some E } f).map (· + (source + (2 / 3 : ℝ) • d) * scaleOf f) := by
  unfold pressureRhs
  simp only [map_bind']
  refine bind_congr fun P => bind_congr fun T => bind_congr fun N => ?_
  refine bind_congr fun adv => bind_congr fun cond => ?_
  unfold scaleOf
  simp only [pressureSources, charged_energy, pressureLow_energy]
  cases f.scale_timederivs <;> simp only [Option.getD_none, Option.getD_some, Except.map, Except.ok.injEq, smul_add] <;> ring

theorem pressure_rate_input (o : PressureOpts) (g : Grid) (B : RhsOps nz) (lim : Limiter) (P₀ source : F3 nz) (s : SpeciesIn nz) (f : FieldsIn nz) :
    pressureRhs o g B lim P₀ source s f = (pressureRhs o g B lim P₀ 0 s f).map (· + source * scaleOf f) := by
  unfold pressureRhs
  simp only [map_bind']
  refine bind_congr fun P => bind_congr fun T => bind_congr fun N => ?_
  refine bind_congr fun adv => bind_congr fun cond => ?_
  unfold scaleOf pressureSources
  cases f.scale_timederivs <;> cases s.energy_source <;> simp only [Option.getD_none, Option.getD_some, Except.map, Except.ok.injEq] <;> ring

theorem energy_rate_input (o : EnergyOpts) (g : Grid) (B : RhsOps nz) (lim : Limiter) (E₀ source : F3 nz) (s : SpeciesIn nz) (f : FieldsIn nz) :
    energyRhs o g B lim E₀ source s f = (energyRhs o g B lim E₀ 0 s f).map (· + source * scaleOf f) := by
  unfold energyRhs
  simp only [map_bind']
  refine bind_congr fun P => bind_congr fun T => bind_congr fun N => bind_congr fun V => bind_congr fun AA => bind_congr fun w => bind_congr fun cond => ?_
  unfold scaleOf energyTerms energyEqSources
  cases f.scale_timederivs <;> simp only [Option.getD_none, Option.getD_some, Except.map, Except.ok.injEq] <;> ring

theorem energy_rate (o : EnergyOpts) (g : Grid) (B : RhsOps nz) (lim : Limiter) (E₀ source : F3 nz) (s : SpeciesIn nz) (f : FieldsIn nz) (E d : F3 nz) :
    energyRhs o g B lim E₀ source { s with energy_source := some (E + d) } f =
      (energyRhs o g B lim E₀ source { s with energy_source := some E } f).map (· + d * scaleOf f) := by
  unfold energyRhs
  simp only [map_bind']
  refine bind_congr fun P => bind_congr fun T => bind_congr fun N => bind_congr fun V => bind_congr fun AA => bind_congr fun w => ?_
  refine bind_congr fun cond => ?_
  unfold scaleOf energyTerms energyEqSources
  simp only [charged_energy, energyLow_energy]
  cases f.scale_timederivs <;> simp only [Option.getD_none, Option.getD_some, Except.map, Except.ok.injEq] <;> ring

/-! ## The whole way, in SI units -/

section
variable {c : Consts} (hc : Units.Physical c) {u : Normalisation} (hu : Units.Good u)
include hc hu

omit [NeZero nz] hc hu in
/-- **C81.**  `evolve_density` adds the source, at the current time, to the published source of the species and changes nothing else. -/
theorem density_source_published {name : String} {inp : SourceInput nz} {source : F3 nz} {st st' : Store Key (Value (Cell nz))}
    (h : addDensityInput c u name inp.prefactor source st = (.ok (), st')) :
    (∀ p, fieldOf st' name .density_source p = fieldOf st name .density_source p + finalSource c u inp.prefactor (timeOf st) source p.1 p.2.1 p.2.2) ∧
    ∀ k, k ≠ .sp name .density_source → vals st' k = vals st k := by
  unfold addDensityInput at h
  cases hp : inp.prefactor with
  | none =>
    rw [hp] at h
    obtain ⟨b1, b2⟩ := add_field_ok h
    exact ⟨fun p => by rw [b1]; rfl, b2⟩
  | some f =>
    rw [hp] at h
    obtain ⟨s1, e1, h⟩ := getTime_bind h
    obtain ⟨b1, b2⟩ := add_field_ok h
    exact ⟨fun p => by rw [b1, fieldOf_congr (st := st) (by rw [e1])]; rfl, fun k hk => by rw [b2 k hk, e1]⟩

/-- **C81.**  Density: the state before and after `evolve_density` publishes its source at the time `t` in seconds.  In every cell of the domain `ddt(N)`, in
`m^-3 s^-1`, grows by the given source. -/
theorem density_input_acts {name : String} {inp : SourceInput nz} {st st' : Store Key (Value (Cell nz))} {g : Grid} {p : ℤ → Bool} {t : ℝ}
    (ht : timeOf st = t * u.Omega_ci c) (h : addDensityInput c u name inp.prefactor (densityInput c u g p name inp) st = (.ok (), st'))
    {o : DensityOpts} {B : RhsOps nz} {lim : Limiter} {N₀ : F3 nz} {s : SpeciesIn nz} {f : FieldsIn nz} (hf : f.scale_timederivs = none) {r r' : F3 nz}
    (hr : densityRhs o g B lim N₀ { s with density_source := some (asF3 (fieldOf st name .density_source)) } f = .ok r)
    (hr' : densityRhs o g B lim N₀ { s with density_source := some (asF3 (fieldOf st' name .density_source)) } f = .ok r')
    {i j : ℤ} (hd : InDomain g i j) (k : Fin nz) :
    u.conversion c .density_source * (r' i j k - r i j k) = wanted p inp (asGiven inp.source (inp.mesh ("N" ++ name ++ "_src"))) t i j k := by
  obtain ⟨h1, -⟩ := density_source_published h
  have e : asF3 (fieldOf st' name .density_source) = asF3 (fieldOf st name .density_source) +
      finalSource c u inp.prefactor (timeOf st) (densityInput c u g p name inp) := by
    funext i j k
    exact h1 (i, j, k)
  rw [e, density_rate, hr] at hr'
  simp only [Except.map, Except.ok.injEq, scaleOf, hf, Option.getD_none, mul_one] at hr'
  rw [← density_source_as_given hc hu g p name inp t hd k, ← ht, ← hr']
  simp only [Pi.add_apply, add_sub_cancel_left]

/-- **C81.**  Pressure: `ddt(P)` with the input `inp` and with no source given differ by the given source, in `Pa / s`. -/
theorem pressure_input_acts {o : PressureOpts} {g : Grid} {B : RhsOps nz} {lim : Limiter} {P₀ : F3 nz} {name : String} {inp : SourceInput nz} {t : ℝ}
    {s : SpeciesIn nz} {f : FieldsIn nz} (hf : f.scale_timederivs = none) {r r' : F3 nz}
    (hr : pressureRhsInput o g B lim P₀ c u name {} (t * u.Omega_ci c) s f = .ok r)
    (hr' : pressureRhsInput o g B lim P₀ c u name inp (t * u.Omega_ci c) s f = .ok r') {i j : ℤ} (hd : InDomain g i j) (k : Fin nz) :
    u.conversion c .pressure * u.Omega_ci c * (r' i j k - r i j k) = wanted B.periodicY inp (asGiven inp.source (inp.mesh ("P" ++ name ++ "_src"))) t i j k := by
  unfold pressureRhsInput at hr hr'
  have h0 := pressure_source_as_given hc hu g B.periodicY name ({} : SourceInput nz) t hd k
  rw [pressure_rate_input] at hr hr'
  rcases hx : pressureRhs o g B lim P₀ 0 s f with e | x
  · rw [hx] at hr; cases hr
  · rw [hx] at hr hr'
    simp only [Except.map, Except.ok.injEq, scaleOf, hf, Option.getD_none, mul_one] at hr hr'
    rw [← pressure_source_as_given hc hu g B.periodicY name inp t hd k, ← hr, ← hr']
    have e : wanted B.periodicY ({} : SourceInput nz) (asGiven none none) t i j k = 0 := by simp [wanted, asGiven]
    simp only [Pi.add_apply]
    linear_combination -h0 - e

/-- **C81.**  Energy: `ddt(E)` with the input `inp` and with no source given differ by the given source, in `W / m^3`; a source of pressure in the grid file
counts `Cv` times.  *Missing*: as for `energy_source_as_given_partial`. -/
theorem energy_input_acts_partial {o : EnergyOpts} {g : Grid} {B : RhsOps nz} {lim : Limiter} {E₀ : F3 nz} {name : String} {inp : SourceInput nz}
    (hp : inp.prefactor = none) {t : ℝ} {s : SpeciesIn nz} {f : FieldsIn nz} (hf : f.scale_timederivs = none) {r r' : F3 nz}
    (hr : energyRhsInput o g B lim E₀ c u name {} s f = .ok r) (hr' : energyRhsInput o g B lim E₀ c u name inp s f = .ok r')
    {i j : ℤ} (hd : InDomain g i j) (k : Fin nz) :
    u.conversion c .energy_source * (r' i j k - r i j k) =
      wanted B.periodicY inp (asGiven inp.source ((inp.mesh ("P" ++ name ++ "_src")).map (o.Cv • ·))) t i j k := by
  unfold energyRhsInput at hr hr'
  have h0 := energy_source_as_given_partial hc hu g B.periodicY o.Cv name ({} : SourceInput nz) rfl t hd k
  rw [energy_rate_input] at hr hr'
  rcases hx : energyRhs o g B lim E₀ 0 s f with e | x
  · rw [hx] at hr; cases hr
  · rw [hx] at hr hr'
    simp only [Except.map, Except.ok.injEq, scaleOf, hf, Option.getD_none, mul_one] at hr hr'
    rw [← energy_source_as_given_partial hc hu g B.periodicY o.Cv name inp hp t hd k, ← hr, ← hr']
    have e : wanted B.periodicY ({} : SourceInput nz) (asGiven none none) t i j k = 0 := by simp [wanted, asGiven]
    simp only [Pi.add_apply]
    have h1 := h0.trans e
    linear_combination -h1

/-- The heating by a source of pressure in the grid file does not depend on which of the two equations is solved: `3/2 ddt(P)` and `ddt(E)` grow by the same
amount of `W / m^3`. -/
theorem grid_file_heating_same {oP : PressureOpts} {oE : EnergyOpts} (hCv : oE.Cv = 3 / 2) {g : Grid} {B : RhsOps nz} {lim : Limiter} {P₀ E₀ S : F3 nz}
    {name : String} {inp : SourceInput nz} (hn : inp.source = none) (hm : inp.mesh ("P" ++ name ++ "_src") = some S) (hp : inp.prefactor = none) {t : ℝ}
    {s : SpeciesIn nz} {f : FieldsIn nz} (hf : f.scale_timederivs = none) {rP rP' rE rE' : F3 nz}
    (h1 : pressureRhsInput oP g B lim P₀ c u name {} (t * u.Omega_ci c) s f = .ok rP)
    (h2 : pressureRhsInput oP g B lim P₀ c u name inp (t * u.Omega_ci c) s f = .ok rP')
    (h3 : energyRhsInput oE g B lim E₀ c u name {} s f = .ok rE) (h4 : energyRhsInput oE g B lim E₀ c u name inp s f = .ok rE')
    {i j : ℤ} (hd : InDomain g i j) (k : Fin nz) : 3 / 2 * (rP' i j k - rP i j k) = rE' i j k - rE i j k := by
  have a := pressure_input_acts hc hu hf h1 h2 hd k
  have b := energy_input_acts_partial hc hu hp (t := t) hf h3 h4 hd k
  have e : u.conversion c .energy_source = u.conversion c .pressure * u.Omega_ci c := rfl
  rw [hn, hm] at a b
  have w : wanted B.periodicY inp (asGiven none ((some S).map (oE.Cv • ·))) t i j k = 3 / 2 * wanted B.periodicY inp (asGiven none (some S)) t i j k := by
    simp only [wanted, asGiven, Option.map_some, Option.none_or, Option.getD_some, hCv]
    split
    · simp
    · simp only [Pi.smul_apply, smul_eq_mul]; ring
  have h0 : u.conversion c .energy_source ≠ 0 := (Units.conversion_pos hc hu _).ne'
  apply mul_left_cancel₀ h0
  rw [b, w, ← a, e]
  ring

/-! ## The sources of the controllers -/

omit [NeZero nz] in
theorem pressureShape_SI (shape : F3 nz) (i j : ℤ) (k : Fin nz) : u.conversion c .energy_source * pressureShape c u shape i j k = shape i j k := by
  have h : u.conversion c .energy_source = c.qe * u.Tnorm * u.Nnorm * freqNorm c u := by rw [freqNorm_eq]; rfl
  have h0 := (Units.conversion_pos hc hu .energy_source).ne'
  unfold pressureShape
  rw [← h]
  field_simp

omit [NeZero nz] in
theorem densityShape_SI (shape : F3 nz) (i j : ℤ) (k : Fin nz) : u.conversion c .density_source * densityShape c u shape i j k = shape i j k := by
  have h : u.conversion c .density_source = u.Nnorm * freqNorm c u := by rw [freqNorm_eq]; rfl
  have h0 := (Units.conversion_pos hc hu .density_source).ne'
  unfold densityShape
  rw [← h]
  field_simp

/-- **C81.**  `upstream_density_feedback` with the option `source_shape`, in `m^-3 s^-1`: `ddt(N)` grows by the multiplier times the shape. -/
theorem density_shape_acts {o : PIOpts} {name : String} {shape : F3 nz} {cell : Cell nz} {k₀ k₁ : PI} {st st' : Store Key (Value (Cell nz))}
    (h : densityFeedback o name (densityShape c u shape).cells cell k₀ st = (.ok k₁, st'))
    {oN : DensityOpts} {g : Grid} {B : RhsOps nz} {lim : Limiter} {N₀ : F3 nz} {s : SpeciesIn nz} {f : FieldsIn nz} (hf : f.scale_timederivs = none) {r r' : F3 nz}
    (hr : densityRhs oN g B lim N₀ { s with density_source := some (asF3 (fieldOf st name .density_source)) } f = .ok r)
    (hr' : densityRhs oN g B lim N₀ { s with density_source := some (asF3 (fieldOf st' name .density_source)) } f = .ok r') :
    ∃ m, k₁.multiplier = some m ∧ ∀ i j k, u.conversion c .density_source * (r' i j k - r i j k) = m * shape i j k := by
  obtain ⟨-, m, hm, -, h1, -⟩ := density_feedback h
  refine ⟨m, hm, fun i j k => ?_⟩
  have e : asF3 (fieldOf st' name .density_source) = asF3 (fieldOf st name .density_source) + m • densityShape c u shape := by
    funext i j k
    exact h1 (i, j, k)
  rw [e, density_rate, hr] at hr'
  simp only [Except.map, Except.ok.injEq, scaleOf, hf, Option.getD_none, mul_one] at hr'
  rw [← hr', ← densityShape_SI hc hu shape i j k]
  simp only [Pi.add_apply, Pi.smul_apply, smul_eq_mul]
  ring

/-- A source of energy, as it is published for a species, gives 2/3 of it as `ddt(P)`. -/
theorem published_heat {name : String} {x : ℝ} {shape : F3 nz} {st st' : Store Key (Value (Cell nz))}
    (h1 : ∀ p, fieldOf st' name .energy_source p = fieldOf st name .energy_source p + x * (pressureShape c u shape).cells p)
    {o : PressureOpts} {g : Grid} {B : RhsOps nz} {lim : Limiter} {P₀ source : F3 nz} {s : SpeciesIn nz} {f : FieldsIn nz} (hf : f.scale_timederivs = none) {r r' : F3 nz}
    (hr : pressureRhs o g B lim P₀ source { s with energy_source := some (asF3 (fieldOf st name .energy_source)) } f = .ok r)
    (hr' : pressureRhs o g B lim P₀ source { s with energy_source := some (asF3 (fieldOf st' name .energy_source)) } f = .ok r') (i j : ℤ) (k : Fin nz) :
    u.conversion c .pressure * u.Omega_ci c * (r' i j k - r i j k) = 2 / 3 * x * shape i j k := by
  have e : asF3 (fieldOf st' name .energy_source) = asF3 (fieldOf st name .energy_source) + x • pressureShape c u shape := by
    funext i j k
    exact h1 (i, j, k)
  have e0 : asF3 (fieldOf st name .energy_source) = asF3 (fieldOf st name .energy_source) + (0 : F3 nz) := (add_zero _).symm
  rw [e0, pressure_rate] at hr
  rw [e, pressure_rate] at hr'
  rcases hx : pressureRhs o g B lim P₀ 0 { s with energy_source := some (asF3 (fieldOf st name .energy_source)) } f with e | y
  · rw [hx] at hr; cases hr
  · rw [hx] at hr hr'
    simp only [Except.map, Except.ok.injEq, scaleOf, hf, Option.getD_none, mul_one, smul_zero, add_zero] at hr hr'
    rw [← hr, ← hr', ← pressureShape_SI hc hu shape i j k]
    simp only [Pi.add_apply, Pi.smul_apply, smul_eq_mul, Normalisation.conversion]
    ring

/-- **C81 is violated.**  `temperature_feedback` takes the option `source_shape`, "Source term in ddt(P). Units [Pa/s], note P = 2/3 E", as a source of energy:
`ddt(P)` of a listed species grows by two thirds of its factor times the multiplier times the shape. -/
theorem temperature_shape_two_thirds {o : PIOpts} {name sp : String} {target : Bool} {ystart yend : Cell nz} {x : ℝ} {shape : F3 nz} {k₀ k₁ : PI}
    {st st' : Store Key (Value (Cell nz))}
    (h : temperatureFeedback o name target ystart yend [(sp, x)] (pressureShape c u shape).cells k₀ st = (.ok k₁, st'))
    {oP : PressureOpts} {g : Grid} {B : RhsOps nz} {lim : Limiter} {P₀ source : F3 nz} {s : SpeciesIn nz} {f : FieldsIn nz} (hf : f.scale_timederivs = none)
    {r r' : F3 nz}
    (hr : pressureRhs oP g B lim P₀ source { s with energy_source := some (asF3 (fieldOf st sp .energy_source)) } f = .ok r)
    (hr' : pressureRhs oP g B lim P₀ source { s with energy_source := some (asF3 (fieldOf st' sp .energy_source)) } f = .ok r') :
    ∃ m, k₁.multiplier = some m ∧ ∀ i j k, u.conversion c .pressure * u.Omega_ci c * (r' i j k - r i j k) = 2 / 3 * (x * m * shape i j k) := by
  obtain ⟨-, m, hm, -, h1, -⟩ := temperature_feedback h
  refine ⟨m, hm, fun i j k => ?_⟩
  rw [published_heat hc hu (shape := shape) (x := x * m) (fun p => by rw [h1]; simp) hf hr hr' i j k]
  ring

/-- **C81 is violated.**  `detachment_controller` with `actuator = power` does the same. -/
theorem detachment_shape_two_thirds {sp : String} {x control : ℝ} {shape : F3 nz} {st st' : Store Key (Value (Cell nz))}
    (h : detachApply true [(sp, x)] (pressureShape c u shape).cells control st = (.ok (), st'))
    {oP : PressureOpts} {g : Grid} {B : RhsOps nz} {lim : Limiter} {P₀ source : F3 nz} {s : SpeciesIn nz} {f : FieldsIn nz} (hf : f.scale_timederivs = none)
    {r r' : F3 nz}
    (hr : pressureRhs oP g B lim P₀ source { s with energy_source := some (asF3 (fieldOf st sp .energy_source)) } f = .ok r)
    (hr' : pressureRhs oP g B lim P₀ source { s with energy_source := some (asF3 (fieldOf st' sp .energy_source)) } f = .ok r') (i j : ℤ) (k : Fin nz) :
    u.conversion c .pressure * u.Omega_ci c * (r' i j k - r i j k) = 2 / 3 * (x * control * shape i j k) := by
  obtain ⟨h1, -⟩ := Detachment.applied_source h
  rw [published_heat hc hu (shape := shape) (x := x * control) (fun p => by rw [if_pos rfl] at h1; rw [h1]; simp [mul_assoc]) hf hr hr' i j k]
  ring

end

/-! ## Energy that comes with the particles -/

theorem density_no_energy (o : DensityOpts) (g : Grid) (B : RhsOps nz) (lim : Limiter) (N₀ : F3 nz) (s : SpeciesIn nz) (f : FieldsIn nz) (x : Option (F3 nz)) :
    densityRhs o g B lim N₀ { s with energy_source := x } f = densityRhs o g B lim N₀ s f := by
  unfold densityRhs waveSpeed
  rfl
theorem momentum_no_density_source (o : MomentumOpts) (g : Grid) (B : RhsOps nz) (lim : Limiter) (err : F3 nz) (s : SpeciesIn nz) (f : FieldsIn nz) (hA : f.Apar = none) (x : Option (F3 nz)) :
    momentumRhs o g B lim err { s with density_source := x } f = momentumRhs o g B lim err s f := by
  have e1 : waveSpeed { s with density_source := x } f = waveSpeed s f := rfl
  have e2 : ∀ NV N V, momentumLow o g B { s with density_source := x } NV N V = momentumLow o g B s NV N V := fun _ _ _ => rfl
  have e3 : ∀ NV N V w, momentumElectric o g B lim { s with density_source := x } f NV N V w = momentumElectric o g B lim s f NV N V w :=
    fun _ _ _ _ => by unfold momentumElectric momentumApar; simp only [hA]
  have e4 : momentumPressure B { s with density_source := x } = momentumPressure B s := rfl
  have e5 : ∀ NV V, momentumFlutter g B { s with density_source := x } f NV V = momentumFlutter g B s f NV V := fun _ _ => rfl
  unfold momentumRhs
  simp only [e1, e2, e3, e4, e5]
theorem momentum_no_energy_source (o : MomentumOpts) (g : Grid) (B : RhsOps nz) (lim : Limiter) (err : F3 nz) (s : SpeciesIn nz) (f : FieldsIn nz) (x : Option (F3 nz)) :
    momentumRhs o g B lim err { s with energy_source := x } f = momentumRhs o g B lim err s f := by
  unfold momentumRhs waveSpeed momentumLow momentumElectric momentumPressure momentumFlutter
  rfl
theorem pressure_no_density_source (o : PressureOpts) (g : Grid) (B : RhsOps nz) (lim : Limiter) (P₀ source : F3 nz) (s : SpeciesIn nz) (f : FieldsIn nz) (x : Option (F3 nz)) :
    pressureRhs o g B lim P₀ source { s with density_source := x } f = pressureRhs o g B lim P₀ source s f := by
  unfold pressureRhs pressureAdvection pressureLow pressureConduction pressureSources waveSpeed
  rfl

/-- Rate of change of `3/2 P + (m n V)² / (2 m n)` for given rates of change of the density, the momentum `m n V` and the pressure. -/
noncomputable def energyRate (AA V rN rM rP : ℝ) : ℝ := 3 / 2 * rP + V * rM - 1 / 2 * AA * V ^ 2 * rN

theorem energyRate_spec {N M P : ℝ → ℝ} {AA V rN rM rP t : ℝ} (hA : AA ≠ 0) (hN0 : N t ≠ 0) (hV : M t = AA * N t * V) (hN : HasDerivAt N rN t)
    (hM : HasDerivAt M rM t) (hP : HasDerivAt P rP t) :
    HasDerivAt (fun x => 3 / 2 * P x + M x ^ 2 / (2 * AA * N x)) (energyRate AA V rN rM rP) t := by
  have h := (hP.const_mul (3 / 2)).add ((hM.fun_pow 2).div (hN.const_mul (2 * AA)) (by simp [hA, hN0]))
  refine h.congr_deriv ?_
  unfold energyRate
  rw [hV]
  field_simp
  ring

/-- **C81.**  The particles of `upstream_density_feedback` come in at rest and cold; with evolving density, momentum and pressure the energy of the plasma does
not change. -/
theorem feedback_keeps_energy {o : PIOpts} {name : String} {shape : Fld (Cell nz)} {cell : Cell nz} {k₀ k₁ : PI} {st st' : Store Key (Value (Cell nz))}
    (h : densityFeedback o name shape cell k₀ st = (.ok k₁, st')) (hV : (vals st (.sp name .velocity)).isSome = true) (hA : (vals st (.sp name .AA)).isSome = true)
    {oN : DensityOpts} {oM : MomentumOpts} {oP : PressureOpts} {g : Grid} {B : RhsOps nz} {lim : Limiter} {N₀ P₀ err source : F3 nz} {s : SpeciesIn nz}
    {f : FieldsIn nz} (hf : f.scale_timederivs = none) (hA' : f.Apar = none) {rN rN' rM rM' rP rP' : F3 nz} {s₁ s₂ : SpeciesIn nz}
    (e₁ : s₁ = { s with density_source := some (asF3 (fieldOf st name .density_source)), energy_source := some (asF3 (fieldOf st name .energy_source)) })
    (e₂ : s₂ = { s with density_source := some (asF3 (fieldOf st' name .density_source)), energy_source := some (asF3 (fieldOf st' name .energy_source)) })
    (n₁ : densityRhs oN g B lim N₀ s₁ f = .ok rN) (n₂ : densityRhs oN g B lim N₀ s₂ f = .ok rN')
    (m₁ : momentumRhs oM g B lim err s₁ f = .ok rM) (m₂ : momentumRhs oM g B lim err s₂ f = .ok rM')
    (p₁ : pressureRhs oP g B lim P₀ source s₁ f = .ok rP) (p₂ : pressureRhs oP g B lim P₀ source s₂ f = .ok rP') (i j : ℤ) (k : Fin nz) :
    energyRate (realOf st name .AA) (fieldOf st name .velocity (i, j, k)) (rN' i j k) (rM' i j k) (rP' i j k) =
      energyRate (realOf st name .AA) (fieldOf st name .velocity (i, j, k)) (rN i j k) (rM i j k) (rP i j k) := by
  obtain ⟨-, m, hm, -, d1, d2, -⟩ := density_feedback h
  have eN : asF3 (fieldOf st' name .density_source) = asF3 (fieldOf st name .density_source) + m • asF3 shape := by
    funext i j k
    exact d1 (i, j, k)
  have eE : asF3 (fieldOf st' name .energy_source) = asF3 (fieldOf st name .energy_source) +
      asF3 fun p => 1 / 2 * realOf st name .AA * fieldOf st name .velocity p ^ 2 * (m * shape p) := by
    funext i j k
    have := d2 (i, j, k)
    rw [if_pos ⟨hV, hA⟩] at this
    exact this
  have eM : rM' = rM := by
    have : momentumRhs oM g B lim err s₂ f = momentumRhs oM g B lim err s₁ f := by
      rw [e₁, e₂]
      exact (momentum_no_density_source oM g B lim err { s with energy_source := _ } f hA' _).trans ((momentum_no_energy_source oM g B lim err s f _).trans
        ((momentum_no_density_source oM g B lim err { s with energy_source := _ } f hA' _).trans (momentum_no_energy_source oM g B lim err s f _)).symm)
    rw [this, m₁] at m₂
    exact (Except.ok.inj m₂).symm
  have n₂' : densityRhs oN g B lim N₀ { s with density_source := some (asF3 (fieldOf st name .density_source) + m • asF3 shape) } f = .ok rN' := by
    rw [← n₂, e₂, eN]
    exact (density_no_energy oN g B lim N₀ { s with density_source := _ } f _).symm
  have n₁' : densityRhs oN g B lim N₀ { s with density_source := some (asF3 (fieldOf st name .density_source)) } f = .ok rN := by
    rw [← n₁, e₁]
    exact (density_no_energy oN g B lim N₀ { s with density_source := _ } f _).symm
  rw [density_rate, n₁'] at n₂'
  have p₁' : pressureRhs oP g B lim P₀ source { s with energy_source := some (asF3 (fieldOf st name .energy_source) + 0) } f = .ok rP := by
    rw [← p₁, e₁, add_zero]
    exact (pressure_no_density_source oP g B lim P₀ source { s with energy_source := _ } f _).symm
  have p₂' : pressureRhs oP g B lim P₀ source { s with energy_source := some (asF3 (fieldOf st name .energy_source) +
      asF3 fun p => 1 / 2 * realOf st name .AA * fieldOf st name .velocity p ^ 2 * (m * shape p)) } f = .ok rP' := by
    rw [← p₂, e₂, eE]
    exact (pressure_no_density_source oP g B lim P₀ source { s with energy_source := _ } f _).symm
  rw [pressure_rate] at p₁' p₂'
  rcases hx : pressureRhs oP g B lim P₀ 0 { s with energy_source := some (asF3 (fieldOf st name .energy_source)) } f with e | y
  · rw [hx] at p₁'; cases p₁'
  · rw [hx] at p₁' p₂'
    simp only [Except.map, Except.ok.injEq, scaleOf, hf, Option.getD_none, mul_one, smul_zero, add_zero] at p₁' p₂' n₂'
    rw [eM, ← n₂', ← p₁', ← p₂']
    unfold energyRate
    simp only [Pi.add_apply, Pi.smul_apply, smul_eq_mul, asF3]
    ring

/-- The particles that `evolve_density` adds, `d`, also come in at rest, but nothing is added to the energy: the plasma loses `1/2 m V² d`. -/
theorem input_source_takes_energy {oN : DensityOpts} {oM : MomentumOpts} {oP : PressureOpts} {g : Grid} {B : RhsOps nz} {lim : Limiter}
    {N₀ P₀ err source S d : F3 nz} {s : SpeciesIn nz} {f : FieldsIn nz} (hf : f.scale_timederivs = none) (hA' : f.Apar = none) {rN rN' rM rM' rP rP' : F3 nz} {s₁ s₂ : SpeciesIn nz}
    (e₁ : s₁ = { s with density_source := some S }) (e₂ : s₂ = { s with density_source := some (S + d) })
    (n₁ : densityRhs oN g B lim N₀ s₁ f = .ok rN) (n₂ : densityRhs oN g B lim N₀ s₂ f = .ok rN')
    (m₁ : momentumRhs oM g B lim err s₁ f = .ok rM) (m₂ : momentumRhs oM g B lim err s₂ f = .ok rM')
    (p₁ : pressureRhs oP g B lim P₀ source s₁ f = .ok rP) (p₂ : pressureRhs oP g B lim P₀ source s₂ f = .ok rP') (AA V : ℝ) (i j : ℤ) (k : Fin nz) :
    energyRate AA V (rN' i j k) (rM' i j k) (rP' i j k) = energyRate AA V (rN i j k) (rM i j k) (rP i j k) - 1 / 2 * AA * V ^ 2 * d i j k := by
  subst e₁ e₂
  rw [momentum_no_density_source _ _ _ _ _ _ _ hA'] at m₁ m₂
  rw [pressure_no_density_source] at p₁ p₂
  have eM : rM' = rM := Except.ok.inj (m₂.symm.trans m₁)
  have eP : rP' = rP := Except.ok.inj (p₂.symm.trans p₁)
  rw [density_rate, n₁] at n₂
  simp only [Except.map, Except.ok.injEq, scaleOf, hf, Option.getD_none, mul_one] at n₂
  rw [eM, eP, ← n₂]
  unfold energyRate
  simp only [Pi.add_apply]
  ring

/-- With `evolve_energy` it is the other way around: particles that come in at rest and cold do not change the energy, but `upstream_density_feedback` adds
`1/2 m V²` for each of them to `ddt(E)`. -/
theorem feedback_adds_energy {o : PIOpts} {name : String} {shape : Fld (Cell nz)} {cell : Cell nz} {k₀ k₁ : PI} {st st' : Store Key (Value (Cell nz))}
    (h : densityFeedback o name shape cell k₀ st = (.ok k₁, st')) (hV : (vals st (.sp name .velocity)).isSome = true) (hA : (vals st (.sp name .AA)).isSome = true)
    {oE : EnergyOpts} {g : Grid} {B : RhsOps nz} {lim : Limiter} {E₀ source : F3 nz} {s : SpeciesIn nz}
    {f : FieldsIn nz} (hf : f.scale_timederivs = none) {r r' : F3 nz}
    (h₁ : energyRhs oE g B lim E₀ source { s with energy_source := some (asF3 (fieldOf st name .energy_source)) } f = .ok r)
    (h₂ : energyRhs oE g B lim E₀ source { s with energy_source := some (asF3 (fieldOf st' name .energy_source)) } f = .ok r') (i j : ℤ) (k : Fin nz) :
    r' i j k = r i j k + 1 / 2 * realOf st name .AA * fieldOf st name .velocity (i, j, k) ^ 2 *
      (fieldOf st' name .density_source (i, j, k) - fieldOf st name .density_source (i, j, k)) := by
  obtain ⟨-, m, hm, -, d1, d2, -⟩ := density_feedback h
  have eE : asF3 (fieldOf st' name .energy_source) = asF3 (fieldOf st name .energy_source) +
      asF3 fun p => 1 / 2 * realOf st name .AA * fieldOf st name .velocity p ^ 2 * (m * shape p) := by
    funext i j k
    have := d2 (i, j, k)
    rw [if_pos ⟨hV, hA⟩] at this
    exact this
  rw [eE, energy_rate, h₁] at h₂
  simp only [Except.map, Except.ok.injEq, scaleOf, hf, Option.getD_none, mul_one] at h₂
  rw [← h₂, d1]
  simp only [Pi.add_apply, asF3]
  ring

/-! ## What is ignored -/

/-- **C81 is violated.**  `evolve_energy` ignores the prefactor: at no time and for no function does it change anything. -/
theorem energy_prefactor_ignored (o : EnergyOpts) (g : Grid) (B : RhsOps nz) (lim : Limiter) (E₀ : F3 nz) (c : Consts) (u : Normalisation) (name : String)
    (inp : SourceInput nz) (f : ℝ → ℝ) (s : SpeciesIn nz) (fs : FieldsIn nz) :
    energyRhsInput o g B lim E₀ c u name { inp with prefactor := some f } s fs = energyRhsInput o g B lim E₀ c u name { inp with prefactor := none } s fs := rfl

omit [NeZero nz] in
/-- **C81 is violated.**  `docs/sphinx/components.rst:77-79`: "The density source can be set in the input mesh file as a field `S` + species + `_src`".  A field
with that name is not read; the name is `N` + species + `_src`. -/
theorem documented_name_ignored (c : Consts) (u : Normalisation) (g : Grid) (p : ℤ → Bool) (name : String) (S : F3 nz) (i j : ℤ) (k : Fin nz) :
    densityInput c u g p name { mesh := fun v => if v = "S" ++ name ++ "_src" then some S else none } i j k = 0 := by
  have hne : ("N" ++ name ++ "_src") ≠ "S" ++ name ++ "_src" := by
    intro h
    have h2 := congrArg String.toList h
    simp at h2
  unfold densityInput inputSource
  simp [hne]

/-! ## The conditions are met -/

open DensityEquation PerpOps

/-- Ions that stream along the field with velocity 1. -/
noncomputable def stream (S E : F3 1) : SpeciesIn 1 :=
  { AA := some 2, velocity := some 1, density := some 1, momentum := some 2, pressure := some 1, temperature := some 1, density_source := some S,
    energy_source := some E }

noncomputable def streamFields : FieldsIn 1 := { fastest_wave := some 1 }
noncomputable def nOpts : DensityOpts := { density_floor := 1, pressure_floor := 1, charge := 1 }
noncomputable def mOpts : MomentumOpts := { density_floor := 1, pressure_floor := 1 }
noncomputable def pOpts : PressureOpts :=
  { density_floor := 1, temperature_floor := 1, pressure_floor := 1, kappa_coefficient := 3, kappa_limit_alpha := 1, thermal_conduction := false }
noncomputable def eOpts : EnergyOpts := { kappa_coefficient := 3, kappa_limit_alpha := 1, thermal_conduction := false }

theorem stream_runs (S E source : F3 1) :
    (∃ r, densityRhs nOpts boxGrid (plainRhs 1) upwind 1 (stream S E) streamFields = .ok r) ∧
    (∃ r, momentumRhs mOpts boxGrid (plainRhs 1) upwind 0 (stream S E) streamFields = .ok r) ∧
    (∃ r, pressureRhs pOpts boxGrid (plainRhs 1) upwind 1 source (stream S E) streamFields = .ok r) ∧
    ∃ r, energyRhs eOpts boxGrid (plainRhs 1) upwind 1 source (stream S E) streamFields = .ok r :=
  ⟨⟨_, rfl⟩, ⟨_, rfl⟩, ⟨_, rfl⟩, ⟨_, rfl⟩⟩

/-- The state with these ions, 7 units of time after the start. -/
noncomputable def streaming : Store Key (Value (Cell 1)) where
  ent
    | .top "time" => { val := some (.real 7), final := false, finalDomain := false }
    | .sp "d+" .density => { val := some (.field fun _ => 1), final := false, finalDomain := false }
    | .sp "d+" .temperature => { val := some (.field fun _ => 2), final := false, finalDomain := false }
    | .sp "d+" .velocity => { val := some (.field fun _ => 1), final := false, finalDomain := false }
    | .sp "d+" .AA => { val := some (.real 2), final := false, finalDomain := false }
    | _ => { val := none, final := false, finalDomain := false }
  check := true

/-- A source with profile, only in the core (which is `x = 2`), that is turned off in 20 seconds. -/
noncomputable def ramped : SourceInput 1 :=
  { source := some fun i j _ => 10 * i + j, only_in_core := true, prefactor := some fun t => 1 - t / 20 }

open Units in
/-- Units in which an ion gyrates at frequency 2, so that 7 units of time are 3.5 seconds. -/
example : ∃ st' r r', addDensityInput unitConsts (units 2) "d+" ramped.prefactor (densityInput unitConsts (units 2) boxGrid (fun i => i == 2) "d+" ramped) streaming =
      (.ok (), st') ∧
    densityRhs nOpts boxGrid (plainRhs 1) upwind 1 (stream (asF3 (fieldOf streaming "d+" .density_source)) 0) streamFields = .ok r ∧
    densityRhs nOpts boxGrid (plainRhs 1) upwind 1 (stream (asF3 (fieldOf st' "d+" .density_source)) 0) streamFields = .ok r' ∧
    (units 2).conversion unitConsts .density_source * (r' 2 3 0 - r 2 3 0) = (1 - 3.5 / 20) * 23 ∧
    (units 2).conversion unitConsts .density_source * (r' 3 3 0 - r 3 3 0) = 0 := by
  have h : ∃ st', addDensityInput unitConsts (units 2) "d+" ramped.prefactor (densityInput unitConsts (units 2) boxGrid (fun i => i == 2) "d+" ramped) streaming =
      (.ok (), st') := ⟨_, rfl⟩
  obtain ⟨st', h⟩ := h
  obtain ⟨r, hr⟩ := (stream_runs (asF3 (fieldOf streaming "d+" .density_source)) 0 0).1
  obtain ⟨r', hr'⟩ := (stream_runs (asF3 (fieldOf st' "d+" .density_source)) 0 0).1
  have ht : timeOf streaming = 3.5 * (units 2).Omega_ci unitConsts := by
    show (7 : ℝ) = _
    rw [units_Omega]; norm_num
  have H := fun {i j : ℤ} (hd : InDomain boxGrid i j) (k : Fin 1) =>
    density_input_acts unitConsts_physical (units_good (by norm_num : (0 : ℝ) < 2)) ht h (s := stream 0 0) rfl hr hr' hd k
  refine ⟨st', r, r', h, hr, hr', (H (by simp [InDomain, boxGrid]) 0).trans ?_, (H (by simp [InDomain, boxGrid]) 0).trans ?_⟩ <;>
    norm_num [wanted, ramped, prefactorAt, asGiven]

open Units in
example : ∃ r r', pressureRhsInput pOpts boxGrid (plainRhs 1) upwind 1 unitConsts (units 2) "d+" {} (3 * (units 2).Omega_ci unitConsts) (stream 0 0) streamFields = .ok r ∧
    pressureRhsInput pOpts boxGrid (plainRhs 1) upwind 1 unitConsts (units 2) "d+" { ramped with only_in_core := false } (3 * (units 2).Omega_ci unitConsts) (stream 0 0)
      streamFields = .ok r' ∧
    (units 2).conversion unitConsts .pressure * (units 2).Omega_ci unitConsts * (r' 3 3 0 - r 3 3 0) = (1 - 3 / 20) * 33 := by
  obtain ⟨r, hr⟩ := (stream_runs 0 0 (finalSource unitConsts (units 2) none (3 * (units 2).Omega_ci unitConsts)
    (pressureInput unitConsts (units 2) boxGrid (plainRhs 1).periodicY "d+" {}))).2.2.1
  obtain ⟨r', hr'⟩ := (stream_runs 0 0 (finalSource unitConsts (units 2) ramped.prefactor (3 * (units 2).Omega_ci unitConsts)
    (pressureInput unitConsts (units 2) boxGrid (plainRhs 1).periodicY "d+" { ramped with only_in_core := false }))).2.2.1
  refine ⟨r, r', hr, hr', ?_⟩
  rw [pressure_input_acts unitConsts_physical (units_good (by norm_num : (0 : ℝ) < 2)) (t := 3) (g := boxGrid) (inp := { ramped with only_in_core := false })
    (s := stream 0 0) rfl hr hr' (by simp [InDomain, boxGrid]) 0]
  norm_num [wanted, ramped, prefactorAt, asGiven]

open Units in
example : ∃ rP rP' rE rE',
    pressureRhsInput pOpts boxGrid (plainRhs 1) upwind 1 unitConsts (units 2) "d+" {} (3 * (units 2).Omega_ci unitConsts) (stream 0 0) streamFields = .ok rP ∧
    pressureRhsInput pOpts boxGrid (plainRhs 1) upwind 1 unitConsts (units 2) "d+" { mesh := fun _ => some 5 } (3 * (units 2).Omega_ci unitConsts) (stream 0 0)
      streamFields = .ok rP' ∧
    energyRhsInput eOpts boxGrid (plainRhs 1) upwind 1 unitConsts (units 2) "d+" {} (stream 0 0) streamFields = .ok rE ∧
    energyRhsInput eOpts boxGrid (plainRhs 1) upwind 1 unitConsts (units 2) "d+" { mesh := fun _ => some 5 } (stream 0 0) streamFields = .ok rE' ∧
    3 / 2 * (rP' 2 2 0 - rP 2 2 0) = rE' 2 2 0 - rE 2 2 0 := by
  obtain ⟨rP, h1⟩ := (stream_runs 0 0 (finalSource unitConsts (units 2) none (3 * (units 2).Omega_ci unitConsts)
    (pressureInput unitConsts (units 2) boxGrid (plainRhs 1).periodicY "d+" {}))).2.2.1
  obtain ⟨rP', h2⟩ := (stream_runs 0 0 (finalSource unitConsts (units 2) none (3 * (units 2).Omega_ci unitConsts)
    (pressureInput unitConsts (units 2) boxGrid (plainRhs 1).periodicY "d+" { mesh := fun _ => some 5 }))).2.2.1
  obtain ⟨rE, h3⟩ := (stream_runs 0 0 (energyInput unitConsts (units 2) boxGrid (plainRhs 1).periodicY eOpts.Cv "d+" {})).2.2.2
  obtain ⟨rE', h4⟩ := (stream_runs 0 0 (energyInput unitConsts (units 2) boxGrid (plainRhs 1).periodicY eOpts.Cv "d+" { mesh := fun _ => some 5 })).2.2.2
  refine ⟨rP, rP', rE, rE', h1, h2, h3, h4, ?_⟩
  exact grid_file_heating_same unitConsts_physical (units_good (by norm_num : (0 : ℝ) < 2)) (t := 3) (oE := eOpts) rfl (g := boxGrid) (S := 5) (name := "d+")
    (inp := { mesh := fun _ => some 5 }) rfl rfl rfl (s := stream 0 0) rfl h1 h2 h3 h4 (by simp [InDomain, boxGrid]) 0

theorem first_multiplier {sp t v : ℝ} (h : sp - v = 1) : (piStep ⟨sp, 1, 1, false, true⟩ .fresh t v).multiplier = some 1 := by
  rw [piStep_multiplier, piStep_integral]
  have hr : raw ⟨sp, 1, 1, false, true⟩ .fresh t v = 0 := by
    unfold raw
    rw [if_pos (by norm_num [PI.fresh])]
    rfl
  rw [hr]
  simp [h]

open Units in
/-- One eV missing, gain 1, shape 1 Pa/s, factor 1: the multiplier is one, and the pressure rises by 2/3 Pa/s. -/
theorem one_becomes_two_thirds : ∃ k₁ st' r r',
    temperatureFeedback ⟨3, 1, 1, false, true⟩ "d+" false (2, 2, 0) (2, 3, 0) [("d+", 1)] (pressureShape unitConsts (units 2) (1 : F3 1)).cells .fresh streaming =
      (.ok k₁, st') ∧ k₁.multiplier = some 1 ∧
    pressureRhs pOpts boxGrid (plainRhs 1) upwind 1 0 (stream 0 (asF3 (fieldOf streaming "d+" .energy_source))) streamFields = .ok r ∧
    pressureRhs pOpts boxGrid (plainRhs 1) upwind 1 0 (stream 0 (asF3 (fieldOf st' "d+" .energy_source))) streamFields = .ok r' ∧
    (units 2).conversion unitConsts .pressure * (units 2).Omega_ci unitConsts * (r' 2 2 0 - r 2 2 0) = 2 / 3 := by
  have h : ∃ k₁ st', temperatureFeedback ⟨3, 1, 1, false, true⟩ "d+" false (2, 2, 0) (2, 3, 0) [("d+", 1)] (pressureShape unitConsts (units 2) (1 : F3 1)).cells .fresh
      streaming = (.ok k₁, st') := ⟨_, _, rfl⟩
  obtain ⟨k₁, st', h⟩ := h
  obtain ⟨r, hr⟩ := (stream_runs 0 (asF3 (fieldOf streaming "d+" .energy_source)) 0).2.2.1
  obtain ⟨r', hr'⟩ := (stream_runs 0 (asF3 (fieldOf st' "d+" .energy_source)) 0).2.2.1
  have hk : k₁.multiplier = some 1 := by
    rw [(temperature_feedback h).1]
    exact first_multiplier (by show (3 : ℝ) - 2 = 1; norm_num)
  obtain ⟨m, hm, hx⟩ := temperature_shape_two_thirds unitConsts_physical (units_good (by norm_num : (0 : ℝ) < 2)) h (s := stream 0 0) rfl hr hr'
  rw [hk] at hm
  refine ⟨k₁, st', r, r', h, hk, hr, hr', ?_⟩
  rw [hx, ← Option.some.inj hm]
  norm_num

/-- Feedback on the density, for ions of mass 2 that stream with velocity 1: one particle per unit of time and volume, which takes away no energy with
`evolve_pressure` and brings 1 with `evolve_energy`. -/
example : ∃ k₁ st' rN rN' rM rM' rP rP' rE rE', densityFeedback ⟨2, 1, 1, false, true⟩ "d+" (fun _ : Cell 1 => 1) (2, 2, 0) .fresh streaming = (.ok k₁, st') ∧
    densityRhs nOpts boxGrid (plainRhs 1) upwind 1 (stream (asF3 (fieldOf streaming "d+" .density_source)) (asF3 (fieldOf streaming "d+" .energy_source)))
      streamFields = .ok rN ∧
    densityRhs nOpts boxGrid (plainRhs 1) upwind 1 (stream (asF3 (fieldOf st' "d+" .density_source)) (asF3 (fieldOf st' "d+" .energy_source)))
      streamFields = .ok rN' ∧
    momentumRhs mOpts boxGrid (plainRhs 1) upwind 0 (stream (asF3 (fieldOf streaming "d+" .density_source)) (asF3 (fieldOf streaming "d+" .energy_source)))
      streamFields = .ok rM ∧
    momentumRhs mOpts boxGrid (plainRhs 1) upwind 0 (stream (asF3 (fieldOf st' "d+" .density_source)) (asF3 (fieldOf st' "d+" .energy_source)))
      streamFields = .ok rM' ∧
    pressureRhs pOpts boxGrid (plainRhs 1) upwind 1 0 (stream (asF3 (fieldOf streaming "d+" .density_source)) (asF3 (fieldOf streaming "d+" .energy_source)))
      streamFields = .ok rP ∧
    pressureRhs pOpts boxGrid (plainRhs 1) upwind 1 0 (stream (asF3 (fieldOf st' "d+" .density_source)) (asF3 (fieldOf st' "d+" .energy_source)))
      streamFields = .ok rP' ∧
    energyRhs eOpts boxGrid (plainRhs 1) upwind 1 0 (stream 0 (asF3 (fieldOf streaming "d+" .energy_source))) streamFields = .ok rE ∧
    energyRhs eOpts boxGrid (plainRhs 1) upwind 1 0 (stream 0 (asF3 (fieldOf st' "d+" .energy_source))) streamFields = .ok rE' ∧
    fieldOf st' "d+" .density_source (2, 2, 0) = 1 ∧
    energyRate 2 1 (rN' 2 2 0) (rM' 2 2 0) (rP' 2 2 0) = energyRate 2 1 (rN 2 2 0) (rM 2 2 0) (rP 2 2 0) ∧ rE' 2 2 0 = rE 2 2 0 + 1 := by
  have h : ∃ k₁ st', densityFeedback ⟨2, 1, 1, false, true⟩ "d+" (fun _ : Cell 1 => 1) (2, 2, 0) .fresh streaming = (.ok k₁, st') := ⟨_, _, rfl⟩
  obtain ⟨k₁, st', h⟩ := h
  obtain ⟨⟨rN, n⟩, ⟨rM, m⟩, ⟨rP, p⟩, -⟩ := stream_runs (asF3 (fieldOf streaming "d+" .density_source)) (asF3 (fieldOf streaming "d+" .energy_source)) 0
  obtain ⟨⟨rN', n'⟩, ⟨rM', m'⟩, ⟨rP', p'⟩, -⟩ := stream_runs (asF3 (fieldOf st' "d+" .density_source)) (asF3 (fieldOf st' "d+" .energy_source)) 0
  obtain ⟨rE, e⟩ := (stream_runs 0 (asF3 (fieldOf streaming "d+" .energy_source)) 0).2.2.2
  obtain ⟨rE', e'⟩ := (stream_runs 0 (asF3 (fieldOf st' "d+" .energy_source)) 0).2.2.2
  have hk : k₁.multiplier = some 1 := by
    rw [(density_feedback h).1]
    exact first_multiplier (by show (2 : ℝ) - 1 = 1; norm_num)
  obtain ⟨-, x, hx, -, h1, -⟩ := density_feedback h
  rw [hk] at hx
  have h1 := h1 (2, 2, 0)
  rw [← Option.some.inj hx, show fieldOf streaming "d+" .density_source (2, 2, 0) = 0 from rfl] at h1
  refine ⟨k₁, st', rN, rN', rM, rM', rP, rP', rE, rE', h, n, n', m, m', p, p', e, e', by rw [h1]; norm_num, ?_, ?_⟩
  · exact feedback_keeps_energy h rfl rfl (s := stream 0 0) rfl rfl rfl rfl n n' m m' p p' 2 2 0
  · rw [feedback_adds_energy h rfl rfl (s := stream 0 0) rfl e e' 2 2 0, h1,
      show fieldOf streaming "d+" .density_source (2, 2, 0) = 0 from rfl, show fieldOf streaming "d+" .velocity (2, 2, 0) = 1 from rfl,
      show realOf streaming "d+" .AA = 2 from rfl]
    norm_num

/-- The same source of particles in `evolve_density` takes the energy 1 away. -/
example : ∃ rN rN' rM rM' rP rP', densityRhs nOpts boxGrid (plainRhs 1) upwind 1 (stream 0 0) streamFields = .ok rN ∧
    densityRhs nOpts boxGrid (plainRhs 1) upwind 1 (stream (0 + 1) 0) streamFields = .ok rN' ∧
    momentumRhs mOpts boxGrid (plainRhs 1) upwind 0 (stream 0 0) streamFields = .ok rM ∧
    momentumRhs mOpts boxGrid (plainRhs 1) upwind 0 (stream (0 + 1) 0) streamFields = .ok rM' ∧
    pressureRhs pOpts boxGrid (plainRhs 1) upwind 1 0 (stream 0 0) streamFields = .ok rP ∧
    pressureRhs pOpts boxGrid (plainRhs 1) upwind 1 0 (stream (0 + 1) 0) streamFields = .ok rP' ∧
    energyRate 2 1 (rN' 2 2 0) (rM' 2 2 0) (rP' 2 2 0) = energyRate 2 1 (rN 2 2 0) (rM 2 2 0) (rP 2 2 0) - 1 := by
  obtain ⟨⟨rN, n⟩, ⟨rM, m⟩, ⟨rP, p⟩, -⟩ := stream_runs 0 0 0
  obtain ⟨⟨rN', n'⟩, ⟨rM', m'⟩, ⟨rP', p'⟩, -⟩ := stream_runs (0 + 1) 0 0
  refine ⟨rN, rN', rM, rM', rP, rP', n, n', m, m', p, p', ?_⟩
  rw [input_source_takes_energy (s := stream 0 0) rfl rfl rfl rfl n n' m m' p p' 2 1 2 2 0]
  norm_num

end Hermes.InputSources
