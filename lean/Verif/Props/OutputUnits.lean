import Verif.Model.OutputTable
import Verif.Lemmas.Units
import Mathlib.Tactic.NormNum
import Mathlib.Tactic.Positivity
import Mathlib.Tactic.LinearCombination
import Mathlib.Tactic.FieldSimp
import Mathlib.Algebra.Order.Field.Power

/-!
# C79: Saved variables and options have the units they state

A saved variable comes with the units it has after multiplication by its conversion factor; an option with units is divided by a
reference quantity.  A factor has the stated units if it changes with the units of length, mass, time and current in the way the units say: this
is the criterion here, for every choice of the physical constants and of the normalisation.
-/

namespace Hermes.Outputs
open Hermes.Units

/-! ## Specification: units -/

/-- A unit made of metre, kilogram, second and ampere: the four exponents. -/
structure Dim where
  m : ℤ
  kg : ℤ
  s : ℤ
  A : ℤ
deriving DecidableEq

namespace Dim

instance : Mul Dim := ⟨fun a b => ⟨a.m + b.m, a.kg + b.kg, a.s + b.s, a.A + b.A⟩⟩
instance : Div Dim := ⟨fun a b => ⟨a.m - b.m, a.kg - b.kg, a.s - b.s, a.A - b.A⟩⟩

def unit : Dim := ⟨0, 0, 0, 0⟩
def metre : Dim := ⟨1, 0, 0, 0⟩
def kilogram : Dim := ⟨0, 1, 0, 0⟩
def second : Dim := ⟨0, 0, 1, 0⟩
def ampere : Dim := ⟨0, 0, 0, 1⟩

def area : Dim := metre * metre
def volume : Dim := area * metre
def newton : Dim := kilogram * metre / (second * second)
def pascal : Dim := newton / area
def joule : Dim := newton * metre
def watt : Dim := joule / second
def coulomb : Dim := ampere * second
def volt : Dim := watt / ampere
def tesla : Dim := volt * second / area

end Dim

open Dim in
/-- What the units mean.  A temperature in eV is a voltage: the temperature in joules is `SI::qe` times it. -/
def meaning : String → Option Dim
  | "m" => some metre
  | "s" | "seconds" => some second
  | "T" => some tesla
  | "T m" => some (tesla * metre)
  | "V" | "Volts" | "eV" => some volt
  | "V / m" => some (volt / metre)
  | "V / s" => some (volt / second)
  | "N" => some newton
  | "W" => some watt
  | "W / m / eV" => some (watt / metre / volt)
  | "W / m^3" | "W m^-3" | "W/m^3" | "J/m^3/s" => some (watt / volume)
  | "J/m^3" => some (joule / volume)
  | "Pa" => some pascal
  | "Pa / s" | "Pa/s" | "Pa s^-1" | "N/m^2/s" => some (pascal / second)
  | "A m^-3" => some (ampere / volume)
  | "C m^-3" => some (coulomb / volume)
  | "kg / m^2 / s" => some (kilogram / area / second)
  | "kg m^-2 s^-2" => some (kilogram / area / (second * second))
  | "m / s" | "m/s" => some (metre / second)
  | "m^2 s^-1" | "m^2/s" => some (area / second)
  | "m^-3" => some (unit / volume)
  | "m^-3 s^-1" | "m^-3 / s" | "m^-3/s" => some (unit / volume / second)
  | "s^-1" | "s-1" => some (unit / second)
  | _ => none

/-- Another system of base units: how many of the new units of length, mass, time and current make one metre, kilogram, second, ampere. -/
structure BaseUnits where
  m : ℝ
  kg : ℝ
  s : ℝ
  A : ℝ

/-- The units are positive. -/
structure BaseUnits.Positive (b : BaseUnits) : Prop where
  m : 0 < b.m
  kg : 0 < b.kg
  s : 0 < b.s
  A : 0 < b.A

/-- How many new units make one unit of a quantity with the given exponents. -/
noncomputable def BaseUnits.per (b : BaseUnits) (d : Dim) : ℝ := b.m ^ d.m * b.kg ^ d.kg * b.s ^ d.s * b.A ^ d.A

open Dim in
/-- The physical constants in the new units; the permittivity is in A s / (V m). -/
noncomputable def BaseUnits.consts (b : BaseUnits) (c : Consts) : Consts :=
  ⟨b.per coulomb * c.qe, b.per kilogram * c.Mp, b.per kilogram * c.Me, b.per (coulomb / volt / metre) * c.e0⟩

open Dim in
/-- The reference temperature, density and magnetic field in the new units. -/
noncomputable def BaseUnits.normalisation (b : BaseUnits) (u : Normalisation) : Normalisation :=
  ⟨b.per volt * u.Tnorm, b.per (unit / volume) * u.Nnorm, b.per tesla * u.Bnorm⟩

/-- A factor has the units `d`: measured in other units it is larger by the number of new units in one of `d`. -/
def HasUnits (f : Consts → Normalisation → ℝ) (d : Dim) : Prop :=
  ∀ (c : Consts) (u : Normalisation) (b : BaseUnits), Physical c → Good u → b.Positive →
    f (b.consts c) (b.normalisation u) = b.per d * f c u

/-- One saved number stands for this many units: the constant that is saved, times the conversion factor. -/
noncomputable def Output.factor (o : Output) (c : Consts) (u : Normalisation) : ℝ := o.saved.value c u * o.conversion.value c u

/-- The saved variables whose conversion factor does not have the stated units: the parallel conductivity of `evolve_energy`, the power of
numerical viscous heating of `evolve_pressure`, the particle source of `neutral_parallel_diffusion`. -/
def mislabelled : List (String × ℕ) :=
  [("src/evolve_energy.cxx", 435), ("src/evolve_pressure.cxx", 566), ("src/neutral_parallel_diffusion.cxx", 126)]

/-- The flows of particles through cell faces, whose units `s^-1` are those of particles per second. -/
def isParticleFlow (o : Output) : Bool :=
  (o.var, o.units) ∈ [("pf{}_tot_xlow", "s^-1"), ("pf{}_tot_ylow", "s^-1"), ("pf{}_adv_perp_xlow", "s^-1"), ("pf{}_adv_perp_ylow", "s^-1"),
    ("pf{}_adv_par_ylow", "s^-1")]

/-! ## Powers of the constants -/

/-- Twice the exponents of `qe`, `Mp`, `Nnorm`, `Tnorm`, `Bnorm`. -/
structure Exps where
  q : ℤ
  p : ℤ
  n : ℤ
  t : ℤ
  b : ℤ
deriving DecidableEq

def Exps.add (x y : Exps) : Exps := ⟨x.q + y.q, x.p + y.p, x.n + y.n, x.t + y.t, x.b + y.b⟩
def Exps.sub (x y : Exps) : Exps := ⟨x.q - y.q, x.p - y.p, x.n - y.n, x.t - y.t, x.b - y.b⟩

def Factor.exps : Factor → Exps
  | .one => ⟨0, 0, 0, 0, 0⟩
  | .qe => ⟨2, 0, 0, 0, 0⟩
  | .Mp => ⟨0, 2, 0, 0, 0⟩
  | .Nnorm => ⟨0, 0, 2, 0, 0⟩
  | .Tnorm => ⟨0, 0, 0, 2, 0⟩
  | .Bnorm => ⟨0, 0, 0, 0, 2⟩
  | .Cs0 => ⟨1, -1, 0, 1, 0⟩
  | .Omega_ci => ⟨2, -2, 0, 0, 2⟩
  | .rho_s0 => ⟨-1, 1, 0, 1, -2⟩
  | .Pnorm => ⟨2, 0, 2, 2, 0⟩
  | .SPnorm => ⟨4, -2, 2, 2, 2⟩
  | .DivQnorm => ⟨4, -2, 2, 2, 2⟩
  | .FreqNorm => ⟨2, -2, 0, 0, 2⟩
  | .Lnorm => ⟨-1, 1, 0, 1, -2⟩
  | .seconds => ⟨-2, 2, 0, 0, -2⟩
  | .meters => ⟨-1, 1, 0, 1, -2⟩
  | .diffusion_norm => ⟨0, 0, 0, 2, -2⟩
  | .mul a b => a.exps.add b.exps
  | .div a b => a.exps.sub b.exps

noncomputable def mono (c : Consts) (u : Normalisation) (e : Exps) : ℝ :=
  c.qe ^ e.q * c.Mp ^ e.p * u.Nnorm ^ e.n * u.Tnorm ^ e.t * u.Bnorm ^ e.b

theorem mono_add {c : Consts} {u : Normalisation} (hc : Physical c) (hu : Good u) (x y : Exps) :
    mono c u (x.add y) = mono c u x * mono c u y := by
  simp only [mono, Exps.add, zpow_add₀ hc.qe.ne', zpow_add₀ hc.Mp.ne', zpow_add₀ hu.N.ne', zpow_add₀ hu.T.ne', zpow_add₀ hu.B.ne']
  ring

theorem mono_pos {c : Consts} {u : Normalisation} (hc : Physical c) (hu : Good u) (x : Exps) : 0 < mono c u x := by
  have := hc.qe; have := hc.Mp; have := hu.N; have := hu.T; have := hu.B
  unfold mono
  positivity

theorem mono_sub {c : Consts} {u : Normalisation} (hc : Physical c) (hu : Good u) (x y : Exps) :
    mono c u (x.sub y) = mono c u x / mono c u y := by
  have h : x = (x.sub y).add y := by
    cases x; cases y; simp [Exps.add, Exps.sub]
  rw [eq_div_iff (mono_pos hc hu y).ne', ← mono_add hc hu, ← h]

theorem value_sq {c : Consts} {u : Normalisation} (hc : Physical c) (hu : Good u) (f : Factor) :
    0 < f.value c u ∧ f.value c u ^ 2 = mono c u f.exps := by
  have hq := hc.qe; have hp := hc.Mp; have hN := hu.N; have hT := hu.T; have hB := hu.B
  have hO : 0 < u.Omega_ci c := by unfold Normalisation.Omega_ci; positivity
  have hC : 0 < u.Cs0 c := by unfold Normalisation.Cs0; positivity
  have hC2 : u.Cs0 c ^ 2 = c.qe * u.Tnorm / c.Mp := Real.sq_sqrt (by positivity)
  have hR : 0 < u.rho_s0 c := by unfold Normalisation.rho_s0; positivity
  have hR2 : u.rho_s0 c ^ 2 = c.Mp * u.Tnorm / (c.qe * u.Bnorm ^ 2) := by
    rw [Normalisation.rho_s0, div_pow, hC2, Normalisation.Omega_ci]
    field_simp
  have hO2 : u.Omega_ci c = c.qe * u.Bnorm / c.Mp := rfl
  have zq : ∀ k : ℕ, c.qe ^ (-(k : ℤ)) = (c.qe ^ k)⁻¹ := fun k => by rw [zpow_neg, zpow_natCast]
  have z1 (x : ℝ) : x ^ (-1 : ℤ) = x⁻¹ := zpow_neg_one x
  have z2 (x : ℝ) : x ^ (-2 : ℤ) = (x ^ 2)⁻¹ := by rw [zpow_neg]; rfl
  have y2 (x : ℝ) : x ^ (2 : ℤ) = x ^ 2 := rfl
  have y4 (x : ℝ) : x ^ (4 : ℤ) = x ^ 4 := rfl
  induction f with
  | one => exact ⟨by simp [Factor.value], by simp [Factor.value, Factor.exps, mono]⟩
  | qe => exact ⟨hq, by simp [Factor.value, Factor.exps, mono, y2]⟩
  | Mp => exact ⟨hp, by simp [Factor.value, Factor.exps, mono, y2]⟩
  | Nnorm => exact ⟨hN, by simp [Factor.value, Factor.exps, mono, y2]⟩
  | Tnorm => exact ⟨hT, by simp [Factor.value, Factor.exps, mono, y2]⟩
  | Bnorm => exact ⟨hB, by simp [Factor.value, Factor.exps, mono, y2]⟩
  | Cs0 => exact ⟨hC, by simp only [Factor.value, Factor.exps, mono, hC2, z1, zpow_one, zpow_zero]; field_simp⟩
  | Omega_ci => exact ⟨hO, by simp only [Factor.value, Factor.exps, mono, hO2, z2, y2, zpow_zero]; field_simp⟩
  | rho_s0 => exact ⟨hR, by simp only [Factor.value, Factor.exps, mono, hR2, z1, z2, zpow_one, zpow_zero]; field_simp⟩
  | Pnorm => exact ⟨by simp only [Factor.value]; positivity, by simp only [Factor.value, Factor.exps, mono, y2, zpow_zero]; ring⟩
  | SPnorm =>
      exact ⟨by simp only [Factor.value]; positivity, by simp only [Factor.value, Factor.exps, mono, y2, y4, z2, hO2]; field_simp⟩
  | DivQnorm =>
      exact ⟨by simp only [Factor.value]; positivity, by simp only [Factor.value, Factor.exps, mono, y2, y4, z2, hO2]; field_simp⟩
  | FreqNorm =>
      exact ⟨by simp only [Factor.value]; positivity, by simp only [Factor.value, Factor.exps, mono, y2, z2, hO2, zpow_zero]; field_simp⟩
  | Lnorm => exact ⟨hR, by simp only [Factor.value, Factor.exps, mono, hR2, z1, z2, zpow_one, zpow_zero]; field_simp⟩
  | seconds =>
      exact ⟨by simp only [Factor.value]; positivity, by simp only [Factor.value, Factor.exps, mono, y2, z2, hO2, zpow_zero]; field_simp⟩
  | meters => exact ⟨hR, by simp only [Factor.value, Factor.exps, mono, hR2, z1, z2, zpow_one, zpow_zero]; field_simp⟩
  | diffusion_norm =>
      refine ⟨by simp only [Factor.value]; positivity, ?_⟩
      have : (Factor.diffusion_norm).value c u = c.Mp * u.Tnorm / (c.qe * u.Bnorm ^ 2) * (c.qe * u.Bnorm / c.Mp) := by
        rw [← hR2, ← hO2]; simp only [Factor.value]; field_simp
      rw [this]
      simp only [Factor.exps, mono, y2, z2, zpow_zero]; field_simp
  | mul a b ha hb =>
      refine ⟨mul_pos ha.1 hb.1, ?_⟩
      show (a.value c u * b.value c u) ^ 2 = mono c u (a.exps.add b.exps)
      rw [mul_pow, ha.2, hb.2, mono_add hc hu]
  | div a b ha hb =>
      refine ⟨div_pos ha.1 hb.1, ?_⟩
      show (a.value c u / b.value c u) ^ 2 = mono c u (a.exps.sub b.exps)
      rw [div_pow, ha.2, hb.2, mono_sub hc hu]

/-- The squares of the units. -/
def Exps.dim (e : Exps) : Dim :=
  ⟨-3 * e.n + 2 * e.t, e.p + e.t + e.b, e.q - 3 * e.t - 2 * e.b, e.q - e.t - e.b⟩

def Dim.sq (d : Dim) : Dim := ⟨2 * d.m, 2 * d.kg, 2 * d.s, 2 * d.A⟩

theorem per_pos {b : BaseUnits} (hb : b.Positive) (d : Dim) : 0 < b.per d := by
  have := hb.m; have := hb.kg; have := hb.s; have := hb.A
  unfold BaseUnits.per
  positivity

theorem per_sq {b : BaseUnits} (d : Dim) : b.per d.sq = b.per d ^ 2 := by
  simp only [BaseUnits.per, Dim.sq, mul_pow]
  have h (x : ℝ) (k : ℤ) : x ^ (2 * k) = (x ^ k) ^ 2 := by rw [mul_comm, zpow_mul]; rfl
  simp only [h]

theorem physical {b : BaseUnits} (hb : b.Positive) {c : Consts} (hc : Physical c) : Physical (b.consts c) :=
  ⟨mul_pos (per_pos hb _) hc.qe, mul_pos (per_pos hb _) hc.Mp, mul_pos (per_pos hb _) hc.Me, mul_pos (per_pos hb _) hc.e0⟩

theorem good {b : BaseUnits} (hb : b.Positive) {u : Normalisation} (hu : Good u) : Good (b.normalisation u) :=
  ⟨mul_pos (per_pos hb _) hu.T, mul_pos (per_pos hb _) hu.N, mul_pos (per_pos hb _) hu.B⟩

theorem mono_change {b : BaseUnits} (hb : b.Positive) (c : Consts) (u : Normalisation) (e : Exps) :
    mono (b.consts c) (b.normalisation u) e = b.per e.dim * mono c u e := by
  have h1 := hb.m.ne'; have h2 := hb.kg.ne'; have h3 := hb.s.ne'; have h4 := hb.A.ne'
  have e1 : b.per Dim.coulomb = b.s * b.A := by
    rw [show Dim.coulomb = ⟨0, 0, 1, 1⟩ from rfl]; simp [BaseUnits.per]
  have e2 : b.per Dim.kilogram = b.kg := by
    rw [show Dim.kilogram = ⟨0, 1, 0, 0⟩ from rfl]; simp [BaseUnits.per]
  have e3 : b.per (Dim.unit / Dim.volume) = b.m ^ (-3 : ℤ) := by
    rw [show Dim.unit / Dim.volume = ⟨-3, 0, 0, 0⟩ from rfl]; simp [BaseUnits.per]
  have e4 : b.per Dim.volt = b.m ^ (2 : ℤ) * b.kg * b.s ^ (-3 : ℤ) * b.A ^ (-1 : ℤ) := by
    rw [show Dim.volt = ⟨2, 1, -3, -1⟩ from rfl]; simp [BaseUnits.per]
  have e5 : b.per Dim.tesla = b.kg * b.s ^ (-2 : ℤ) * b.A ^ (-1 : ℤ) := by
    rw [show Dim.tesla = ⟨0, 1, -2, -1⟩ from rfl]; simp [BaseUnits.per]
  simp only [mono, BaseUnits.consts, BaseUnits.normalisation, e1, e2, e3, e4, e5, mul_zpow, ← zpow_mul]
  have f1 : b.m ^ (-3 * e.n + 2 * e.t) = b.m ^ (-3 * e.n) * b.m ^ (2 * e.t) := zpow_add₀ h1 _ _
  have f2 : b.kg ^ (e.p + e.t + e.b) = b.kg ^ e.p * b.kg ^ e.t * b.kg ^ e.b := by rw [zpow_add₀ h2, zpow_add₀ h2]
  have f3 : b.s ^ (e.q - 3 * e.t - 2 * e.b) = b.s ^ e.q * b.s ^ (-3 * e.t) * b.s ^ (-2 * e.b) := by
    rw [← zpow_add₀ h3, ← zpow_add₀ h3]; congr 1; ring
  have f4 : b.A ^ (e.q - e.t - e.b) = b.A ^ e.q * b.A ^ (-1 * e.t) * b.A ^ (-1 * e.b) := by
    rw [← zpow_add₀ h4, ← zpow_add₀ h4]; congr 1; ring
  simp only [BaseUnits.per, Exps.dim, f1, f2, f3, f4]
  ring

theorem eq_of_sq {x y : ℝ} (hx : 0 < x) (hy : 0 < y) (h : x ^ 2 = y ^ 2) : x = y := by
  nlinarith [mul_pos hx hy, sq_nonneg (x - y), sq_nonneg (x + y)]

theorem factor_units {f : Factor} {d : Dim} (h : f.exps.dim = d.sq) : HasUnits (fun c u => f.value c u) d := by
  intro c u b hc hu hb
  obtain ⟨p1, s1⟩ := value_sq (physical hb hc) (good hb hu) f
  obtain ⟨p2, s2⟩ := value_sq hc hu f
  refine eq_of_sq p1 (mul_pos (per_pos hb _) p2) ?_
  rw [s1, mono_change hb, h, per_sq, mul_pow, s2]

def Output.exps (o : Output) : Exps := (Factor.mul o.saved o.conversion).exps

theorem factor_eq (o : Output) : (fun c u => o.factor c u) = fun c u => (Factor.mul o.saved o.conversion).value c u := rfl

theorem same_factor {f g : Factor} (h : f.exps = g.exps) {c : Consts} {u : Normalisation} (hc : Physical c) (hu : Good u) :
    f.value c u = g.value c u := by
  obtain ⟨p1, s1⟩ := value_sq hc hu f
  obtain ⟨p2, s2⟩ := value_sq hc hu g
  exact eq_of_sq p1 p2 (by rw [s1, s2, h])

/-! ## Saved variables -/

/-- **Every saved variable but the three listed has the units it states**, whatever the constants and the normalisation are. -/
theorem outputs_have_units_partial :
    ∀ o ∈ outputs, (o.file, o.line) ∉ mislabelled → ∃ d, meaning o.units = some d ∧ HasUnits o.factor d := by
  have h : ∀ o ∈ outputs, (o.file, o.line) ∉ mislabelled → (meaning o.units).map Dim.sq = some o.exps.dim := by decide +kernel
  intro o ho hm
  have := h o ho hm
  rw [Option.map_eq_some_iff] at this
  obtain ⟨d, hd, he⟩ := this
  exact ⟨d, hd, factor_units (f := .mul o.saved o.conversion) he.symm⟩

/-- Not vacuous: 142 rows, all but three of them covered. -/
example : outputs.length = 142 ∧ (outputs.filter fun o => (o.file, o.line) ∉ mislabelled).length = 139 := by decide +kernel

/-- Constants and a normalisation for the examples; only their being positive matters. -/
noncomputable def ones : Consts := ⟨1, 1, 1, 1⟩
noncomputable def oneNorm : Normalisation := ⟨1, 1, 1⟩
theorem ones_physical : Physical ones := ⟨one_pos, one_pos, one_pos, one_pos⟩
theorem oneNorm_good : Good oneNorm := ⟨one_pos, one_pos, one_pos⟩

/-- A factor has at most one unit. -/
theorem not_units {f : Factor} {d d' : Dim} (h : f.exps.dim = d'.sq) (hne : d ≠ d') : ¬ HasUnits (fun c u => f.value c u) d := by
  intro H
  have K (b : BaseUnits) (hb : b.Positive) : b.per d = b.per d' := by
    have e1 := H ones oneNorm b ones_physical oneNorm_good hb
    have e2 := factor_units h ones oneNorm b ones_physical oneNorm_good hb
    exact mul_right_cancel₀ (value_sq ones_physical oneNorm_good f).1.ne' (e1.symm.trans e2)
  have two (j k : ℤ) (h : (2 : ℝ) ^ j = 2 ^ k) : j = k := zpow_right_injective₀ (by norm_num) (by norm_num) h
  refine hne ?_
  have hm := K ⟨2, 1, 1, 1⟩ ⟨by norm_num, by norm_num, by norm_num, by norm_num⟩
  have hk := K ⟨1, 2, 1, 1⟩ ⟨by norm_num, by norm_num, by norm_num, by norm_num⟩
  have hs := K ⟨1, 1, 2, 1⟩ ⟨by norm_num, by norm_num, by norm_num, by norm_num⟩
  have hA := K ⟨1, 1, 1, 2⟩ ⟨by norm_num, by norm_num, by norm_num, by norm_num⟩
  simp only [BaseUnits.per, one_zpow, mul_one, one_mul] at hm hk hs hA
  cases d; cases d'
  simp only [Dim.mk.injEq]
  exact ⟨two _ _ hm, two _ _ hk, two _ _ hs, two _ _ hA⟩

open Dim in
/-- The units that the three listed variables really have. -/
def trueUnits : String → Dim
  | "src/evolve_energy.cxx" => watt / metre
  | "src/evolve_pressure.cxx" => watt / volume
  | _ => unit / volume / second

/-- **The three listed variables do not have the units they state** (`W / m / eV`, `W`, `s^-1`): the conductivity is in W/m, the power is a power per
volume, the particle source is per volume. -/
theorem mislabelled_units :
    ∀ o ∈ outputs, (o.file, o.line) ∈ mislabelled →
      ∃ d, meaning o.units = some d ∧ ¬ HasUnits o.factor d ∧ HasUnits o.factor (trueUnits o.file) := by
  have h : ∀ o ∈ outputs, (o.file, o.line) ∈ mislabelled →
      o.exps.dim = (trueUnits o.file).sq ∧ (meaning o.units).isSome = true ∧ meaning o.units ≠ some (trueUnits o.file) := by decide +kernel
  intro o ho hm
  obtain ⟨h1, h2, h3⟩ := h o ho hm
  obtain ⟨d, hd⟩ := Option.isSome_iff_exists.mp h2
  refine ⟨d, hd, not_units (f := .mul o.saved o.conversion) h1 ?_, factor_units (f := .mul o.saved o.conversion) h1⟩
  intro e; exact h3 (by rw [hd, e])

/-- All three are in the table. -/
example : (outputs.filter fun o => (o.file, o.line) ∈ mislabelled).map (fun o => (o.var, o.units))
    = [("kappa_par_{name}", "W / m / eV"), ("E{name}_nvh", "W"), ("S{species_name}_Dpar", "s^-1")] := by decide +kernel

/-- The same conductivity saved by `evolve_energy` and by `evolve_pressure` under the same name and with the same units: the conversion factors differ by the
reference temperature in eV. -/
theorem conductivity_factors_differ :
    ∀ o ∈ outputs, ∀ o' ∈ outputs, o.var = "kappa_par_{name}" → o'.var = "kappa_par_{name}" → o.file = "src/evolve_energy.cxx" →
      o'.file = "src/evolve_pressure.cxx" → o.units = o'.units ∧
        ∀ c u, Physical c → Good u → o.factor c u = u.Tnorm * o'.factor c u := by
  have h : ∀ o ∈ outputs, ∀ o' ∈ outputs, o.var = "kappa_par_{name}" → o'.var = "kappa_par_{name}" → o.file = "src/evolve_energy.cxx" →
      o'.file = "src/evolve_pressure.cxx" → o.units = o'.units ∧ o.exps = Factor.Tnorm.exps.add o'.exps := by decide +kernel
  intro o ho o' ho' h1 h2 h3 h4
  obtain ⟨e1, e2⟩ := h o ho o' ho' h1 h2 h3 h4
  exact ⟨e1, fun c u hc hu => same_factor (f := .mul o.saved o.conversion) (g := .mul .Tnorm (.mul o'.saved o'.conversion)) e2 hc hu⟩

/-! ## Same units, same factor -/

/-- **Two saved variables with the same units have the same factor**: their SI values can be compared and added, and the saved numbers as well.  Apart
from the three mislabelled ones this fails only between flows of particles (particles per second) and frequencies. -/
theorem same_units_same_factor_partial :
    ∀ o ∈ outputs, ∀ o' ∈ outputs, (o.file, o.line) ∉ mislabelled → (o'.file, o'.line) ∉ mislabelled → isParticleFlow o = isParticleFlow o' →
      meaning o.units = meaning o'.units → ∀ c u, Physical c → Good u → o.factor c u = o'.factor c u := by
  have h : ∀ o ∈ outputs, ∀ o' ∈ outputs, (o.file, o.line) ∉ mislabelled → (o'.file, o'.line) ∉ mislabelled →
      isParticleFlow o = isParticleFlow o' → meaning o.units = meaning o'.units → o.exps = o'.exps := by decide +kernel
  intro o ho o' ho' m1 m2 hp hm c u hc hu
  exact same_factor (f := .mul o.saved o.conversion) (g := .mul o'.saved o'.conversion) (h o ho o' ho' m1 m2 hp hm) hc hu

/-- Flows of particles and frequencies are both saved in `s^-1`, with factors whose ratio is the number of particles in a cube of the reference
length. -/
theorem particle_flow_factor :
    ∀ o ∈ outputs, ∀ o' ∈ outputs, o.units = "s^-1" → o'.units = "s^-1" → (o.file, o.line) ∉ mislabelled → (o'.file, o'.line) ∉ mislabelled →
      isParticleFlow o = true → isParticleFlow o' = false →
      ∀ c u, Physical c → Good u → o.factor c u = u.Nnorm * u.rho_s0 c ^ 3 * o'.factor c u := by
  have h : ∀ o ∈ outputs, ∀ o' ∈ outputs, (o.units = "s^-1" ∧ o'.units = "s^-1" ∧ (o.file, o.line) ∉ mislabelled ∧ (o'.file, o'.line) ∉ mislabelled
      ∧ isParticleFlow o = true ∧ isParticleFlow o' = false) →
      o.exps = (Factor.mul (.mul .Nnorm (.mul .rho_s0 (.mul .rho_s0 .rho_s0))) (.mul o'.saved o'.conversion)).exps := by decide +kernel
  intro o ho o' ho' h1 h2 h3 h4 h5 h6 c u hc hu
  have e := same_factor (f := .mul o.saved o.conversion) (h o ho o' ho' ⟨h1, h2, h3, h4, h5, h6⟩) hc hu
  refine e.trans ?_
  show u.Nnorm * (u.rho_s0 c * (u.rho_s0 c * u.rho_s0 c)) * _ = _
  show _ = u.Nnorm * u.rho_s0 c ^ 3 * (o'.saved.value c u * o'.conversion.value c u)
  simp only [Factor.value]
  ring

example : (outputs.filter fun o => isParticleFlow o).length = 5
    ∧ (outputs.filter fun o => o.units = "s^-1" ∧ isParticleFlow o = false ∧ (o.file, o.line) ∉ mislabelled).length = 4 := by decide +kernel

/-! ## The variables of a species -/

/-- The names under which the variables of a species are saved. -/
def savedAs : List (String × Var) :=
  [("N{name}", .density), ("T{name}", .temperature), ("P{name}", .pressure), ("V{name}", .velocity), ("NV{name}", .momentum),
   ("SN{name}", .density_source), ("S{name}_src", .density_source), ("ddt(N{name})", .density_source), ("SNV{name}", .momentum_source),
   ("ddt(NV{name})", .momentum_source), ("SP{name}", .energy_source), ("SE{name}", .energy_source), ("K{name}_coll", .collision_frequency),
   ("ef{}_tot_ylow", .energy_flow_ylow), ("ef{}_tot_xlow", .other "energy_flow_xlow"), ("pf{}_tot_xlow", .other "particle_flow_xlow")]

def stdFactor : Var → Factor
  | .density => .Nnorm
  | .temperature => .Tnorm
  | .pressure => .Pnorm
  | .velocity => .Cs0
  | .momentum => .mul (.mul .Mp .Nnorm) .Cs0
  | .density_source => .mul .Nnorm .Omega_ci
  | .momentum_source => .mul (.mul (.mul .Mp .Nnorm) .Cs0) .Omega_ci
  | .energy_source => .mul .Pnorm .Omega_ci
  | .collision_frequency => .Omega_ci
  | .energy_flow_ylow => .mul (.mul (.mul .rho_s0 (.mul .rho_s0 .rho_s0)) .Pnorm) .Omega_ci
  | .other "energy_flow_xlow" => .mul (.mul (.mul .rho_s0 (.mul .rho_s0 .rho_s0)) .Pnorm) .Omega_ci
  | .other "particle_flow_xlow" => .mul (.mul (.mul .rho_s0 (.mul .rho_s0 .rho_s0)) .Nnorm) .Omega_ci
  | _ => .one

theorem stdFactor_value (c : Consts) (u : Normalisation) {n : String} {v : Var} (h : (n, v) ∈ savedAs) :
    (stdFactor v).value c u = u.conversion c v := by
  simp only [savedAs, List.mem_cons, Prod.mk.injEq, List.mem_nil_iff, or_false] at h
  rcases h with ⟨-, rfl⟩ | ⟨-, rfl⟩ | ⟨-, rfl⟩ | ⟨-, rfl⟩ | ⟨-, rfl⟩ | ⟨-, rfl⟩ | ⟨-, rfl⟩ | ⟨-, rfl⟩ | ⟨-, rfl⟩ | ⟨-, rfl⟩ | ⟨-, rfl⟩ | ⟨-, rfl⟩
    | ⟨-, rfl⟩ | ⟨-, rfl⟩ | ⟨-, rfl⟩ | ⟨-, rfl⟩ <;>
    simp only [stdFactor, Factor.value, Normalisation.conversion] <;> ring

/-- **Every component that saves a variable of a species converts it in the same way**, by the factor with which the results in SI units are independent
of the normalisation (C75). -/
theorem species_variables_converted :
    ∀ o ∈ outputs, ∀ v, (o.var, v) ∈ savedAs → ∀ c u, Physical c → Good u → o.factor c u = u.conversion c v := by
  have h : ∀ o ∈ outputs, ∀ q ∈ savedAs, o.var = q.1 → o.exps = (stdFactor q.2).exps := by decide +kernel
  intro o ho v hv c u hc hu
  rw [← stdFactor_value c u hv]
  exact same_factor (f := .mul o.saved o.conversion) (h o ho _ hv rfl) hc hu

/-- Every name of the list is saved by some component. -/
example : ∀ q ∈ savedAs, ∃ o ∈ outputs, o.var = q.1 := by decide +kernel

/-! ## Options -/

/-- **Every option of the table is divided by a quantity that has the units stated for the option.** -/
theorem inputs_have_units :
    ∀ i ∈ inputs, ∃ d, meaning i.units = some d ∧ HasUnits (fun c u => i.divisor.value c u) d := by
  have h : ∀ i ∈ inputs, (meaning i.units).map Dim.sq = some i.divisor.exps.dim := by decide +kernel
  intro i hi
  have := h i hi
  rw [Option.map_eq_some_iff] at this
  obtain ⟨d, hd, he⟩ := this
  exact ⟨d, hd, factor_units he.symm⟩

/-- **An option comes back**: a value given in an option and saved unchanged in a variable with the same units is, after multiplication by the conversion
factor, the value that was given. -/
theorem option_comes_back :
    ∀ i ∈ inputs, ∀ o ∈ outputs, (o.file, o.line) ∉ mislabelled → o.saved = .one → meaning i.units = meaning o.units →
      ∀ c u, Physical c → Good u → ∀ x : ℝ, x / i.divisor.value c u * o.conversion.value c u = x := by
  have h : ∀ i ∈ inputs, ∀ o ∈ outputs, (o.file, o.line) ∉ mislabelled → o.saved = .one → meaning i.units = meaning o.units →
      i.divisor.exps = o.conversion.exps := by decide +kernel
  intro i hi o ho hm hs hu c u hc hg x
  rw [same_factor (h i hi o ho hm hs hu) hc hg, div_mul_cancel₀ _ (value_sq hc hg _).1.ne']

/-- For instance the density source, the pressure source and the temperature of an isothermal species. -/
example : ∀ q ∈ [("N{name}:source", "S{name}_src"), ("P{name}:source", "P{name}_src"), ("{name}:temperature", "T{name}"),
      ("{name}:anomalous_D", "anomalous_D_{name}"), ("{name}:density", "N{name}"), ("{name}:velocity", "V{name}")],
    ∃ i ∈ inputs, ∃ o ∈ outputs, i.option = q.1 ∧ o.var = q.2 ∧ (o.file, o.line) ∉ mislabelled ∧ o.saved = .one
      ∧ meaning i.units = meaning o.units := by decide +kernel

end Hermes.Outputs
