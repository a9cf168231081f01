import Verif.Props.CollisionExamples
import Mathlib.Analysis.SpecialFunctions.Pow.Real
import Mathlib.Analysis.Real.Sqrt

/-!
# C90: what the thermal force does to each species
-/

namespace Hermes.Collisions

variable {ι : Type}

/-! ## Specification -/

/-- Temperature of a species as a field. -/
def temperatureField (w : World ι) (s : String) : Fld ι := fun i => temperature w s i

/-- Coefficient of the force of light ions (mass `mi`) on heavy ions (mass `mz`, charge `Z`), written with square roots. -/
noncomputable def heavyCoefficient (mi mz Z : ℝ) : ℝ :=
  let μ := mz / (mz + mi)
  3 * (5 * Real.sqrt 2 * Real.sqrt μ * μ * (1.1 * μ - 0.35) * Z ^ 2 - (1 - μ)) / (2.6 - 2 * μ + 5.4 * μ ^ 2)

/-- `h` is a heavy ion and `l` a light one. -/
abbrev HeavyLight (w : World ι) (h l : String) : Prop :=
  h ≠ "e" ∧ l ≠ "e" ∧ charge w h ≠ 0 ∧ (w.num l Var.charge).isSome = true ∧ 10 < mass w h ∧ mass w l < 4

open Classical in
/-- Force of the gradient of the temperature of `l` on `h`. -/
noncomputable def ionForce (gradPar : Fld ι → Fld ι) (w : World ι) (h l : String) (i : ι) : ℝ :=
  if HeavyLight w h l then heavyCoefficient (mass w l) (mass w h) (charge w h) * density w h i * gradPar (temperatureField w l) i else 0

open Classical in
/-- Force of the gradient of the electron temperature on an ion. -/
noncomputable def electronForce (gradPar : Fld ι → Fld ι) (w : World ι) (s : String) (i : ι) : ℝ :=
  if s = "e" then 0 else 0.71 * charge w s ^ 2 * density w s i * gradPar (temperatureField w "e") i

/-! ## The coefficient -/

theorem beta_eq {mi mz : ℝ} (h : 0 ≤ mz / (mi + mz)) (Z : ℝ) : thermalBeta mi mz Z = heavyCoefficient mi mz Z := by
  unfold thermalBeta heavyCoefficient
  dsimp only
  rw [add_comm mz mi]
  generalize mz / (mi + mz) = μ at h
  have e3 : μ ^ (3 / 2 : ℝ) = μ * Real.sqrt μ := by
    rw [show (3 / 2 : ℝ) = 1 + 1 / 2 by norm_num, Real.rpow_add' h (by norm_num), Real.rpow_one, Real.sqrt_eq_rpow]
  have e5 : μ ^ (5 / 2 : ℝ) = μ ^ 2 * Real.sqrt μ := by
    rw [show (5 / 2 : ℝ) = (2 : ℕ) + 1 / 2 by norm_num, Real.rpow_add' h (by norm_num), Real.rpow_natCast, Real.sqrt_eq_rpow]
  rw [e3, e5]
  congr 1
  ring

/-- Heavy ions of charge one or more are pushed towards the hotter plasma. -/
theorem heavyCoefficient_pos {mi mz Z : ℝ} (h0 : 0 < mi) (h4 : mi < 4) (h10 : 10 < mz) (hZ : 1 ≤ Z ^ 2) : 0 < heavyCoefficient mi mz Z := by
  unfold heavyCoefficient
  dsimp only
  have a : 5 / 7 < mz / (mz + mi) := by rw [div_lt_div_iff₀ (by norm_num) (by linarith)]; linarith
  have b : mz / (mz + mi) < 1 := by rw [div_lt_one (by linarith)]; linarith
  generalize mz / (mz + mi) = μ at a b
  have s2 : 1.4 ≤ Real.sqrt 2 := Real.le_sqrt_of_sq_le (by norm_num)
  have sμ : 0.8 ≤ Real.sqrt μ := Real.le_sqrt_of_sq_le (by norm_num at a ⊢; linarith)
  have k1 : 5.6 ≤ 5 * Real.sqrt 2 * Real.sqrt μ := by nlinarith
  have k2 : 4 ≤ 5 * Real.sqrt 2 * Real.sqrt μ * μ := by nlinarith
  have k3 : 1.6 ≤ 5 * Real.sqrt 2 * Real.sqrt μ * μ * (1.1 * μ - 0.35) := by nlinarith
  have k4 : 1.6 ≤ 5 * Real.sqrt 2 * Real.sqrt μ * μ * (1.1 * μ - 0.35) * Z ^ 2 := by nlinarith
  apply div_pos <;> nlinarith

/-- The limit of very heavy ions: `2.65 Z²` as in the literature. -/
theorem heavyCoefficient_limit {mz : ℝ} (h : 0 < mz) (Z : ℝ) : heavyCoefficient 0 mz Z = 15 / 8 * Real.sqrt 2 * Z ^ 2 := by
  unfold heavyCoefficient
  dsimp only
  rw [add_zero, div_self h.ne', Real.sqrt_one]
  norm_num
  ring

/-! ## The force on each species -/

/-- Net force of `l` on `h` or of `h` on `l`. -/
noncomputable def net (gradPar : Fld ι → Fld ι) (w : World ι) (a b : String) (i : ι) : ℝ := ionForce gradPar w a b i - ionForce gradPar w b a i

theorem net_none {gradPar : Fld ι → Fld ι} {w : World ι} {a b : String} (h1 : ¬HeavyLight w a b) (h2 : ¬HeavyLight w b a) (i : ι) :
    net gradPar w a b i = 0 := by
  unfold net ionForce
  rw [if_neg h1, if_neg h2, sub_zero]

theorem num_charge {w : World ι} {s : String} {x : ℝ} (h : w.real s Var.charge = .ok x) : charge w s = x := by
  unfold charge; rw [real_ok h]; rfl

theorem field_temperature {w : World ι} {s : String} {f : Fld ι} (h : w.field s Var.temperature = .ok f) : temperatureField w s = f := by
  funext i; unfold temperatureField temperature; rw [field_ok h]; rfl

theorem field_density {w : World ι} {s : String} {f : Fld ι} (h : w.field s Var.density = .ok f) (i : ι) : density w s i = f i := by
  unfold density; rw [field_ok h]; rfl

/-- Momentum that contributions give to a species. -/
abbrev pushOf (s : String) (i : ι) (cs : List (Contrib Key ι)) : ℝ := signedSum (.sp s Var.momentum_source) i cs

theorem pair_push (a b : String) (F : Fld ι) (s : String) (i : ι) :
    pushOf s i (pairForce a b F) = (if s = a then F i else 0) + if s = b then -F i else 0 := by
  simp only [pushOf, pairForce, signedSum_cons, signedSum_nil]
  by_cases h1 : s = a <;> by_cases h2 : s = b <;> simp [h1, h2, eq_comm] <;> aesop

theorem lightHeavy_push {gradPar : Fld ι → Fld ι} {w : World ι} {l h : String} {x : List (Contrib Key ι)}
    (hx : thermalLightHeavy gradPar w l h = .ok x) (hl : l ≠ "e") (hh : h ≠ "e") (hc : (w.num l Var.charge).isSome = true) (h4 : mass w l < 4)
    (h10 : 10 < mass w h) (h0 : 0 ≤ mass w l) (s : String) (i : ι) :
    pushOf s i x = (if s = h then net gradPar w h l i else 0) + if s = l then net gradPar w l h i else 0 := by
  have nl : ¬HeavyLight w l h := fun hlh => by linarith [hlh.2.2.2.2.1]
  unfold thermalLightHeavy at hx
  obtain ⟨mi, hmi, hx⟩ := bind_ok hx
  obtain ⟨Ti, hTi, hx⟩ := bind_ok hx
  obtain ⟨mz, hmz, hx⟩ := bind_ok hx
  obtain ⟨Z, hZ, hx⟩ := bind_ok hx
  obtain ⟨nz, hnz, hx⟩ := bind_ok hx
  split at hx
  · rename_i z0
    cases hx
    have n2 : ¬HeavyLight w h l := fun hlh => hlh.2.2.1 (by rw [num_charge hZ, z0])
    simp [net_none n2 nl, net_none nl n2]
  · rename_i z0
    cases hx
    have y2 : HeavyLight w h l := ⟨hh, hl, by rwa [num_charge hZ], hc, h10, h4⟩
    have e : ∀ i, net gradPar w h l i = nz i * thermalBeta mi mz Z * gradPar Ti i := fun i => by
      unfold net ionForce
      rw [if_pos y2, if_neg nl, sub_zero, num_charge hZ, real_mass hmi, real_mass hmz, field_density hnz, field_temperature hTi, beta_eq]
      · ring
      · rw [← real_mass hmi, ← real_mass hmz]
        exact div_nonneg (by linarith) (by linarith)
    have e' : ∀ i, net gradPar w l h i = -(nz i * thermalBeta mi mz Z * gradPar Ti i) := fun i => by
      rw [← e]; unfold net; ring
    rw [e, e']
    exact pair_push h l _ s i

theorem ionWith_push {gradPar : Fld ι → Fld ι} {w : World ι} {a b : String} (ha : a ≠ "e") (hac : (w.num a Var.charge).isSome = true)
    (hm : ∀ s, 0 ≤ mass w s) {x : List (Contrib Key ι)} (hx : thermalIonWith gradPar w a b = .ok x) (s : String) (i : ι) :
    pushOf s i x = (if s = a then net gradPar w a b i else 0) + if s = b then net gradPar w b a i else 0 := by
  unfold thermalIonWith at hx
  split at hx
  · rename_i hb
    cases hx
    have n1 : ¬HeavyLight w a b := fun h => by rcases hb with hb | hb; exact h.2.1 hb; rw [h.2.2.2.1] at hb; cases hb
    have n2 : ¬HeavyLight w b a := fun h => by
      rcases hb with hb | hb
      · exact h.1 hb
      · apply h.2.2.1; unfold charge; cases hq : w.num b Var.charge <;> simp_all
    simp [net_none n1 n2, net_none n2 n1]
  · rename_i hb
    push Not at hb
    have hbc : (w.num b Var.charge).isSome = true := by cases hq : w.num b Var.charge <;> simp_all
    obtain ⟨A1, h1, hx⟩ := bind_ok hx
    obtain ⟨A2, h2, hx⟩ := bind_ok hx
    rw [← real_mass h1, ← real_mass h2] at hx
    split at hx
    · rename_i hc
      rw [lightHeavy_push hx ha hb.1 hac hc.1 hc.2 (hm _) s i, add_comm]
    split at hx
    · rename_i hc
      rw [lightHeavy_push hx hb.1 ha hbc hc.2 hc.1 (hm _) s i]
    · rename_i c1 c2
      cases hx
      have n1 : ¬HeavyLight w a b := fun h => c2 ⟨h.2.2.2.2.1, h.2.2.2.2.2⟩
      have n2 : ¬HeavyLight w b a := fun h => c1 ⟨h.2.2.2.2.2, h.2.2.2.2.1⟩
      simp [net_none n1 n2, net_none n2 n1]

theorem collect_push {α : Type} {f : α → Except Err (List (Contrib Key ι))} {F : α → ℝ} {s : String} {i : ι}
    (hf : ∀ a x, f a = .ok x → pushOf s i x = F a) (l : List α) {cs : List (Contrib Key ι)} (h : collectM f l = .ok cs) :
    pushOf s i cs = (l.map F).sum := by
  rw [collectM_map f (pushOf s i) (· + ·) 0 (by simp [pushOf]) (fun a b => signedSum_append _ _ a b) F hf l cs h]
  clear h
  induction l with
  | nil => rfl
  | cons a l ih => rw [List.foldr_cons, ih, List.map_cons, List.sum_cons]

theorem ionPairs_push {gradPar : Fld ι → Fld ι} {w : World ι} (hm : ∀ s, 0 ≤ mass w s) {n : String} {rest : List String}
    {x : List (Contrib Key ι)} (hx : thermalIonPairs gradPar w n rest = .ok x) (s : String) (i : ι) :
    pushOf s i x = (rest.map fun b => (if s = n then net gradPar w n b i else 0) + if s = b then net gradPar w b n i else 0).sum := by
  unfold thermalIonPairs at hx
  split at hx
  · rename_i hn
    cases hx
    have z : ∀ b, net gradPar w n b i = 0 ∧ net gradPar w b n i = 0 := fun b => by
      have n1 : ¬HeavyLight w n b := fun h => by
        rcases hn with hn | hn
        · exact h.1 hn
        · apply h.2.2.1; unfold charge; cases hq : w.num n Var.charge <;> simp_all
      have n2 : ¬HeavyLight w b n := fun h => by rcases hn with hn | hn; exact h.2.1 hn; rw [h.2.2.2.1] at hn; cases hn
      exact ⟨net_none n1 n2 i, net_none n2 n1 i⟩
    simp [z, pushOf]
  · rename_i hn
    push Not at hn
    exact collect_push (fun b x hx => ionWith_push hn.1 (by cases hq : w.num n Var.charge <;> simp_all) hm hx s i) rest hx

theorem pick_sum (l : List String) (hl : l.Nodup) (s : String) (f : String → ℝ) :
    (l.map fun b => if s = b then f b else 0).sum = if s ∈ l then f s else 0 := by
  induction l with
  | nil => simp
  | cons a l ih =>
    have := List.nodup_cons.1 hl
    rw [List.map_cons, List.sum_cons, ih this.2]
    by_cases h : s = a
    · subst h; simp [this.1]
    · simp [h]

theorem ionLoop_push {gradPar : Fld ι → Fld ι} {w : World ι} (hm : ∀ s, 0 ≤ mass w s) (s : String) (i : ι) :
    ∀ (ns : List String), ns.Nodup → ∀ x, thermalIonLoop gradPar w ns = .ok x →
      pushOf s i x = if s ∈ ns then (ns.map fun b => net gradPar w s b i).sum else 0
  | [], _, x, hx => by cases hx; simp [pushOf]
  | n :: ns, hnd, x, hx => by
    have hn := List.nodup_cons.1 hnd
    unfold thermalIonLoop at hx
    obtain ⟨a, ha, hx⟩ := bind_ok hx
    obtain ⟨b, hb, hx⟩ := bind_ok hx
    cases hx
    rw [show pushOf s i (a ++ b) = pushOf s i a + pushOf s i b from signedSum_append _ _ a b, ionPairs_push hm ha s i,
      ionLoop_push hm s i ns hn.2 b hb, List.sum_map_add, pick_sum ns hn.2 s fun b => net gradPar w b n i]
    by_cases h : s = n
    · subst h
      simp [hn.1]
      unfold net
      ring
    · by_cases h' : s ∈ ns <;> simp [h, h']

theorem electronWith_push {w : World ι} {Te : Fld ι} {gradPar : Fld ι → Fld ι} (hT : w.field "e" Var.temperature = .ok Te) {n : String}
    {x : List (Contrib Key ι)} (hx : thermalElectronWith w (gradPar Te) n = .ok x) (s : String) (i : ι) :
    pushOf s i x = (if s = n then electronForce gradPar w n i else 0) + if s = "e" then -electronForce gradPar w n i else 0 := by
  unfold thermalElectronWith at hx
  unfold electronForce
  split at hx
  · rename_i hn
    cases hx
    simp [hn, pushOf]
  rename_i hn
  split at hx
  · rename_i hc
    cases hx
    have : charge w n = 0 := by unfold charge; cases hq : w.num n Var.charge <;> simp_all
    simp [this, pushOf]
  · obtain ⟨Z, hZ, hx⟩ := bind_ok hx
    obtain ⟨nz, hnz, hx⟩ := bind_ok hx
    cases hx
    rw [if_neg hn, num_charge hZ, field_density hnz, field_temperature hT]
    have e : 0.71 * Z ^ 2 * nz i * gradPar Te i = nz i * (0.71 * Z ^ 2) * gradPar Te i := by ring
    rw [e]
    exact pair_push n "e" _ s i

open Classical in
/-- **C90.**  The force on every species: with the electron part on, every ion is pushed by `0.71 Z² n ∇Te` and the electrons the opposite way; with
the ion part on, every heavy ion is pushed by each light ion species, which is pushed the opposite way.  Nothing else is pushed. -/
theorem thermal_force_on_each (gradPar : Fld ι → Fld ι) (electron_ion ion_ion : Bool) (names : List String) (hn : names.Nodup) (w : World ι)
    (hu : SourcesUnread w.st) (hm : ∀ s, 0 ≤ mass w s) (after : Store Key (Fld ι))
    (h : SourceComponent.transform (thermalForce gradPar electron_ion ion_ion names) w = (.ok (), after)) (s : String) (hs : s ∈ names) (i : ι) :
    gain w.st after s Var.momentum_source i =
      (if electron_ion = true ∧ "e" ∈ names then
        electronForce gradPar w s i - (if s = "e" then (names.map fun b => electronForce gradPar w b i).sum else 0) else 0) +
      if ion_ion = true then (names.map fun b => ionForce gradPar w s b i - ionForce gradPar w b s i).sum else 0 := by
  obtain ⟨cs, hcs, hrun⟩ := transform_ok h
  obtain ⟨hk, -⟩ := thermalForce_balanced hcs
  obtain ⟨after', e1, e2, e3⟩ := contributeAll_gain cs w.st names [Var.momentum_source] (by
    intro c hc
    obtain ⟨s, hs, r⟩ := hk c hc
    exact ⟨s, by simpa using hs, r⟩) (by simp) hu
  have : after' = after := by have := hrun.symm.trans e1; cases this; rfl
  subst this
  rw [e3]
  unfold thermalForce at hcs
  obtain ⟨a, ha, hcs⟩ := bind_ok hcs
  obtain ⟨b, hb, hcs⟩ := bind_ok hcs
  cases hcs
  rw [signedSum_append]
  congr 1
  · unfold thermalElectronLoop at ha
    split at ha
    · rename_i he
      obtain ⟨Te, hTe, ha⟩ := bind_ok ha
      rw [if_pos he, show signedSum (.sp s Var.momentum_source) i a = pushOf s i a from rfl,
        collect_push (fun n x hx => electronWith_push hTe hx s i) names ha, List.sum_map_add, pick_sum names hn s, if_pos hs]
      by_cases q : s = "e"
      · have : ∀ l : List String, (l.map fun n => -electronForce gradPar w n i).sum = -(l.map fun n => electronForce gradPar w n i).sum := fun l => by
          induction l with
          | nil => simp
          | cons a l ih => simp [ih]; ring
        simp only [q, if_true, this]
        ring
      · simp [q]
    · rename_i he
      cases ha
      rw [if_neg he]
      simp
  · unfold thermalIonPart at hb
    split at hb
    · rename_i hi
      rw [if_pos hi, show signedSum (.sp s Var.momentum_source) i b = pushOf s i b from rfl, ionLoop_push hm s i names hn b hb, if_pos hs]
      rfl
    · rename_i hi
      cases hb
      rw [if_neg hi]
      simp

/-- **C90.**  A heavy ion is pushed towards hotter light ions. -/
theorem heavy_pushed_up (gradPar : Fld ι → Fld ι) (w : World ι) {h l : String} (hl : HeavyLight w h l) (h0 : 0 < mass w l) (hZ : 1 ≤ charge w h ^ 2) {i : ι}
    (hn : 0 < density w h i) (hg : 0 < gradPar (temperatureField w l) i) : 0 < ionForce gradPar w h l i := by
  unfold ionForce
  rw [if_pos hl]
  exact mul_pos (mul_pos (heavyCoefficient_pos h0 hl.2.2.2.2.2 hl.2.2.2.2.1 hZ) hn) hg

/-- Full statement fails: the force does not depend on how much of the light species there is.  If the light ions are split into two species with the
same mass and temperature, the force on a heavy ion is twice as large. -/
theorem isotopes_counted_twice (gradPar : Fld ι → Fld ι) (w : World ι) (hu : SourcesUnread w.st) (hm : ∀ s, 0 ≤ mass w s)
    {h l l' : String} (hd : [l, l', h].Nodup) (hh : HeavyLight w h l) (hh' : HeavyLight w h l') (em : mass w l' = mass w l)
    (et : temperatureField w l' = temperatureField w l) {after one : Store Key (Fld ι)}
    (ha : SourceComponent.transform (thermalForce gradPar false true [l, l', h]) w = (.ok (), after))
    (h1 : SourceComponent.transform (thermalForce gradPar false true [l, h]) w = (.ok (), one)) (i : ι) :
    gain w.st after h Var.momentum_source i = 2 * gain w.st one h Var.momentum_source i := by
  have hd1 : [l, h].Nodup := by simp at hd ⊢; tauto
  rw [thermal_force_on_each gradPar false true _ hd w hu hm after ha h (by simp) i,
    thermal_force_on_each gradPar false true _ hd1 w hu hm one h1 h (by simp) i]
  have n : ∀ x y, HeavyLight w x y → ¬HeavyLight w y x := fun x y a b => by linarith [a.2.2.2.2.1, b.2.2.2.2.2]
  have e : ionForce gradPar w h l' i = ionForce gradPar w h l i := by
    unfold ionForce
    rw [if_pos hh, if_pos hh', em, et]
  have z : ionForce gradPar w l h i = 0 := by unfold ionForce; rw [if_neg (n _ _ hh)]
  have z' : ionForce gradPar w l' h i = 0 := by unfold ionForce; rw [if_neg (n _ _ hh')]
  simp [e, z, z']
  ring

/-! ## The component runs -/

/-- **C90.**  If every species has density, temperature and mass, the component runs. -/
theorem thermal_force_succeeds (gradPar : Fld ι → Fld ι) (electron_ion ion_ion : Bool) (names : List String) (w : World ι) (hu : SourcesUnread w.st)
    (hN : ∀ s ∈ names, ∃ f, w.field s Var.density = .ok f) (hT : ∀ s ∈ names, ∃ f, w.field s Var.temperature = .ok f)
    (hA : ∀ s ∈ names, ∃ a, w.real s Var.AA = .ok a) :
    ∃ after, SourceComponent.transform (thermalForce gradPar electron_ion ion_ion names) w = (.ok (), after) := by
  have hZ : ∀ s, (w.num s Var.charge).isSome = true → ∃ z, w.real s Var.charge = .ok z := fun s h => by
    obtain ⟨z, hz⟩ := Option.isSome_iff_exists.1 h
    exact ⟨z, by unfold World.real; rw [hz]⟩
  have lh : ∀ l ∈ names, ∀ h ∈ names, (w.num h Var.charge).isSome = true → ∃ x, thermalLightHeavy gradPar w l h = .ok x := fun l hl h hh hc => by
    obtain ⟨mi, e1⟩ := hA l hl
    obtain ⟨Ti, e2⟩ := hT l hl
    obtain ⟨mz, e3⟩ := hA h hh
    obtain ⟨Z, e4⟩ := hZ h hc
    obtain ⟨nz, e5⟩ := hN h hh
    unfold thermalLightHeavy
    simp only [e1, e2, e3, e4, e5, bind, Except.bind]
    split <;> exact ⟨_, rfl⟩
  have iw : ∀ a ∈ names, (w.num a Var.charge).isSome = true → ∀ b ∈ names, ∃ x, thermalIonWith gradPar w a b = .ok x := fun a ha hac b hb => by
    obtain ⟨A1, e1⟩ := hA a ha
    obtain ⟨A2, e2⟩ := hA b hb
    unfold thermalIonWith
    split
    · exact ⟨_, rfl⟩
    rename_i hbc
    have hbc : (w.num b Var.charge).isSome = true := by cases hq : w.num b Var.charge <;> simp_all
    simp only [e1, e2, bind, Except.bind]
    split
    · exact lh a ha b hb hbc
    split
    · exact lh b hb a ha hac
    · exact ⟨_, rfl⟩
  have il : ∀ ns : List String, (∀ n ∈ ns, n ∈ names) → ∃ x, thermalIonLoop gradPar w ns = .ok x := by
    intro ns
    induction ns with
    | nil => exact fun _ => ⟨_, rfl⟩
    | cons n ns ih =>
      intro h
      obtain ⟨y, hy⟩ := ih fun m hm => h m (by simp [hm])
      have : ∃ x, thermalIonPairs gradPar w n ns = .ok x := by
        unfold thermalIonPairs
        split
        · exact ⟨_, rfl⟩
        · rename_i hc
          exact collectM_succeeds fun b hb => iw n (h n (by simp)) (by cases hq : w.num n Var.charge <;> simp_all) b (h b (by simp [hb]))
      obtain ⟨x, hx⟩ := this
      exact ⟨x ++ y, by unfold thermalIonLoop; simp only [hx, hy, bind, Except.bind]; rfl⟩
  have el : ∃ a, thermalElectronLoop gradPar electron_ion names w = .ok a := by
    unfold thermalElectronLoop
    split
    · rename_i he
      obtain ⟨Te, hTe⟩ := hT "e" he.2
      simp only [hTe, bind, Except.bind]
      refine collectM_succeeds fun n hn => ?_
      unfold thermalElectronWith
      split
      · exact ⟨_, rfl⟩
      split
      · exact ⟨_, rfl⟩
      rename_i hc
      obtain ⟨Z, e4⟩ := hZ n (by cases hq : w.num n Var.charge <;> simp_all)
      obtain ⟨nz, e5⟩ := hN n hn
      simp only [e4, e5, bind, Except.bind]
      exact ⟨_, rfl⟩
    · exact ⟨_, rfl⟩
  have ip : ∃ b, thermalIonPart gradPar ion_ion names w = .ok b := by
    unfold thermalIonPart
    split
    · exact il names fun _ h => h
    · exact ⟨_, rfl⟩
  obtain ⟨a, ha⟩ := el
  obtain ⟨b, hb⟩ := ip
  have hcs : thermalForce gradPar electron_ion ion_ion names w = .ok (a ++ b) := by
    unfold thermalForce
    simp only [ha, hb, bind, Except.bind]
    rfl
  obtain ⟨hk, -⟩ := thermalForce_balanced hcs
  obtain ⟨after, e1, -, -⟩ := contributeAll_gain (a ++ b) w.st names [Var.momentum_source] (by
    intro c hc
    obtain ⟨s, hs, r⟩ := hk c hc
    exact ⟨s, by simpa using hs, r⟩) (by simp) hu
  exact ⟨after, by unfold SourceComponent.transform; rw [hcs]; exact e1⟩

/-- Deuterium, tritium and tungsten ions: the hypotheses hold, the forces act. -/
example : let w := gas (fun _ => 1) (fun _ => 2) (fun _ => 0) (fun s => if s = "w+" then 184 else 2) (fun _ => some 1)
    SourcesUnread w.st ∧ (∀ s, 0 ≤ mass w s) ∧ ["d+", "t+", "w+"].Nodup ∧ HeavyLight w "w+" "d+" ∧ HeavyLight w "w+" "t+" ∧
      mass w "t+" = mass w "d+" ∧ temperatureField w "t+" = temperatureField w "d+" ∧ 0 < ionForce (fun f => f) w "w+" "d+" () ∧
      ∀ names, ∃ after, SourceComponent.transform (thermalForce (fun f => f) true true names) w = (.ok (), after) := by
  intro w
  have hw : mass w "w+" = 184 := rfl
  have hd : mass w "d+" = 2 := rfl
  have ht : mass w "t+" = 2 := rfl
  have y : HeavyLight w "w+" "d+" := ⟨by decide, by decide, show (1 : ℝ) ≠ 0 from one_ne_zero, rfl, by rw [hw]; norm_num, by rw [hd]; norm_num⟩
  refine ⟨gas_unread, fun s => ?_, by decide, y, ⟨by decide, by decide, show (1 : ℝ) ≠ 0 from one_ne_zero, rfl, by rw [hw]; norm_num, by rw [ht]; norm_num⟩,
    rfl, rfl, ?_, fun names => ?_⟩
  · show (0 : ℝ) ≤ if s = "w+" then 184 else 2
    split <;> norm_num
  · refine heavy_pushed_up _ w y (by rw [hd]; norm_num) ?_ (show (0 : ℝ) < 1 from one_pos) (show (0 : ℝ) < 2 by norm_num)
    show (1 : ℝ) ≤ 1 ^ 2
    norm_num
  · exact thermal_force_succeeds _ _ _ _ _ gas_unread (fun s _ => ⟨_, rfl⟩) (fun s _ => ⟨_, rfl⟩) (fun s _ => ⟨_, rfl⟩)

end Hermes.Collisions
