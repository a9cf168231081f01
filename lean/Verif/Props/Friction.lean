import Verif.Props.Viscosity

/-!
# C96: friction between electrons and ions, and the heat it makes, are Braginskii's

Momentum and energy that `collisions` gives to the electrons, for any list of species; then compared with Braginskii (1965) for ions of charge 1 to 4.
-/

namespace Hermes.Friction
open Hermes Hermes.Collisions Hermes.HeatConductivity

variable {ι : Type}

/-! ## Specification -/

/-- Coefficient of the parallel friction in the table of Braginskii (1965), and its limit for large charges. -/
noncomputable def table : ℕ → ℝ
  | 1 => 0.5129
  | 2 => 0.4408
  | 3 => 0.3965
  | 4 => 0.3752
  | _ => 0.2949

/-- Coefficient of the documentation: `docs/sphinx/components.rst`, "Collisions". -/
noncomputable def documented (Z : ℝ) : ℝ :=
  if Z = 1 then 0.51 else if Z = 2 then 0.44 else if Z = 3 then 0.40 else 0.38

open Classical in
/-- Coefficient for the friction of electrons with species `n`: one, except with ions. -/
noncomputable def coefficient (w : World ι) (n : String) : ℝ := if 0 < charge w n then documented (charge w n) else 1

/-- The force of species `n` on the electrons. -/
noncomputable def pull (k : CollNorms) (o : CollOpts) (w : World ι) (n : String) (i : ι) : ℝ :=
  coefficient w n * electronPart k o w n i * mass w "e" * density w "e" i * (velocity w n i - velocity w "e" i)

/-- The heat which species `n` hands to the electrons. -/
noncomputable def warmth (k : CollNorms) (o : CollOpts) (w : World ι) (n : String) (i : ι) : ℝ :=
  3 * (mass w "e" / (mass w "e" + mass w n)) * density w "e" i * electronPart k o w n i * (temperature w n i - temperature w "e" i)

/-- Power of the friction with species `n` that heats the electrons, if switched on. -/
noncomputable def rub (k : CollNorms) (o : CollOpts) (w : World ι) (n : String) (i : ι) : ℝ :=
  if o.frictional_heating then mass w n / (mass w "e" + mass w n) * (velocity w n i - velocity w "e" i) * pull k o w n i else 0

/-! ## What one collision gives to the electrons -/

theorem collide_e_momentum {fh : Bool} {n : String} {nu : Fld ι} {coef : ℝ} {w : World ι} {cs : List (Contrib Key ι)}
    (h : collide fh "e" n nu coef w = .ok cs) (i : ι) :
    signedSum (.sp "e" Var.momentum_source) i cs = coef * nu i * mass w "e" * density w "e" i * (velocity w n i - velocity w "e" i) := by
  rw [collide_ok_eq h]
  unfold collideOf
  split
  · rename_i hn
    have hn : "e" = n := hn
    subst hn
    simp
  · rename_i hn
    have hn : n ≠ "e" := fun h => hn h.symm
    simp only [signedSum_append]
    have a : ∀ b : Bool, signedSum (.sp "e" Var.momentum_source) i (if b then
        heatExchangeOf "e" n nu (mass w "e") (mass w n) (w.fieldOr0 "e" Var.density) (w.fieldOr0 "e" Var.temperature) (w.fieldOr0 n Var.temperature)
        else []) = 0 := fun b => by cases b <;> simp [heatExchangeOf]
    rw [a]
    by_cases hv : (w.isSetF "e" Var.velocity || w.isSetF n Var.velocity) = true
    · rw [if_pos hv]
      cases fh <;> simp [frictionOf, hn, fieldOr0_velocity, fieldOr0_density]
    · rw [if_neg hv]
      simp only [Bool.or_eq_true, not_or, Bool.not_eq_true] at hv
      rw [velocity_unset hv.1, velocity_unset hv.2]
      simp

theorem collide_e_energy {fh : Bool} {n : String} {nu : Fld ι} {coef : ℝ} {w : World ι} {cs : List (Contrib Key ι)}
    (h : collide fh "e" n nu coef w = .ok cs) (i : ι) :
    signedSum (.sp "e" Var.energy_source) i cs =
      (if fh then mass w n / (mass w "e" + mass w n) * (velocity w n i - velocity w "e" i) *
        (coef * nu i * mass w "e" * density w "e" i * (velocity w n i - velocity w "e" i)) else 0)
      + 3 * (mass w "e" / (mass w "e" + mass w n)) * density w "e" i * nu i * (temperature w n i - temperature w "e" i) := by
  rw [collide_ok_eq h]
  unfold collideOf
  split
  · rename_i hn
    have hn : "e" = n := hn
    subst hn
    simp
  · rename_i hn
    have hn : n ≠ "e" := fun h => hn h.symm
    simp only [signedSum_append]
    have a : signedSum (.sp "e" Var.energy_source) i (if (w.isSetF "e" Var.temperature || w.isSetF n Var.temperature) = true then
        heatExchangeOf "e" n nu (mass w "e") (mass w n) (w.fieldOr0 "e" Var.density) (w.fieldOr0 "e" Var.temperature) (w.fieldOr0 n Var.temperature)
        else []) = 3 * (mass w "e" / (mass w "e" + mass w n)) * density w "e" i * nu i * (temperature w n i - temperature w "e" i) := by
      by_cases hv : (w.isSetF "e" Var.temperature || w.isSetF n Var.temperature) = true
      · rw [if_pos hv]
        rw [show 3 * (mass w "e" / (mass w "e" + mass w n)) * density w "e" i * nu i * (temperature w n i - temperature w "e" i) =
          nu i * 3 * density w "e" i * (mass w "e" / (mass w "e" + mass w n)) * (temperature w n i - temperature w "e" i) by ring]
        simp [heatExchangeOf, hn, fieldOr0_temperature, fieldOr0_density]
      · rw [if_neg hv]
        simp only [Bool.or_eq_true, not_or, Bool.not_eq_true] at hv
        rw [temperature_unset hv.1, temperature_unset hv.2]
        simp
    rw [a]
    congr 1
    by_cases hv : (w.isSetF "e" Var.velocity || w.isSetF n Var.velocity) = true
    · rw [if_pos hv]
      cases fh <;> simp [frictionOf, hn, fieldOr0_velocity, fieldOr0_density]
    · rw [if_neg hv]
      simp only [Bool.or_eq_true, not_or, Bool.not_eq_true] at hv
      rw [velocity_unset hv.1, velocity_unset hv.2]
      simp

/-- What `collide` is called with in the loop over the partners of the electrons. -/
theorem electronWith_ok {k : CollNorms} (hT0 : k.Tnorm ≠ 0) {o : CollOpts} {w : World ι} {Te Ne : Fld ι} (hT : w.field "e" Var.temperature = .ok Te)
    (hN : w.field "e" Var.density = .ok Ne) {n : String} {cs : List (Contrib Key ι)}
    (h : electronWith k o w (fun i => Te i * k.Tnorm) (fun i => Ne i * k.Nnorm) n = .ok cs) :
    (cs = [] ∧ ∀ i, electronPart k o w n i = 0) ∨
      ∃ nu coef, collide o.frictional_heating "e" n nu coef w = .ok cs ∧ (n ≠ "e" → coef = coefficient w n) ∧ ∀ i, nu i = electronPart k o w n i := by
  have eT : ∀ i, temperature w "e" i = Te i := fun i => by unfold temperature; rw [field_ok hT]; rfl
  have eN : ∀ i, density w "e" i = Ne i := fun i => by unfold density; rw [field_ok hN]; rfl
  have hf : ∀ nu coef, collide o.frictional_heating "e" n nu coef w = .ok cs → ∀ i, nu i = electronPart k o w n i := fun nu coef hc i => by
    rw [← electronWith_frequency hT0 hT hN h i, collide_e_frequency hc i]
  have h0 : cs = [] → ∀ i, electronPart k o w n i = 0 := fun hc i => by
    rw [← electronWith_frequency hT0 hT hN h i, hc]; rfl
  unfold electronWith at h
  split at h
  · rename_i hn
    split at h
    · cases h; exact .inl ⟨rfl, h0 rfl⟩
    · subst hn
      exact .inr ⟨_, _, h, fun h => absurd rfl h, hf _ _ h⟩
  split at h
  · rename_i hpos
    obtain ⟨z, hz, z0⟩ := hpos
    have hc : charge w n = z := by unfold charge; rw [hz]; rfl
    split at h
    · cases h; exact .inl ⟨rfl, h0 rfl⟩
    · obtain ⟨Ti, hTi, h⟩ := bind_ok h
      obtain ⟨Ni, hNi, h⟩ := bind_ok h
      obtain ⟨Z, hZ, h⟩ := bind_ok h
      obtain ⟨A, hA, h⟩ := bind_ok h
      have e3 : z = Z := by have := real_ok hZ; rw [hz] at this; exact Option.some.inj this
      refine .inr ⟨_, _, h, fun _ => ?_, hf _ _ h⟩
      unfold coefficient
      rw [hc, if_pos z0, e3]
      rfl
  rename_i hpos
  have np : ¬0 < charge w n := fun h0 => hpos (by
    unfold charge at h0
    cases hq : w.num n Var.charge with
    | none => rw [hq] at h0; exact absurd h0 (lt_irrefl _)
    | some z => rw [hq] at h0; exact ⟨z, hq, h0⟩)
  split at h
  · cases h; exact .inl ⟨rfl, h0 rfl⟩
  split at h
  · cases h; exact .inl ⟨rfl, h0 rfl⟩
  · obtain ⟨Nn, hNn, h⟩ := bind_ok h
    obtain ⟨_, _, h⟩ := bind_ok h
    refine .inr ⟨_, _, h, fun _ => ?_, hf _ _ h⟩
    unfold coefficient
    rw [if_neg np]

theorem electronWith_momentum {k : CollNorms} (hT0 : k.Tnorm ≠ 0) {o : CollOpts} {w : World ι} {Te Ne : Fld ι} (hT : w.field "e" Var.temperature = .ok Te)
    (hN : w.field "e" Var.density = .ok Ne) {n : String} {cs : List (Contrib Key ι)}
    (h : electronWith k o w (fun i => Te i * k.Tnorm) (fun i => Ne i * k.Nnorm) n = .ok cs) (i : ι) :
    signedSum (.sp "e" Var.momentum_source) i cs = pull k o w n i := by
  unfold pull
  rcases electronWith_ok hT0 hT hN h with ⟨rfl, h0⟩ | ⟨nu, coef, hc, hcoef, hnu⟩
  · rw [h0]; simp
  · rw [collide_e_momentum hc, hnu]
    by_cases hn : n = "e"
    · subst hn; simp
    · rw [hcoef hn]

theorem electronWith_energy {k : CollNorms} (hT0 : k.Tnorm ≠ 0) {o : CollOpts} {w : World ι} {Te Ne : Fld ι} (hT : w.field "e" Var.temperature = .ok Te)
    (hN : w.field "e" Var.density = .ok Ne) {n : String} {cs : List (Contrib Key ι)}
    (h : electronWith k o w (fun i => Te i * k.Tnorm) (fun i => Ne i * k.Nnorm) n = .ok cs) (i : ι) :
    signedSum (.sp "e" Var.energy_source) i cs = rub k o w n i + warmth k o w n i := by
  unfold rub warmth pull
  rcases electronWith_ok hT0 hT hN h with ⟨rfl, h0⟩ | ⟨nu, coef, hc, hcoef, hnu⟩
  · rw [h0]; simp
  · rw [collide_e_energy hc, hnu]
    by_cases hn : n = "e"
    · subst hn; simp
    · rw [hcoef hn]

/-! ## Heavy species leave the electrons alone -/

theorem collide_other {fh : Bool} {s n : String} (hs : s ≠ "e") (hn : n ≠ "e") {nu : Fld ι} {coef : ℝ} {w : World ι} {cs : List (Contrib Key ι)}
    (h : collide fh s n nu coef w = .ok cs) (v : Var) (i : ι) : signedSum (.sp "e" v) i cs = 0 := by
  rw [collide_ok_eq h]
  unfold collideOf
  split
  · simp [hs]
  · simp only [signedSum_append]
    have a : ∀ b : Bool, signedSum (.sp "e" v) i (if b then
        heatExchangeOf s n nu (mass w s) (mass w n) (w.fieldOr0 s Var.density) (w.fieldOr0 s Var.temperature) (w.fieldOr0 n Var.temperature)
        else []) = 0 := fun b => by cases b <;> simp [heatExchangeOf, hs, hn]
    have c : ∀ b : Bool, signedSum (.sp "e" v) i (if b then
        frictionOf fh s n nu coef (mass w s) (mass w n) (w.fieldOr0 s Var.density) (w.fieldOr0 s Var.velocity) (w.fieldOr0 n Var.velocity)
        else []) = 0 := fun b => by cases b <;> cases fh <;> simp [frictionOf, hs, hn]
    rw [a, c]
    simp [hn, hs]

theorem heavyWith_other {k : CollNorms} {o : CollOpts} {w : World ι} {n : String} {rest : List String} {cs : List (Contrib Key ι)}
    (h : heavyWith k o w n rest = .ok cs) (v : Var) (i : ι) : signedSum (.sp "e" v) i cs = 0 := by
  have app : ∀ a b : List (Contrib Key ι), signedSum (.sp "e" v) i a = 0 → signedSum (.sp "e" v) i b = 0 →
      signedSum (.sp "e" v) i (a ++ b) = 0 := fun a b ha hb => by rw [signedSum_append, ha, hb, add_zero]
  have hs : ∀ a0 m x1 x2 cs, n ≠ "e" → m ≠ "e" → hardSphere k o w a0 n m x1 x2 = .ok cs → signedSum (.sp "e" v) i cs = 0 :=
    fun a0 m x1 x2 cs hn hm h => by
      unfold hardSphere at h
      obtain ⟨_, _, h⟩ := bind_ok h
      exact collide_other hn hm h v i
  unfold heavyWith at h
  split at h
  · cases h; rfl
  rename_i hn
  push Not at hn
  obtain ⟨x1, _, h⟩ := bind_ok h
  split at h
  · refine collectM_closed (P := fun cs => signedSum (.sp "e" v) i cs = 0) rfl app (fun m _ cs h => ?_) h
    unfold chargedWith at h
    split at h
    · cases h; rfl
    rename_i hm
    push Not at hm
    obtain ⟨x2, _, h⟩ := bind_ok h
    split at h
    · split at h
      · cases h; rfl
      unfold ionIon at h
      obtain ⟨_, _, h⟩ := bind_ok h
      obtain ⟨_, _, h⟩ := bind_ok h
      obtain ⟨_, _, h⟩ := bind_ok h
      exact collide_other hn.1 hm.1 h v i
    · exact hs _ _ _ _ _ hn.1 hm.1 h
  · refine collectM_closed (P := fun cs => signedSum (.sp "e" v) i cs = 0) rfl app (fun m _ cs h => ?_) h
    unfold neutralWith at h
    split at h
    · cases h; rfl
    rename_i hm
    obtain ⟨x2, _, h⟩ := bind_ok h
    split at h
    · split at h
      · cases h; rfl
      · exact hs _ _ _ _ _ hn.1 hm h
    · split at h
      · cases h; rfl
      · exact hs _ _ _ _ _ hn.1 hm h

theorem heavyLoop_other {k : CollNorms} {o : CollOpts} {w : World ι} (v : Var) (i : ι) : ∀ (ns : List String) {cs : List (Contrib Key ι)},
    heavyLoop k o w ns = .ok cs → signedSum (.sp "e" v) i cs = 0
  | [], cs, h => by cases h; rfl
  | n :: ns, cs, h => by
    unfold heavyLoop at h
    obtain ⟨a, ha, h⟩ := bind_ok h
    obtain ⟨b, hb, h⟩ := bind_ok h
    cases h
    rw [signedSum_append, heavyWith_other ha, heavyLoop_other v i ns hb, add_zero]

theorem run_sum {k : CollNorms} {o : CollOpts} {names : List String} (he : "e" ∈ names) {w : World ι} (hu : SourcesUnread w.st)
    {after : Store Key (Fld ι)} (h : SourceComponent.transform (collisions k o names) w = (.ok (), after)) (v : Var) (i : ι) (f : String → ℝ)
    (hf : ∀ Te Ne, w.field "e" Var.temperature = .ok Te → w.field "e" Var.density = .ok Ne → ∀ n cs,
      electronWith k o w (fun i => Te i * k.Tnorm) (fun i => Ne i * k.Nnorm) n = .ok cs → signedSum (.sp "e" v) i cs = f n) :
    gain w.st after "e" v i = (names.map f).sum := by
  obtain ⟨cs, hcs, g⟩ := run_gain hu h
  rw [g]
  unfold collisions at hcs
  obtain ⟨a, ha, hcs⟩ := bind_ok hcs
  obtain ⟨b, hb, hcs⟩ := bind_ok hcs
  cases hcs
  rw [signedSum_append, heavyLoop_other v i names hb, add_zero]
  unfold electronLoop at ha
  rw [if_pos he] at ha
  obtain ⟨Te, hTe, ha⟩ := bind_ok ha
  obtain ⟨Ne, hNe, ha⟩ := bind_ok ha
  rw [collectM_map _ (signedSum (.sp "e" v) i) (· + ·) 0 rfl (fun a b => signedSum_append _ _ a b) f (fun n x hx => hf Te Ne hTe hNe n x hx) names _ ha]
  have fold : ∀ (f : String → ℝ) (l : List String), l.foldr (fun a r => f a + r) 0 = (l.map f).sum := fun f l => by
    induction l with
    | nil => rfl
    | cons a l ih => rw [List.foldr_cons, ih, List.map_cons, List.sum_cons]
  exact fold _ names

/-- **C96.**  The electrons are dragged along by each of the other species, in any mixture: coefficient × frequency × mass × density × difference of
velocities, with the documented coefficient. -/
theorem electron_friction (k : CollNorms) (hT0 : k.Tnorm ≠ 0) (o : CollOpts) (names : List String) (he : "e" ∈ names) (w : World ι)
    (hu : SourcesUnread w.st) (after : Store Key (Fld ι)) (h : SourceComponent.transform (collisions k o names) w = (.ok (), after)) (i : ι) :
    gain w.st after "e" Var.momentum_source i = (names.map fun n => pull k o w n i).sum :=
  run_sum he hu h _ _ _ fun _ _ hT hN _ _ hx => electronWith_momentum hT0 hT hN hx i

/-- **C96.**  The electrons are heated by friction, and by species that are hotter. -/
theorem electron_heating (k : CollNorms) (hT0 : k.Tnorm ≠ 0) (o : CollOpts) (names : List String) (he : "e" ∈ names) (w : World ι)
    (hu : SourcesUnread w.st) (after : Store Key (Fld ι)) (h : SourceComponent.transform (collisions k o names) w = (.ok (), after)) (i : ι) :
    gain w.st after "e" Var.energy_source i = (names.map fun n => rub k o w n i + warmth k o w n i).sum :=
  run_sum he hu h _ _ _ fun _ _ hT hN _ _ hx => electronWith_energy hT0 hT hN hx i

/-! ## All species -/

/-- The force of species `b` on species `a`, when their frequency is `nu` and the coefficient `c`. -/
noncomputable def force (w : World ι) (c : ℝ) (a b : String) (nu : ℝ) (i : ι) : ℝ := c * nu * mass w a * density w a i * (velocity w b i - velocity w a i)

/-- What it gives to species `s`: the force acts on `a`, the opposite on `b`. -/
noncomputable def push (w : World ι) (c : ℝ) (s a b : String) (nu : ℝ) (i : ι) : ℝ :=
  (if a = s then force w c a b nu i else 0) - (if b = s then force w c a b nu i else 0)

/-- The heat which species `b` hands to species `a`. -/
noncomputable def heat (w : World ι) (a b : String) (nu : ℝ) (i : ι) : ℝ :=
  3 * (mass w a / (mass w a + mass w b)) * density w a i * nu * (temperature w b i - temperature w a i)

/-- The work of the friction, shared in the inverse ratio of the masses. -/
noncomputable def work (fh : Bool) (w : World ι) (c : ℝ) (s a b : String) (nu : ℝ) (i : ι) : ℝ :=
  if fh then (velocity w b i - velocity w a i) * force w c a b nu i *
    ((if a = s then mass w b / (mass w a + mass w b) else 0) + (if b = s then mass w a / (mass w a + mass w b) else 0)) else 0

/-- What species `s` gets of both. -/
noncomputable def warm (fh : Bool) (w : World ι) (c : ℝ) (s a b : String) (nu : ℝ) (i : ι) : ℝ :=
  work fh w c s a b nu i + ((if a = s then heat w a b nu i else 0) - (if b = s then heat w a b nu i else 0))

theorem signedSum_two (key a b : Key) (i : ι) (f g : Fld ι) (x y : Bool) : signedSum key i [(a, f, x), (b, g, y)] =
    (if a = key then (if x then f i else - f i) else 0) + (if b = key then (if y then g i else - g i) else 0) := by
  by_cases h1 : a = key <;> by_cases h2 : b = key <;> cases x <;> cases y <;> simp [h1, h2]

theorem collide_momentum {fh : Bool} {a b : String} {nu : Fld ι} {coef : ℝ} {w : World ι} {cs : List (Contrib Key ι)}
    (h : collide fh a b nu coef w = .ok cs) (s : String) (i : ι) :
    signedSum (.sp s Var.momentum_source) i cs = push w coef s a b (nu i) i := by
  rw [collide_ok_eq h]
  unfold collideOf push force
  split
  · rename_i hab
    have hab : a = b := hab
    subst hab
    simp
  · simp only [signedSum_append]
    have x : ∀ c : Bool, signedSum (.sp s Var.momentum_source) i (if c then
        heatExchangeOf a b nu (mass w a) (mass w b) (w.fieldOr0 a Var.density) (w.fieldOr0 a Var.temperature) (w.fieldOr0 b Var.temperature)
        else []) = 0 := fun c => by cases c <;> simp [heatExchangeOf]
    rw [x, signedSum_two]
    by_cases hv : (w.isSetF a Var.velocity || w.isSetF b Var.velocity) = true
    · rw [if_pos hv]
      unfold frictionOf
      dsimp only
      rw [signedSum_append, signedSum_two]
      have y : ∀ f g : Fld ι, signedSum (Key.sp s Var.momentum_source) i
          (if fh = true then [(Key.sp a Var.energy_source, f, true), (Key.sp b Var.energy_source, g, true)] else []) = 0 :=
        fun f g => by cases fh <;> simp
      rw [y]
      by_cases h1 : a = s <;> by_cases h2 : b = s <;> simp [h1, h2, fieldOr0_velocity, fieldOr0_density]
    · rw [if_neg hv]
      simp only [Bool.or_eq_true, not_or, Bool.not_eq_true] at hv
      rw [velocity_unset hv.1, velocity_unset hv.2]
      simp

theorem collideOf_warm (fh : Bool) (a b : String) (nu : Fld ι) (coef : ℝ) (w : World ι) (s : String) (i : ι) :
    signedSum (.sp s Var.energy_source) i (collideOf fh w ⟨a, b, nu, coef⟩) = warm fh w coef s a b (nu i) i := by
  unfold collideOf warm
  split
  · rename_i hab
    have hab : a = b := hab
    subst hab
    simp [work, heat]
  · simp only [signedSum_append]
    have x : signedSum (.sp s Var.energy_source) i (if (w.isSetF a Var.temperature || w.isSetF b Var.temperature) = true then
        heatExchangeOf a b nu (mass w a) (mass w b) (w.fieldOr0 a Var.density) (w.fieldOr0 a Var.temperature) (w.fieldOr0 b Var.temperature)
        else []) = (if a = s then heat w a b (nu i) i else 0) - (if b = s then heat w a b (nu i) i else 0) := by
      have e : heat w a b (nu i) i = nu i * 3 * density w a i * (mass w a / (mass w a + mass w b)) * (temperature w b i - temperature w a i) := by
        unfold heat; ring
      rw [e]
      by_cases hv : (w.isSetF a Var.temperature || w.isSetF b Var.temperature) = true
      · rw [if_pos hv]
        unfold heatExchangeOf
        dsimp only
        rw [signedSum_two]
        by_cases h1 : a = s <;> by_cases h2 : b = s <;> simp [h1, h2, fieldOr0_temperature, fieldOr0_density]
      · rw [if_neg hv]
        simp only [Bool.or_eq_true, not_or, Bool.not_eq_true] at hv
        rw [temperature_unset hv.1, temperature_unset hv.2]
        simp
    rw [x, signedSum_two]
    congr 1
    unfold work force
    by_cases hv : (w.isSetF a Var.velocity || w.isSetF b Var.velocity) = true
    · rw [if_pos hv]
      unfold frictionOf
      dsimp only
      rw [signedSum_append, signedSum_two]
      cases fh
      · simp
      · simp only [if_true, signedSum_two]
        by_cases h1 : a = s <;> by_cases h2 : b = s <;> simp [h1, h2, fieldOr0_velocity, fieldOr0_density] <;> ring
    · rw [if_neg hv]
      simp only [Bool.or_eq_true, not_or, Bool.not_eq_true] at hv
      rw [velocity_unset hv.1, velocity_unset hv.2]
      simp

theorem collide_energy {fh : Bool} {a b : String} {nu : Fld ι} {coef : ℝ} {w : World ι} {cs : List (Contrib Key ι)}
    (h : collide fh a b nu coef w = .ok cs) (s : String) (i : ι) :
    signedSum (.sp s Var.energy_source) i cs = warm fh w coef s a b (nu i) i := by
  rw [collide_ok_eq h]
  exact collideOf_warm fh a b nu coef w s i

theorem charged_collides {k : CollNorms} {o : CollOpts} {w : World ι} {a b : String} {x : HeavyInput ι} {cs : List (Contrib Key ι)}
    (h : chargedWith k o w a x b = .ok cs) : cs = [] ∨ ∃ nu, collide o.frictional_heating a b nu 1 w = .ok cs := by
  unfold chargedWith at h
  split at h
  · cases h; exact .inl rfl
  obtain ⟨y, hy, h⟩ := bind_ok h
  split at h
  · split at h
    · cases h; exact .inl rfl
    · unfold ionIon at h
      obtain ⟨_, _, h⟩ := bind_ok h
      obtain ⟨_, _, h⟩ := bind_ok h
      obtain ⟨_, _, h⟩ := bind_ok h
      exact .inr ⟨_, h⟩
  · unfold hardSphere at h
    obtain ⟨_, _, h⟩ := bind_ok h
    exact .inr ⟨_, h⟩

theorem neutral_collides {k : CollNorms} {o : CollOpts} {w : World ι} {a b : String} {x : HeavyInput ι} {cs : List (Contrib Key ι)}
    (h : neutralWith k o w a x b = .ok cs) : cs = [] ∨ ∃ nu, collide o.frictional_heating a b nu 1 w = .ok cs := by
  unfold neutralWith at h
  split at h
  · cases h; exact .inl rfl
  obtain ⟨y, hy, h⟩ := bind_ok h
  split at h
  · split at h
    · cases h; exact .inl rfl
    · unfold hardSphere at h
      obtain ⟨_, _, h⟩ := bind_ok h
      exact .inr ⟨_, h⟩
  · split at h
    · cases h; exact .inl rfl
    · unfold hardSphere at h
      obtain ⟨_, _, h⟩ := bind_ok h
      exact .inr ⟨_, h⟩

theorem sum_fold (f : String → ℝ) (l : List String) : l.foldr (fun a r => f a + r) 0 = (l.map f).sum := by
  induction l with
  | nil => rfl
  | cons a l ih => rw [List.foldr_cons, ih, List.map_cons, List.sum_cons]

theorem share_self (w : World ι) (a b : String) (x : ℝ) (i : ι) : share w a a b x i = x := by
  unfold share
  rw [if_pos rfl, if_neg (fun h => h.1 h.2.symm), add_zero]

/-- A loop body of `heavyWith` whose result is known for each collision. -/
theorem pair_value {k : CollNorms} (hT0 : k.Tnorm ≠ 0) {o : CollOpts} {w : World ι} {a b : String} {cs : List (Contrib Key ι)}
    (h : heavyWith k o w a [b] = .ok (cs ++ [])) (hc : cs = [] ∨ ∃ nu, collide o.frictional_heating a b nu 1 w = .ok cs) (key : Key) (i : ι) (φ : ℝ → ℝ) (h0 : φ 0 = 0)
    (hφ : ∀ nu cs, collide o.frictional_heating a b nu 1 w = .ok cs → signedSum key i cs = φ (nu i)) :
    signedSum key i cs = φ (heavyPart k o w a b i) := by
  have hs := heavyWith_share hT0 h a i
  rw [List.append_nil] at hs
  simp only [List.map_cons, List.map_nil, List.sum_cons, List.sum_nil, add_zero, share_self] at hs
  rcases hc with rfl | ⟨nu, hnu⟩
  · rw [← hs]
    show 0 = φ 0
    exact h0.symm
  · rw [hφ nu cs hnu, ← hs, collide_frequency hnu, share_self]

theorem heavyWith_value {k : CollNorms} (hT0 : k.Tnorm ≠ 0) {o : CollOpts} {w : World ι} {a : String} {rest : List String} {cs : List (Contrib Key ι)}
    (h : heavyWith k o w a rest = .ok cs) (key : Key) (i : ι) (φ : String → ℝ → ℝ) (h0 : ∀ b, φ b 0 = 0)
    (hφ : ∀ b nu cs, collide o.frictional_heating a b nu 1 w = .ok cs → signedSum key i cs = φ b (nu i)) :
    signedSum key i cs = (rest.map fun b => φ b (heavyPart k o w a b i)).sum := by
  have h' := h
  unfold heavyWith at h
  split at h
  · rename_i ha
    cases h
    have : ∀ b, φ b (heavyPart k o w a b i) = 0 := fun b => by
      have : heavyPart k o w a b i = 0 := by unfold heavyPart; rw [if_pos (by tauto)]
      rw [this, h0]
    simp [this]
  rename_i ha
  obtain ⟨x, hx, h⟩ := bind_ok h
  split at h
  · rename_i hc
    rw [collectM_map _ (signedSum key i) (· + ·) 0 rfl (fun a b => signedSum_append _ _ a b) (fun b => φ b (heavyPart k o w a b i)) ?_ _ _ h]
    · exact sum_fold _ _
    intro b cs hb
    refine pair_value hT0 ?_ (charged_collides hb) key i (φ b) (h0 b) (hφ b)
    unfold heavyWith
    rw [if_neg ha]
    refine ok_bind hx ?_
    rw [if_pos hc]
    exact ok_bind hb (ok_bind rfl rfl)
  · rename_i hc
    rw [collectM_map _ (signedSum key i) (· + ·) 0 rfl (fun a b => signedSum_append _ _ a b) (fun b => φ b (heavyPart k o w a b i)) ?_ _ _ h]
    · exact sum_fold _ _
    intro b cs hb
    refine pair_value hT0 ?_ (neutral_collides hb) key i (φ b) (h0 b) (hφ b)
    unfold heavyWith
    rw [if_neg ha]
    refine ok_bind hx ?_
    rw [if_neg hc]
    exact ok_bind hb (ok_bind rfl rfl)

theorem heavyLoop_value {k : CollNorms} (hT0 : k.Tnorm ≠ 0) {o : CollOpts} {w : World ι} (key : Key) (i : ι) (φ : String → String → ℝ → ℝ)
    (h0 : ∀ a b, φ a b 0 = 0) (hφ : ∀ a b nu cs, collide o.frictional_heating a b nu 1 w = .ok cs → signedSum key i cs = φ a b (nu i)) :
    ∀ (ns : List String) {cs : List (Contrib Key ι)}, heavyLoop k o w ns = .ok cs →
    signedSum key i cs = pairSum (fun a b => φ a b (heavyPart k o w a b i)) ns
  | [], cs, h => by cases h; rfl
  | n :: ns, cs, h => by
    unfold heavyLoop at h
    obtain ⟨a, ha, h⟩ := bind_ok h
    obtain ⟨b, hb, h⟩ := bind_ok h
    cases h
    rw [signedSum_append, heavyWith_value hT0 ha key i (φ n) (h0 n) (hφ n), heavyLoop_value hT0 key i φ h0 hφ ns hb]
    rfl

/-- Everything that collisions give, once the effect `φ` of one collision is known. -/
theorem run_value {k : CollNorms} (hT0 : k.Tnorm ≠ 0) {o : CollOpts} {names : List String} {w : World ι} (hu : SourcesUnread w.st)
    {after : Store Key (Fld ι)} (h : SourceComponent.transform (collisions k o names) w = (.ok (), after)) (s : String) (v : Var) (i : ι)
    (φ : ℝ → String → String → ℝ → ℝ) (h0 : ∀ c a b, φ c a b 0 = 0) (hself : ∀ c a nu, φ c a a nu = 0)
    (hφ : ∀ c a b nu cs, collide o.frictional_heating a b nu c w = .ok cs → signedSum (.sp s v) i cs = φ c a b (nu i)) :
    gain w.st after s v i =
      (if "e" ∈ names then (names.map fun n => φ (coefficient w n) "e" n (electronPart k o w n i)).sum else 0)
      + pairSum (fun a b => φ 1 a b (heavyPart k o w a b i)) names := by
  obtain ⟨cs, hcs, g⟩ := run_gain hu h
  rw [g]
  unfold collisions at hcs
  obtain ⟨a, ha, hcs⟩ := bind_ok hcs
  obtain ⟨b, hb, hcs⟩ := bind_ok hcs
  cases hcs
  rw [signedSum_append, heavyLoop_value hT0 (.sp s v) i (φ 1) (h0 1) (hφ 1) names hb]
  congr 1
  unfold electronLoop at ha
  split at ha
  · rename_i he
    rw [if_pos he]
    obtain ⟨Te, hTe, ha⟩ := bind_ok ha
    obtain ⟨Ne, hNe, ha⟩ := bind_ok ha
    rw [collectM_map _ (signedSum (.sp s v) i) (· + ·) 0 rfl (fun a b => signedSum_append _ _ a b)
      (fun n => φ (coefficient w n) "e" n (electronPart k o w n i)) ?_ names _ ha]
    · exact sum_fold _ names
    intro n cs hx
    rcases electronWith_ok hT0 hTe hNe hx with ⟨rfl, hz⟩ | ⟨nu, coef, hc, hcoef, hnu⟩
    · rw [hz, h0]; rfl
    · rw [hφ _ _ _ _ _ hc, hnu]
      by_cases hn : n = "e"
      · subst hn; rw [hself, hself]
      · rw [hcoef hn]
  · rename_i he
    rw [if_neg he]
    cases ha
    rfl

/-- **C96.**  Every species, in any mixture: it is dragged by every other species with the documented force, and drags that species as much.
The sum is over the pairs with the electrons and over the pairs of heavy species, each pair counted once. -/
theorem species_friction (k : CollNorms) (hT0 : k.Tnorm ≠ 0) (o : CollOpts) (names : List String) (w : World ι)
    (hu : SourcesUnread w.st) (after : Store Key (Fld ι)) (h : SourceComponent.transform (collisions k o names) w = (.ok (), after)) (s : String) (i : ι) :
    gain w.st after s Var.momentum_source i =
      (if "e" ∈ names then (names.map fun n => push w (coefficient w n) s "e" n (electronPart k o w n i) i).sum else 0)
      + pairSum (fun a b => push w 1 s a b (heavyPart k o w a b i) i) names :=
  run_value hT0 hu h s _ i (fun c a b nu => push w c s a b nu i) (fun c a b => by simp [push, force]) (fun c a nu => by simp [push, force])
    fun _ _ _ _ _ hc => collide_momentum hc s i

/-- **C96.**  And every species is heated by the work of these forces and by hotter species. -/
theorem species_heating (k : CollNorms) (hT0 : k.Tnorm ≠ 0) (o : CollOpts) (names : List String) (w : World ι)
    (hu : SourcesUnread w.st) (after : Store Key (Fld ι)) (h : SourceComponent.transform (collisions k o names) w = (.ok (), after)) (s : String) (i : ι) :
    gain w.st after s Var.energy_source i =
      (if "e" ∈ names then (names.map fun n => warm o.frictional_heating w (coefficient w n) s "e" n (electronPart k o w n i) i).sum else 0)
      + pairSum (fun a b => warm o.frictional_heating w 1 s a b (heavyPart k o w a b i) i) names :=
  run_value hT0 hu h s _ i (fun c a b nu => warm o.frictional_heating w c s a b nu i) (fun c a b => by simp [warm, work, heat, force])
    (fun c a nu => by simp [warm, work, heat, force]) fun _ _ _ _ _ hc => collide_energy hc s i

/-! ## One species of ions -/

/-- The plasma: electrons, and ions of one kind.  Nothing is said about the charges balancing. -/
structure Ions (k : CollNorms) (w : World ι) (s : String) (c : ι) : Prop where
  name : s ≠ "e"
  positive : 0 < charge w s
  heavy : 1 ≤ mass w s
  light : 0 < mass w "e" ∧ 1800 * mass w "e" ≤ 1
  hot : 0.1 ≤ temperature w "e" c * k.Tnorm
  cold : 0.1 ≤ temperature w s c * k.Tnorm
  colder : temperature w s c ≤ 10 * temperature w "e" c
  dense : 1e10 ≤ density w "e" c * k.Nnorm ∧ 1e10 ≤ density w s c * k.Nnorm

/-- Coulomb logarithm of the NRL formulary for electrons and ions of charge `Z`. -/
noncomputable def nrlEI (Z T n : ℝ) : ℝ := if T < Real.exp 2 * Z ^ 2 then nrlCold Z T n else nrlHot T n

/-- Braginskii's frequency of the collisions of electrons with ions, `1/τ_e`, in the units of the simulation. -/
noncomputable def rate (k : CollNorms) (w : World ι) (s : String) (c : ι) (Λ : ℝ) : ℝ :=
  spitzer k (density w s c * k.Nnorm) (charge w s) k.Me (temperature w "e" c * k.Tnorm) (max Λ 1) / k.Omega_ci

theorem electron_rate {k : CollNorms} (hk : Physical k) {o : CollOpts} (ho : o.electron_ion = true) (hm : o.ei_multiplier = 1) {w : World ι} {s : String}
    {c : ι} (hw : Ions k w s c) :
    ∃ Λ, |Λ - nrlEI (charge w s) (temperature w "e" c * k.Tnorm) (density w "e" c * k.Nnorm)| ≤ 0.1 ∧ 0 < rate k w s c Λ ∧
      ∃ r, 0.99 ≤ r ∧ r ≤ 1.0006 ∧ electronPart k o w s c = r * rate k w s c Λ := by
  have hTn := hk.Tnorm
  have hMe := hk.Me
  have hMp := hk.Mp
  have hA : 0 < mass w s := by linarith [hw.heavy]
  have hle : temperature w s c * k.Tnorm ≤ 10 * (temperature w "e" c * k.Tnorm) := by
    have := mul_le_mul_of_nonneg_right hw.colder hTn.le
    linarith
  have hM : 1800 * k.Me ≤ k.Mp * mass w s := by nlinarith [hk.heavy, hw.heavy]
  obtain ⟨Λ, e, hΛ⟩ := electron_ion hk.qe hk.e0 hMe hMp 1 hw.positive hA hw.hot hw.cold hw.dense.1 hw.dense.2
  have nf : ¬ temperature w "e" c * k.Tnorm * (k.Mp * mass w s) < temperature w s c * k.Tnorm * k.Me := by
    have t := hw.hot
    generalize temperature w "e" c * k.Tnorm = a at *
    generalize temperature w s c * k.Tnorm = b at *
    generalize k.Mp * mass w s = M at *
    generalize k.Me = m at *
    have a0 : 0 < a := by linarith
    have h1 : a * (1800 * m) ≤ a * M := mul_le_mul_of_nonneg_left hM a0.le
    have h2 : b * m ≤ 10 * a * m := mul_le_mul_of_nonneg_right hle hMe.le
    have h3 : 0 < a * m := mul_pos a0 hMe
    rw [not_lt]
    linarith
  rw [if_neg nf] at hΛ
  obtain ⟨v1, v2⟩ := moving_near_one (m1 := k.Me) (m2 := k.Mp * mass w s) (T1 := temperature w "e" c * k.Tnorm) (T2 := temperature w s c * k.Tnorm) hMe hM
    (by linarith [hw.hot]) (by linarith [hw.cold]) hle
  refine ⟨Λ, hΛ, ?_, _, v1, v2, ?_⟩
  · unfold rate spitzer
    have := hk.Omega_ci
    have n0 : 0 < density w s c * k.Nnorm := by linarith [hw.dense.2]
    have z0 := hw.positive
    have q0 := hk.qe
    have e0 := hk.e0
    have l0 : 0 < max Λ 1 := lt_of_lt_of_le one_pos (le_max_right _ _)
    have p1 := p32_pos (mul_pos two_pos Real.pi_pos)
    have p2 : 0 < p32 (temperature w "e" c * k.Tnorm * k.qe) := p32_pos (mul_pos (by linarith [hw.hot]) q0)
    have p3 := Real.sqrt_pos.2 hMe
    positivity
  · unfold electronPart rate
    dsimp only
    rw [if_neg hw.name, if_pos hw.positive, if_pos ho, hm, e]
    ring

theorem documented_near_table {Z : ℕ} (h1 : 1 ≤ Z) (h4 : Z ≤ 4) {r : ℝ} (a : 0.99 ≤ r) (b : r ≤ 1.0006) :
    |documented Z * r - table Z| ≤ 0.02 * table Z := by
  rw [abs_le]
  have : Z = 1 ∨ Z = 2 ∨ Z = 3 ∨ Z = 4 := by omega
  rcases this with rfl | rfl | rfl | rfl <;> norm_num [documented, table] <;> constructor <;> linarith

theorem two_species {k : CollNorms} {o : CollOpts} {w : World ι} {s : String} (hs : s ≠ "e") (c : ι) :
    (["e", s].map fun n => pull k o w n c).sum = pull k o w s c ∧
    (["e", s].map fun n => rub k o w n c + warmth k o w n c).sum = rub k o w s c + warmth k o w s c := by
  constructor
  · simp [pull]
  · simp [rub, warmth, pull]

/-- **C96.**  Electrons and one species of ions of charge one to four: the force on the electrons is `α m_e n_e (V_i - V_e)/τ_e`, with the coefficient `α`
and the collision time of Braginskii, within 2 %, whether or not the electrons collide with each other.  The force on the ions is opposite. -/
theorem friction_braginskii {k : CollNorms} (hk : Physical k) {o : CollOpts} (ho : o.electron_ion = true) (hm : o.ei_multiplier = 1) {w : World ι}
    {s : String} {c : ι} (hw : Ions k w s c) {Z : ℕ} (hZ : charge w s = Z) (h1 : 1 ≤ Z) (h4 : Z ≤ 4) (hu : SourcesUnread w.st)
    {after : Store Key (Fld ι)} (h : SourceComponent.transform (collisions k o ["e", s]) w = (.ok (), after)) :
    ∃ Λ, |Λ - nrlEI Z (temperature w "e" c * k.Tnorm) (density w "e" c * k.Nnorm)| ≤ 0.1 ∧ 0 < rate k w s c Λ ∧
      ∃ α, |α - table Z| ≤ 0.02 * table Z ∧
        gain w.st after "e" Var.momentum_source c =
          α * mass w "e" * density w "e" c * (velocity w s c - velocity w "e" c) * rate k w s c Λ ∧
        gain w.st after s Var.momentum_source c = - gain w.st after "e" Var.momentum_source c := by
  obtain ⟨Λ, hΛ, hr, r, r1, r2, e⟩ := electron_rate hk ho hm hw
  have cons := (momentum_conserved k o ["e", s] (by simp [hw.name.symm]) w hu after h).1 c
  refine ⟨Λ, hZ ▸ hΛ, hr, documented Z * r, documented_near_table h1 h4 r1 r2, ?_, ?_⟩
  · rw [electron_friction k hk.Tnorm.ne' o _ (by simp) w hu after h c, (two_species hw.name c).1]
    unfold pull coefficient
    rw [if_pos hw.positive, e, hZ]
    ring
  · simp at cons
    linarith

/-- **C96.**  The same for the heat: the electrons get the work of that force except for a part below one in 1800, which goes to the ions, and
`3 (m_e/m_i) n_e (T_i - T_e)/τ_e` within 1.1 %; what the ions get besides is the negative of the latter. -/
theorem heating_braginskii {k : CollNorms} (hk : Physical k) {o : CollOpts} (ho : o.electron_ion = true) (hm : o.ei_multiplier = 1)
    (hf : o.frictional_heating = true) {w : World ι} {s : String} {c : ι} (hw : Ions k w s c) (hu : SourcesUnread w.st)
    {after : Store Key (Fld ι)} (h : SourceComponent.transform (collisions k o ["e", s]) w = (.ok (), after)) :
    ∃ Λ, |Λ - nrlEI (charge w s) (temperature w "e" c * k.Tnorm) (density w "e" c * k.Nnorm)| ≤ 0.1 ∧ 0 < rate k w s c Λ ∧
      ∃ ε β, 0 ≤ ε ∧ ε ≤ 1 / 1800 ∧ |β - 1| ≤ 0.011 ∧
        let work := (velocity w s c - velocity w "e" c) * gain w.st after "e" Var.momentum_source c
        let exchange := 3 * (mass w "e" / mass w s) * density w "e" c * (temperature w s c - temperature w "e" c) * rate k w s c Λ
        0 ≤ work ∧
        gain w.st after "e" Var.energy_source c = (1 - ε) * work + β * exchange ∧
        gain w.st after s Var.energy_source c = ε * work - β * exchange := by
  obtain ⟨Λ, hΛ, hr, r, r1, r2, e⟩ := electron_rate hk ho hm hw
  have hA := hw.heavy
  obtain ⟨me, me'⟩ := hw.light
  have cons := (momentum_conserved k o ["e", s] (by simp [hw.name.symm]) w hu after h).1 c
  have energy := energy_conserved k o hf ["e", s] (by simp [hw.name.symm]) w hu
    (by intro a ha; simp at ha; rcases ha with rfl | rfl <;> linarith) after h c
  have hmom := electron_friction k hk.Tnorm.ne' o _ (by simp) w hu after h c
  have hen := electron_heating k hk.Tnorm.ne' o _ (by simp) w hu after h c
  rw [(two_species hw.name c).1] at hmom
  rw [(two_species hw.name c).2] at hen
  have hε : mass w "e" / (mass w "e" + mass w s) ≤ 1 / 1800 := by
    rw [div_le_div_iff₀ (by linarith) (by norm_num)]; linarith
  have hε0 : 0 < mass w "e" / (mass w "e" + mass w s) := by positivity
  have hδ : mass w s / (mass w "e" + mass w s) = 1 - mass w "e" / (mass w "e" + mass w s) := by
    have : mass w "e" + mass w s ≠ 0 := by linarith
    field_simp
    ring
  refine ⟨Λ, hΛ, hr, mass w "e" / (mass w "e" + mass w s), r * (mass w s / (mass w "e" + mass w s)), hε0.le, hε, ?_, ?_⟩
  · rw [hδ, abs_le]
    constructor <;> nlinarith
  · dsimp only
    have he : gain w.st after "e" Var.energy_source c = (1 - mass w "e" / (mass w "e" + mass w s)) *
        ((velocity w s c - velocity w "e" c) * gain w.st after "e" Var.momentum_source c) +
        r * (mass w s / (mass w "e" + mass w s)) *
        (3 * (mass w "e" / mass w s) * density w "e" c * (temperature w s c - temperature w "e" c) * rate k w s c Λ) := by
      rw [hen, hmom, ← hδ]
      unfold rub warmth
      rw [if_pos hf, e]
      have h1 : mass w "e" + mass w s ≠ 0 := by linarith
      have h2 : mass w s ≠ 0 := by linarith
      field_simp
    refine ⟨?_, he, ?_⟩
    · rw [hmom]
      unfold pull coefficient
      rw [if_pos hw.positive, e]
      have hd : 0 < density w "e" c := by
        by_contra hc
        have := hw.dense.1
        have := hk.Nnorm
        nlinarith
      have hc : 0 < documented (charge w s) := by unfold documented; split_ifs <;> norm_num
      have : (velocity w s c - velocity w "e" c) *
          (documented (charge w s) * (r * rate k w s c Λ) * mass w "e" * density w "e" c * (velocity w s c - velocity w "e" c)) =
        documented (charge w s) * (r * rate k w s c Λ) * mass w "e" * density w "e" c * (velocity w s c - velocity w "e" c) ^ 2 := by ring
      rw [this]
      have : 0 < r := by linarith
      positivity
    · have dens := (momentum_conserved k o ["e", s] (by simp [hw.name.symm]) w hu after h).2.1
      simp [totalEnergyRate, dens] at energy cons
      have hx : gain w.st after s Var.momentum_source c = - gain w.st after "e" Var.momentum_source c := by linarith
      rw [hx] at energy
      linarith [he, energy]

/-- **C96.**  Larger charges: the coefficient stays at 0.38 (documented), at least 27 % above Braginskii's limit for large charges. -/
theorem friction_large_charge {k : CollNorms} (hk : Physical k) {o : CollOpts} (ho : o.electron_ion = true) (hm : o.ei_multiplier = 1) {w : World ι}
    {s : String} {c : ι} (hw : Ions k w s c) (hZ : 4 ≤ charge w s) (hu : SourcesUnread w.st)
    {after : Store Key (Fld ι)} (h : SourceComponent.transform (collisions k o ["e", s]) w = (.ok (), after)) :
    ∃ Λ, |Λ - nrlEI (charge w s) (temperature w "e" c * k.Tnorm) (density w "e" c * k.Nnorm)| ≤ 0.1 ∧ 0 < rate k w s c Λ ∧
      ∃ α, 1.27 * table 0 ≤ α ∧ α ≤ 1.29 * table 0 ∧
        gain w.st after "e" Var.momentum_source c =
          α * mass w "e" * density w "e" c * (velocity w s c - velocity w "e" c) * rate k w s c Λ := by
  obtain ⟨Λ, hΛ, hr, r, r1, r2, e⟩ := electron_rate hk ho hm hw
  have hd : documented (charge w s) = 0.38 := by
    unfold documented
    rw [if_neg (by linarith), if_neg (by linarith), if_neg (by linarith)]
  refine ⟨Λ, hΛ, hr, 0.38 * r, ?_, ?_, ?_⟩
  · norm_num [table]; linarith
  · norm_num [table]; linarith
  · rw [electron_friction k hk.Tnorm.ne' o _ (by simp) w hu after h c, (two_species hw.name c).1]
    unfold pull coefficient
    rw [if_pos hw.positive, e, hd]
    ring

/-- Electrons of 300 eV that drift past ions of 200 eV and of any charge. -/
noncomputable def drifting (z : ℝ) : World Unit :=
  Collisions.gas (fun _ => 1) (fun s => if s = "e" then 3 else 2) (fun s => if s = "e" then 1 else 0) (fun s => if s = "e" then 1 / 1836 else 12)
    (fun s => if s = "e" then some (-1) else some z)

example (z : ℝ) (hz : 0 < z) : Ions si (drifting z) "c" () ∧ charge (drifting z) "c" = z ∧ SourcesUnread (drifting z).st ∧
    (∀ o, ∃ after, SourceComponent.transform (collisions si o ["e", "c"]) (drifting z) = (.ok (), after)) ∧
    velocity (drifting z) "c" () - velocity (drifting z) "e" () = -1 := by
  have T1 : temperature (drifting z) "e" () = 3 := by simp [temperature, drifting, Collisions.gas]
  have T2 : temperature (drifting z) "c" () = 2 := by simp [temperature, drifting, Collisions.gas]
  have N : ∀ s, density (drifting z) s () = 1 := fun s => by simp [density, drifting, Collisions.gas]
  have A1 : mass (drifting z) "e" = 1 / 1836 := by simp [mass, drifting, Collisions.gas]
  have A2 : mass (drifting z) "c" = 12 := by simp [mass, drifting, Collisions.gas]
  have Z : charge (drifting z) "c" = z := by simp [charge, drifting, Collisions.gas]
  have V1 : velocity (drifting z) "e" () = 1 := by simp [velocity, drifting, Collisions.gas]
  have V2 : velocity (drifting z) "c" () = 0 := by simp [velocity, drifting, Collisions.gas]
  have hr : Ready si ["e", "c"] (drifting z) := by
    refine gas_ready (by norm_num [si]) ?_ ?_ ?_
    · intro s _; split <;> norm_num
    · intro s _; split <;> norm_num
    · intro s _ hs y hy
      simp only [hs, if_false] at hy
      cases hy
      exact hz.le
  exact ⟨⟨by decide, by rw [Z]; exact hz, by rw [A2]; norm_num, by rw [A1]; norm_num, by rw [T1]; norm_num [si], by rw [T2]; norm_num [si],
    by rw [T1, T2]; norm_num, by rw [N, N]; norm_num [si]⟩, Z, gas_unread, fun o => collisions_succeed si o _ _ hr gas_unread, by rw [V1, V2]; norm_num⟩

end Hermes.Friction
