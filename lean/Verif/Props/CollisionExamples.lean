import Verif.Props.CollisionNaming

/-!
# Collisions: when they succeed, and where the claims fail

The theorems of `Props/Collisions.lean` and `Props/CollisionNaming.lean` speak about runs without exception.
`collisions_succeed` says which states have such a run.  The second part has the states for which C34 fails.
-/

namespace Hermes.Collisions

variable {ι : Type}

/-- Everything collisions need is there and physically sensible. -/
structure Ready (k : CollNorms) (names : List String) (w : World ι) : Prop where
  Tnorm : 0 < k.Tnorm
  Mp : 0 < k.Mp
  Me : 0 < k.Me
  density : ∀ s ∈ names, ∃ f, w.field s Var.density = .ok f
  temperature : ∀ s ∈ names, ∃ f, w.field s Var.temperature = .ok f ∧ ∀ i, 0 ≤ f i
  mass : ∀ s ∈ names, ∃ A, w.real s Var.AA = .ok A ∧ 0 < A
  /-- all ions have charges of the same sign -/
  charges : ∀ a ∈ names, ∀ b ∈ names, a ≠ "e" → b ≠ "e" → ∀ x y, w.num a Var.charge = some x → x ≠ 0 →
    w.num b Var.charge = some y → y ≠ 0 → 0 < x * y

theorem collide_succeeds {k : CollNorms} {names : List String} {w : World ι} (hr : Ready k names w) (fh : Bool)
    {a b : String} (ha : a ∈ names) (hb : b ∈ names) (nu : Fld ι) (coef : ℝ) :
    ∃ cs, collide fh a b nu coef w = .ok cs := by
  unfold collide
  split
  · exact ⟨_, rfl⟩
  · obtain ⟨A1, h1, -⟩ := hr.mass a ha
    obtain ⟨A2, h2, -⟩ := hr.mass b hb
    obtain ⟨n1, h3⟩ := hr.density a ha
    obtain ⟨n2, h4⟩ := hr.density b hb
    obtain ⟨T1, h5, -⟩ := hr.temperature a ha
    obtain ⟨T2, h6, -⟩ := hr.temperature b hb
    have h7 : heatExchange a b nu A1 A2 n1 w = .ok (heatExchangeOf a b nu A1 A2 n1 T1 T2) := by
      unfold heatExchange
      rw [field_isSet h5]
      exact ok_bind h5 (ok_bind h6 rfl)
    exact ⟨_, ok_bind h1 (ok_bind h2 (ok_bind h3 (ok_bind h4 (ok_bind h7 rfl))))⟩

theorem collectM_succeeds {α β : Type} {f : α → Except Err (List β)} :
    ∀ {l : List α}, (∀ a ∈ l, ∃ x, f a = .ok x) → ∃ cs, collectM f l = .ok cs
  | [], _ => ⟨_, rfl⟩
  | a :: l, h => by
    obtain ⟨x, hx⟩ := h a (by simp)
    obtain ⟨y, hy⟩ := collectM_succeeds (f := f) (l := l) fun b hb => h b (by simp [hb])
    exact ⟨_, ok_bind hx (ok_bind hy rfl)⟩

theorem readHeavy_succeeds {k : CollNorms} {names : List String} {w : World ι} (hr : Ready k names w) {a : String}
    (ha : a ∈ names) : ∃ x, readHeavy k w a = .ok x ∧ 0 < x.A ∧ ∀ i, 0 ≤ x.T i := by
  obtain ⟨A, h1, hA⟩ := hr.mass a ha
  obtain ⟨n, h3⟩ := hr.density a ha
  obtain ⟨T, h5, hT⟩ := hr.temperature a ha
  refine ⟨_, ok_bind h3 (ok_bind h1 rfl), hA, fun i => ?_⟩
  show 0 ≤ w.fieldOr0 a Var.temperature i * k.Tnorm
  rw [field_fieldOr0 h5]
  exact mul_nonneg (hT i) hr.Tnorm.le

theorem hardSphere_succeeds {k : CollNorms} {o : CollOpts} {names : List String} {w : World ι} (hr : Ready k names w)
    {a b : String} (ha : a ∈ names) (hb : b ∈ names) (a0 : ℝ) {x y : HeavyInput ι} (hx : 0 < x.A ∧ ∀ i, 0 ≤ x.T i)
    (hy : 0 < y.A ∧ ∀ i, 0 ≤ y.T i) : ∃ cs, hardSphere k o w a0 a b x y = .ok cs := by
  obtain ⟨cs, h⟩ := collide_succeeds hr o.frictional_heating ha hb
    (fun i => nuHard k a0 x.A y.A (x.T i) (y.T i) (y.N i)) 1
  refine ⟨cs, ok_bind (valid_of fun i => ?_) h⟩
  exact add_nonneg (div_nonneg (hx.2 i) (mul_pos hr.Tnorm hx.1).le) (div_nonneg (hy.2 i) (mul_pos hr.Tnorm hy.1).le)

theorem electronWith_succeeds {k : CollNorms} {o : CollOpts} {names : List String} {w : World ι} (hr : Ready k names w)
    (he : "e" ∈ names) {Te Ne : Fld ι} (hT : ∀ i, 0 ≤ Te i) {n : String} (hn : n ∈ names) :
    ∃ cs, electronWith k o w Te Ne n = .ok cs := by
  unfold electronWith
  split
  · split
    · exact ⟨_, rfl⟩
    · exact collide_succeeds hr _ he he _ _
  split
  · rename_i hp
    split
    · exact ⟨_, rfl⟩
    · obtain ⟨Ti, h1, -⟩ := hr.temperature n hn
      obtain ⟨Ni, h2⟩ := hr.density n hn
      obtain ⟨A, h4, -⟩ := hr.mass n hn
      obtain ⟨z, hz, -⟩ := hp
      have h3 : w.real n Var.charge = .ok z := by unfold World.real; rw [hz]
      obtain ⟨cs, h⟩ := collide_succeeds hr o.frictional_heating he hn (fun i => nuEI k o.ei_multiplier z A (Te i) (Ne i)
        (Ti i * k.Tnorm) (Ni i * k.Nnorm) / k.Omega_ci) (momCoeff z)
      exact ⟨cs, ok_bind h1 (ok_bind h2 (ok_bind h3 (ok_bind h4 h)))⟩
  split
  · exact ⟨_, rfl⟩
  split
  · exact ⟨_, rfl⟩
  · obtain ⟨Nn, h2⟩ := hr.density n hn
    obtain ⟨cs, h⟩ := collide_succeeds hr o.frictional_heating he hn (fun i => nuEN k (Te i) (Nn i)) 1
    refine ⟨cs, ok_bind h2 (ok_bind (valid_of fun i => ?_) h)⟩
    exact div_nonneg (mul_nonneg (div_pos hr.Mp hr.Me).le (hT i)) hr.Tnorm.le

theorem heavyWith_succeeds {k : CollNorms} {o : CollOpts} {names : List String} {w : World ι} (hr : Ready k names w)
    {n1 : String} (h1 : n1 ∈ names) {rest : List String} (hrest : ∀ b ∈ rest, b ∈ names) :
    ∃ cs, heavyWith k o w n1 rest = .ok cs := by
  unfold heavyWith
  split
  · exact ⟨_, rfl⟩
  rename_i hne
  obtain ⟨x1, hx1, p1⟩ := readHeavy_succeeds hr h1
  by_cases hc : w.charged n1
  · obtain ⟨cs, h⟩ : ∃ cs, collectM (chargedWith k o w n1 x1) rest = .ok cs := by
      apply collectM_succeeds
      intro b hb
      unfold chargedWith
      split
      · exact ⟨_, rfl⟩
      rename_i hbe
      obtain ⟨x2, hx2, p2⟩ := readHeavy_succeeds hr (hrest b hb)
      by_cases hcb : w.charged b
      · obtain ⟨z1, e1, q1⟩ := id hc
        obtain ⟨z2, e2, q2⟩ := id hcb
        have h3 : w.real n1 Var.charge = .ok z1 := by unfold World.real; rw [e1]
        have h4 : w.real b Var.charge = .ok z2 := by unfold World.real; rw [e2]
        obtain ⟨cs, h⟩ : ∃ cs, (if o.ion_ion = false then Except.ok [] else ionIon k o w n1 b x1 x2) = .ok cs := by
          split
          · exact ⟨_, rfl⟩
          · obtain ⟨cs, h⟩ := collide_succeeds hr o.frictional_heating h1 (hrest b hb)
              (fun i => nuII k z1 z2 x1.A x2.A (x1.T i) (x2.T i) (x1.N i) (x2.N i) / k.Omega_ci) 1
            exact ⟨cs, ok_bind h3 (ok_bind h4 (ok_bind (valid_of (hr.charges n1 h1 b (hrest b hb)
              (fun e => hne (Or.inl e)) (fun e => hbe (Or.inl e)) _ _ e1 q1 e2 q2)) h))⟩
        exact ⟨cs, ok_bind hx2 (Eq.trans (if_pos hcb) h)⟩
      · obtain ⟨cs, h⟩ := hardSphere_succeeds (o := o) hr h1 (hrest b hb) a0Ion p1 p2
        exact ⟨cs, ok_bind hx2 (Eq.trans (if_neg hcb) h)⟩
    exact ⟨cs, ok_bind hx1 (Eq.trans (if_pos hc) h)⟩
  · obtain ⟨cs, h⟩ : ∃ cs, collectM (neutralWith k o w n1 x1) rest = .ok cs := by
      apply collectM_succeeds
      intro b hb
      unfold neutralWith
      split
      · exact ⟨_, rfl⟩
      obtain ⟨x2, hx2, p2⟩ := readHeavy_succeeds hr (hrest b hb)
      obtain ⟨c1, g1⟩ := hardSphere_succeeds (o := o) hr h1 (hrest b hb) a0Ion p1 p2
      obtain ⟨c2, g2⟩ := hardSphere_succeeds (o := o) hr h1 (hrest b hb) a0Neutral p1 p2
      obtain ⟨cs, h⟩ : ∃ cs, (if (w.num b Var.charge).isSome then
          if o.ion_neutral = false then Except.ok [] else hardSphere k o w a0Ion n1 b x1 x2
        else if o.neutral_neutral = false then Except.ok [] else hardSphere k o w a0Neutral n1 b x1 x2) = .ok cs := by
        split
        · split
          · exact ⟨_, rfl⟩
          · exact ⟨_, g1⟩
        · split
          · exact ⟨_, rfl⟩
          · exact ⟨_, g2⟩
      exact ⟨cs, ok_bind hx2 h⟩
    exact ⟨cs, ok_bind hx1 (Eq.trans (if_neg hc) h)⟩

/-- In a state which is `Ready` collisions run without exception, whatever the switches. -/
theorem collisions_succeed (k : CollNorms) (o : CollOpts) (names : List String) (w : World ι) (hr : Ready k names w)
    (hu : SourcesUnread w.st) : ∃ after, SourceComponent.transform (collisions k o names) w = (.ok (), after) := by
  obtain ⟨a, ha⟩ : ∃ a, electronLoop k o names w = .ok a := by
    unfold electronLoop
    split
    · rename_i he
      obtain ⟨Te, h1, hT⟩ := hr.temperature "e" he
      obtain ⟨Ne, h2⟩ := hr.density "e" he
      obtain ⟨cs, h⟩ := collectM_succeeds (f := electronWith k o w (fun i => Te i * k.Tnorm) (fun i => Ne i * k.Nnorm))
        fun n hn => electronWith_succeeds hr he (fun i => mul_nonneg (hT i) hr.Tnorm.le) hn
      exact ⟨cs, ok_bind h1 (ok_bind h2 h)⟩
    · exact ⟨_, rfl⟩
  obtain ⟨b, hb⟩ : ∃ b, heavyLoop k o w names = .ok b := by
    suffices h : ∀ l : List String, (∀ s ∈ l, s ∈ names) → ∃ b, heavyLoop k o w l = .ok b from h names fun _ h => h
    intro l
    induction l with
    | nil => intro _; exact ⟨_, rfl⟩
    | cons n l ih =>
      intro hl
      obtain ⟨x, hx⟩ := heavyWith_succeeds (o := o) hr (hl n (by simp)) (rest := n :: l) hl
      obtain ⟨y, hy⟩ := ih fun s hs => hl s (by simp [hs])
      exact ⟨_, ok_bind hx (ok_bind hy rfl)⟩
  have hc : collisions k o names w = .ok (a ++ b) := ok_bind ha (ok_bind hb rfl)
  obtain ⟨l, -, hF⟩ := run_events hc hu
  obtain ⟨after, h, -⟩ := hF o.frictional_heating
  exact ⟨after, h⟩

/-! ## A family of states: one cell, everything set -/

/-- One cell; densities, temperatures, velocities, masses and charges given by functions of the name. -/
noncomputable def gas (N T V A : String → ℝ) (Z : String → Option ℝ) : World Unit where
  st := {
    check := true
    ent := fun k => match k with
      | .sp s .density => { val := some fun _ => N s }
      | .sp s .temperature => { val := some fun _ => T s }
      | .sp s .velocity => { val := some fun _ => V s }
      | _ => { val := none } }
  num := fun s v => match v with
    | .AA => some (A s)
    | .charge => Z s
    | _ => none
  ym := id
  yp := id
  J := fun _ => 1
  lim := upwind

section
variable {N T V A : String → ℝ} {Z : String → Option ℝ}

theorem gas_unread : SourcesUnread (gas N T V A Z).st := by
  intro s v hv
  simp only [List.mem_cons, List.not_mem_nil, or_false] at hv
  rcases hv with rfl | rfl | rfl | rfl <;> exact ⟨rfl, rfl⟩

theorem gas_ready {k : CollNorms} {names : List String} (hk : 0 < k.Tnorm ∧ 0 < k.Mp ∧ 0 < k.Me)
    (hT : ∀ s ∈ names, 0 ≤ T s) (hA : ∀ s ∈ names, 0 < A s)
    (hZ : ∀ s ∈ names, s ≠ "e" → ∀ z, Z s = some z → 0 ≤ z) : Ready k names (gas N T V A Z) where
  Tnorm := hk.1
  Mp := hk.2.1
  Me := hk.2.2
  density := fun _ _ => ⟨_, rfl⟩
  temperature := fun s hs => ⟨_, rfl, fun _ => hT s hs⟩
  mass := fun s hs => ⟨_, rfl, hA s hs⟩
  charges := fun a ha b hb ea eb x y hx hx0 hy hy0 =>
    mul_pos (lt_of_le_of_ne (hZ a ha ea x hx) hx0.symm) (lt_of_le_of_ne (hZ b hb eb y hy) hy0.symm)

theorem gas_readHeavy {k : CollNorms} (s : String) :
    readHeavy k (gas N T V A Z) s = .ok ⟨fun _ => T s * k.Tnorm, fun _ => N s * k.Nnorm, A s⟩ := rfl

theorem gas_collide {fh : Bool} {a b : String} (hab : a ≠ b) {nu : Fld Unit} {coef : ℝ} :
    collide fh a b nu coef (gas N T V A Z) = .ok (collideOf fh (gas N T V A Z) ⟨a, b, nu, coef⟩) := by
  obtain ⟨cs, h⟩ : ∃ cs, collide fh a b nu coef (gas N T V A Z) = .ok cs := by
    unfold collide
    rw [if_neg hab]
    exact ⟨_, rfl⟩
  exact collide_ok h fh

/-- Friction of a hard-sphere collision. -/
theorem gas_hardSphere {k : CollNorms} {o : CollOpts} {a b : String} (hab : a ≠ b) {a0 : ℝ} (hk : 0 < k.Tnorm)
    (hT : 0 ≤ T a ∧ 0 ≤ T b) (hA : 0 < A a ∧ 0 < A b) :
    val (.sp a Var.momentum_source) () (hardSphere k o (gas N T V A Z) a0 a b
      ⟨fun _ => T a * k.Tnorm, fun _ => N a * k.Nnorm, A a⟩ ⟨fun _ => T b * k.Tnorm, fun _ => N b * k.Nnorm, A b⟩) =
    nuHard k a0 (A a) (A b) (T a * k.Tnorm) (T b * k.Tnorm) (N b * k.Nnorm) * A a * N a * (V b - V a) := by
  unfold hardSphere
  have hv : ∀ i : Unit, 0 ≤ T a * k.Tnorm / (k.Tnorm * A a) + T b * k.Tnorm / (k.Tnorm * A b) := fun _ =>
    add_nonneg (div_nonneg (mul_nonneg hT.1 hk.le) (mul_pos hk hA.1).le)
      (div_nonneg (mul_nonneg hT.2 hk.le) (mul_pos hk hA.2).le)
  rw [ok_bind (valid_of hv) (gas_collide hab)]
  simp only [val, collideOf]
  rw [if_neg hab]
  cases o.frictional_heating <;>
    simp [frictionOf, heatExchangeOf, World.isSetF, gas, World.fieldOr0, mass, hab.symm]

theorem pairE_self (k : CollNorms) (o : CollOpts) (w : World ι) (a s : String) (i : ι) :
    val (.sp s Var.momentum_source) i (pairE k o w a a) = 0 := by
  have hc : ∀ fh nu coef, val (.sp s Var.momentum_source) i (collide fh a a nu coef w) = 0 := fun fh nu coef => by
    unfold collide; rw [if_pos rfl]; simp [val, pure, Except.pure]
  unfold pairE chargedWith neutralWith ionIon hardSphere
  refine val_ite_zero rfl (val_bind_zero fun x1 => val_ite_zero (val_ite_zero rfl (val_bind_zero fun x2 => val_ite_zero
    (val_ite_zero rfl (val_bind_zero fun _ => val_bind_zero fun _ => val_bind_zero fun _ => hc _ _ _))
    (val_bind_zero fun _ => hc _ _ _))) (val_ite_zero rfl (val_bind_zero fun x2 => val_ite_zero
    (val_ite_zero rfl (val_bind_zero fun _ => hc _ _ _)) (val_ite_zero rfl (val_bind_zero fun _ => hc _ _ _)))))

/-- With two heavy species the momentum source is the friction between them. -/
theorem gain_two {k : CollNorms} {o : CollOpts} {a b : String} (he : "e" ≠ a ∧ "e" ≠ b) {w : World ι}
    (hu : SourcesUnread w.st) {after : Store Key (Fld ι)}
    (h : SourceComponent.transform (collisions k o [a, b]) w = (.ok (), after)) (s : String) (i : ι) :
    gain w.st after s Var.momentum_source i = val (.sp s Var.momentum_source) i (pairE k o w a b) := by
  obtain ⟨cs, hcs, g⟩ := run_gain hu h
  rw [g, collisions_val hcs, if_neg (by simp [he.1, he.2])]
  simp [pairSum, pairE_self]

theorem gas_renamed (σ : String → String) (hσ : ∀ s, σ (σ s) = s) (h1 : ∀ s, σ s = "e" ↔ s = "e")
    (h2 : ∀ s, σ s = "ebeam" ↔ s = "ebeam") :
    Renamed σ (gas N T V A Z) (gas (N ∘ σ) (T ∘ σ) (V ∘ σ) (A ∘ σ) (Z ∘ σ)) where
  inj := fun a b h => by rw [← hσ a, h, hσ]
  electron := h1
  beam := h2
  values := fun s v => by cases v <;> simp [gas, hσ]
  numbers := fun s v => by cases v <;> simp [gas, hσ]

end

/-! ## C34 fails -/

/-- Exchange two names. -/
def swapNames (a b s : String) : String := if s = a then b else if s = b then a else s

theorem swapNames_swap {a b : String} (s : String) : swapNames a b (swapNames a b s) = s := by
  unfold swapNames; split_ifs <;> simp_all

theorem swapNames_fix {a b c : String} (ha : c ≠ a) (hb : c ≠ b) (s : String) : swapNames a b s = c ↔ s = c := by
  unfold swapNames; split_ifs <;> simp_all [eq_comm]

/-- All units and constants 1. -/
def unit1 : CollNorms := ⟨1, 1, 1, 1, 1, 1, 1, 1⟩

/-- **C34 fails.**  With `ion_neutral = false` an ion called `d+` is still slowed down by a neutral called `h`.
If the ion is called `z+` instead, it is not. -/
theorem ion_neutral_switch_depends_on_names : ∃ (k : CollNorms) (o : CollOpts) (σ : String → String) (w w' : World Unit)
    (after after' : Store Key (Fld Unit)),
    o.ion_neutral = false ∧ Renamed σ w w' ∧ σ "d+" = "z+" ∧ σ "h" = "h" ∧
    SourceComponent.transform (collisions k o ["d+", "h"]) w = (.ok (), after) ∧
    SourceComponent.transform (collisions k o ["h", "z+"]) w' = (.ok (), after') ∧
    gain w.st after "d+" Var.momentum_source () ≠ 0 ∧ gain w'.st after' "z+" Var.momentum_source () = 0 := by
  let V : String → ℝ := fun s => if s = "h" then 1 else 0
  let Z : String → Option ℝ := fun s => if s = "h" then none else some 1
  let σ := swapNames "d+" "z+"
  let w := gas (fun _ => 1) (fun _ => 1) V (fun _ => 1) Z
  let w' := gas (fun _ => 1) (fun _ => 1) (V ∘ σ) (fun _ => 1) (Z ∘ σ)
  let o : CollOpts := ⟨true, true, true, true, false, true, true, 1⟩
  have hr : Ready unit1 ["d+", "h"] w := gas_ready (by norm_num [unit1]) (by simp) (by simp) (by
    intro s _ _ z hz; simp only [Z] at hz; split at hz <;> cases hz; norm_num)
  have hr' : Ready unit1 ["h", "z+"] w' := gas_ready (by norm_num [unit1]) (by simp) (by simp) (by
    intro s _ _ z hz; simp only [Z, Function.comp] at hz; split at hz <;> cases hz; norm_num)
  obtain ⟨after, h⟩ := collisions_succeed unit1 o ["d+", "h"] w hr gas_unread
  obtain ⟨after', h'⟩ := collisions_succeed unit1 o ["h", "z+"] w' hr' gas_unread
  refine ⟨unit1, o, σ, w, w', after, after', rfl,
    gas_renamed σ swapNames_swap (swapNames_fix (by decide) (by decide)) (swapNames_fix (by decide) (by decide)),
    rfl, rfl, h, h', ?_, ?_⟩
  · have ion : IsIon w "d+" := ⟨1, rfl, one_ne_zero⟩
    have neu : IsNeutral w "h" := rfl
    rw [gain_two (by decide) gas_unread h, pairE_ion_neutral (by decide) (by decide) (gas_readHeavy _) (gas_readHeavy _)
      ion (not_ion_of_neutral neu), gas_hardSphere (by decide) (by norm_num [unit1]) (by norm_num) (by norm_num)]
    have : V "h" - V "d+" = 1 := by simp [V]
    rw [this]
    have : (0 : ℝ) < Real.sqrt (1 + 1) := Real.sqrt_pos.2 (by norm_num)
    simp only [nuHard, unit1, a0Ion]
    have e : (1 : ℝ) * 1 / (1 * 1) = 1 := by norm_num
    rw [e]
    positivity
  · have ion : (w'.num "z+" Var.charge).isSome = true := rfl
    have neu : IsNeutral w' "h" := rfl
    rw [gain_two (by decide) gas_unread h', pairE_neutral_ion (by decide) (by decide) (gas_readHeavy _) (gas_readHeavy _)
      (not_ion_of_neutral neu) ion, if_pos rfl]
    rfl

/-- **C34 fails.**  The friction between two neutral gases of mass 1 and 4 is four times stronger if the heavy one
comes first in the alphabet. -/
theorem neutral_friction_depends_on_names : ∃ (k : CollNorms) (o : CollOpts) (σ : String → String) (w w' : World Unit)
    (after after' : Store Key (Fld Unit)),
    Renamed σ w w' ∧ σ "a" = "c" ∧ σ "b" = "b" ∧
    SourceComponent.transform (collisions k o ["a", "b"]) w = (.ok (), after) ∧
    SourceComponent.transform (collisions k o ["b", "c"]) w' = (.ok (), after') ∧
    gain w.st after "a" Var.momentum_source () ≠ 0 ∧
    gain w'.st after' "c" Var.momentum_source () = 4 * gain w.st after "a" Var.momentum_source () := by
  let V : String → ℝ := fun s => if s = "b" then 1 else 0
  let A : String → ℝ := fun s => if s = "b" then 4 else 1
  let σ := swapNames "a" "c"
  let w := gas (fun _ => 1) (fun _ => 1) V A (fun _ => none)
  let w' := gas (fun _ => 1) (fun _ => 1) (V ∘ σ) (A ∘ σ) (fun _ => none)
  let o : CollOpts := ⟨true, true, true, true, true, true, true, 1⟩
  have hA : ∀ s, 0 < A s := by intro s; simp only [A]; split <;> norm_num
  have hr : Ready unit1 ["a", "b"] w := gas_ready (by norm_num [unit1]) (by simp) (fun s _ => hA s) (by simp)
  have hr' : Ready unit1 ["b", "c"] w' := gas_ready (by norm_num [unit1]) (by simp) (fun s _ => hA _) (by simp)
  obtain ⟨after, h⟩ := collisions_succeed unit1 o ["a", "b"] w hr gas_unread
  obtain ⟨after', h'⟩ := collisions_succeed unit1 o ["b", "c"] w' hr' gas_unread
  have n1 : IsNeutral w "a" := rfl
  have n2 : IsNeutral w "b" := rfl
  have n3 : IsNeutral w' "b" := rfl
  have n4 : IsNeutral w' "c" := rfl
  have g : gain w.st after "a" Var.momentum_source () = nuHard unit1 a0Neutral 1 4 1 1 1 := by
    rw [gain_two (by decide) gas_unread h, pairE_neutral_neutral (by decide) (by decide) (gas_readHeavy _)
      (gas_readHeavy _) (not_ion_of_neutral n1) n2, if_neg (by decide),
      gas_hardSphere (by decide) (by norm_num [unit1]) (by norm_num) ⟨hA _, hA _⟩]
    simp [A, V, unit1]
  have g' : gain w'.st after' "b" Var.momentum_source () = - (nuHard unit1 a0Neutral 4 1 1 1 1 * 4) := by
    rw [gain_two (by decide) gas_unread h', pairE_neutral_neutral (by decide) (by decide) (gas_readHeavy _)
      (gas_readHeavy _) (not_ion_of_neutral n3) n4, if_neg (by decide),
      gas_hardSphere (A := A ∘ σ) (a := "b") (b := "c") (by decide) (by norm_num [unit1]) (by norm_num) ⟨hA (σ "b"), hA (σ "c")⟩]
    simp [A, V, unit1, σ, swapNames]
  have m := (momentum_conserved unit1 o ["b", "c"] (by decide) w' gas_unread after' h').1 ()
  simp only [List.map_cons, List.map_nil, List.sum_cons, List.sum_nil, add_zero] at m
  refine ⟨unit1, o, σ, w, w', after, after',
    gas_renamed σ swapNames_swap (swapNames_fix (by decide) (by decide)) (swapNames_fix (by decide) (by decide)),
    rfl, rfl, h, h', ?_, ?_⟩
  · rw [g]
    have : (0 : ℝ) < Real.sqrt (1 / (1 * 1) + 1 / (1 * 4)) := Real.sqrt_pos.2 (by norm_num)
    have pi := Real.pi_pos
    simp only [nuHard, unit1, a0Neutral]
    positivity
  · have : gain w'.st after' "c" Var.momentum_source () = nuHard unit1 a0Neutral 4 1 1 1 1 * 4 := by linarith
    rw [this, g, mul_comm]
    congr 1
    simp only [nuHard, unit1]
    rw [add_comm]

/-! ## The hypotheses of the positive theorems are met -/

/-- Electrons, deuterium ions and atoms. -/
noncomputable def plasma : World Unit :=
  gas (fun _ => 1) (fun s => if s = "e" then 3 else 2) (fun s => if s = "d" then 1 else 0)
    (fun s => if s = "e" then 1 / 1836 else 2)
    (fun s => if s = "e" then some (-1) else if s = "d" then none else some 1)

theorem plasma_ready : Ready unit1 ["d", "d+", "e"] plasma := by
  refine gas_ready (by norm_num [unit1]) ?_ ?_ ?_
  · intro s _; split <;> norm_num
  · intro s _; split <;> norm_num
  · intro s _ hs z hz
    simp only [hs, if_false] at hz
    split at hz <;> cases hz; norm_num

theorem plasma_physical (o : CollOpts) (ho : 0 ≤ o.ei_multiplier) : Physical unit1 o ["d", "d+", "e"] plasma where
  Tnorm := one_pos
  Nnorm := one_pos
  rho_s0 := one_pos
  Omega_ci := one_pos
  qe := one_pos
  Me := one_pos
  Mp := one_pos
  e0 := one_pos
  ei := ho
  masses := by
    intro s _
    show 0 < (if s = "e" then (1 / 1836 : ℝ) else 2)
    split <;> norm_num
  densities := fun s _ _ => zero_le_one

/-- `momentum_conserved`, `energy_conserved`, `friction_heats`, `heat_flows_hot_to_cold`: their hypotheses hold for
every choice of switches. -/
example (o : CollOpts) : ["d", "d+", "e"].Nodup ∧ SourcesUnread plasma.st ∧ (∀ s ∈ ["d", "d+", "e"], 0 < mass plasma s) ∧
    (0 ≤ o.ei_multiplier → Physical unit1 o ["d", "d+", "e"] plasma) ∧
    ∃ after, SourceComponent.transform (collisions unit1 o ["d", "d+", "e"]) plasma = (.ok (), after) :=
  ⟨by decide, gas_unread, (plasma_physical { o with ei_multiplier := 0 } le_rfl).masses, plasma_physical o,
    collisions_succeed unit1 o _ _ plasma_ready gas_unread⟩

/-- `naming_independent_partial`: electrons, deuterium ions and atoms renamed to `e`, `q+` and `d`. -/
example : let k : CollNorms := { unit1 with Nnorm := 1e19 }
    let o : CollOpts := ⟨true, true, true, true, true, true, true, 1⟩
    let σ := swapNames "d+" "q+"
    ∃ w' after after', Renamed σ plasma w' ∧ (["d", "d+", "e"].map σ).Perm ["d", "e", "q+"] ∧
      OrderSafe k o ["d", "d+", "e"] plasma ∧ SourcesUnread plasma.st ∧ SourcesUnread w'.st ∧
      SourceComponent.transform (collisions k o ["d", "d+", "e"]) plasma = (.ok (), after) ∧
      SourceComponent.transform (collisions k o ["d", "e", "q+"]) w' = (.ok (), after') := by
  intro k o σ
  have hr : Ready k ["d", "d+", "e"] plasma := ⟨one_pos, one_pos, one_pos, plasma_ready.density,
    plasma_ready.temperature, plasma_ready.mass, plasma_ready.charges⟩
  have hr' : Ready k ["d", "e", "q+"] (gas ((fun _ => 1) ∘ σ) ((fun s => if s = "e" then 3 else 2) ∘ σ)
      ((fun s => if s = "d" then 1 else 0) ∘ σ) ((fun s => if s = "e" then 1 / 1836 else 2) ∘ σ)
      ((fun s => if s = "e" then some (-1) else if s = "d" then none else some 1) ∘ σ)) := by
    refine gas_ready (by norm_num [k, unit1]) ?_ ?_ ?_
    · intro s _; simp only [Function.comp]; split <;> norm_num
    · intro s _; simp only [Function.comp]; split <;> norm_num
    · intro s _ hs z hz
      have : σ s ≠ "e" := fun h => hs ((swapNames_fix (by decide) (by decide) s).1 h)
      simp only [Function.comp, this, if_false] at hz
      split at hz <;> cases hz; norm_num
  obtain ⟨after, h⟩ := collisions_succeed k o ["d", "d+", "e"] plasma hr gas_unread
  obtain ⟨after', h'⟩ := collisions_succeed k o ["d", "e", "q+"] _ hr' gas_unread
  refine ⟨_, after, after', gas_renamed σ swapNames_swap (swapNames_fix (by decide) (by decide))
    (swapNames_fix (by decide) (by decide)), ?_, ?_, gas_unread, gas_unread, h, h'⟩
  · have : ["d", "d+", "e"].map σ = ["d", "q+", "e"] := rfl
    rw [this]; decide
  · refine ⟨by norm_num [k], by norm_num [k, unit1], by norm_num [k, unit1], by decide, ?_, ?_, ?_, ?_, Or.inl rfl⟩
    · intro s hs
      simp only [List.mem_cons, List.not_mem_nil, or_false] at hs
      rcases hs with rfl | rfl | rfl
      · exact Or.inr rfl
      · exact Or.inl ⟨1, rfl, one_ne_zero⟩
      · exact Or.inl ⟨-1, rfl, by norm_num⟩
    · exact (plasma_physical o zero_le_one).masses
    · intro s _ i
      show (1e-5 : ℝ) ≤ 1 ∧ (1e10 : ℝ) ≤ 1 * 1e19
      norm_num
    · intro a _ b _ ha hb _
      show (if a = "e" then (1 / 1836 : ℝ) else 2) = if b = "e" then (1 / 1836 : ℝ) else 2
      rw [if_neg ha, if_neg hb]

/-- `switches_partial`: two ions and electrons. -/
example : let Z : String → Option ℝ := fun s => if s = "e" then some (-1) else some 1
    let w := gas (fun _ => 1) (fun _ => 1) (fun _ => 0) (fun _ => 1) Z
    let o : CollOpts := ⟨true, false, true, false, true, true, true, 1⟩
    Unmixed ["d+", "e", "t+"] w "t+" ∧ "ebeam" ∉ ["d+", "e", "t+"] ∧
    (∀ b ∈ ["d+", "e", "t+"], pairSwitch o w "t+" b = false) ∧
    ∃ after, SourceComponent.transform (collisions unit1 o ["d+", "e", "t+"]) w = (.ok (), after) := by
  intro Z w o
  have hZ : ∀ s, s ≠ "e" → IsIon w s := fun s hs => ⟨1, by show (if s = "e" then some (-1 : ℝ) else some 1) = some 1; rw [if_neg hs], one_ne_zero⟩
  refine ⟨fun _ b _ hb => Or.inl ⟨hZ _ (by decide), hZ _ hb⟩, by decide, ?_, ?_⟩
  · intro b _
    unfold pairSwitch
    have hc : charge w "t+" = 1 := rfl
    by_cases hb : b = "e"
    · simp [hb, hc, o]
    · simp [hb, hZ b hb, hZ "t+" (by decide), o]
  · refine collisions_succeed _ _ _ _ (gas_ready (by norm_num [unit1]) (by simp) (by simp) ?_) gas_unread
    intro s _ hs z hz
    simp only [Z, hs, if_false] at hz
    cases hz; norm_num

/-- `thermal_force_conserves_momentum`: the thermal force runs, and pushes the ions. -/
example : ∃ after, SourceComponent.transform (thermalForce (fun f => f) true true ["d+", "e"]) plasma = (.ok (), after) ∧
    gain plasma.st after "d+" Var.momentum_source () ≠ 0 := by
  have h : thermalForce (fun f => f) true true ["d+", "e"] plasma =
      .ok (pairForce "d+" "e" fun _ => 1 * (0.71 * 1 ^ 2) * 3) := by
    have e1 : thermalElectronWith plasma (fun _ => 3) "d+" = .ok (pairForce "d+" "e" fun _ => 1 * (0.71 * 1 ^ 2) * 3) := by
      unfold thermalElectronWith
      rw [if_neg (by decide), if_neg (by decide)]
      rfl
    have e2 : thermalElectronWith plasma (fun _ => 3) "e" = .ok [] := if_pos rfl
    have e3 : thermalIonPart (fun f => f) true ["d+", "e"] plasma = .ok [] := by
      have i1 : thermalIonWith (fun f => f) plasma "d+" "e" = .ok [] := if_pos (Or.inl rfl)
      have i2 : thermalIonPairs (fun f => f) plasma "d+" ["e"] = .ok [] := by
        unfold thermalIonPairs
        rw [if_neg (by decide)]
        exact ok_bind i1 rfl
      have i3 : thermalIonPairs (fun f => f) plasma "e" [] = .ok [] := if_pos (Or.inl rfl)
      exact ok_bind i2 (ok_bind (ok_bind i3 rfl) rfl)
    have e4 : thermalElectronLoop (fun f => f) true ["d+", "e"] plasma =
        .ok (pairForce "d+" "e" fun _ => 1 * (0.71 * 1 ^ 2) * 3) := by
      unfold thermalElectronLoop
      rw [if_pos (by decide)]
      exact ok_bind (show plasma.field "e" Var.temperature = .ok fun _ => 3 from rfl)
        (ok_bind e1 (ok_bind (ok_bind e2 rfl) rfl))
    exact ok_bind e4 (ok_bind e3 rfl)
  obtain ⟨after, e1, -, e3⟩ := contributeAll_gain (pairForce "d+" "e" fun _ : Unit => (1 : ℝ) * (0.71 * 1 ^ 2) * 3)
    plasma.st ["d+", "e"] [Var.momentum_source] (by
      intro c hc
      simp only [pairForce, List.mem_cons, List.not_mem_nil, or_false] at hc
      rcases hc with rfl | rfl
      · exact ⟨"d+", by simp, _, by simp, rfl⟩
      · exact ⟨"e", by simp, _, by simp, rfl⟩) (by simp) gas_unread
  refine ⟨after, by simp only [SourceComponent.transform, h, e1], ?_⟩
  rw [e3]
  rw [pairForce, signedSum_cons, signedSum_cons, if_pos rfl, if_pos rfl, if_neg (by decide)]
  norm_num

end Hermes.Collisions
