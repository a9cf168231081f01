import Verif.Props.UnitsCollisions
import Mathlib.Tactic.NormNum

/-!
# C75 — what depends on the normalisation: floors in normalised units
-/

namespace Hermes.Units
open Hermes Registry

/-- Deuterium ions of 1e19 m⁻³ and 10 eV, and no hydrogen atoms at all. -/
noncomputable def noGas : World (Fin 1) := plasma (fun _ => 2) (fun s => if s = "h" then 0 else 1e19) (fun _ => 10) fun _ => 0

theorem noGas_unread (c : Consts) (u : Normalisation) : SourcesUnread (inUnits c u noGas).st := by
  intro s v hv
  have := plasma_unread (ι := Fin 1) (fun _ => 2) (fun s => if s = "h" then 0 else 1e19) (fun _ => 10) (fun _ => 0) s v hv
  exact this

/-- ⟨σv⟩ of charge exchange in `noGas`, in m³/s. -/
noncomputable def noGasRate : ℝ := Real.exp (cxLnSigmav (Real.log (cxTeff 1 10 2 10 2))) * 1e-6

/-- Without a single hydrogen atom charge exchange still makes deuterium atoms of deuterium ions, in proportion to `Nnorm`. -/
theorem cx_without_gas {c : Consts} (hc : Physical c) {u : Normalisation} (hu : Good u) (p : Params) (hp : p.rate_multiplier (.hydCX 'h' 'd') = 1)
    (hN : u.Nnorm ≤ 1e24) :
    let W := inUnits c u noGas
    let t := ((Entry.hydCX 'h' 'd').component (paramsIn c u p)).transform W
    t.1 = .ok () ∧ gain W.st t.2 "d" .density_source 0 * u.conversion c .density_source = 1e-5 * u.Nnorm * 1e19 * noGasRate := by
  intro W t
  have f1 : ∀ s, W.field s .density = .ok (fun _ => (if s = "h" then 0 else 1e19) * (u.conversion c .density)⁻¹) := fun _ => rfl
  have f2 : ∀ s, W.field s .temperature = .ok (fun _ => 10 * (u.conversion c .temperature)⁻¹) := fun _ => rfl
  have f3 : ∀ s, W.field s .velocity = .ok (fun _ => 0 * (u.conversion c .velocity)⁻¹) := fun _ => rfl
  have f4 : ∀ s, W.real s .AA = .ok 2 := fun _ => rfl
  have hr : ∃ r, (Entry.hydCX 'h' 'd').component (paramsIn c u p) W = .ok r ∧ r = (chargeExchangeOf (u.norms c) 1 p.no_neutral_cx_mom_gain "h" "d+" "d" "h+"
      (fun _ : Fin 1 => 10 * (u.conversion c .temperature)⁻¹) (fun _ => 10 * (u.conversion c .temperature)⁻¹)
      (fun _ => (if "h" = "h" then 0 else 1e19) * (u.conversion c .density)⁻¹) (fun _ => (if "d+" = "h" then 0 else 1e19) * (u.conversion c .density)⁻¹)
      (fun _ => 0 * (u.conversion c .velocity)⁻¹) (fun _ => 0 * (u.conversion c .velocity)⁻¹) (fun _ => 0 * (u.conversion c .velocity)⁻¹)
      (fun _ => 0 * (u.conversion c .velocity)⁻¹) 2 2).contribs := by
    refine ⟨_, ?_, rfl⟩
    have e : ∃ x, chargeExchange (u.norms c) 1 p.no_neutral_cx_mom_gain "h" "d+" "d" "h+" W = .ok x ∧ x = chargeExchangeOf (u.norms c) 1
      p.no_neutral_cx_mom_gain "h" "d+" "d" "h+" _ _ _ _ _ _ _ _ 2 2 := ⟨_, ok_bind (f2 "h") (ok_bind (f4 "h") (ok_bind (f4 "h+")
      (ok_bind (assert1_of rfl) (ok_bind (f2 "d+") (ok_bind (f4 "d+") (ok_bind (f4 "d") (ok_bind (assert1_of rfl) (ok_bind (f1 "h") (ok_bind (f1 "d+")
      (ok_bind (f3 "h") (ok_bind (f3 "d+") (ok_bind (f3 "h+") (ok_bind (f3 "d") rfl))))))))))))), rfl⟩
    obtain ⟨x, e, rfl⟩ := e
    show (chargeExchange (u.norms c) (p.rate_multiplier (.hydCX 'h' 'd')) p.no_neutral_cx_mom_gain "h" "d+" "d" "h+" W).map (·.contribs) = _
    rw [hp, e]
    rfl
  obtain ⟨r, hr, hre⟩ := hr
  have hk : KeysIn ["h", "d+", "d", "h+"] [.density_source, .momentum_source, .energy_source, .collision_frequency] r := by
    rw [hre]; unfold chargeExchangeOf; split_ifs <;> simp
  obtain ⟨st', g1, -, g3⟩ := contributeAll_gain r W.st _ _ hk (by simp) (noGas_unread c u)
  have ht : t = (.ok (), st') := by simp only [t, SourceComponent.transform, hr, g1]
  rw [ht]
  refine ⟨rfl, ?_⟩
  rw [g3, hre]
  have hT := cxTeff_si hu.T 10 2 10 2
  have hmax1 : max ((if "h" = "h" then (0 : ℝ) else 1e19) * (u.conversion c .density)⁻¹) 1e-5 = 1e-5 := by
    rw [if_pos rfl, zero_mul]; exact max_eq_right (by norm_num)
  have hmax2 : max ((if "d+" = "h" then (0 : ℝ) else 1e19) * (u.conversion c .density)⁻¹) 1e-5 = 1e19 * (u.conversion c .density)⁻¹ := by
    rw [if_neg (by decide)]
    refine max_scale hu.N ?_
    show 1e-5 * u.Nnorm ≤ 1e19
    have : (1e-5 : ℝ) * u.Nnorm ≤ 1e-5 * 1e24 := mul_le_mul_of_nonneg_left hN (by norm_num)
    exact this.trans (by norm_num)
  have hm : max (0 : ℝ) 1e-5 = 1e-5 := max_eq_right (by norm_num)
  unfold chargeExchangeOf
  simp only [hmax1, hmax2]
  have e1 : ¬("h" = "d") := by decide
  have e2 : ¬("d+" = "h+") := by decide
  have e3 : ¬("h+" = "d") := by decide
  have e4 : ¬("d+" = "d") := by decide
  have h1 := hu.N.ne'
  have h2 := (Omega_pos hc hu).ne'
  cases p.no_neutral_cx_mom_gain <;>
  · simp [e1, e2, e3, e4, hm]
    simp only [Normalisation.norms, Normalisation.conversion, one_div_one_div]
    rw [hT]
    unfold noGasRate
    field_simp

theorem gain_si {ι : Type} {c : Consts} (hc : Physical c) {u : Normalisation} (hu : Good u) (W : World ι) (st : Store Key (Fld ι)) (s : String) (v : Var)
    (i : ι) : gain (inUnits c u W).st st s v i * u.conversion c v = gain W.st (toSI c u st) s v i := by
  have e : ∀ st : Store Key (Fld ι), (((st.ent (.sp s v)).val.getD 0) i : ℝ) * u.conversion c v = (((toSI c u st).ent (.sp s v)).val.getD 0) i := by
    intro st
    have e : ((toSI c u st).ent (.sp s v)).val = (st.ent (.sp s v)).val.map fun x i => x i * u.conversion c v := rfl
    rw [e]
    rcases (st.ent (.sp s v)).val with _ | x
    · simp
    · rfl
  unfold gain
  rw [sub_mul, e, e, toSI_inUnits hc hu]

/-- Negation: the floor makes the result depend on the normalisation. -/
theorem charge_exchange_depends_on_Nnorm {c : Consts} (hc : Physical c) (p : Params) (hp : p.rate_multiplier (.hydCX 'h' 'd') = 1) :
    create "h + d+ -> h+ + d" = some (.hydCX 'h' 'd') ∧ ¬UnitFree c false fun u => ((Entry.hydCX 'h' 'd').component (paramsIn c u p) : SourceComponent (Fin 1)) := by
  refine ⟨by decide +kernel, fun h => ?_⟩
  have g : Good ⟨1, 1e19, 1⟩ := ⟨by norm_num, by norm_num, by norm_num⟩
  have g' : Good ⟨1, 2e19, 1⟩ := ⟨by norm_num, by norm_num, by norm_num⟩
  have h1 := (cx_without_gas hc g p hp (by norm_num)).2
  have h2 := (cx_without_gas hc g' p hp (by norm_num)).2
  rw [gain_si hc g] at h1
  rw [gain_si hc g'] at h2
  have h3 := (h noGas _ _ g g' upwind_homogeneous (by simp)).2
  rw [h3, h2] at h1
  have h4 : 0 < noGasRate := mul_pos (Real.exp_pos _) (by norm_num)
  have : (1e-5 : ℝ) * 2e19 * 1e19 = 1e-5 * 1e19 * 1e19 := mul_right_cancel₀ h4.ne' h1
  norm_num at this

/-! ## Collisions -/

/-- Two neutral gases in one cell, of 1e19 m⁻³ and 1e13 m⁻³, at 1 eV and at rest. -/
noncomputable def twoGases : World (Fin 1) where
  st := {
    check := true
    ent := fun k => match k with
      | .sp s .density => { val := some fun _ => if s = "b" then 1e13 else 1e19 }
      | .sp _ .temperature => { val := some fun _ => 1 }
      | _ => { val := none } }
  num := fun _ v => match v with
    | .AA => some 1
    | _ => none
  ym := id
  yp := id
  J := fun _ => 1
  lim := upwind

/-- Only collisions between neutrals. -/
noncomputable def neutralsOnly : CollOpts := ⟨false, false, false, false, false, true, false, 1⟩

/-- Thermal speed of two gases of mass one at 1 eV, in m/s. -/
noncomputable def gasSpeed (c : Consts) : ℝ := Real.sqrt (c.qe * (1 / 1 + 1 / 1) / c.Mp)

/-- The collision frequency of the thin gas in s⁻¹, with those of its own kind and with the other gas.  The second part should be `1e19 · a0 · gasSpeed`. -/
theorem thin_gas_frequency {c : Consts} (hc : Physical c) {u : Normalisation} (hu : Good u) (h1 : u.Nnorm ≤ 1e24) (h2 : 1e18 < u.Nnorm) :
    let W := inUnits c u twoGases
    let t := (collisions (u.collNorms c) neutralsOnly ["a", "b"]).transform W
    t.1 = .ok () ∧ gain W.st t.2 "b" .collision_frequency 0 * u.conversion c .collision_frequency
      = gasSpeed c * a0Neutral * (1e13 + 1e13 * 1e19 / (1e-5 * u.Nnorm)) := by
  intro W t
  classical
  have hn1 : ¬("a" = "e" ∨ "a" = "ebeam") := by decide
  have hn2 : ¬("b" = "e" ∨ "b" = "ebeam") := by decide
  have hab : ¬("a" = "b") := by decide
  have hread : ∀ n, readHeavy (u.collNorms c) W n = .ok { T := fun _ => 1, N := fun _ => if n = "b" then 1e13 else 1e19, A := 1 } := fun n =>
    readHeavy_si hc hu twoGases n
  have hchg : ∀ n, ¬W.charged n := by
    rintro n ⟨z, hz, -⟩
    cases hz
  have hcol : ∀ n1 n2 : String, ¬n2 = "e" → neutralWith (u.collNorms c) neutralsOnly W n1 { T := fun _ => 1, N := fun _ => if n1 = "b" then 1e13 else 1e19, A := 1 } n2
      = collide false n1 n2 (fun _ => nuHard (u.collNorms c) a0Neutral 1 1 1 1 (if n2 = "b" then 1e13 else 1e19)) 1 W := by
    intro n1 n2 h
    unfold neutralWith
    rw [if_neg h, hread]
    show hardSphere _ _ _ _ _ _ _ _ = _
    unfold hardSphere
    have : valid (∀ _i : Fin 1, (0 : ℝ) ≤ 1 / ((u.collNorms c).Tnorm * 1) + 1 / ((u.collNorms c).Tnorm * 1)) = .ok () := by
      unfold valid
      rw [if_pos]
      intro _
      have := hu.T
      show 0 ≤ 1 / (u.Tnorm * 1) + 1 / (u.Tnorm * 1)
      positivity
    show (valid _ >>= fun _ => _) = _
    have this' : valid (∀ i : Fin 1, 0 ≤ (HeavyInput.T ⟨fun _ => 1, fun _ => if n1 = "b" then 1e13 else 1e19, 1⟩ i) / ((u.collNorms c).Tnorm
      * (HeavyInput.A (ι := Fin 1) ⟨fun _ => 1, fun _ => if n1 = "b" then 1e13 else 1e19, 1⟩))
      + (HeavyInput.T ⟨fun _ => 1, fun _ => if n2 = "b" then 1e13 else 1e19, 1⟩ i) / ((u.collNorms c).Tnorm
      * (HeavyInput.A (ι := Fin 1) ⟨fun _ => 1, fun _ => if n2 = "b" then 1e13 else 1e19, 1⟩))) = .ok () := this
    rw [this']
    rfl
  have hself : ∀ n nu, collide false n n nu 1 W = .ok [(.sp n .collision_frequency, nu, true)] := by
    intro n nu
    unfold collide
    rw [if_pos rfl]; rfl
  have hpair : ∀ nu : Fld (Fin 1), ∃ q1 q2 : Fld (Fin 1), collide false "a" "b" nu 1 W = .ok [(.sp "a" .collision_frequency, nu, true),
      (.sp "b" .collision_frequency, (fun i => nu i * (1 / 1) * (1e19 * (u.conversion c .density)⁻¹)
        / floorTo (1e13 * (u.conversion c .density)⁻¹) 1e-5), true), (.sp "a" .energy_source, q1, true), (.sp "b" .energy_source, q2, false)] := by
    intro nu
    have f1 : W.field "a" .density = .ok (fun _ => 1e19 * (u.conversion c .density)⁻¹) := by
      show Except.ok (fun _ : Fin 1 => (if "a" = "b" then (1e13 : ℝ) else 1e19) * _) = _
      rw [if_neg hab]
      rfl
    have f2 : W.field "b" .density = .ok (fun _ => 1e13 * (u.conversion c .density)⁻¹) := rfl
    have f3 : ∀ s, W.field s .temperature = .ok (fun _ => 1 * (u.conversion c .temperature)⁻¹) := fun _ => rfl
    have f4 : ∀ s, W.real s .AA = .ok 1 := fun _ => rfl
    refine ⟨fun i => nu i * 3 * (1e19 * (u.conversion c .density)⁻¹) * (1 / (1 + 1)) * (1 * (u.conversion c .temperature)⁻¹ - 1 * (u.conversion c .temperature)⁻¹),
      fun i => nu i * 3 * (1e19 * (u.conversion c .density)⁻¹) * (1 / (1 + 1)) * (1 * (u.conversion c .temperature)⁻¹ - 1 * (u.conversion c .temperature)⁻¹), ?_⟩
    unfold collide
    rw [if_neg hab]
    exact ok_bind (f4 "a") (ok_bind (f4 "b") (ok_bind f1 (ok_bind f2 (ok_bind (ok_bind (f3 "a") (ok_bind (f3 "b") rfl)) rfl))))
  obtain ⟨q1, q2, hp⟩ := hpair (fun _ => nuHard (u.collNorms c) a0Neutral 1 1 1 1 1e13)
  have hcs : ∃ cs, collisions (u.collNorms c) neutralsOnly ["a", "b"] W = .ok cs ∧ cs = [] ++ (([(Key.sp "a" .collision_frequency,
      ((fun _ => nuHard (u.collNorms c) a0Neutral 1 1 1 1 1e19) : Fld (Fin 1)), true)] ++ ([(.sp "a" .collision_frequency, (fun _ => nuHard (u.collNorms c) a0Neutral 1 1 1 1 1e13), true),
      (.sp "b" .collision_frequency, (fun _ => nuHard (u.collNorms c) a0Neutral 1 1 1 1 1e13 * (1 / 1) * (1e19 * (u.conversion c .density)⁻¹)
        / floorTo (1e13 * (u.conversion c .density)⁻¹) 1e-5), true), (.sp "a" .energy_source, q1, true), (.sp "b" .energy_source, q2, false)] ++ []))
      ++ (([(.sp "b" .collision_frequency, (fun _ => nuHard (u.collNorms c) a0Neutral 1 1 1 1 1e13), true)] ++ []) ++ [])) := by
    refine ⟨_, ?_, rfl⟩
    have e1 : electronLoop (u.collNorms c) neutralsOnly ["a", "b"] W = .ok [] := by
      unfold electronLoop
      rw [if_neg (by decide)]; rfl
    have ca := hcol "a" "a" (by decide)
    have cb := hcol "a" "b" (by decide)
    have cc := hcol "b" "b" (by decide)
    rw [hself] at ca cc
    simp only [if_neg hab] at ca cb
    simp only [if_true] at cb cc
    rw [hp] at cb
    have hw : heavyWith (u.collNorms c) neutralsOnly W "a" ["a", "b"] = collectM (neutralWith (u.collNorms c) neutralsOnly W "a"
        { T := fun _ => 1, N := fun _ => 1e19, A := 1 }) ["a", "b"] := by
      unfold heavyWith
      rw [if_neg hn1, hread "a"]
      show (if W.charged "a" then _ else _) = _
      simp only [if_neg (hchg "a"), if_neg hab]
    have hw2 : heavyWith (u.collNorms c) neutralsOnly W "b" ["b"] = collectM (neutralWith (u.collNorms c) neutralsOnly W "b"
        { T := fun _ => 1, N := fun _ => 1e13, A := 1 }) ["b"] := by
      unfold heavyWith
      rw [if_neg hn2, hread "b"]
      show (if W.charged "b" then _ else _) = _
      simp only [if_neg (hchg "b"), if_true]
    simp only [collisions, heavyLoop, e1, hw, hw2, collectM, ca, cb, cc]
    rfl
  obtain ⟨cs, hcs, hcse⟩ := hcs
  have hk : KeysIn ["a", "b"] [.energy_source, .collision_frequency] cs := by rw [hcse]; simp
  have hunread : SourcesUnread W.st := by
    intro s v hv
    simp only [List.mem_cons, List.not_mem_nil, or_false] at hv
    rcases hv with rfl | rfl | rfl | rfl <;> exact ⟨rfl, rfl⟩
  obtain ⟨st', g1, -, g3⟩ := contributeAll_gain cs W.st _ _ hk (by simp) hunread
  have ht : t = (.ok (), st') := by simp only [t, SourceComponent.transform, hcs, g1]
  rw [ht]
  refine ⟨rfl, ?_⟩
  rw [g3, hcse]
  have hfl : floorTo (1e13 * (u.conversion c .density)⁻¹) 1e-5 = 1e-5 := by
    unfold floorTo
    rw [if_pos]
    show 1e13 * (u.Nnorm)⁻¹ < 1e-5
    rw [← div_eq_mul_inv, div_lt_iff₀ hu.N]
    linarith
  have hν := fun N => nuHard_si hc hu a0Neutral 1 1 1 1 N
  have hN := hu.N.ne'
  rw [hfl]
  have hO : u.conversion c .collision_frequency = u.Omega_ci c := rfl
  have hD : u.conversion c .density = u.Nnorm := rfl
  simp [hab]
  rw [hO, hD, add_mul]
  rw [show ∀ x y z w : ℝ, x * y / z * w = x * w * y / z from fun x y z w => by ring, hν]
  show gasSpeed c * 1e13 * a0Neutral * _ / _ + gasSpeed c * 1e13 * a0Neutral = _
  field_simp
  ring

/-- Negation: collision frequencies of thin gases depend on the normalisation. -/
theorem collisions_depend_on_Nnorm {c : Consts} (hc : Physical c) :
    ¬UnitFree c false fun u => (collisions (u.collNorms c) neutralsOnly ["a", "b"] : SourceComponent (Fin 1)) := by
  intro h
  have g : Good ⟨1, 1e19, 1⟩ := ⟨by norm_num, by norm_num, by norm_num⟩
  have g' : Good ⟨1, 2e19, 1⟩ := ⟨by norm_num, by norm_num, by norm_num⟩
  have h1 := (thin_gas_frequency hc g (by norm_num) (by norm_num)).2
  have h2 := (thin_gas_frequency hc g' (by norm_num) (by norm_num)).2
  rw [gain_si hc g] at h1
  rw [gain_si hc g'] at h2
  have h3 := (h twoGases _ _ g g' upwind_homogeneous (by simp)).2
  rw [h3, h2] at h1
  have h4 : 0 < gasSpeed c * a0Neutral := by
    refine mul_pos (Real.sqrt_pos.2 (div_pos (mul_pos hc.qe (by norm_num)) hc.Mp)) ?_
    unfold a0Neutral
    have := Real.pi_pos
    positivity
  have := mul_left_cancel₀ h4.ne' h1
  norm_num at this

/-! ## The hypotheses can be met -/

/-- Constants of the right size. -/
noncomputable def exampleConsts : Consts := ⟨1.6e-19, 1.67e-27, 9.1e-31, 8.85e-12⟩

example : Physical exampleConsts := ⟨by norm_num [exampleConsts], by norm_num [exampleConsts], by norm_num [exampleConsts], by norm_num [exampleConsts]⟩

/-- A deuterium plasma of 1e19 m⁻³ at 10 eV, in the units of 1e19 m⁻³, 100 eV, 1 T and of 1e20 m⁻³, 50 eV, 2 T.  Ionisation runs in both. -/
example (rate rad : ℝ → ℝ → ℝ) :
    let W := plasma (ι := Fin 1) (fun _ => 2) (fun _ => 1e19) (fun _ => 10) fun _ => 1e4
    let u : Normalisation := ⟨100, 1e19, 1⟩
    let u' : Normalisation := ⟨50, 1e20, 2⟩
    Good u ∧ Good u' ∧ Homogeneous W.lim ∧ Dense u W ∧ Dense u' W ∧
    ∃ r, electronReaction (u.norms exampleConsts) rate rad 0 1 1 "e" "d" "d+" (inUnits exampleConsts u W) = .ok r := by
  intro W u u'
  refine ⟨⟨by norm_num [u], by norm_num [u], by norm_num [u]⟩, ⟨by norm_num [u'], by norm_num [u'], by norm_num [u']⟩, upwind_homogeneous, ?_, ?_, ?_⟩
  · intro s f hf i
    obtain rfl := Option.some.inj hf
    norm_num [u]
  · intro s f hf i
    obtain rfl := Option.some.inj hf
    norm_num [u']
  · have f1 : ∀ s v, v = .density ∨ v = .temperature ∨ v = .velocity → ∃ f, (inUnits exampleConsts u W).field s v = .ok f := by
      rintro s v (rfl | rfl | rfl) <;> exact ⟨_, rfl⟩
    obtain ⟨a1, h1⟩ := f1 "e" .density (by simp)
    obtain ⟨a2, h2⟩ := f1 "e" .temperature (by simp)
    obtain ⟨a3, h3⟩ := f1 "d" .density (by simp)
    obtain ⟨a4, h4⟩ := f1 "d" .temperature (by simp)
    obtain ⟨a5, h5⟩ := f1 "d" .velocity (by simp)
    obtain ⟨a6, h6⟩ := f1 "d+" .velocity (by simp)
    obtain ⟨a7, h7⟩ := f1 "e" .velocity (by simp)
    have h8 : ∀ s, (inUnits exampleConsts u W).real s .AA = .ok 2 := fun _ => rfl
    have hv : ∃ x, readElectronVelocity (inUnits exampleConsts u W) "e" ((inUnits exampleConsts u W).chargeOr0 "d")
        ((inUnits exampleConsts u W).chargeOr0 "d+") = .ok x := by
      unfold readElectronVelocity
      split_ifs
      · exact ⟨_, ok_bind h7 (ok_bind (h8 "e") rfl)⟩
      · exact ⟨_, rfl⟩
    obtain ⟨x, hx⟩ := hv
    exact ⟨_, ok_bind h1 (ok_bind h2 (ok_bind h3 (ok_bind h4 (ok_bind h5 (ok_bind (h8 "d") (ok_bind (h8 "d+") (ok_bind (assert1_of rfl)
      (ok_bind h6 (ok_bind hx rfl)))))))))⟩

end Hermes.Units
