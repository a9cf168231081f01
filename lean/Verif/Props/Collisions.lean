import Verif.Lemmas.Collisions
import Verif.Model.ThermalForce
import Mathlib.Tactic.Positivity

/-!
# Collisions: momentum and energy conservation, signs (C32, C33)

The specification vocabulary is `gain`, `velocity`, `mass`, `totalEnergyRate` of `Props/Conservation.lean` and
the quantities below.
-/

namespace Hermes.Collisions

variable {ι : Type}

/-- Density, temperature of a species (zero if not set). -/
def density (w : World ι) (s : String) (i : ι) : ℝ := ((w.st.ent (.sp s Var.density)).val.getD 0) i
def temperature (w : World ι) (s : String) (i : ι) : ℝ := ((w.st.ent (.sp s Var.temperature)).val.getD 0) i

/-- Physically meaningful constants, options and state. -/
structure Physical (k : CollNorms) (o : CollOpts) (names : List String) (w : World ι) : Prop where
  Tnorm : 0 < k.Tnorm
  Nnorm : 0 < k.Nnorm
  rho_s0 : 0 < k.rho_s0
  Omega_ci : 0 < k.Omega_ci
  qe : 0 < k.qe
  Me : 0 < k.Me
  Mp : 0 < k.Mp
  e0 : 0 < k.e0
  ei : 0 ≤ o.ei_multiplier
  masses : ∀ s ∈ names, 0 < mass w s
  densities : ∀ s ∈ names, ∀ i, 0 ≤ density w s i

theorem le_floorTo (x lo : ℝ) : lo ≤ floorTo x lo := by
  unfold floorTo; split <;> linarith

theorem floorTo_eq {x lo : ℝ} (h : lo ≤ x) : floorTo x lo = x := by
  unfold floorTo; rw [if_neg (by linarith)]

theorem floorTo_pos {x lo : ℝ} (h : 0 < lo) : 0 < floorTo x lo := lt_of_lt_of_le h (le_floorTo x lo)

theorem nuEE_nonneg {k : CollNorms} (Te Ne : ℝ) (hq : 0 < k.qe) (hm : 0 < k.Me) : 0 ≤ nuEE k Te Ne := by
  unfold nuEE
  have h1 : 0 < floorTo Te 0.1 := floorTo_pos (by norm_num)
  have h2 := le_floorTo Ne 0
  have h3 : ∀ x, (0 : ℝ) < floorTo x 1 := fun x => floorTo_pos one_pos
  have := h3 (30.4 - 0.5 * Real.log (floorTo Ne 1e10) + (5 / 4) * Real.log (floorTo Te 0.1)
    - Real.sqrt (1e-5 + (Real.log (floorTo Te 0.1) - 2) ^ 2 / 16))
  have hp := Real.pi_pos
  positivity

theorem nuEI_nonneg {k : CollNorms} {m : ℝ} (Zi Ai Te Ne Ti Ni : ℝ) (hq : 0 < k.qe) (hm : 0 < k.Me)
    (hp : 0 < k.Mp) (hA : 0 < Ai) (hm' : 0 ≤ m) : 0 ≤ nuEI k m Zi Ai Te Ne Ti Ni := by
  unfold nuEI
  have h1 : ∀ x, 0 < floorTo x 0.1 := fun x => floorTo_pos (by norm_num)
  have h1a := h1 Te
  have h1b := h1 Ti
  have h2 := le_floorTo Ni 0
  have h3 : ∀ x, (0 : ℝ) < floorTo x 1 := fun x => floorTo_pos one_pos
  have hpi := Real.pi_pos
  refine mul_nonneg (div_nonneg ?_ ?_) hm'
  · exact mul_nonneg (mul_nonneg (mul_nonneg (by positivity) h2) (h3 _).le) (by positivity)
  · positivity

theorem nuII_nonneg {k : CollNorms} (Z1 Z2 A1 A2 T1 T2 N1 N2 : ℝ) (hq : 0 < k.qe)
    (hp : 0 < k.Mp) (hA1 : 0 < A1) (hA2 : 0 < A2) : 0 ≤ nuII k Z1 Z2 A1 A2 T1 T2 N1 N2 := by
  unfold nuII
  have h1 : ∀ x, 0 < floorTo x 0.1 := fun x => floorTo_pos (by norm_num)
  have h1a := h1 T1
  have h1b := h1 T2
  have h2 : 0 < floorTo N2 1e10 := floorTo_pos (by norm_num)
  have h3 : ∀ x, (0 : ℝ) < floorTo x 1 := fun x => floorTo_pos one_pos
  have hpi := Real.pi_pos
  refine div_nonneg ?_ ?_
  · exact mul_nonneg (mul_nonneg (by positivity) (h3 _).le) (by positivity)
  · positivity

theorem momCoeff_nonneg (Z : ℝ) : 0 ≤ momCoeff Z := by
  unfold momCoeff; split_ifs <;> norm_num

/-- What is known about every call of `collide`. -/
def Adm (k : CollNorms) (o : CollOpts) (names : List String) (w : World ι) (e : CollEvent ι) : Prop :=
  e.s1 ∈ names ∧ e.s2 ∈ names ∧ 0 ≤ e.coef ∧ (Physical k o names w → ∀ i, 0 ≤ e.nu i)

theorem electronWith_events {k : CollNorms} {o : CollOpts} {names : List String} {w : World ι} {Te Ne : Fld ι}
    (he : "e" ∈ names) {n : String} (hn : n ∈ names) :
    HasEvents w (Adm k o names w) (fun fh => electronWith k { o with frictional_heating := fh } w Te Ne n) := by
  unfold electronWith
  dsimp only
  refine hasEvents_ite (fun _ => ?_) (fun hne => ?_)
  · refine hasEvents_ite (fun _ => hasEvents_nil _ _) (fun _ => ?_)
    refine hasEvents_collide _ _ _ _ ⟨he, he, zero_le_one, fun hp i => ?_⟩
    exact div_nonneg (nuEE_nonneg _ _ hp.qe hp.Me) hp.Omega_ci.le
  refine hasEvents_ite (fun _ => ?_) (fun _ => ?_)
  · refine hasEvents_ite (fun _ => hasEvents_nil _ _) (fun _ => ?_)
    refine hasEvents_bind fun Ti _ => hasEvents_bind fun Ni _ => hasEvents_bind fun Zi _ =>
      hasEvents_bind fun Ai hA => ?_
    refine hasEvents_collide _ _ _ _ ⟨he, hn, momCoeff_nonneg _, fun hp i => ?_⟩
    have := hp.masses n hn
    rw [real_mass hA] at this
    exact div_nonneg (nuEI_nonneg _ _ _ _ _ _ hp.qe hp.Me hp.Mp this hp.ei) hp.Omega_ci.le
  refine hasEvents_ite (fun _ => hasEvents_nil _ _) (fun _ => ?_)
  refine hasEvents_ite (fun _ => hasEvents_nil _ _) (fun _ => ?_)
  refine hasEvents_bind fun Nn hN => hasEvents_bind fun _ _ => ?_
  refine hasEvents_collide _ _ _ _ ⟨he, hn, zero_le_one, fun hp i => ?_⟩
  have h1 := hp.densities n hn i
  unfold density at h1
  rw [field_ok hN] at h1
  have h1 : 0 ≤ Nn i := h1
  have := hp.Nnorm; have := hp.rho_s0
  simp only [nuEN]
  positivity

theorem readHeavy_ok {k : CollNorms} {w : World ι} {n : String} {x : HeavyInput ι}
    (h : readHeavy k w n = .ok x) :
    x = ⟨fun i => temperature w n i * k.Tnorm, fun i => density w n i * k.Nnorm, mass w n⟩ := by
  unfold readHeavy at h
  obtain ⟨N, hN, h⟩ := bind_ok h
  obtain ⟨A, hA, h⟩ := bind_ok h
  cases h
  have : density w n = N := by funext i; unfold density; rw [field_ok hN]; rfl
  rw [real_mass hA, this]; rfl

theorem hardSphere_events {k : CollNorms} {o : CollOpts} {names : List String} {w : World ι} (a0 : ℝ) (h0 : 0 ≤ a0)
    {n1 n2 : String} (h1 : n1 ∈ names) (h2 : n2 ∈ names) {x1 x2 : HeavyInput ι} (hx2 : readHeavy k w n2 = .ok x2) :
    HasEvents w (Adm k o names w) (fun fh => hardSphere k { o with frictional_heating := fh } w a0 n1 n2 x1 x2) := by
  unfold hardSphere
  refine hasEvents_bind fun _ _ => ?_
  refine hasEvents_collide _ _ _ _ ⟨h1, h2, zero_le_one, fun hp i => ?_⟩
  have := hp.densities n2 h2 i
  rw [readHeavy_ok hx2]
  have := hp.Nnorm; have := hp.rho_s0
  simp only [nuHard]
  positivity

theorem heavyWith_events {k : CollNorms} {o : CollOpts} {names : List String} {w : World ι}
    {n1 : String} (h1 : n1 ∈ names) {rest : List String} (hr : ∀ n ∈ rest, n ∈ names) :
    HasEvents w (Adm k o names w) (fun fh => heavyWith k { o with frictional_heating := fh } w n1 rest) := by
  have hI : 0 ≤ a0Ion := by unfold a0Ion; norm_num
  have hN : 0 ≤ a0Neutral := by unfold a0Neutral; have := Real.pi_pos; positivity
  unfold heavyWith
  refine hasEvents_ite (fun _ => hasEvents_nil _ _) (fun _ => ?_)
  refine hasEvents_bind fun x1 hx1 => ?_
  refine hasEvents_ite (fun _ => ?_) (fun _ => ?_)
  · refine hasEvents_collectM rest fun n2 hn2 => ?_
    unfold chargedWith
    dsimp only
    refine hasEvents_ite (fun _ => hasEvents_nil _ _) (fun _ => ?_)
    refine hasEvents_bind fun x2 hx2 => ?_
    refine hasEvents_ite (fun _ => ?_) (fun _ => ?_)
    · refine hasEvents_ite (fun _ => hasEvents_nil _ _) (fun _ => ?_)
      unfold ionIon
      refine hasEvents_bind fun Z1 _ => hasEvents_bind fun Z2 _ => hasEvents_bind fun _ _ => ?_
      refine hasEvents_collide _ _ _ _ ⟨h1, hr _ hn2, zero_le_one, fun hp i => ?_⟩
      rw [readHeavy_ok hx1, readHeavy_ok hx2]
      exact div_nonneg (nuII_nonneg _ _ _ _ _ _ _ _ hp.qe hp.Mp (hp.masses _ h1) (hp.masses _ (hr _ hn2)))
        hp.Omega_ci.le
    · exact hardSphere_events _ hI h1 (hr _ hn2) hx2
  · refine hasEvents_collectM rest fun n2 hn2 => ?_
    unfold neutralWith
    dsimp only
    refine hasEvents_ite (fun _ => hasEvents_nil _ _) (fun _ => ?_)
    refine hasEvents_bind fun x2 hx2 => ?_
    refine hasEvents_ite (fun _ => ?_) (fun _ => ?_)
    · refine hasEvents_ite (fun _ => hasEvents_nil _ _) (fun _ => ?_)
      exact hardSphere_events _ hI h1 (hr _ hn2) hx2
    · refine hasEvents_ite (fun _ => hasEvents_nil _ _) (fun _ => ?_)
      exact hardSphere_events _ hN h1 (hr _ hn2) hx2

theorem heavyLoop_events {k : CollNorms} {o : CollOpts} {names : List String} {w : World ι} (ns : List String)
    (hr : ∀ n ∈ ns, n ∈ names) :
    HasEvents w (Adm k o names w) (fun fh => heavyLoop k { o with frictional_heating := fh } w ns) := by
  induction ns with
  | nil => exact hasEvents_nil _ _
  | cons n ns ih =>
    exact hasEvents_append (heavyWith_events (hr n (by simp)) hr) (ih fun m hm => hr m (by simp [hm]))

theorem collisions_events {k : CollNorms} {o : CollOpts} {names : List String} {w : World ι} :
    HasEvents w (Adm k o names w) (fun fh => collisions k { o with frictional_heating := fh } names w) := by
  unfold collisions
  refine hasEvents_append ?_ (heavyLoop_events names fun _ h => h)
  unfold electronLoop
  refine hasEvents_ite (fun he => ?_) (fun _ => hasEvents_nil _ _)
  refine hasEvents_bind fun Te _ => hasEvents_bind fun Ne _ => ?_
  exact hasEvents_collectM names fun n hn => electronWith_events he hn

/-! ## Sums over events -/

theorem signedSum_flatMap (key : Key) (i : ι) (f : CollEvent ι → List (Contrib Key ι)) (l : List (CollEvent ι)) :
    signedSum key i (l.flatMap f) = (l.map fun e => signedSum key i (f e)).sum := by
  induction l with
  | nil => simp
  | cons e l ih => simp [ih]

theorem sum_pick (S : Finset String) (a : String) (ha : a ∈ S) (v v' : Var) (g : String → ℝ) (x : ℝ) :
    (∑ s ∈ S, g s * (if Key.sp a v = Key.sp s v' then x else 0)) = if v = v' then g a * x else 0 := by
  by_cases h : v = v'
  · simp [h, ha]
  · simp [h]

/-- Weighted sum over species of the contributions of one event. -/
theorem collideOf_momentum (fh : Bool) (w : World ι) (e : CollEvent ι) (S : Finset String) (h1 : e.s1 ∈ S)
    (h2 : e.s2 ∈ S) (i : ι) : ∑ s ∈ S, signedSum (.sp s Var.momentum_source) i (collideOf fh w e) = 0 := by
  unfold collideOf
  split
  · simp
  · simp only [signedSum_append, Finset.sum_add_distrib]
    have hq : ∀ s, signedSum (.sp s Var.momentum_source) i (if w.isSetF e.s1 Var.temperature || w.isSetF e.s2 Var.temperature then
        heatExchangeOf e.s1 e.s2 e.nu (mass w e.s1) (mass w e.s2) (w.fieldOr0 e.s1 Var.density)
          (w.fieldOr0 e.s1 Var.temperature) (w.fieldOr0 e.s2 Var.temperature)
        else []) = 0 := by
      intro s; split <;> simp [heatExchangeOf]
    simp only [hq]
    cases fh <;> split <;> simp [frictionOf, h1, h2, Finset.sum_add_distrib]

theorem collideOf_density (fh : Bool) (w : World ι) (e : CollEvent ι) (s : String) (i : ι) :
    signedSum (.sp s Var.density_source) i (collideOf fh w e) = 0 := by
  unfold collideOf
  split
  · simp
  · cases fh <;> split <;> split <;> simp [frictionOf, heatExchangeOf]

theorem collideOf_keys (fh : Bool) (w : World ι) (e : CollEvent ι) (names : List String) (h1 : e.s1 ∈ names)
    (h2 : e.s2 ∈ names) :
    KeysIn names [Var.momentum_source, Var.energy_source, Var.collision_frequency] (collideOf fh w e) := by
  unfold collideOf
  split
  · simp [h1]
  · cases fh <;> split <;> split <;> simp [frictionOf, heatExchangeOf, h1, h2]

theorem keysIn_flatMap (names : List String) (vars : List Var) (f : CollEvent ι → List (Contrib Key ι))
    (l : List (CollEvent ι)) (h : ∀ e ∈ l, KeysIn names vars (f e)) : KeysIn names vars (l.flatMap f) := by
  intro c hc
  obtain ⟨e, he, hc⟩ := List.mem_flatMap.1 hc
  exact h e he c hc

theorem fieldOr0_velocity (w : World ι) (s : String) (i : ι) : w.fieldOr0 s Var.velocity i = velocity w s i := rfl
theorem fieldOr0_density (w : World ι) (s : String) (i : ι) : w.fieldOr0 s Var.density i = density w s i := rfl
theorem fieldOr0_temperature (w : World ι) (s : String) (i : ι) :
    w.fieldOr0 s Var.temperature i = temperature w s i := rfl

theorem velocity_unset {w : World ι} {s : String} (h : w.isSetF s Var.velocity = false) (i : ι) : velocity w s i = 0 := by
  unfold World.isSetF at h; unfold velocity
  cases hv : (w.st.ent (.sp s Var.velocity)).val with
  | none => rfl
  | some f => rw [hv] at h; cases h

/-- Energy gained by all species, including the work of the forces, in one event. -/
theorem collideOf_energy (w : World ι) (e : CollEvent ι) (S : Finset String) (h1 : e.s1 ∈ S)
    (h2 : e.s2 ∈ S) (i : ι) (hm : mass w e.s1 + mass w e.s2 ≠ 0) :
    ∑ s ∈ S, (signedSum (.sp s Var.energy_source) i (collideOf true w e)
      + velocity w s i * signedSum (.sp s Var.momentum_source) i (collideOf true w e)) = 0 := by
  unfold collideOf
  split
  · simp
  · simp only [signedSum_append, mul_add, Finset.sum_add_distrib]
    have hq : ∀ g : String → ℝ, ∑ s ∈ S, g s * signedSum (.sp s Var.momentum_source) i (if w.isSetF e.s1 Var.temperature || w.isSetF e.s2 Var.temperature then
        heatExchangeOf e.s1 e.s2 e.nu (mass w e.s1) (mass w e.s2) (w.fieldOr0 e.s1 Var.density)
          (w.fieldOr0 e.s1 Var.temperature) (w.fieldOr0 e.s2 Var.temperature)
        else []) = 0 := by
      intro g; split <;> simp [heatExchangeOf]
    have hq' : ∑ s ∈ S, signedSum (.sp s Var.energy_source) i (if w.isSetF e.s1 Var.temperature || w.isSetF e.s2 Var.temperature then
        heatExchangeOf e.s1 e.s2 e.nu (mass w e.s1) (mass w e.s2) (w.fieldOr0 e.s1 Var.density)
          (w.fieldOr0 e.s1 Var.temperature) (w.fieldOr0 e.s2 Var.temperature)
        else []) = 0 := by
      split <;> simp [heatExchangeOf, Finset.sum_add_distrib, h1, h2]
    rw [hq, hq']
    split
    · simp [frictionOf, Finset.sum_add_distrib, h1, h2, mul_add, fieldOr0_velocity]
      field_simp
      ring
    · simp

theorem list_sum_swap (S : Finset String) (l : List (CollEvent ι)) (f : String → CollEvent ι → ℝ)
    (h : ∀ e ∈ l, ∑ s ∈ S, f s e = 0) : ∑ s ∈ S, (l.map (f s)).sum = 0 := by
  induction l with
  | nil => simp
  | cons e l ih =>
    simp only [List.map_cons, List.sum_cons, Finset.sum_add_distrib]
    rw [h e (by simp), ih fun e he => h e (by simp [he]), add_zero]

/-- The state after a successful run of the component. -/
theorem transform_ok {c : SourceComponent ι} {w : World ι} {after : Store Key (Fld ι)}
    (h : SourceComponent.transform c w = (.ok (), after)) : ∃ cs, c w = .ok cs ∧ contributeAll cs w.st = (.ok (), after) := by
  unfold SourceComponent.transform at h
  split at h
  · cases h
  · rename_i cs hcs; exact ⟨cs, hcs, h⟩

/-- If nothing that is needed is missing, the component succeeds, and the gains are sums over events. -/
theorem run_events {k : CollNorms} {o : CollOpts} {names : List String} {w : World ι} {cs : List (Contrib Key ι)}
    (h : collisions k o names w = .ok cs) (hu : SourcesUnread w.st) :
    ∃ l : List (CollEvent ι), (∀ e ∈ l, Adm k o names w e) ∧
      ∀ fh, ∃ after, SourceComponent.transform (collisions k { o with frictional_heating := fh } names) w = (.ok (), after) ∧
        OnlyTouches w.st after names [Var.momentum_source, Var.energy_source, Var.collision_frequency] ∧
        ∀ s v i, gain w.st after s v i = (l.map fun e => signedSum (.sp s v) i (collideOf fh w e)).sum := by
  obtain ⟨l, hl, hF⟩ := collisions_events (k := k) (o := o) (names := names) (w := w) o.frictional_heating cs h
  refine ⟨l, hl, fun fh => ?_⟩
  have hk : KeysIn names [Var.momentum_source, Var.energy_source, Var.collision_frequency]
      (l.flatMap (collideOf fh w)) :=
    keysIn_flatMap _ _ _ _ fun e he => collideOf_keys fh w e names (hl e he).1 (hl e he).2.1
  obtain ⟨after, e1, e2, e3⟩ := contributeAll_gain _ w.st names _ hk (by simp) hu
  refine ⟨after, ?_, e2, fun s v i => by rw [e3, signedSum_flatMap]⟩
  have e := hF fh
  simp only at e
  simp only [SourceComponent.transform, e, e1]

/-- **C32.**  In every cell the momentum sources that collisions add sum to zero over all species; particle
sources are not touched, nor is anything but the sources and collision frequencies of the listed species. -/
theorem momentum_conserved (k : CollNorms) (o : CollOpts) (names : List String) (hn : names.Nodup) (w : World ι)
    (hu : SourcesUnread w.st) (after : Store Key (Fld ι))
    (h : SourceComponent.transform (collisions k o names) w = (.ok (), after)) :
    (∀ i, (names.map fun s => gain w.st after s Var.momentum_source i).sum = 0) ∧
      (∀ s i, gain w.st after s Var.density_source i = 0) ∧
      OnlyTouches w.st after names [Var.momentum_source, Var.energy_source, Var.collision_frequency] := by
  obtain ⟨cs, hcs, hrun⟩ := transform_ok h
  obtain ⟨l, hl, hF⟩ := run_events hcs hu
  obtain ⟨after', e1, e2, e3⟩ := hF o.frictional_heating
  have : after' = after := by
    have := h.symm.trans e1
    cases this; rfl
  subst this
  refine ⟨fun i => ?_, fun s i => ?_, e2⟩
  · rw [← List.sum_toFinset _ hn]
    simp only [e3]
    apply list_sum_swap
    intro e he
    exact collideOf_momentum _ w e _ (by simpa using (hl e he).1) (by simpa using (hl e he).2.1) i
  · rw [e3]
    simp [collideOf_density]

/-- **C33.**  With frictional heating on, thermal plus kinetic energy of all species together is unchanged by
collisions. -/
theorem energy_conserved (k : CollNorms) (o : CollOpts) (ho : o.frictional_heating = true) (names : List String)
    (hn : names.Nodup) (w : World ι) (hu : SourcesUnread w.st) (hm : ∀ s ∈ names, 0 < mass w s)
    (after : Store Key (Fld ι)) (h : SourceComponent.transform (collisions k o names) w = (.ok (), after)) (i : ι) :
    (names.map fun s => totalEnergyRate w after s i).sum = 0 := by
  obtain ⟨cs, hcs, hrun⟩ := transform_ok h
  obtain ⟨l, hl, hF⟩ := run_events hcs hu
  obtain ⟨after', e1, e2, e3⟩ := hF true
  have : after' = after := by
    have e0 : { o with frictional_heating := true } = o := by rw [← ho]
    rw [e0] at e1
    have := h.symm.trans e1
    cases this; rfl
  subst this
  rw [← List.sum_toFinset _ hn]
  have : ∀ s, totalEnergyRate w after' s i = (l.map fun e =>
      (signedSum (.sp s Var.energy_source) i (collideOf true w e)
      + velocity w s i * signedSum (.sp s Var.momentum_source) i (collideOf true w e))).sum := by
    intro s
    unfold totalEnergyRate
    rw [e3, e3, e3, List.sum_map_add, List.sum_map_mul_left]
    simp [collideOf_density]
  simp only [this]
  apply list_sum_swap
  intro e he
  refine collideOf_energy w e _ (by simpa using (hl e he).1) (by simpa using (hl e he).2.1) i ?_
  have a := hm _ (hl e he).1
  have b := hm _ (hl e he).2.1
  linarith

/-! ## Signs -/

theorem ite_key_nonneg (a : String) (key : Key) (v : Var) (x : ℝ) (h : Key.sp a v = key → 0 ≤ x) :
    0 ≤ if Key.sp a v = key then x else 0 := by
  split
  · exact h ‹_›
  · exact le_refl _

/-- Turning frictional heating on adds a non-negative amount to every species in every event. -/
theorem collideOf_heats (w : World ι) (e : CollEvent ι) (s : String) (i : ι) (hc : 0 ≤ e.coef) (hnu : 0 ≤ e.nu i)
    (h1 : 0 < mass w e.s1) (h2 : 0 < mass w e.s2) (hn : 0 ≤ density w e.s1 i) :
    signedSum (.sp s Var.energy_source) i (collideOf false w e) ≤ signedSum (.sp s Var.energy_source) i (collideOf true w e) := by
  unfold collideOf
  split
  · exact le_refl _
  · simp only [signedSum_append]
    gcongr
    split
    · simp only [frictionOf, fieldOr0_density]
      simp
      refine add_nonneg ?_ ?_ <;> (split <;> [skip; exact le_refl _])
      all_goals
        rw [fieldOr0_velocity, fieldOr0_velocity]
        have : ∀ c, 0 ≤ c → 0 ≤ c * (velocity w e.s2 i - velocity w e.s1 i)
            * (e.coef * e.nu i * mass w e.s1 * density w e.s1 i * (velocity w e.s2 i - velocity w e.s1 i)) := by
          intro c hc'
          have e0 : c * (velocity w e.s2 i - velocity w e.s1 i)
            * (e.coef * e.nu i * mass w e.s1 * density w e.s1 i * (velocity w e.s2 i - velocity w e.s1 i))
            = c * e.coef * e.nu i * mass w e.s1 * density w e.s1 i * (velocity w e.s2 i - velocity w e.s1 i) ^ 2 := by ring
          rw [e0]; positivity
        exact this _ (by positivity)
    · exact le_refl _

/-- **C33.**  Frictional heating: for every species and cell the energy source with `frictional_heating` on is at
least the one with it off, and momentum sources and collision frequencies are the same. -/
theorem friction_heats (k : CollNorms) (o : CollOpts) (names : List String) (w : World ι) (hu : SourcesUnread w.st)
    (hp : Physical k o names w) (on off : Store Key (Fld ι))
    (h1 : SourceComponent.transform (collisions k { o with frictional_heating := true } names) w = (.ok (), on))
    (h0 : SourceComponent.transform (collisions k { o with frictional_heating := false } names) w = (.ok (), off))
    (s : String) (i : ι) :
    gain w.st off s Var.energy_source i ≤ gain w.st on s Var.energy_source i ∧
      gain w.st off s Var.momentum_source i = gain w.st on s Var.momentum_source i ∧
      gain w.st off s Var.collision_frequency i = gain w.st on s Var.collision_frequency i := by
  obtain ⟨cs, hcs, -⟩ := transform_ok h1
  obtain ⟨l, hl, hF⟩ := run_events hcs hu
  obtain ⟨on', e1, -, e3⟩ := hF true
  obtain ⟨off', d1, -, d3⟩ := hF false
  have a1 : on' = on := by have := h1.symm.trans e1; cases this; rfl
  have a0 : off' = off := by have := h0.symm.trans d1; cases this; rfl
  subst a1; subst a0
  rw [e3, d3, e3, d3, e3, d3]
  refine ⟨List.sum_le_sum fun e he => ?_, ?_, ?_⟩
  · obtain ⟨m1, m2, hc, hnu⟩ := hl e he
    have hp' : Physical k { o with frictional_heating := true } names w := { hp with }
    exact collideOf_heats w e s i hc (hnu hp' i) (hp.masses _ m1) (hp.masses _ m2) (hp.densities _ m1 i)
  all_goals
    congr 1
    apply List.map_congr_left
    intro e _
    unfold collideOf
    split
    · rfl
    · simp only [signedSum_append]
      congr 2
      split
      · simp [frictionOf]
      · rfl

theorem temperature_unset {w : World ι} {s : String} (h : w.isSetF s Var.temperature = false) (i : ι) :
    temperature w s i = 0 := by
  unfold World.isSetF at h; unfold temperature
  cases hv : (w.st.ent (.sp s Var.temperature)).val with
  | none => rfl
  | some f => rw [hv] at h; cases h

/-- Energy exchange of one event without frictional heating. -/
theorem collideOf_exchange (w : World ι) (e : CollEvent ι) (s : String) (i : ι) :
    signedSum (.sp s Var.energy_source) i (collideOf false w e) =
      if e.s1 = e.s2 then 0 else
        (if e.s1 = s then 1 else 0) * (e.nu i * 3 * density w e.s1 i
            * (mass w e.s1 / (mass w e.s1 + mass w e.s2)) * (temperature w e.s2 i - temperature w e.s1 i))
        - (if e.s2 = s then 1 else 0) * (e.nu i * 3 * density w e.s1 i
            * (mass w e.s1 / (mass w e.s1 + mass w e.s2)) * (temperature w e.s2 i - temperature w e.s1 i)) := by
  unfold collideOf
  split
  · simp
  · have hf : signedSum (.sp s Var.energy_source) i (if w.isSetF e.s1 Var.velocity || w.isSetF e.s2 Var.velocity then
        frictionOf false e.s1 e.s2 e.nu e.coef (mass w e.s1) (mass w e.s2) (w.fieldOr0 e.s1 Var.density)
          (w.fieldOr0 e.s1 Var.velocity) (w.fieldOr0 e.s2 Var.velocity)
        else []) = 0 := by
      split <;> simp [frictionOf]
    simp only [signedSum_append, hf]
    split
    · simp only [heatExchangeOf, signedSum_cons, signedSum_nil, fieldOr0_density, fieldOr0_temperature]
      simp
      split <;> split <;> simp
    · rename_i ht
      simp only [Bool.or_eq_true, not_or, Bool.not_eq_true] at ht
      rw [temperature_unset ht.1, temperature_unset ht.2]
      simp

theorem list_sum_nonpos : ∀ {l : List ℝ}, (∀ x ∈ l, x ≤ 0) → l.sum ≤ 0
  | [], _ => le_refl _
  | a :: l, h => by
    have h1 := h a (by simp)
    have h2 := list_sum_nonpos (l := l) fun x hx => h x (by simp [hx])
    rw [List.sum_cons]; linarith

/-- **C33.**  Heat flows from hot to cold: without frictional heating a species at least as hot as all others
gains no energy and one at most as hot as all others loses none. -/
theorem heat_flows_hot_to_cold (k : CollNorms) (o : CollOpts) (ho : o.frictional_heating = false) (names : List String)
    (w : World ι) (hu : SourcesUnread w.st) (hp : Physical k o names w) (after : Store Key (Fld ι))
    (h : SourceComponent.transform (collisions k o names) w = (.ok (), after)) (s : String) (i : ι) :
    ((∀ b ∈ names, temperature w b i ≤ temperature w s i) → gain w.st after s Var.energy_source i ≤ 0) ∧
    ((∀ b ∈ names, temperature w s i ≤ temperature w b i) → 0 ≤ gain w.st after s Var.energy_source i) := by
  obtain ⟨cs, hcs, -⟩ := transform_ok h
  obtain ⟨l, hl, hF⟩ := run_events hcs hu
  obtain ⟨after', e1, -, e3⟩ := hF false
  have e0 : { o with frictional_heating := false } = o := by rw [← ho]
  rw [e0] at e1
  have : after' = after := by have := h.symm.trans e1; cases this; rfl
  subst this
  rw [e3]
  have key : ∀ e ∈ l, 0 ≤ e.nu i * 3 * density w e.s1 i * (mass w e.s1 / (mass w e.s1 + mass w e.s2)) := by
    intro e he
    obtain ⟨m1, m2, hc, hnu⟩ := hl e he
    have := hnu hp i; have := hp.densities _ m1 i
    have := hp.masses _ m1; have := hp.masses _ m2
    positivity
  constructor
  · intro hT
    refine list_sum_nonpos ?_
    intro x hx
    obtain ⟨e, he, rfl⟩ := List.mem_map.1 hx
    obtain ⟨m1, m2, -⟩ := hl e he
    have hk := key e he
    simp only [collideOf_exchange]
    split
    · exact le_refl _
    · by_cases c1 : e.s1 = s <;> by_cases c2 : e.s2 = s
      · simp [c1, c2]
      · have := hT _ m2
        simp only [c1, c2, if_true, if_false, zero_mul, sub_zero, one_mul]
        rw [c1] at hk
        exact mul_nonpos_of_nonneg_of_nonpos hk (by linarith)
      · have := hT _ m1
        simp only [c1, c2, if_true, if_false, zero_mul, zero_sub, one_mul]
        rw [c2] at hk
        exact neg_nonpos.2 (mul_nonneg hk (by linarith))
      · simp [c1, c2]
  · intro hT
    refine List.sum_nonneg ?_
    intro x hx
    obtain ⟨e, he, rfl⟩ := List.mem_map.1 hx
    obtain ⟨m1, m2, -⟩ := hl e he
    have hk := key e he
    simp only [collideOf_exchange]
    split
    · exact le_refl _
    · by_cases c1 : e.s1 = s <;> by_cases c2 : e.s2 = s
      · simp [c1, c2]
      · have := hT _ m2
        simp only [c1, c2, if_true, if_false, zero_mul, sub_zero, one_mul]
        rw [c1] at hk
        exact mul_nonneg hk (by linarith)
      · have := hT _ m1
        simp only [c1, c2, if_true, if_false, zero_mul, zero_sub, one_mul]
        rw [c2] at hk
        have := mul_nonpos_of_nonneg_of_nonpos hk (sub_nonpos.2 this)
        linarith
      · simp [c1, c2]

/-! ## Thermal force -/

theorem collectM_mem {α β : Type} {P : β → Prop} {f : α → Except Err (List β)} :
    ∀ {l : List α} {cs : List β}, (∀ a ∈ l, ∀ x, f a = .ok x → ∀ b ∈ x, P b) → collectM f l = .ok cs → ∀ b ∈ cs, P b
  | [], cs, _, h => by cases h; simp
  | a :: l, cs, hf, h => by
    unfold collectM at h
    obtain ⟨x, hx, h⟩ := bind_ok h
    obtain ⟨y, hy, h⟩ := bind_ok h
    cases h
    intro b hb
    rcases List.mem_append.1 hb with hb | hb
    · exact hf a (by simp) x hx b hb
    · exact collectM_mem (fun a ha => hf a (by simp [ha])) hy b hb

/-- A property of lists of contributions which is inherited by concatenation. -/
theorem collectM_closed {α β : Type} {P : List β → Prop} (h0 : P []) (happ : ∀ a b, P a → P b → P (a ++ b))
    {f : α → Except Err (List β)} :
    ∀ {l : List α} {cs : List β}, (∀ a ∈ l, ∀ x, f a = .ok x → P x) → collectM f l = .ok cs → P cs
  | [], cs, _, h => by cases h; exact h0
  | a :: l, cs, hf, h => by
    unfold collectM at h
    obtain ⟨x, hx, h⟩ := bind_ok h
    obtain ⟨y, hy, h⟩ := bind_ok h
    cases h
    exact happ _ _ (hf a (by simp) x hx) (collectM_closed h0 happ (fun a ha => hf a (by simp [ha])) hy)

/-- Contributions of equal and opposite forces between listed species. -/
def Balanced (S : Finset String) (cs : List (Contrib Key ι)) : Prop :=
  KeysIn S.toList [Var.momentum_source] cs ∧ ∀ i, ∑ s ∈ S, signedSum (.sp s Var.momentum_source) i cs = 0

theorem balanced_nil (S : Finset String) : Balanced S ([] : List (Contrib Key ι)) := by
  constructor <;> simp

theorem balanced_append (S : Finset String) (a b : List (Contrib Key ι)) (ha : Balanced S a) (hb : Balanced S b) :
    Balanced S (a ++ b) := by
  refine ⟨by simpa using ⟨ha.1, hb.1⟩, fun i => ?_⟩
  simp only [signedSum_append, Finset.sum_add_distrib, ha.2 i, hb.2 i, add_zero]

theorem balanced_pairForce (S : Finset String) (a b : String) (ha : a ∈ S) (hb : b ∈ S) (F : Fld ι) :
    Balanced S (pairForce a b F) := by
  constructor
  · simp [pairForce, ha, hb]
  · intro i; simp [pairForce, Finset.sum_add_distrib, ha, hb]

theorem thermalLightHeavy_balanced {gradPar : Fld ι → Fld ι} {w : World ι} (S : Finset String) {a b : String}
    (ha : a ∈ S) (hb : b ∈ S) {x : List (Contrib Key ι)} (h : thermalLightHeavy gradPar w a b = .ok x) :
    Balanced S x := by
  unfold thermalLightHeavy at h
  obtain ⟨_, _, h⟩ := bind_ok h
  obtain ⟨_, _, h⟩ := bind_ok h
  obtain ⟨_, _, h⟩ := bind_ok h
  obtain ⟨_, _, h⟩ := bind_ok h
  obtain ⟨_, _, h⟩ := bind_ok h
  split at h
  · cases h; exact balanced_nil S
  · cases h; exact balanced_pairForce S _ _ hb ha _

theorem thermalForce_balanced {gradPar : Fld ι → Fld ι} {ei ii : Bool} {names : List String} {w : World ι}
    {cs : List (Contrib Key ι)} (h : thermalForce gradPar ei ii names w = .ok cs) : Balanced names.toFinset cs := by
  unfold thermalForce at h
  obtain ⟨a, ha, h⟩ := bind_ok h
  obtain ⟨b, hb, h⟩ := bind_ok h
  cases h
  apply balanced_append
  · unfold thermalElectronLoop at ha
    split at ha
    · rename_i he
      obtain ⟨Te, hTe, ha⟩ := bind_ok ha
      refine collectM_closed (balanced_nil _) (balanced_append _) ?_ ha
      intro n hn x hx
      unfold thermalElectronWith at hx
      split at hx
      · cases hx; exact balanced_nil _
      split at hx
      · cases hx; exact balanced_nil _
      obtain ⟨_, _, hx⟩ := bind_ok hx
      obtain ⟨_, _, hx⟩ := bind_ok hx
      cases hx
      exact balanced_pairForce _ _ _ (by simpa using hn) (by simpa using he.2) _
    · cases ha; exact balanced_nil _
  · unfold thermalIonPart at hb
    split at hb
    · have : ∀ (ns : List String), (∀ n ∈ ns, n ∈ names) → ∀ b, thermalIonLoop gradPar w ns = .ok b →
          Balanced names.toFinset b := by
        intro ns
        induction ns with
        | nil => intro _ b hb; cases hb; exact balanced_nil _
        | cons n ns ih =>
          intro hns b hb
          unfold thermalIonLoop at hb
          obtain ⟨x, hx, hb⟩ := bind_ok hb
          obtain ⟨y, hy, hb⟩ := bind_ok hb
          cases hb
          apply balanced_append
          · unfold thermalIonPairs at hx
            split at hx
            · cases hx; exact balanced_nil _
            · refine collectM_closed (balanced_nil _) (balanced_append _) ?_ hx
              intro m hm z hz
              have h1 : n ∈ names.toFinset := by simpa using hns n (by simp)
              have h2 : m ∈ names.toFinset := by simpa using hns m (by simp [hm])
              unfold thermalIonWith at hz
              split at hz
              · cases hz; exact balanced_nil _
              obtain ⟨_, _, hz⟩ := bind_ok hz
              obtain ⟨_, _, hz⟩ := bind_ok hz
              split at hz
              · exact thermalLightHeavy_balanced _ h1 h2 hz
              split at hz
              · exact thermalLightHeavy_balanced _ h2 h1 hz
              · cases hz; exact balanced_nil _
          · exact ih (fun n hn => hns n (by simp [hn])) y hy
      exact this names (fun _ h => h) b hb
    · cases hb; exact balanced_nil _

/-- **C32.**  The thermal forces on all species sum to zero in every cell; only momentum sources change. -/
theorem thermal_force_conserves_momentum (gradPar : Fld ι → Fld ι) (electron_ion ion_ion : Bool) (names : List String)
    (hn : names.Nodup) (w : World ι) (hu : SourcesUnread w.st) (after : Store Key (Fld ι))
    (h : SourceComponent.transform (thermalForce gradPar electron_ion ion_ion names) w = (.ok (), after)) :
    (∀ i, (names.map fun s => gain w.st after s Var.momentum_source i).sum = 0) ∧
      OnlyTouches w.st after names [Var.momentum_source] := by
  obtain ⟨cs, hcs, hrun⟩ := transform_ok h
  obtain ⟨hk, hb⟩ := thermalForce_balanced hcs
  obtain ⟨after', e1, e2, e3⟩ := contributeAll_gain cs w.st names [Var.momentum_source] (by
    intro c hc
    obtain ⟨s, hs, r⟩ := hk c hc
    exact ⟨s, by simpa using hs, r⟩) (by simp) hu
  have : after' = after := by have := hrun.symm.trans e1; cases this; rfl
  subst this
  refine ⟨fun i => ?_, e2⟩
  rw [← List.sum_toFinset _ hn]
  simp only [e3]
  exact hb i

end Hermes.Collisions
