import Verif.Props.HeatConductivity
import Verif.Props.IonViscosity

/-!
# C95: the parallel viscosity is Braginskii's

`ion_viscosity` and `electron_viscosity` after `collisions`, in a plasma of electrons and one species of singly charged ions.
-/

namespace Hermes.Viscosity
open Hermes Hermes.Collisions Hermes.ParDiffusion Hermes.HeatConductivity

variable {ι : Type} [DecidableEq ι]

/-- The plasma: one species of singly charged ions, as dense as the electrons and not hotter, between 1 and 1000 eV, below `10²¹ m⁻³`. -/
structure Simple (k : CollNorms) (w : World ι) (s : String) (c : ι) : Prop where
  name : s ≠ "e" ∧ s ≠ "ebeam"
  charge : charge w s = 1
  heavy : 1 ≤ mass w s
  light : |mass w "e" * k.Mp - k.Me| ≤ 0.001 * k.Me
  cold : 1 ≤ temperature w s c * k.Tnorm
  colder : temperature w s c ≤ temperature w "e" c
  hot : temperature w "e" c * k.Tnorm ≤ 1000
  neutral : density w s c = density w "e" c
  dense : 1e10 ≤ density w "e" c * k.Nnorm ∧ 1e-5 ≤ density w "e" c
  thin : density w "e" c * k.Nnorm ≤ 1e21

/-- Coulomb logarithm of the NRL formulary for ions of one kind and charge one; density in `m⁻³`, temperature in eV. -/
noncomputable def nrlII (T n : ℝ) : ℝ := 23 - Real.log (1 / T * Real.sqrt (2 * (n / 1e6) / T))

omit [DecidableEq ι] in
theorem Simple.pos {k : CollNorms} (hk : Physical k) {w : World ι} {s : String} {c : ι} (h : Simple k w s c) :
    0 < temperature w s c ∧ 0 < temperature w "e" c ∧ 0 < density w "e" c ∧ 0 < mass w "e" := by
  have hTn := hk.Tnorm
  have hMe := hk.Me
  have hMp := hk.Mp
  have h1 : 0 < temperature w s c := by
    by_contra hc
    have := h.cold
    nlinarith
  refine ⟨h1, lt_of_lt_of_le h1 h.colder, by linarith [h.dense.2], ?_⟩
  obtain ⟨m1, m2⟩ := abs_le.1 h.light
  by_contra hc
  nlinarith

/-! ## Frequency of the collisions of the ions -/

omit [DecidableEq ι] in
/-- The ions collide with each other and with the electrons. -/
theorem ion_frequency {k : CollNorms} (hT0 : k.Tnorm ≠ 0) {co : CollOpts} (hii : co.ion_ion = true) (hei : co.electron_ion = true) (hm : co.ei_multiplier = 1)
    {w : World ι} {s : String} (hs : s ≠ "e" ∧ s ≠ "ebeam") (hc : charge w s = 1) (hu : SourcesUnread w.st) {after : Store Key (Fld ι)}
    (h : SourceComponent.transform (collisions k co ["e", s]) w = (.ok (), after)) (c : ι) :
    gain w.st after s Var.collision_frequency c =
      nuEI k 1 1 (mass w s) (temperature w "e" c * k.Tnorm) (density w "e" c * k.Nnorm) (temperature w s c * k.Tnorm) (density w s c * k.Nnorm) / k.Omega_ci *
        (mass w "e" / mass w s) * density w "e" c / max (density w s c) 1e-5
      + nuII k 1 1 (mass w s) (mass w s) (temperature w s c * k.Tnorm) (temperature w s c * k.Tnorm) (density w s c * k.Nnorm) (density w s c * k.Nnorm) / k.Omega_ci := by
  rw [collision_frequency k hT0 co ["e", s] w hu after h s c]
  have e : "e" ≠ s := hs.1.symm
  simp [pairSum, share, electronPart, heavyPart, hs.1, hs.2, hc, hii, hei, hm, e]

theorem spitzer_ratio {k : CollNorms} (hk : Physical k) {n m m' T T' : ℝ} (hm : 0 < m) (hm' : 0 < m') (hT : 0 < T) (hT' : 0 < T') :
    spitzer k n 1 m T 1 * (Real.sqrt m * p32 T) = spitzer k n 1 m' T' 1 * (Real.sqrt m' * p32 T') := by
  have a := Real.sqrt_pos.2 hm
  have b := Real.sqrt_pos.2 hm'
  have := hk.e0
  have c := p32_pos hT
  have c' := p32_pos hT'
  have q := p32_pos hk.qe
  have d := p32_pos (mul_pos two_pos Real.pi_pos)
  unfold spitzer
  rw [p32_mul hT.le, p32_mul hT'.le]
  field_simp

/-- Logarithm and power of a ratio of temperatures. -/
theorem log_power {T T' : ℝ} (h : 0 < T) (h' : T ≤ T') : p32 T * (1.5 * (Real.log T' - Real.log T)) ≤ 1.5 * p32 T' := by
  have hp : 0 < T' := by linarith
  have hl : Real.log T' - Real.log T ≤ T' / T - 1 := by
    rw [← Real.log_div hp.ne' h.ne']
    exact Real.log_le_sub_one_of_pos (by positivity)
  have s : Real.sqrt T ≤ Real.sqrt T' := Real.sqrt_le_sqrt h'
  have s0 : 0 < Real.sqrt T := Real.sqrt_pos.2 h
  have hq : 0 < p32 T := p32_pos h
  calc p32 T * (1.5 * (Real.log T' - Real.log T)) ≤ p32 T * (1.5 * (T' / T - 1)) := by gcongr
    _ = 1.5 * ((T' - T) * Real.sqrt T) := by unfold p32; field_simp
    _ ≤ 1.5 * (T' * Real.sqrt T') := by
      have : (T' - T) * Real.sqrt T ≤ T' * Real.sqrt T' := mul_le_mul (by linarith) s s0.le hp.le
      linarith
    _ = 1.5 * p32 T' := rfl

theorem p32_le {T T' : ℝ} (h : 0 < T) (h' : T ≤ T') : p32 T ≤ p32 T' :=
  mul_le_mul h' (Real.sqrt_le_sqrt h') (Real.sqrt_nonneg _) (by linarith)

/-- Ions of one kind: Braginskii's ion collision time, with the Coulomb logarithm of the formulary. -/
theorem ion_time {k : CollNorms} (hk : Physical k) {A T n : ℝ} (hA : 0 < A) (t1 : 1 ≤ T * k.Tnorm) (n1 : 1e10 ≤ n * k.Nnorm) (n2 : n * k.Nnorm ≤ 1e21) :
    ∃ Λ, |Λ - nrlII (T * k.Tnorm) (n * k.Nnorm)| ≤ 0.01 ∧ 5.3 ≤ Λ ∧
      29.53 - 0.5 * Real.log (n * k.Nnorm) + 1.5 * Real.log (T * k.Tnorm) ≤ Λ ∧
      nuII k 1 1 A A (T * k.Tnorm) (T * k.Tnorm) (n * k.Nnorm) (n * k.Nnorm) = Λ * spitzer k (n * k.Nnorm) 1 (A * k.Mp) (T * k.Tnorm) 1 / Real.sqrt 2 ∧
      k.Omega_ci / (Λ * spitzer k (n * k.Nnorm) 1 (A * k.Mp) (T * k.Tnorm) 1 / Real.sqrt 2) = tauI k (n * k.Nnorm) (A * k.Mp) (T * k.Tnorm) Λ := by
  have hMp := hk.Mp
  have tp : 0 < T * k.Tnorm := by linarith
  have np : 0 < n * k.Nnorm := by linarith
  obtain ⟨Λ, hΛ, e⟩ := ion_ion hk.qe hk.e0 hMp (Z1 := 1) (Z2 := 1) hA hA (show 0.1 ≤ T * k.Tnorm by linarith) (show 0.1 ≤ T * k.Tnorm by linarith) n1 n1
    (by norm_num)
  have lT := Real.log_nonneg t1
  have ln := log_density np n2
  generalize T * k.Tnorm = t at *
  generalize n * k.Nnorm = m at *
  have a : 1 * 1 * (A + A) / (A * t + A * t) = 1 / t := by field_simp
  have b : m / 1e6 * 1 ^ 2 / t + m / 1e6 * 1 ^ 2 / t = 2 * (m / 1e6) / t := by ring
  have hl : Real.log (1 / t * Real.sqrt (2 * (m / 1e6) / t)) = 0.5 * Real.log 2 + 0.5 * Real.log m - 3 * Real.log 10 - 1.5 * Real.log t := by
    rw [show 2 * (m / 1e6) / t = 2 * m / 10 ^ 6 / t by norm_num; ring, one_div, Real.log_mul (by positivity) (by positivity), Real.log_inv,
      Real.log_sqrt (by positivity), Real.log_div (by positivity) (by positivity),
      Real.log_div (by positivity) (by positivity), Real.log_mul (by positivity) (by positivity), Real.log_pow]
    push_cast
    ring
  rw [a, b] at hΛ
  refine ⟨Λ, hΛ, ?_⟩
  rw [hl] at hΛ
  obtain ⟨b1, b2⟩ := abs_le.1 hΛ
  have l1 := log10_lt
  have l2 := log10_gt
  have l3 := Real.log_two_gt_d9
  have l4 := Real.log_two_lt_d9
  have low : 5.3 ≤ Λ := by linarith
  have s0 : 0 < Real.sqrt 2 := by positivity
  have p := spitzer_pos hk np (show 0 < A * k.Mp by positivity) tp one_pos
  refine ⟨low, by linarith, ?_, ?_⟩
  · rw [e, mul_one (1 : ℝ), moving_same (by positivity) tp, spitzer_scale, max_eq_left (by linarith)]
    ring
  · unfold tauI tauE
    rw [spitzer_scale k _ _ _ _ Λ]
    have : 0 < Λ := by linarith
    field_simp

theorem log_factor {Λe Λi Pi Pe l : ℝ} (pTi : 0 < Pi) (pTe : 0 < Pe) (hp : Pi ≤ Pe) (low : 5.3 ≤ Λi) (hnear : Λe ≤ Λi + 0.47 + 1.5 * l)
    (hl : Pi * (1.5 * l) ≤ 1.5 * Pe) : Λe * Pi ≤ 1.49 * Λi * Pe := by
  have a : (Λi + 0.47) * Pi ≤ (Λi + 0.47) * Pe := mul_le_mul_of_nonneg_left hp (by linarith)
  have b : Λe * Pi ≤ (Λi + 0.47 + 1.5 * l) * Pi := mul_le_mul_of_nonneg_right hnear pTi.le
  have c : 1.97 * Pe ≤ 0.49 * Λi * Pe := mul_le_mul_of_nonneg_right (by linarith) pTe.le
  linarith

theorem small_ratio {Λe Λi S S' V m m0 M x y z Pi Pe : ℝ} (hS : S = S' * (y * Pi) / (x * Pe)) (hi : 0 < Λi) (he : 0 < Λe) (pS : 0 < S) (pS' : 0 < S')
    (pTi : 0 < Pi) (pTe : 0 < Pe) (q0 : 0 < x) (qM : 0 < y) (hM0 : 0 < M) (hm0 : 0 < m) (s0 : 0 < z) (v0 : 0 < V) (v2 : V ≤ 1.0006)
    (hmm : m ≤ 1.001 * m0) (e0 : m0 = x * x) (eM : M = y * y) (sq : x * 42.4 ≤ y) (key : Λe * Pi ≤ 1.49 * Λi * Pe) (s2 : z ≤ 1.4143) :
    Λe * S * V * (m / M) ≤ 0.05 * (Λi * S' / z) := by
  have step : Λe * S * V * (m / M) ≤ Λe * S * 1.0006 * (1.001 * m0 / M) := by
    have : m / M ≤ 1.001 * m0 / M := div_le_div_of_nonneg_right hmm hM0.le
    have h0 : 0 < m / M := by positivity
    have : V * (m / M) ≤ 1.0006 * (1.001 * m0 / M) := mul_le_mul v2 this h0.le (by norm_num)
    have hpos : 0 < Λe * S := by positivity
    have := mul_le_mul_of_nonneg_left this hpos.le
    linarith
  refine step.trans ?_
  have e1 : Λe * S * 1.0006 * (1.001 * m0 / M) = 1.0006 * 1.001 * S' * (x / y) * (Λe * Pi / Pe) := by
    rw [hS, e0, eM]
    field_simp
  rw [e1]
  have r1 : x / y ≤ 1 / 42.4 := by rw [div_le_div_iff₀ qM (by norm_num)]; linarith
  have r2 : Λe * Pi / Pe ≤ 1.49 * Λi := by rw [div_le_iff₀ pTe]; linarith
  have r3 : 1 / 1.4143 ≤ 1 / z := one_div_le_one_div_of_le s0 s2
  have x0 : 0 < x / y := by positivity
  have l0 : 0 < Λe * Pi / Pe := by positivity
  calc 1.0006 * 1.001 * S' * (x / y) * (Λe * Pi / Pe) ≤ 1.0006 * 1.001 * S' * (1 / 42.4) * (1.49 * Λi) := by gcongr
    _ ≤ 0.05 * (Λi * S' * (1 / 1.4143)) := by
      have : 0 < S' * Λi := by positivity
      nlinarith
    _ ≤ 0.05 * (Λi * S' * (1 / z)) := by gcongr
    _ = 0.05 * (Λi * S' / z) := by ring

omit [DecidableEq ι] in
/-- Collisions with the electrons are twenty times less frequent than those among the ions. -/
theorem electrons_hardly_matter {k : CollNorms} (hk : Physical k) {w : World ι} {s : String} {c : ι} (h : Simple k w s c) :
    let Te := temperature w "e" c * k.Tnorm
    let Ti := temperature w s c * k.Tnorm
    let n := density w "e" c * k.Nnorm
    0 < nuEI k 1 1 (mass w s) Te n Ti n * (mass w "e" / mass w s) ∧
    nuEI k 1 1 (mass w s) Te n Ti n * (mass w "e" / mass w s) ≤ 0.05 * nuII k 1 1 (mass w s) (mass w s) Ti Ti n n := by
  intro Te Ti n
  obtain ⟨pi, pe, pn, pm⟩ := h.pos hk
  have hTn := hk.Tnorm
  have hNn := hk.Nnorm
  have hMe := hk.Me
  have hMp := hk.Mp
  have hA := h.heavy
  have hle : Ti ≤ Te := mul_le_mul_of_nonneg_right h.colder hTn.le
  have hTi : 0 < Ti := by positivity
  have hTe : 0 < Te := by positivity
  have hn : 0 < n := by positivity
  obtain ⟨Λi, -, low, hlow, ei, -⟩ := ion_time hk (A := mass w s) (T := temperature w s c) (n := density w "e" c) (by linarith) h.cold h.dense.1 h.thin
  obtain ⟨Λe, ee, he, he5⟩ := nuEI_range hk (A := mass w s) hA (show 1 ≤ Te by linarith [h.cold]) h.hot (show 0.1 ≤ Ti by linarith [h.cold]) (show Ti ≤ 10 * Te by linarith) h.dense.1 h.thin
  have hup : Λe ≤ 30 - 0.5 * Real.log n + 1.5 * Real.log Te := by
    rw [he]
    split_ifs <;> linarith
  obtain ⟨v1, v2⟩ := moving_near_one (m1 := k.Me) (m2 := k.Mp * mass w s) (T1 := Te) (T2 := Ti) hMe (by nlinarith [hk.heavy]) hTe hTi (by linarith)
  rw [ee, spitzer_scale]
  show _ ∧ _ ≤ 0.05 * nuII k 1 1 (mass w s) (mass w s) (temperature w s c * k.Tnorm) (temperature w s c * k.Tnorm) (density w "e" c * k.Nnorm) (density w "e" c * k.Nnorm)
  rw [ei]
  have hr := spitzer_ratio hk (n := n) (m := k.Me) (m' := mass w s * k.Mp) (T := Te) (T' := Ti) hMe (by positivity) hTe hTi
  have hl := log_power hTi hle
  have hp := p32_le hTi hle
  have pTi := p32_pos hTi
  have pTe := p32_pos hTe
  have pe1 := spitzer_pos hk hn hMe hTe one_pos
  have pi1 := spitzer_pos hk hn (show 0 < mass w s * k.Mp by positivity) hTi one_pos
  have hmm : mass w "e" * k.Mp ≤ 1.001 * k.Me := by linarith [(abs_le.1 h.light).2]
  have hM : 1800 * k.Me ≤ mass w s * k.Mp := by nlinarith [hk.heavy]
  have hs : mass w "e" / mass w s = mass w "e" * k.Mp / (mass w s * k.Mp) := by field_simp
  rw [hs]
  change 29.53 - 0.5 * Real.log n + 1.5 * Real.log Ti ≤ Λi at hlow
  have hnear : Λe ≤ Λi + 0.47 + 1.5 * (Real.log Te - Real.log Ti) := by linarith
  change _ ∧ _ ≤ 0.05 * (Λi * spitzer k n 1 (mass w s * k.Mp) Ti 1 / Real.sqrt 2)
  generalize spitzer k n 1 k.Me Te 1 = S at *
  generalize spitzer k n 1 (mass w s * k.Mp) Ti 1 = S' at *
  generalize moving k.Me (k.Mp * mass w s) Te Ti = V at *
  generalize hmq : mass w s * k.Mp = M at *
  generalize hmq' : mass w "e" * k.Mp = m at *
  have hm0 : 0 < m := by rw [← hmq']; positivity
  generalize k.Me = m0 at *
  generalize p32 Te = Pe at *
  generalize p32 Ti = Pi at *
  have hM0 : 0 < M := by linarith
  -- power and logarithm
  have key : Λe * Pi ≤ 1.49 * Λi * Pe := log_factor pTi pTe hp low hnear hl
  have sq : Real.sqrt m0 * 42.4 ≤ Real.sqrt M := by
    apply Real.le_sqrt_of_sq_le
    rw [mul_pow, Real.sq_sqrt hMe.le]
    nlinarith
  have e0 : m0 = Real.sqrt m0 * Real.sqrt m0 := (Real.mul_self_sqrt hMe.le).symm
  have eM : M = Real.sqrt M * Real.sqrt M := (Real.mul_self_sqrt hM0.le).symm
  have q0 := Real.sqrt_pos.2 hMe
  have qM := Real.sqrt_pos.2 hM0
  have s2 : Real.sqrt 2 ≤ 1.4143 := by
    rw [Real.sqrt_le_left (by norm_num)]
    norm_num
  have s0 : 0 < Real.sqrt 2 := by positivity
  generalize Real.sqrt m0 = x at *
  generalize Real.sqrt M = y at *
  generalize Real.sqrt 2 = z at *
  refine ⟨by positivity, ?_⟩
  have hS : S = S' * (y * Pi) / (x * Pe) := by rw [eq_div_iff (by positivity)]; exact hr
  exact small_ratio hS (by linarith) (by linarith) pe1 pi1 pTi pTe q0 qM hM0 hm0 s0 (by linarith) v2 hmm e0 eM sq key s2

/-! ## The viscosities -/

/-- **C95.**  Ions, with all collisions switched on: `η = 4/3 · 0.96 n T τ_i` with Braginskii's ion collision time, less at most 5 % for the collisions with
the electrons, which that time does not contain. -/
theorem ion_viscosity_braginskii {k : CollNorms} (hk : Physical k) {co : CollOpts} (hii : co.ion_ion = true) (hei : co.electron_ion = true)
    (hm : co.ei_multiplier = 1) {w : World ι} {s : String} {c : ι} (hw : Simple k w s c) (hu : SourcesUnread w.st) {after : Store Key (Fld ι)}
    (h : SourceComponent.transform (collisions k co ["e", s]) w = (.ok (), after)) (o : IVOpts ι) (ho : o.eta_limit_alpha ≤ 0) (P V : Fld ι)
    (hP : P c = density w s c * temperature w s c) :
    ∃ Λ, |Λ - nrlII (temperature w s c * k.Tnorm) (density w s c * k.Nnorm)| ≤ 0.01 ∧
      let η := ivEta o (gain w.st after s Var.collision_frequency) P V c
      let braginskii := 4 / 3 * 0.96 * (density w s c * temperature w s c) * tauI k (density w s c * k.Nnorm) (mass w s * k.Mp) (temperature w s c * k.Tnorm) Λ
      0 < η ∧ 0.95 * braginskii ≤ η ∧ η ≤ braginskii := by
  obtain ⟨pi, pe, pn, pm⟩ := hw.pos hk
  obtain ⟨f1, f2⟩ := electrons_hardly_matter hk hw
  have hf := ion_frequency hk.Tnorm.ne' hii hei hm hw.name hw.charge hu h c
  have hO := hk.Omega_ci
  have hA : 0 < mass w s := by linarith [hw.heavy]
  obtain ⟨Λ, h1, h2, -, h4, h5⟩ := ion_time hk (A := mass w s) (T := temperature w s c) (n := density w "e" c) hA hw.cold hw.dense.1 hw.thin
  have p := spitzer_pos hk (n := density w "e" c * k.Nnorm) (by linarith [hw.dense.1]) (show 0 < mass w s * k.Mp from mul_pos hA hk.Mp)
    (show 0 < temperature w s c * k.Tnorm by linarith [hw.cold]) one_pos
  refine ⟨Λ, by rw [hw.neutral]; exact h1, ?_⟩
  dsimp only
  unfold ivEta
  simp only [if_neg (not_lt.2 ho)]
  rw [hf, hP, hw.neutral, max_eq_left hw.dense.2]
  rw [← h5]
  rw [h4] at f2 ⊢
  have s0 : 0 < Real.sqrt 2 := by positivity
  have hν : 0 < Λ * spitzer k (density w "e" c * k.Nnorm) 1 (mass w s * k.Mp) (temperature w s c * k.Tnorm) 1 / Real.sqrt 2 := by
    have : 0 < Λ := by linarith
    positivity
  generalize Λ * spitzer k (density w "e" c * k.Nnorm) 1 (mass w s * k.Mp) (temperature w s c * k.Tnorm) 1 / Real.sqrt 2 = ν at *
  have e : nuEI k 1 1 (mass w s) (temperature w "e" c * k.Tnorm) (density w "e" c * k.Nnorm) (temperature w s c * k.Tnorm) (density w "e" c * k.Nnorm) / k.Omega_ci *
      (mass w "e" / mass w s) * density w "e" c / density w "e" c + ν / k.Omega_ci =
      (nuEI k 1 1 (mass w s) (temperature w "e" c * k.Tnorm) (density w "e" c * k.Nnorm) (temperature w s c * k.Tnorm) (density w "e" c * k.Nnorm) *
        (mass w "e" / mass w s) + ν) / k.Omega_ci := by
    field_simp
  rw [e]
  generalize nuEI k 1 1 (mass w s) (temperature w "e" c * k.Tnorm) (density w "e" c * k.Nnorm) (temperature w s c * k.Tnorm) (density w "e" c * k.Nnorm) *
    (mass w "e" / mass w s) = x at *
  have hG : 0 < density w "e" c * temperature w s c := by positivity
  generalize density w "e" c * temperature w s c = G at *
  generalize k.Omega_ci = Ω at *
  have e1 : 1.28 * G * (1 / ((x + ν) / Ω)) = 1.28 * G * Ω / (x + ν) := by field_simp
  have e2 : 4 / 3 * 0.96 * G * (Ω / ν) = 1.28 * G * Ω / ν := by ring
  rw [e1, e2]
  have hy : 0 < 1.28 * G * Ω := by positivity
  generalize 1.28 * G * Ω = y at *
  refine ⟨by positivity, ?_, ?_⟩
  · rw [← mul_div_assoc, div_le_div_iff₀ hν (by linarith)]
    nlinarith
  · exact div_le_div_of_nonneg_left hy.le hν (by linarith)

omit [DecidableEq ι] in
/-- **C95.**  Electrons, with collisions among electrons switched off: `η = 4/3 · 0.73 n T τ_e` with Braginskii's electron collision time, within 1.1 %. -/
theorem electron_viscosity_braginskii {k : CollNorms} (hk : Physical k) {co : CollOpts} (hee : co.electron_electron = false) (hei : co.electron_ion = true)
    (hm : co.ei_multiplier = 1) {w : World ι} {s : String} {c : ι} (hw : Simple k w s c) (hu : SourcesUnread w.st) {after : Store Key (Fld ι)}
    (h : SourceComponent.transform (collisions k co ["e", s]) w = (.ok (), after)) (g : Line) (gradPar : Fld ℤ → Fld ℤ) {alpha : ℝ} (ha : alpha ≤ 0)
    (nu P V : Fld ℤ) (j : ℤ) (hnu : nu j = gain w.st after "e" Var.collision_frequency c) (hP : P j = density w "e" c * temperature w "e" c) :
    let T := temperature w "e" c * k.Tnorm
    let n := density w "e" c * k.Nnorm
    ∃ Λ, |Λ - (if Real.log T < 2 then nrlCold 1 T n else nrlHot T n)| ≤ 0.1 ∧
      let η := electronEta g gradPar alpha nu P V j
      let braginskii := 4 / 3 * 0.73 * (density w "e" c * temperature w "e" c) * tauE k n k.Me T Λ
      0 < η ∧ 0.999 * braginskii ≤ η ∧ η ≤ 1.011 * braginskii := by
  intro T n
  obtain ⟨pi, pe, pn, pm⟩ := hw.pos hk
  have hTn := hk.Tnorm
  have hO := hk.Omega_ci
  have hle : temperature w s c * k.Tnorm ≤ T := mul_le_mul_of_nonneg_right hw.colder hTn.le
  have hT : 1 ≤ T := by linarith [hw.cold]
  have hf := electron_collision_frequency k hTn.ne' co ["e", s] (by simp) w hu after h c
  rw [without_electron_electron hee hei hm hw.name.1 hw.charge c, hw.neutral] at hf
  obtain ⟨Λ, ee, he, he5⟩ := nuEI_range hk (A := mass w s) hw.heavy hT hw.hot (show 0.1 ≤ temperature w s c * k.Tnorm by linarith [hw.cold]) (by linarith)
    hw.dense.1 hw.thin
  obtain ⟨v1, v2⟩ := moving_near_one (m1 := k.Me) (m2 := k.Mp * mass w s) (T1 := T) (T2 := temperature w s c * k.Tnorm) hk.Me
    (by nlinarith [hk.heavy, hk.Me, hw.heavy]) (by linarith) (by linarith [hw.cold]) (by linarith)
  have p := spitzer_pos hk (n := n) (m := k.Me) (T := T) (Λ := Λ) (by linarith [hw.dense.1]) hk.Me (by linarith) (by linarith)
  refine ⟨Λ, ?_, ?_⟩
  · have hn : 0 < n := by linarith [hw.dense.1]
    have l1 := log10_lt
    have l2 := log10_gt
    rw [he]
    unfold nrlCold nrlHot
    rw [log_sqrt_density hn, Real.log_one, abs_le]
    split_ifs <;> constructor <;> linarith
  · dsimp only
    unfold electronEta
    simp only [if_neg (not_lt.2 ha)]
    rw [hnu, hf, hP, ee]
    unfold tauE
    change 0 < 4 / 3 * 0.73 * _ * (1 / (spitzer k n 1 k.Me T Λ * moving k.Me (k.Mp * mass w s) T (temperature w s c * k.Tnorm) / k.Omega_ci)) ∧ _ ≤
      4 / 3 * 0.73 * _ * (1 / (spitzer k n 1 k.Me T Λ * moving k.Me (k.Mp * mass w s) T (temperature w s c * k.Tnorm) / k.Omega_ci)) ∧
      4 / 3 * 0.73 * _ * (1 / (spitzer k n 1 k.Me T Λ * moving k.Me (k.Mp * mass w s) T (temperature w s c * k.Tnorm) / k.Omega_ci)) ≤ _
    generalize moving k.Me (k.Mp * mass w s) T (temperature w s c * k.Tnorm) = m at *
    generalize spitzer k n 1 k.Me T Λ = S at *
    have hG : 0 < density w "e" c * temperature w "e" c := by positivity
    generalize density w "e" c * temperature w "e" c = G at *
    generalize k.Omega_ci = Ω at *
    have hm0 : 0 < m := by linarith
    have e1 : 4 / 3 * 0.73 * G * (1 / (S * m / Ω)) = 4 / 3 * 0.73 * G * (Ω / S) * (1 / m) := by field_simp
    rw [e1]
    have hy : 0 < 4 / 3 * 0.73 * G * (Ω / S) := by positivity
    generalize 4 / 3 * 0.73 * G * (Ω / S) = y at *
    have a : 0.999 ≤ 1 / m := by rw [le_div_iff₀ hm0]; linarith
    have b : 1 / m ≤ 1.011 := by rw [div_le_iff₀ hm0]; linarith
    exact ⟨by positivity, by nlinarith, by nlinarith⟩

omit [DecidableEq ι] in
/-- **C95.**  With the collisions among electrons, as by default, the viscosity of the electrons is less than six tenths of that value. -/
theorem default_electron_viscosity {k : CollNorms} (hk : Physical k) {co : CollOpts} (hei : co.electron_ion = true) (hm : co.ei_multiplier = 1) {w : World ι}
    {s : String} {c : ι} (hw : Simple k w s c) (hu : SourcesUnread w.st) {after after' : Store Key (Fld ι)}
    (h : SourceComponent.transform (collisions k { co with electron_electron := true } ["e", s]) w = (.ok (), after))
    (h' : SourceComponent.transform (collisions k { co with electron_electron := false } ["e", s]) w = (.ok (), after'))
    (g : Line) (gradPar : Fld ℤ → Fld ℤ) {alpha : ℝ} (ha : alpha ≤ 0) (nu nu' P V : Fld ℤ) (j : ℤ)
    (hnu : nu j = gain w.st after "e" Var.collision_frequency c) (hnu' : nu' j = gain w.st after' "e" Var.collision_frequency c)
    (hP : P j = density w "e" c * temperature w "e" c) :
    0 < electronEta g gradPar alpha nu P V j ∧ electronEta g gradPar alpha nu P V j ≤ 0.6 * electronEta g gradPar alpha nu' P V j := by
  obtain ⟨pi, pe, pn, pm⟩ := hw.pos hk
  have hTn := hk.Tnorm
  have hle : temperature w s c * k.Tnorm ≤ temperature w "e" c * k.Tnorm := mul_le_mul_of_nonneg_right hw.colder hTn.le
  have d := default_conducts_less hk hei hm hw.name.1 hw.charge hw.heavy c pm (by linarith [hw.cold]) hw.hot (by linarith [hw.cold])
    (by linarith [hw.colder]) hw.neutral hw.dense.1 hw.thin
  have hf := electron_collision_frequency k hTn.ne' _ ["e", s] (by simp) w hu after h c
  have hf' := electron_collision_frequency k hTn.ne' _ ["e", s] (by simp) w hu after' h' c
  dsimp only at d
  rw [← hf, ← hf', ← hnu, ← hnu'] at d
  unfold electronEta
  simp only [if_neg (not_lt.2 ha)]
  rw [hP]
  obtain ⟨d1, d2⟩ := d
  have hG : 0 < density w "e" c * temperature w "e" c := by positivity
  generalize density w "e" c * temperature w "e" c = G at *
  generalize 1 / nu j = x at *
  generalize 1 / nu' j = x' at *
  generalize mass w "e" = m at *
  have e : ∀ x, 4 / 3 * 0.73 * G * x = (4 / 3 * 0.73 / 3.16 * m) * (3.16 * G * x / m) := fun x => by field_simp
  rw [e x, e x']
  have hc : 0 < 4 / 3 * 0.73 / 3.16 * m := by positivity
  refine ⟨mul_pos hc d1, ?_⟩
  have := mul_le_mul_of_nonneg_left d2 hc.le
  linarith

/-- The plasma of the examples of C91: electrons of 300 eV and deuterons of 200 eV. -/
example : Simple si plasma "d+" () ∧ SourcesUnread plasma.st ∧
    ∀ o, ∃ after, SourceComponent.transform (collisions si o ["e", "d+"]) plasma = (.ok (), after) := by
  have T1 : temperature plasma "e" () = 3 := by simp [temperature, plasma, Collisions.gas]
  have T2 : temperature plasma "d+" () = 2 := by simp [temperature, plasma, Collisions.gas]
  have N : ∀ s, density plasma s () = 1 := fun s => by simp [density, plasma, Collisions.gas]
  have A1 : mass plasma "e" = 1 / 1836 := by simp [mass, plasma, Collisions.gas]
  have A2 : mass plasma "d+" = 2 := by simp [mass, plasma, Collisions.gas]
  have Z : charge plasma "d+" = 1 := by simp [charge, plasma, Collisions.gas]
  have hr : Ready si ["e", "d+"] plasma := by
    refine gas_ready (by norm_num [si]) ?_ ?_ ?_
    · intro s _; split <;> norm_num
    · intro s _; split <;> norm_num
    · intro s _ hs z hz
      simp only [hs, if_false] at hz
      split at hz <;> cases hz; norm_num
  refine ⟨⟨by decide, Z, by rw [A2]; norm_num, by rw [A1]; norm_num [si, abs_le], by rw [T2]; norm_num [si], by rw [T1, T2]; norm_num,
    by rw [T1]; norm_num [si], by rw [N, N], by rw [N]; norm_num [si], by rw [N]; norm_num [si]⟩, gas_unread,
    fun o => collisions_succeed si o _ _ hr gas_unread⟩

end Hermes.Viscosity
