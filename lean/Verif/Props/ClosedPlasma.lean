import Verif.Props.Nuclei
import Verif.Props.Collisions
import Verif.Props.Reactions

/-!
# C83: a plasma on closed field lines keeps its momentum and energy

One evaluation of the right-hand side for ions and neutrals `S` (each with `evolve_density`, `evolve_momentum`, `evolve_pressure`) and electrons `"e"`
(`evolve_pressure`), with `electron_force_balance`, and with collisions, thermal forces and reactions in between.  What a component gives to one species it
takes from the others (C26, C27, C32, C33), the electric field hands the force on the electrons to the ions (C21), and the equations move momentum and energy
along the field (C61, C62).  Here the parts are put together.

The energy of the plasma is `Σ_S ∫ (3/2 P + AA N V²/2) + ∫ 3/2 Pe`; the electrons have no inertia.
-/

namespace Hermes.ClosedPlasma
open Finset Hermes Hermes.Limiters Hermes.PerpOps Hermes.Rhs Hermes.DensityEquation Hermes.PressureEquation Hermes.MomentumEquation Hermes.Closures

variable {nz : ℕ} [NeZero nz]

/-- Cells of the domain. -/
def Inside (g : Grid) (p : Cell nz) : Prop := (g.xstart ≤ p.1 ∧ p.1 ≤ g.xend) ∧ g.ystart ≤ p.2.1 ∧ p.2.1 ≤ g.yend

/-- `Grad_par` of a field given cell by cell. -/
def gradCells (B : RhsOps nz) (f : Fld (Cell nz)) : Fld (Cell nz) := (B.gradPar (asF3 f)).cells

/-- A component that was run on a state, as a pair of the component and that state. -/
abbrev Exchange (nz : ℕ) := SourceComponent (Cell nz) × World (Cell nz)

/-- What it added to variable `v` of species `n`. -/
def Exchange.given (x : Exchange nz) (n : String) (v : Var) (p : Cell nz) : ℝ := gain x.2.st (x.1.transform x.2).2 n v p

/-- The sources of all species: what came from elsewhere, and what the components added, which all saw the velocities and masses of this state. -/
structure Sources (g : Grid) (names : List String) (st : Store Key (Value (Cell nz))) (ext : String → Var → Fld (Cell nz)) (parts : List (Exchange nz)) :
    Prop where
  ran : ∀ x ∈ parts, (x.1.transform x.2).1 = .ok ()
  unread : ∀ x ∈ parts, SourcesUnread x.2.st
  same : ∀ x ∈ parts, ∀ n ∈ names, mass x.2 n = realOf st n .AA ∧ ∀ p, Inside g p → velocity x.2 n p = fieldOf st n .velocity p
  sum : ∀ n ∈ names, ∀ v ∈ [Var.density_source, Var.momentum_source, Var.energy_source], ∀ p, Inside g p →
    fieldOf st n v p = ext n v p + (parts.map fun x => x.given n v p).sum

/-- `electron_force_balance` was run on a quasineutral plasma. -/
structure Balanced (g : Grid) (B : RhsOps nz) (S names : List String) (st st' : Store Key (Value (Cell nz))) (Epar : Fld (Cell nz)) : Prop where
  nodup : names.Nodup
  all : names.Perm ("e" :: S)
  ran : electronForceBalance (gradCells B) names st = (.ok Epar, st')
  neutral : ∀ p, Inside g p → (names.map fun n => chargeDensity st n p).sum = 0
  dense : ∀ p, Inside g p → 1e-5 ≤ fieldOf st "e" .density p

/-- The pressure force on a species, if it has a pressure. -/
noncomputable def pressureForce (B : RhsOps nz) (st : Store Key (Value (Cell nz))) (n : String) : F3 nz :=
  match readF3 st (.sp n .pressure) with
  | none => 0
  | some P => -B.gradPar P

theorem getD_readF3 (st : Store Key (Value (Cell nz))) (n : String) (v : Var) : (readF3 st (.sp n v)).getD 0 = asF3 (fieldOf st n v) := by
  cases h : readF3 st (.sp n v) with
  | none => rw [Nuclei.readF3_none h]; rfl
  | some f => rw [Nuclei.readF3_some h]; rfl

omit [NeZero nz] in
theorem content_inside {g : Grid} {a b : Fld (Cell nz)} (h : ∀ p, Inside g p → a p = b p) : content g (asF3 a) = content g (asF3 b) :=
  content_congr fun i j hi hj => Finset.sum_congr rfl fun k _ => h (i, j, k) ⟨hi, hj⟩

theorem content_sum (g : Grid) (l : List String) (a : String → Fld (Cell nz)) :
    (l.map fun n => content g (asF3 (a n))).sum = content g (asF3 fun p => (l.map fun n => a n p).sum) := by
  have := Nuclei.content_list g (l.map a)
  simp only [List.map_map] at this
  exact this.symm

theorem content_sum3 (g : Grid) (l : List String) (a : String → F3 nz) :
    (l.map fun n => content g (a n)).sum = content g (fun i j k => (l.map fun n => a n i j k).sum) := content_sum g l fun n => (a n).cells

section
variable {g : Grid} {B : RhsOps nz} {S names : List String} {st st' : Store Key (Value (Cell nz))} {Epar : Fld (Cell nz)}

omit [NeZero nz] in
theorem Balanced.electron_notMem (h : Balanced g B S names st st' Epar) : "e" ∉ S := (List.nodup_cons.1 (h.all.nodup_iff.1 h.nodup)).1

omit [NeZero nz] in
theorem Balanced.others (h : Balanced g B S names st st' Epar) : (names.filter (· ≠ "e")).Perm S := by
  have hp := h.all.filter (· ≠ "e")
  rw [List.filter_cons_of_neg (by simp)] at hp
  refine hp.trans (List.Perm.of_eq (List.filter_eq_self.2 fun n hn => ?_))
  simpa using fun e : n = "e" => h.electron_notMem (e ▸ hn)

omit [NeZero nz] in
/-- What the electric field does, in terms of `S`. -/
theorem Balanced.field (h : Balanced g B S names st st' Epar) :
    (∀ n ∈ S, ∀ p, fieldOf st' n .momentum_source p = fieldOf st n .momentum_source p + chargeDensity st n p * Epar p) ∧
    (∀ p, Inside g p → chargeDensity st "e" p * Epar p = gradCells B (fieldOf st "e" .pressure) p - fieldOf st "e" .momentum_source p) ∧
    OnlyChanges st st' (S.map fun n => .sp n .momentum_source) ∧ realOf st "e" .charge = -1 ∧ vals st (.top "fields:phi") = none := by
  obtain ⟨h1, h2, -, h4⟩ := electron_force_balance (gradCells B) names h.nodup st st' Epar h.ran
  refine ⟨fun n hn p => ?_, fun p hp => ?_, fun k hk => h4 k fun hk' => hk ?_, ?_, ?_⟩
  · have := h2 n (h.others.mem_iff.2 hn) p
    unfold added at this
    linarith
  · linarith [h1 p (h.dense p hp)]
  · exact ((h.others.map _).mem_iff).1 hk'
  · have h := h.ran
    unfold electronForceBalance at h
    obtain ⟨s1, e1, h⟩ := isSetFinal_bind h
    obtain ⟨-, h⟩ := throwIf_bind h
    obtain ⟨s2, e2, h⟩ := getF_bind h
    obtain ⟨s3, e3, h⟩ := getNoBndryF_bind h
    obtain ⟨s4, e4, h⟩ := getR_bind h
    obtain ⟨hZ, h⟩ := throwIf_bind h
    rw [vals_realOf (e3.trans (e2.trans e1)), not_not] at hZ
    exact hZ
  · have h := h.ran
    unfold electronForceBalance at h
    obtain ⟨s1, e1, h⟩ := isSetFinal_bind h
    obtain ⟨hp, -⟩ := throwIf_bind h
    cases hv : vals st (.top "fields:phi") with
    | none => rfl
    | some x => rw [hv] at hp; exact absurd rfl hp

omit [NeZero nz] in
/-- The charges of `S` together are minus that of the electrons. -/
theorem Balanced.charges (h : Balanced g B S names st st' Epar) {p : Cell nz} (hp : Inside g p) :
    (S.map fun n => chargeDensity st n p).sum = -chargeDensity st "e" p := by
  have := h.neutral p hp
  rw [(h.all.map _).sum_eq, List.map_cons, List.sum_cons] at this
  linarith

theorem Balanced.read (h : Balanced g B S names st st' Epar) {n : String} {v : Var} (hv : v ≠ .momentum_source) :
    readF3 st' (.sp n v) = readF3 st (.sp n v) := by
  have := h.field.2.2.1 (.sp n v) (by
    intro hk
    obtain ⟨m, -, e⟩ := List.mem_map.1 hk
    cases e
    exact hv rfl)
  unfold vals at this
  unfold readF3
  rw [this]

theorem Balanced.read_electron (h : Balanced g B S names st st' Epar) (v : Var) : readF3 st' (.sp "e" v) = readF3 st (.sp "e" v) := by
  have := h.field.2.2.1 (.sp "e" v) (by
    intro hk
    obtain ⟨m, hm, e⟩ := List.mem_map.1 hk
    cases e
    exact h.electron_notMem hm)
  unfold vals at this
  unfold readF3
  rw [this]

theorem Balanced.phi (h : Balanced g B S names st st' Epar) : (fieldsIn st').phi = none := by
  have := h.field.2.2.1 (.top "fields:phi") (by
    intro hk
    obtain ⟨m, hm, e⟩ := List.mem_map.1 hk
    cases e)
  rw [h.field.2.2.2.2] at this
  unfold vals at this
  show readF3 st' (.top "fields:phi") = none
  unfold readF3
  rw [this]
  rfl

/-! ## Momentum -/

/-- The momentum equation of a species on closed field lines, without dissipation across the field. -/
structure MovesAlong (o : MomentumOpts) (g : Grid) (B : RhsOps nz) (lim : Limiter) (NV_err : F3 nz) (s : SpeciesIn nz) (f : FieldsIn nz) (r : F3 nz) : Prop where
  still : f.scale_timederivs = none ∧ f.Apar_flutter = none ∧ f.Apar = none
  radial : o.bndry_flux = false
  fixed : o.fix_momentum_boundary_flux = true
  low : s.low_n_coeff = none ∧ o.low_n_diffuse_perp = false ∧ o.low_p_diffuse_perp = false
  closed : ∃ V, s.velocity = some V ∧ ∀ i, g.xstart ≤ i ∧ i ≤ g.xend → ClosedEnds g B V i
  exact_momentum : NV_err = 0
  eval : momentumRhs o g B lim NV_err s f = .ok r

theorem content_moves {o : MomentumOpts} (hg : Regular g) (hs : Separable g) (hB : Assumed g B) {lim : Limiter} {NV_err : F3 nz} {n : String} {r : F3 nz}
    (hb : Balanced g B S names st st' Epar) (h : MovesAlong o g B lim NV_err (speciesIn st' n) (fieldsIn st') r) :
    content g r = content g (asF3 (fieldOf st' n .momentum_source)) + content g (pressureForce B st n) := by
  obtain ⟨V, hV, hc⟩ := h.closed
  rw [momentum_balance_partial hg hs hB h.still.1 h.still.2.1 h.still.2.2 h.radial h.fixed h.low.1 h.low.2.1 h.low.2.2 hV hc h.eval]
  unfold force
  rw [hb.phi, h.exact_momentum]
  have e1 : (speciesIn st' n).momentum_source.getD 0 = asF3 (fieldOf st' n .momentum_source) := getD_readF3 st' n _
  have e2 : momentumPressure B (speciesIn st' n) = pressureForce B st n := by
    unfold momentumPressure pressureForce
    have : (speciesIn st' n).pressure = readF3 st (.sp n .pressure) := hb.read (by decide)
    rw [this]
    cases readF3 st (.sp n .pressure) <;> rfl
  rw [e1, e2]
  simp only [add_zero, content_add]

/-- **C83.**  Total momentum on closed field lines.  Whatever the components in `parts` are: if each of them gives the species together no momentum, then the
momentum of all ions and neutrals together changes by the momentum sources from elsewhere (those on the electrons included) and by the pressure forces on all
species, electrons included, and by nothing else.  For every state, geometry, limiter, number of cells and list of species. -/
theorem total_momentum (hg : Regular g) (hs : Separable g) (hB : Assumed g B) {lim : Limiter} {o : String → MomentumOpts} {NV_err rM : String → F3 nz}
    {ext : String → Var → Fld (Cell nz)} {parts : List (Exchange nz)} (hb : Balanced g B S names st st' Epar) (hsrc : Sources g names st ext parts)
    (hz : ∀ x ∈ parts, ∀ p, (names.map fun n => x.given n .momentum_source p).sum = 0)
    (hm : ∀ n ∈ S, MovesAlong (o n) g B lim (NV_err n) (speciesIn st' n) (fieldsIn st') (rM n)) :
    (S.map fun n => content g (rM n)).sum
      = (names.map fun n => content g (asF3 (ext n .momentum_source)) + content g (pressureForce B st n)).sum := by
  obtain ⟨f1, f2, -, f4, -⟩ := hb.field
  have e1 : (S.map fun n => content g (rM n)) = S.map fun n => content g (asF3 (fieldOf st' n .momentum_source)) + content g (pressureForce B st n) :=
    List.map_congr_left fun n hn => content_moves hg hs hB hb (hm n hn)
  rw [e1, List.sum_map_add, List.sum_map_add, (hb.all.map fun n => content g (pressureForce B st n)).sum_eq, List.map_cons, List.sum_cons,
    content_sum g S, content_sum g names]
  -- the pressure of the electrons
  have e2 : content g (pressureForce B st "e") = content g (asF3 fun p => -gradCells B (fieldOf st "e" .pressure) p) := by
    unfold pressureForce
    cases hP : readF3 st (.sp "e" .pressure) with
    | some P =>
      dsimp only
      rw [← Nuclei.readF3_some hP]
      rfl
    | none =>
      exfalso
      have h := hb.ran
      unfold electronForceBalance at h
      obtain ⟨s1, e1, h⟩ := isSetFinal_bind h
      obtain ⟨-, h⟩ := throwIf_bind h
      obtain ⟨Pe, s2, h2, -, -⟩ := (den_get asField (Key.sp "e" .pressure)).bind_ok h
      obtain ⟨x, hx, hx'⟩ := readVal_asField h2
      rw [e1] at hx
      unfold vals at hx
      unfold readF3 at hP
      rw [hx, Option.bind_some, hx'] at hP
      cases hP
  have cell : ∀ p, Inside g p → (S.map fun n => fieldOf st' n .momentum_source p).sum
      = (names.map fun n => ext n .momentum_source p).sum + -gradCells B (fieldOf st "e" .pressure) p := by
    intro p hp
    have a1 : (S.map fun n => fieldOf st' n .momentum_source p) = S.map fun n => fieldOf st n .momentum_source p + chargeDensity st n p * Epar p :=
      List.map_congr_left fun n hn => f1 n hn p
    rw [a1, List.sum_map_add, List.sum_map_mul_right, hb.charges hp]
    have a2 : (names.map fun n => fieldOf st n .momentum_source p).sum = (names.map fun n => ext n .momentum_source p).sum := by
      have : (names.map fun n => fieldOf st n .momentum_source p)
          = names.map fun n => ext n .momentum_source p + (parts.map fun x => x.given n .momentum_source p).sum :=
        List.map_congr_left fun n hn => hsrc.sum n hn _ (by simp) p hp
      rw [this, List.sum_map_add]
      have z : (names.map fun n => (parts.map fun x => x.given n .momentum_source p).sum).sum = 0 := by
        have hz' : ∀ x ∈ parts, (names.map fun n => x.given n .momentum_source p).sum = 0 := fun x hx => hz x hx p
        clear this hsrc hz
        induction parts with
        | nil => simp
        | cons x l ih =>
          simp only [List.map_cons, List.sum_cons]
          rw [List.sum_map_add, hz' x List.mem_cons_self, ih fun y hy => hz' y (List.mem_cons_of_mem _ hy), add_zero]
      rw [z, add_zero]
    rw [(hb.all.map _).sum_eq, List.map_cons, List.sum_cons] at a2
    linarith [f2 p hp]
  rw [content_inside cell, e2]
  have : (asF3 fun p => (names.map fun n => ext n .momentum_source p).sum + -gradCells B (fieldOf st "e" .pressure) p : F3 nz)
      = asF3 (fun p => (names.map fun n => ext n .momentum_source p).sum) + asF3 fun p => -gradCells B (fieldOf st "e" .pressure) p := rfl
  rw [this, content_add]
  ring

/-! ## Energy -/

/-- Density, momentum and pressure equation of a species on closed field lines. -/
structure FluidAlong (oN : DensityOpts) (oP : PressureOpts) (oM : MomentumOpts) (g : Grid) (B : RhsOps nz) (lim : Limiter) (N₀ P₀ NV_err source : F3 nz)
    (s : SpeciesIn nz) (f : FieldsIn nz) (AA : ℝ) (N V w rN rM rP : F3 nz) : Prop where
  dynamics : ∃ P T, ParallelDynamics oN oP oM B N₀ P₀ NV_err s f AA N V P T
  wave : waveSpeed s f = .ok w
  closed : ∀ i, g.xstart ≤ i ∧ i ≤ g.xend → ClosedEnds g B V i
  density : densityRhs oN g B lim N₀ s f = .ok rN
  momentum : momentumRhs oM g B lim NV_err s f = .ok rM
  pressure : pressureRhs oP g B lim P₀ source s f = .ok rP

/-- Pressure equation of the electrons on closed field lines. -/
structure HeatAlong (o : PressureOpts) (g : Grid) (B : RhsOps nz) (lim : Limiter) (P₀ source : F3 nz) (s : SpeciesIn nz) (f : FieldsIn nz) (r : F3 nz) : Prop where
  still : f.scale_timederivs = none ∧ f.Apar_flutter = none
  form : o.p_div_v = false ∧ o.numerical_viscous_heating = false
  state : ∃ N V P T, s.density = some N ∧ s.velocity = some V ∧ s.pressure = some P ∧ s.temperature = some T ∧ B.setBoundaryTo P₀ P = P ∧ N * T = P ∧
    Insulated o g B s f P T N
  eval : pressureRhs o g B lim P₀ source s f = .ok r

/-- Numerical loss of kinetic energy of a species, or excess of the numerical heating. -/
noncomputable def numericalHeat (oP : PressureOpts) (g : Grid) (B : RhsOps nz) (lim : Limiter) (AA : ℝ) (N V w : F3 nz) : ℝ :=
  AA * ∑ i ∈ Icc g.xstart g.xend, ∑ k, (if oP.numerical_viscous_heating then lineExcess g B lim N V w i k else -lineLoss g B lim N V w i k)

/-- Power given to species `n` by sources of particles, momentum and energy: `Q + V F - m V²/2 S`; the electrons have no inertia. -/
noncomputable def power (st : Store Key (Value (Cell nz))) (source : Var → Fld (Cell nz)) (n : String) (p : Cell nz) : ℝ :=
  source .energy_source p + fieldOf st n .velocity p * source .momentum_source p
    - if n = "e" then 0 else 1 / 2 * realOf st n .AA * fieldOf st n .velocity p ^ 2 * source .density_source p

omit [NeZero nz] in
theorem power_add (st : Store Key (Value (Cell nz))) (a b : Var → Fld (Cell nz)) (n : String) (p : Cell nz) :
    power st (fun v p => a v p + b v p) n p = power st a n p + power st b n p := by
  unfold power
  split_ifs <;> ring

omit [NeZero nz] in
theorem power_sum (st : Store Key (Value (Cell nz))) (l : List (Exchange nz)) (n : String) (p : Cell nz) :
    power st (fun v p => (l.map fun x => x.given n v p).sum) n p = (l.map fun x => power st (x.given n) n p).sum := by
  induction l with
  | nil => simp [power]
  | cons x l ih =>
    simp only [List.map_cons, List.sum_cons]
    rw [← ih]
    exact power_add st (x.given n) (fun v p => (l.map fun x => x.given n v p).sum) n p

theorem read_number (hb : Balanced g B S names st st' Epar) {n : String} {AA : ℝ} (h : (speciesIn st' n).AA = some AA) : realOf st n .AA = AA := by
  have h0 := hb.field.2.2.1 (.sp n .AA) (by
    intro hk
    obtain ⟨m, -, e⟩ := List.mem_map.1 hk
    cases e)
  have h : (st'.ent (.sp n .AA)).val.bind asReal = some AA := h
  unfold vals at h0
  rw [h0] at h
  unfold realOf vals
  rw [h]
  rfl

theorem velocity_read (hb : Balanced g B S names st st' Epar) {n : String} {V : F3 nz} (h : (speciesIn st' n).velocity = some V) :
    asF3 (fieldOf st n .velocity) = V := by
  have h : readF3 st' (.sp n .velocity) = some V := h
  rw [hb.read (by decide)] at h
  exact Nuclei.readF3_some h

/-- The energy of one species of ions or neutrals: the sources of the state and the work of the electric field. -/
theorem content_fluid (hg : Regular g) (hs : Separable g) {σ} (hσ : Relabels B σ) {lim : Limiter} {oN : DensityOpts} {oP : PressureOpts} {oM : MomentumOpts}
    {N₀ P₀ NV_err source N V w rN rM rP : F3 nz} {AA : ℝ} {n : String} (hb : Balanced g B S names st st' Epar) (hn : n ∈ S)
    (h : FluidAlong oN oP oM g B lim N₀ P₀ NV_err source (speciesIn st' n) (fieldsIn st') AA N V w rN rM rP) :
    content g (energyRate AA V rN rM rP) = 3 / 2 * content g source
      + content g (asF3 fun p => power st (fieldOf st n) n p + fieldOf st n .velocity p * (chargeDensity st n p * Epar p))
      + numericalHeat oP g B lim AA N V w := by
  obtain ⟨P, T, hd⟩ := h.dynamics
  rw [species_energy_partial hg hs hσ hd h.wave h.closed h.density h.momentum h.pressure]
  unfold numericalHeat
  congr 1
  have ne : n ≠ "e" := fun e => hb.electron_notMem (e ▸ hn)
  have e1 : (speciesIn st' n).energy_source.getD 0 = asF3 (fieldOf st n .energy_source) := by
    rw [← getD_readF3, ← hb.read (by decide)]; rfl
  have e2 : (speciesIn st' n).density_source.getD 0 = asF3 (fieldOf st n .density_source) := by
    rw [← getD_readF3, ← hb.read (by decide)]; rfl
  have e3 : (speciesIn st' n).momentum_source.getD 0 = asF3 (fieldOf st' n .momentum_source) := getD_readF3 st' n _
  have eV := velocity_read hb hd.hasV
  have eA := read_number hb hd.hasAA
  have key : energySources (speciesIn st' n) AA V source = (3 / 2 : ℝ) • source
      + asF3 fun p => power st (fieldOf st n) n p + fieldOf st n .velocity p * (chargeDensity st n p * Epar p) := by
    unfold energySources
    rw [e1, e2, e3, ← eV]
    funext i j k
    simp only [Pi.add_apply, Pi.sub_apply, Pi.mul_apply, Pi.smul_apply, smul_eq_mul, asF3, power, if_neg ne, eA, hb.field.1 n hn]
    ring
  rw [key, content_add, content_smul']

/-- The thermal energy of the electrons: sources, and the work of their flow against their pressure. -/
theorem content_heat (hg : Regular g) (hs : Separable g) (hB : Assumed g B) {lim : Limiter} {o : PressureOpts} {P₀ source r : F3 nz}
    (hb : Balanced g B S names st st' Epar) (h : HeatAlong o g B lim P₀ source (speciesIn st' "e") (fieldsIn st') r) :
    3 / 2 * content g r = 3 / 2 * content g source
      + content g (asF3 fun p => fieldOf st "e" .energy_source p + fieldOf st "e" .velocity p * gradCells B (fieldOf st "e" .pressure) p) := by
  obtain ⟨N, V, P, T, hN, hV, hP, hT, h0, h1, hi⟩ := h.state
  rw [thermal_energy_balance_partial hg hs hB h.still.1 h.still.2 hP hT hN (by rw [h0]; exact hi) h.eval, h0, h1]
  have e1 : (speciesIn st' "e").energy_source.getD 0 = asF3 (fieldOf st "e" .energy_source) := by
    rw [← getD_readF3, ← hb.read (by decide)]; rfl
  have e2 : work o B (speciesIn st' "e") P = asF3 fun p => fieldOf st "e" .velocity p * gradCells B (fieldOf st "e" .pressure) p := by
    unfold work
    rw [hV, h.form.1, ← velocity_read hb hV]
    have hP' : readF3 st' (.sp "e" .pressure) = some P := hP
    rw [hb.read (by decide)] at hP'
    rw [← Nuclei.readF3_some hP']
    rfl
  have e3 : viscousHeating o g B lim (speciesIn st' "e") (fieldsIn st') N = 0 := by
    unfold viscousHeating
    rw [h.form.2]
    split <;> rfl
  rw [e1, e2, e3, sub_self, content_zero, add_assoc _ (content g (asF3 (fieldOf st "e" .energy_source))), ← content_add]
  simp only [mul_zero, add_zero]
  rfl

/-- **C83.**  Total energy on closed field lines, with zero parallel current.  The energy of all species together changes by the power of the input and of
other sources, by the power of the components in `parts`, summed over all species, and by the numerical heating of each species; the work that the electric
field does on the ions is what the flow of the electrons does against their pressure and the forces on them.  For every state, geometry, limiter, number of cells
and list of species. -/
theorem total_energy (hg : Regular g) (hs : Separable g) {σ} (hσ : Relabels B σ) (hB : Assumed g B) {lim : Limiter} {oN : String → DensityOpts}
    {oP : String → PressureOpts} {oM : String → MomentumOpts} {N₀ P₀ NV_err source N V w rN rM rP : String → F3 nz} {AA : String → ℝ}
    {ext : String → Var → Fld (Cell nz)} {parts : List (Exchange nz)} (hb : Balanced g B S names st st' Epar) (hsrc : Sources g names st ext parts)
    (hj : ∀ p, Inside g p → (names.map fun n => currentDensity st n p).sum = 0)
    (hf : ∀ n ∈ S, FluidAlong (oN n) (oP n) (oM n) g B lim (N₀ n) (P₀ n) (NV_err n) (source n) (speciesIn st' n) (fieldsIn st') (AA n) (N n) (V n) (w n)
      (rN n) (rM n) (rP n))
    (he : HeatAlong (oP "e") g B lim (P₀ "e") (source "e") (speciesIn st' "e") (fieldsIn st') (rP "e")) :
    (S.map fun n => content g (energyRate (AA n) (V n) (rN n) (rM n) (rP n))).sum + 3 / 2 * content g (rP "e")
      = (names.map fun n => 3 / 2 * content g (source n) + content g (asF3 (power st (ext n) n))).sum
        + (parts.map fun x => content g (asF3 fun p => (names.map fun n => power st (x.given n) n p).sum)).sum
        + (S.map fun n => numericalHeat (oP n) g B lim (AA n) (N n) (V n) (w n)).sum := by
  obtain ⟨f1, f2, -, f4, -⟩ := hb.field
  have e1 : (S.map fun n => content g (energyRate (AA n) (V n) (rN n) (rM n) (rP n)))
      = S.map fun n => (3 / 2 * content g (source n)
        + content g (asF3 fun p => power st (fieldOf st n) n p + fieldOf st n .velocity p * (chargeDensity st n p * Epar p)))
        + numericalHeat (oP n) g B lim (AA n) (N n) (V n) (w n) :=
    List.map_congr_left fun n hn => content_fluid hg hs hσ hb hn (hf n hn)
  rw [e1, List.sum_map_add, List.sum_map_add, content_heat hg hs hB hb he, List.sum_map_add, (hb.all.map fun n => 3 / 2 * content g (source n)).sum_eq,
    List.map_cons, List.sum_cons, content_sum g S, content_sum g names]
  -- cell by cell
  have cell : ∀ p, Inside g p → (S.map fun n => power st (fieldOf st n) n p + fieldOf st n .velocity p * (chargeDensity st n p * Epar p)).sum
      + (fieldOf st "e" .energy_source p + fieldOf st "e" .velocity p * gradCells B (fieldOf st "e" .pressure) p)
      = (names.map fun n => power st (ext n) n p).sum + (parts.map fun x => (names.map fun n => power st (x.given n) n p).sum).sum := by
    intro p hp
    have a1 : (names.map fun n => power st (fieldOf st n) n p).sum
        = (names.map fun n => power st (ext n) n p).sum + (parts.map fun x => (names.map fun n => power st (x.given n) n p).sum).sum := by
      have : (names.map fun n => power st (fieldOf st n) n p)
          = names.map fun n => power st (ext n) n p + (parts.map fun x => power st (x.given n) n p).sum := by
        refine List.map_congr_left fun n hn => ?_
        rw [← power_sum, ← power_add]
        unfold power
        rw [hsrc.sum n hn .energy_source (by simp) p hp, hsrc.sum n hn .momentum_source (by simp) p hp, hsrc.sum n hn .density_source (by simp) p hp]
      rw [this, List.sum_map_add]
      congr 1
      clear this hsrc
      induction parts with
      | nil => simp
      | cons x l ih => simp only [List.map_cons, List.sum_cons]; rw [List.sum_map_add, ih]
    have a2 : (S.map fun n => fieldOf st n .velocity p * (chargeDensity st n p * Epar p)).sum
        = fieldOf st "e" .velocity p * (-(chargeDensity st "e" p * Epar p)) := by
      have h0 := hj p hp
      rw [(hb.all.map _).sum_eq, List.map_cons, List.sum_cons] at h0
      have : (S.map fun n => fieldOf st n .velocity p * (chargeDensity st n p * Epar p)) = S.map fun n => currentDensity st n p * Epar p :=
        List.map_congr_left fun n _ => by unfold currentDensity chargeDensity; ring
      rw [this, List.sum_map_mul_right, eq_neg_of_add_eq_zero_right h0]
      unfold currentDensity chargeDensity
      ring
    rw [← a1, (hb.all.map _).sum_eq, List.map_cons, List.sum_cons, List.sum_map_add, a2, f2 p hp]
    unfold power
    simp only [if_true]
    ring
  have cell' := content_inside cell
  have s1 : (asF3 fun p => (S.map fun n => power st (fieldOf st n) n p + fieldOf st n .velocity p * (chargeDensity st n p * Epar p)).sum
      + (fieldOf st "e" .energy_source p + fieldOf st "e" .velocity p * gradCells B (fieldOf st "e" .pressure) p) : F3 nz)
      = asF3 (fun p => (S.map fun n => power st (fieldOf st n) n p + fieldOf st n .velocity p * (chargeDensity st n p * Epar p)).sum)
        + asF3 fun p => fieldOf st "e" .energy_source p + fieldOf st "e" .velocity p * gradCells B (fieldOf st "e" .pressure) p := rfl
  have s2 : (asF3 fun p => (names.map fun n => power st (ext n) n p).sum + (parts.map fun x => (names.map fun n => power st (x.given n) n p).sum).sum : F3 nz)
      = asF3 (fun p => (names.map fun n => power st (ext n) n p).sum)
        + asF3 fun p => (parts.map fun x => (names.map fun n => power st (x.given n) n p).sum).sum := rfl
  have s3 : (parts.map fun x => content g (asF3 fun p => (names.map fun n => power st (x.given n) n p).sum)).sum
      = content g (asF3 fun p => (parts.map fun x => (names.map fun n => power st (x.given n) n p).sum).sum) := by
    have := Nuclei.content_list g (parts.map fun x => (fun p => (names.map fun n => power st (x.given n) n p).sum : Fld (Cell nz)))
    simp only [List.map_map] at this
    exact this.symm
  rw [s1, s2, content_add, content_add] at cell'
  rw [s3]
  linarith

/-! ## The components -/

/-- Components which neither make nor lose momentum and energy: collisions with frictional heating, and charge exchange of hydrogen isotopes. -/
inductive Lossless (names : List String) : Exchange nz → Prop
  | collisions (k : CollNorms) (o : CollOpts) (w : World (Cell nz)) (ho : o.frictional_heating = true) (hm : ∀ n ∈ names, 0 < mass w n) :
      Lossless names (collisions k o names, w)
  | chargeExchange (nm : Norms) (k : ℝ) (a i a' i' : String) (w : World (Cell nz)) (r : ChargeExchange (Cell nz))
      (hr : chargeExchange nm k false a i a' i' w = .ok r) (hall : a ∈ names ∧ i ∈ names ∧ a' ∈ names ∧ i' ∈ names) (ha : a ≠ i ∧ a ≠ i' ∧ a' ≠ i ∧ a' ≠ i')
      (he : "e" ≠ a ∧ "e" ≠ i ∧ "e" ≠ a' ∧ "e" ≠ i') (hiso : a = a' ↔ i = i') (hq : charge w a = charge w a' ∧ charge w i = charge w i') :
      Lossless names (Reactions.cx nm k false a i a' i', w)

/-- Components which make no momentum: also thermal forces, ionisation and recombination. -/
inductive Forceless (names : List String) : Exchange nz → Prop
  | lossless (x : Exchange nz) (h : Lossless names x) : Forceless names x
  | thermal (gradPar : Fld (Cell nz) → Fld (Cell nz)) (ei ii : Bool) (w : World (Cell nz)) : Forceless names (thermalForce gradPar ei ii names, w)
  | reaction (nm : Norms) (rate rad : ℝ → ℝ → ℝ) (heat kr kR : ℝ) (fr dst : String) (w : World (Cell nz)) (r : ElectronReaction (Cell nz))
      (hr : electronReaction nm rate rad heat kr kR "e" fr dst w = .ok r) (hall : "e" ∈ names ∧ fr ∈ names ∧ dst ∈ names)
      (hne : "e" ≠ fr ∧ "e" ≠ dst ∧ fr ≠ dst) (he : w.num "e" .charge = some (-1)) :
      Forceless names (Reactions.amjuel nm rate rad heat kr kR "e" fr dst, w)

omit [NeZero nz] in
theorem given_untouched {x : Exchange nz} {l : List String} {vs : List Var} (h : OnlyTouches x.2.st (x.1.transform x.2).2 l vs) {n : String} (hn : n ∉ l) (v : Var)
    (p : Cell nz) : x.given n v p = 0 := by
  unfold Exchange.given gain
  rw [h (.sp n v) fun s hs u _ e => hn (by cases e; exact hs), sub_self]

omit [NeZero nz] in
theorem Lossless.momentum {x : Exchange nz} (hn : names.Nodup) (h : Lossless names x) (hu : SourcesUnread x.2.st) (hr : (x.1.transform x.2).1 = .ok ()) (p : Cell nz) :
    (names.map fun n => x.given n .momentum_source p).sum = 0 := by
  cases h with
  | collisions k o w ho hm => exact (Collisions.momentum_conserved k o names hn w hu _ (Prod.ext hr rfl)).1 p
  | chargeExchange nm k a i a' i' w r h hall ha he hiso hq =>
    obtain ⟨-, -, h3⟩ := Reactions.cx_conserves nm k a i a' i' ha.1 ha.2.1 ha.2.2.1 ha.2.2.2 hiso w r h hu hq.1 hq.2
    obtain ⟨-, -, -, h4⟩ := h3 p
    rw [← List.sum_toFinset _ hn]
    exact (h4 names.toFinset (by simpa using hall.1) (by simpa using hall.2.1) (by simpa using hall.2.2.1) (by simpa using hall.2.2.2)).2.1

omit [NeZero nz] in
theorem sum_two {f : String → ℝ} (hn : names.Nodup) {a b : String} (hab : a ≠ b) (ha : a ∈ names) (hb : b ∈ names) (h0 : ∀ n, n ≠ a → n ≠ b → f n = 0) :
    (names.map f).sum = f a + f b := by
  rw [← List.sum_toFinset _ hn, Finset.sum_eq_add_of_mem a b (by simpa using ha) (by simpa using hb) hab fun n _ hn => h0 n hn.1 hn.2]

omit [NeZero nz] in
theorem sum_three {f : String → ℝ} (hn : names.Nodup) {a b c : String} (hab : a ≠ b) (hac : a ≠ c) (hbc : b ≠ c) (ha : a ∈ names) (hb : b ∈ names) (hc : c ∈ names)
    (h0 : ∀ n, n ≠ a → n ≠ b → n ≠ c → f n = 0) : (names.map f).sum = f a + f b + f c := by
  rw [← List.sum_toFinset _ hn, ← Finset.add_sum_erase _ _ (by simpa using ha : a ∈ names.toFinset),
    Finset.sum_eq_add_of_mem b c (by simp [hb, hab.symm]) (by simp [hc, hac.symm]) hbc
      fun n hn hn' => h0 n (Finset.ne_of_mem_erase hn) hn'.1 hn'.2, add_assoc]

omit [NeZero nz] in
theorem Forceless.momentum {x : Exchange nz} (hn : names.Nodup) (h : Forceless names x) (hu : SourcesUnread x.2.st) (hr : (x.1.transform x.2).1 = .ok ()) (p : Cell nz) :
    (names.map fun n => x.given n .momentum_source p).sum = 0 := by
  cases h with
  | lossless x h => exact h.momentum hn hu hr p
  | thermal gradPar ei ii w => exact (Collisions.thermal_force_conserves_momentum gradPar ei ii names hn w hu _ (Prod.ext hr rfl)).1 p
  | reaction nm rate rad heat kr kR fr dst w r h hall hne he =>
    obtain ⟨-, h2, h3⟩ := Reactions.amjuel_conserves nm rate rad heat kr kR "e" fr dst hne.1 hne.2.1 hne.2.2 w r h hu he
    obtain ⟨-, -, h4, h5, -⟩ := h3 p
    rw [sum_three hn hne.1 hne.2.1 hne.2.2 hall.1 hall.2.1 hall.2.2 fun n a b c => given_untouched (x := (Reactions.amjuel nm rate rad heat kr kR "e" fr dst, w)) h2
      (by simp [a, b, c]) _ _]
    show gain _ _ _ _ _ + gain _ _ _ _ _ + gain _ _ _ _ _ = 0
    linarith

omit [NeZero nz] in
theorem power_eq {ext : String → Var → Fld (Cell nz)} {parts : List (Exchange nz)} (hsrc : Sources g names st ext parts) {x : Exchange nz} (hx : x ∈ parts) {n : String}
    (hn : n ∈ names) {p : Cell nz} (hp : Inside g p) :
    power st (x.given n) n p = totalEnergyRate x.2 (x.1.transform x.2).2 n p
      + if n = "e" then 1 / 2 * mass x.2 n * velocity x.2 n p ^ 2 * x.given n .density_source p else 0 := by
  obtain ⟨h1, h2⟩ := hsrc.same x hx n hn
  unfold power totalEnergyRate
  rw [h1, h2 p hp]
  unfold Exchange.given
  split_ifs <;> ring

omit [NeZero nz] in
theorem Lossless.power_zero {ext : String → Var → Fld (Cell nz)} {parts : List (Exchange nz)} (hsrc : Sources g names st ext parts) {x : Exchange nz} (hx : x ∈ parts)
    (hn : names.Nodup) (h : Lossless names x) {p : Cell nz} (hp : Inside g p) : (names.map fun n => power st (x.given n) n p).sum = 0 := by
  have hr := hsrc.ran x hx
  have hu := hsrc.unread x hx
  have e : (names.map fun n => power st (x.given n) n p) = names.map fun n => totalEnergyRate x.2 (x.1.transform x.2).2 n p
      + if n = "e" then 1 / 2 * mass x.2 n * velocity x.2 n p ^ 2 * x.given n .density_source p else 0 :=
    List.map_congr_left fun n hn' => power_eq hsrc hx hn' hp
  rw [e]
  clear e
  have e : x.given "e" .density_source p = 0 → (names.map fun n => totalEnergyRate x.2 (x.1.transform x.2).2 n p
      + if n = "e" then 1 / 2 * mass x.2 n * velocity x.2 n p ^ 2 * x.given n .density_source p else 0)
      = names.map fun n => totalEnergyRate x.2 (x.1.transform x.2).2 n p := by
    intro h0
    refine List.map_congr_left fun n _ => ?_
    split_ifs with hne
    · rw [hne, h0, mul_zero, add_zero]
    · rw [add_zero]
  cases h with
  | collisions k o w ho hm =>
    rw [e ((Collisions.momentum_conserved k o names hn w hu _ (Prod.ext hr rfl)).2.1 "e" p)]
    exact Collisions.energy_conserved k o ho names hn w hu hm _ (Prod.ext hr rfl) p
  | chargeExchange nm k a i a' i' w r h hall ha he hiso hq =>
    obtain ⟨-, h2, h3⟩ := Reactions.cx_conserves nm k a i a' i' ha.1 ha.2.1 ha.2.2.1 ha.2.2.2 hiso w r h hu hq.1 hq.2
    obtain ⟨-, -, -, h4⟩ := h3 p
    rw [e (given_untouched (x := (Reactions.cx nm k false a i a' i', w)) h2 (by simp [he]) _ _), ← List.sum_toFinset _ hn]
    exact (h4 names.toFinset (by simpa using hall.1) (by simpa using hall.2.1) (by simpa using hall.2.2.1) (by simpa using hall.2.2.2)).2.2

omit [NeZero nz] in
/-- Ionisation and recombination take the reported energy from the electrons, and give what the kinetic energy of the new electrons would be. -/
theorem reaction_power {ext : String → Var → Fld (Cell nz)} {parts : List (Exchange nz)} (hsrc : Sources g names st ext parts) (hn : names.Nodup) {nm : Norms}
    {rate rad : ℝ → ℝ → ℝ} {heat kr kR : ℝ} {fr dst : String} {w : World (Cell nz)} {r : ElectronReaction (Cell nz)}
    (hx : (Reactions.amjuel nm rate rad heat kr kR "e" fr dst, w) ∈ parts) (hr : electronReaction nm rate rad heat kr kR "e" fr dst w = .ok r)
    (hall : "e" ∈ names ∧ fr ∈ names ∧ dst ∈ names) (hne : "e" ≠ fr ∧ "e" ≠ dst ∧ fr ≠ dst) (he : w.num "e" .charge = some (-1)) {p : Cell nz} (hp : Inside g p) :
    (names.map fun n => power st (Exchange.given (Reactions.amjuel nm rate rad heat kr kR "e" fr dst, w) n) n p).sum
      = -r.energy_loss p + 1 / 2 * realOf st "e" .AA * fieldOf st "e" .velocity p ^ 2
        * Exchange.given (Reactions.amjuel nm rate rad heat kr kR "e" fr dst, w) "e" .density_source p := by
  have hu := hsrc.unread _ hx
  obtain ⟨h1, h2⟩ := hsrc.same _ hx "e" hall.1
  obtain ⟨-, h2', h3⟩ := Reactions.amjuel_conserves nm rate rad heat kr kR "e" fr dst hne.1 hne.2.1 hne.2.2 w r hr hu he
  obtain ⟨-, -, -, -, h5, h6, -⟩ := h3 p
  have z : ∀ n, n ≠ "e" → n ≠ fr → n ≠ dst → power st (Exchange.given (Reactions.amjuel nm rate rad heat kr kR "e" fr dst, w) n) n p = 0 := by
    intro n a b c
    unfold power
    rw [given_untouched (x := (Reactions.amjuel nm rate rad heat kr kR "e" fr dst, w)) h2' (by simp [a, b, c]) _ _,
      given_untouched (x := (Reactions.amjuel nm rate rad heat kr kR "e" fr dst, w)) h2' (by simp [a, b, c]) _ _,
      given_untouched (x := (Reactions.amjuel nm rate rad heat kr kR "e" fr dst, w)) h2' (by simp [a, b, c]) _ _]
    split_ifs <;> ring
  rw [sum_three hn hne.1 hne.2.1 hne.2.2 hall.1 hall.2.1 hall.2.2 z, power_eq hsrc hx hall.1 hp, power_eq hsrc hx hall.2.1 hp, power_eq hsrc hx hall.2.2 hp, if_pos rfl,
    if_neg hne.1.symm, if_neg hne.2.1.symm, h1, h2 p hp]
  dsimp only
  linarith

/-- **C83.**  Momentum of a plasma on closed field lines, with collisions, thermal forces, charge exchange, ionisation and recombination: it changes by the sources
from elsewhere and by the pressure forces, and by nothing else. -/
theorem closed_plasma_momentum (hg : Regular g) (hs : Separable g) (hB : Assumed g B) {lim : Limiter} {o : String → MomentumOpts} {NV_err rM : String → F3 nz}
    {ext : String → Var → Fld (Cell nz)} {parts : List (Exchange nz)} (hb : Balanced g B S names st st' Epar) (hsrc : Sources g names st ext parts)
    (hk : ∀ x ∈ parts, Forceless names x)
    (hm : ∀ n ∈ S, MovesAlong (o n) g B lim (NV_err n) (speciesIn st' n) (fieldsIn st') (rM n)) :
    (S.map fun n => content g (rM n)).sum
      = (names.map fun n => content g (asF3 (ext n .momentum_source)) + content g (pressureForce B st n)).sum :=
  total_momentum hg hs hB hb hsrc (fun x hx p => (hk x hx).momentum hb.nodup (hsrc.unread x hx) (hsrc.ran x hx) p) hm

/-- **C83.**  Energy of a plasma on closed field lines, with collisions and charge exchange and zero current: it changes by the power of the sources from elsewhere
and by the numerical heating, and by nothing else.  Partial: with thermal forces it is false (`thermal_force_makes_energy`), and the numerical heating is not zero
(`closed_box_energy_not_conserved`). -/
theorem closed_plasma_energy_partial (hg : Regular g) (hs : Separable g) {σ} (hσ : Relabels B σ) (hB : Assumed g B) {lim : Limiter} {oN : String → DensityOpts}
    {oP : String → PressureOpts} {oM : String → MomentumOpts} {N₀ P₀ NV_err source N V w rN rM rP : String → F3 nz} {AA : String → ℝ}
    {ext : String → Var → Fld (Cell nz)} {parts : List (Exchange nz)} (hb : Balanced g B S names st st' Epar) (hsrc : Sources g names st ext parts)
    (hk : ∀ x ∈ parts, Lossless names x) (hj : ∀ p, Inside g p → (names.map fun n => currentDensity st n p).sum = 0)
    (hf : ∀ n ∈ S, FluidAlong (oN n) (oP n) (oM n) g B lim (N₀ n) (P₀ n) (NV_err n) (source n) (speciesIn st' n) (fieldsIn st') (AA n) (N n) (V n) (w n)
      (rN n) (rM n) (rP n))
    (he : HeatAlong (oP "e") g B lim (P₀ "e") (source "e") (speciesIn st' "e") (fieldsIn st') (rP "e")) :
    (S.map fun n => content g (energyRate (AA n) (V n) (rN n) (rM n) (rP n))).sum + 3 / 2 * content g (rP "e")
      = (names.map fun n => 3 / 2 * content g (source n) + content g (asF3 (power st (ext n) n))).sum
        + (S.map fun n => numericalHeat (oP n) g B lim (AA n) (N n) (V n) (w n)).sum := by
  rw [total_energy hg hs hσ hB hb hsrc hj hf he]
  have z : (parts.map fun x => content g (asF3 fun p => (names.map fun n => power st (x.given n) n p).sum)).sum = 0 := by
    refine List.sum_eq_zero fun y hy => ?_
    obtain ⟨x, hx, rfl⟩ := List.mem_map.1 hy
    rw [content_inside fun p hp => (hk x hx).power_zero hsrc hx hb.nodup hp]
    exact content_zero g
  rw [z, add_zero]

end
end Hermes.ClosedPlasma
