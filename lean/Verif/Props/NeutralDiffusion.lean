import Verif.Model.ParallelDiffusion
import Verif.Lemmas.SpeciesLoop
import Verif.Lemmas.Runs
import Verif.Lemmas.Contrib
import Verif.Props.ParConduction

/-!
# C64: diffusion of neutral gas along the field

`neutralParallelDiffusion` and `solkitNeutralDiffusion` let every neutral species diffuse along a field line.  The gas must stay on a
line with two walls, empty cells must fill, and charged species must not be touched.
-/

namespace Hermes.ParDiffusion
open Finset Hermes Hermes.ParOps Hermes.Closures Hermes.Sheath

/-! ## The operator next to a wall -/

/-- Zero gradient at both ends. -/
def FlatEnds (g : Line) (f : Fld ℤ) : Prop := f (g.ystart - 1) = f g.ystart ∧ f (g.yend + 1) = f g.yend

theorem flat_neumann {g : Line} (hg : Regular g) (hc : Closed g) (f : Fld ℤ) : FlatEnds g (g.neumann f) := by
  obtain ⟨h1, h2, h3⟩ := hc
  have := hg.nonempty
  unfold FlatEnds Line.neumann
  simp only [h1, h2, h3, and_true]
  refine ⟨?_, ?_⟩
  · rw [if_pos trivial, if_neg (by omega), if_neg (by omega)]
  · rw [if_neg (by omega), if_pos trivial, if_neg (by omega), if_neg (by omega)]

theorem neumann_inside {g : Line} (f : Fld ℤ) {i : ℤ} (h1 : g.ystart ≤ i) (h2 : i ≤ g.yend) : g.neumann f i = f i := by
  unfold Line.neumann
  rw [if_neg (by omega), if_neg (by omega)]

theorem dirichlet_inside {g : Line} (f : Fld ℤ) {i : ℤ} (h1 : g.ystart ≤ i) (h2 : i ≤ g.yend) : g.dirichlet f i = f i := by
  unfold Line.dirichlet
  rw [if_neg (by omega), if_neg (by omega)]

theorem flat_faces {g : Line} {f : Fld ℤ} (hf : FlatEnds g f) (K : Fld ℤ) : g.condFluxUp K f g.yend = 0 ∧ g.condFluxDown K f g.ystart = 0 := by
  unfold Line.condFluxUp Line.condFluxDown
  simp only [hf.1, hf.2]
  constructor <;> simp

theorem flat_open {g : Line} {f : Fld ℤ} (hf : FlatEnds g f) (K : Fld ℤ) (b : Bool) : openUp g K f b g.yend = 0 ∧ openDown g K f b g.ystart = 0 := by
  unfold openUp openDown
  rw [(flat_faces hf K).1, (flat_faces hf K).2, ite_self, ite_self]
  exact ⟨rfl, rfl⟩

/-- Nothing leaves a line with flat ends, whatever the coefficient is in the guard cells. -/
theorem flat_conserves {g : Line} (hg : Regular g) (hu : UniformPerp g) {f : Fld ℤ} (hf : FlatEnds g f) (K : Fld ℤ) (b : Bool) :
    content g (g.divK K f b) = 0 := by
  have h := conduction_weighted hg hu K f (fun _ => 1) b
  simp only [one_mul, sub_self, zero_mul, Finset.sum_const_zero, (flat_open hf K b).1, (flat_open hf K b).2] at h
  exact h

/-- The coefficient in the guard cells does not matter if the ends are flat. -/
theorem flat_congr {g : Line} {f : Fld ℤ} (hf : FlatEnds g f) {K K' : Fld ℤ} (hK : ∀ i, g.ystart ≤ i → i ≤ g.yend → K i = K' i) (b : Bool) {i : ℤ}
    (h1 : g.ystart ≤ i) (h2 : i ≤ g.yend) : g.divK K f b i = g.divK K' f b i := by
  unfold Line.divK
  rw [divParKGradPar_eq, divParKGradPar_eq]
  have up : g.condFluxUp K f i = g.condFluxUp K' f i := by
    rcases lt_or_eq_of_le h2 with h | h
    · unfold Line.condFluxUp
      simp only
      rw [hK i h1 h2, hK (i + 1) (by omega) (by omega)]
    · rw [h, (flat_faces hf K).1, (flat_faces hf K').1]
  have dn : g.condFluxDown K f i = g.condFluxDown K' f i := by
    rcases lt_or_eq_of_le h1 with h | h
    · unfold Line.condFluxDown
      simp only
      rw [hK i h1 h2, hK (i - 1) (by omega) (by omega)]
    · rw [← h, (flat_faces hf K).2, (flat_faces hf K').2]
  unfold openUp openDown
  rw [up, dn]

/-- At a minimum between flat ends the operator is not negative, if the coefficient is not negative inside. -/
theorem flat_fills {g : Line} (hp : Positive g) {f : Fld ℤ} (hf : FlatEnds g f) {K : Fld ℤ} (hK : ∀ i, g.ystart ≤ i → i ≤ g.yend → 0 ≤ K i) (b : Bool) {i : ℤ}
    (h1 : g.ystart ≤ i) (h2 : i ≤ g.yend) (hm : f i ≤ f (i - 1) ∧ f i ≤ f (i + 1)) : 0 ≤ g.divK K f b i := by
  rw [flat_congr hf (K' := fun i => if g.ystart ≤ i ∧ i ≤ g.yend then K i else 0) (fun i a b => by rw [if_pos ⟨a, b⟩]) b h1 h2]
  refine (conduction_downhill hp _ f (fun j => ?_) b i).2 hm
  split_ifs with h
  · exact hK j h.1 h.2
  · exact le_refl _

/-! ## Neutral parallel diffusion -/

variable {st st' : Store Key (Value ℤ)}

/-- Without charge. -/
def Neutral (st : Store Key (Value ℤ)) (n : String) : Prop := vals st (.sp n .charge) = none ∨ realOf st n .charge = 0

/-- What a component has added to a source. -/
noncomputable def added (st st' : Store Key (Value ℤ)) (n : String) (v : Var) : Fld ℤ := fun i => fieldOf st' n v i - fieldOf st n v i

/-- The pressure of the gas: the published one, or `N T`. -/
noncomputable def gasP (st : Store Key (Value ℤ)) (n : String) : Fld ℤ :=
  if (vals st (.sp n .pressure)).isSome then fieldOf st n .pressure else fun i => fieldOf st n .density i * fieldOf st n .temperature i

/-- Its diffusion coefficient. -/
noncomputable def gasD (g : Line) (o : NPDOpts) (st : Store Key (Value ℤ)) (n : String) : Fld ℤ :=
  npdD g o (realOf st n .AA) (fieldOf st n .temperature) (fieldOf st n .collision_frequency)

theorem fieldOf_congr {s t : Store Key (Value ℤ)} {n : String} {v : Var} (h : vals t (.sp n v) = vals s (.sp n v)) : fieldOf t n v = fieldOf s n v := by
  unfold fieldOf; rw [h]

theorem realOf_congr {s t : Store Key (Value ℤ)} {n : String} {v : Var} (h : vals t (.sp n v) = vals s (.sp n v)) : realOf t n v = realOf s n v := by
  unfold realOf; rw [h]

theorem npdPressure_bind {β : Type} {n : String} {N T : Fld ℤ} {f : Fld ℤ → Prog ℤ β} {st st'' : Store Key (Value ℤ)} {b : β}
    (h : (npdPressure n N T >>= f) st = (.ok b, st'')) :
    ∃ st', vals st' = vals st ∧ f (if (vals st (.sp n .pressure)).isSome then fieldOf st n .pressure else fun i => N i * T i) st' = (.ok b, st'') := by
  obtain ⟨P, s1, h1, h2⟩ := M_bind_ok h
  unfold npdPressure at h1
  obtain ⟨s2, e2, h1⟩ := isSetFinal_bind h1
  cases hp : (vals st (.sp n .pressure)).isSome
  · rw [hp] at h1
    obtain ⟨rfl, rfl⟩ := pure_ok h1
    exact ⟨_, e2, h2⟩
  · rw [hp] at h1
    have h1' : (getF n .pressure >>= fun x => pure x) s2 = (.ok P, s1) := by
      rw [show (getF n Var.pressure >>= fun x => pure x : Prog ℤ (Fld ℤ)) s2 = M.bind (getF n .pressure) M.pure s2 from rfl]
      unfold M.bind
      rw [show getF n Var.pressure s2 = (.ok P, s1) from h1]
      rfl
    obtain ⟨s3, e3, h3⟩ := getF_bind h1'
    obtain ⟨hP, rfl⟩ := pure_ok h3
    refine ⟨_, e3.trans e2, ?_⟩
    have : P = fieldOf st n .pressure := by rw [hP]; exact fieldOf_congr (congrFun e2 _)
    rw [← this]
    exact h2

theorem npdSources_ok {g : Line} {o : NPDOpts} {n : String} {u : Unit} (h : npdSources g o n st = (.ok u, st')) :
    (∀ i, added st st' n .density_source i = g.divK (fun i => gasD g o st n i * fieldOf st n .density i) (logP g (gasP st n)) true i) ∧
    (∀ i, added st st' n .energy_source i = npdEnergy g o (fieldOf st n .density) (fieldOf st n .temperature) (gasP st n) (gasD g o st n) i) ∧
    (∀ i, added st st' n .momentum_source i = if (vals st (.sp n .velocity)).isSome && o.viscosity then
      npdForce g o (fieldOf st n .density) (fieldOf st n .velocity) (fieldOf st n .momentum) (gasP st n) (gasD g o st n) i else 0) ∧
    ∀ k, k ≠ .sp n .density_source → k ≠ .sp n .energy_source → k ≠ .sp n .momentum_source → vals st' k = vals st k := by
  unfold npdSources at h
  obtain ⟨s1, e1, h⟩ := getF_bind h
  obtain ⟨s2, e2, h⟩ := getR_bind h
  obtain ⟨s3, e3, h⟩ := getF_bind h
  obtain ⟨s4, e4, h⟩ := getF_bind h
  have e2' := e2.trans e1
  have e3' := e3.trans e2'
  have e4' := e4.trans e3'
  obtain ⟨s5, e5, h⟩ := npdPressure_bind h
  have e5' := e5.trans e4'
  rw [realOf_congr (congrFun e1 _), fieldOf_congr (congrFun e2' _), fieldOf_congr (congrFun e3' _), fieldOf_congr (congrFun e4' _), congrFun e4' _] at h
  change ((addF n .density_source (g.divK (fun i => gasD g o st n i * fieldOf st n .density i) (logP g (gasP st n))) : Prog ℤ Unit) >>= fun _ =>
    (addF n .energy_source (npdEnergy g o (fieldOf st n .density) (fieldOf st n .temperature) (gasP st n) (gasD g o st n)) : Prog ℤ Unit) >>= fun _ =>
      npdMomentum g o (fieldOf st n .density) (gasP st n) (gasD g o st n) n) s5 = _ at h
  obtain ⟨_, s6, a6, h⟩ := M_bind_ok h
  obtain ⟨_, s7, a7, h⟩ := M_bind_ok h
  obtain ⟨d6, k6⟩ := add_field_ok a6
  obtain ⟨d7, k7⟩ := add_field_ok a7
  have v7 : ∀ k, k ≠ .sp n .density_source → k ≠ .sp n .energy_source → vals s7 k = vals st k := by
    intro k h1 h2
    rw [k7 k h2, k6 k h1, e5']
  unfold npdMomentum at h
  obtain ⟨s8, e8, h⟩ := isSetFinal_bind h
  rw [v7 _ (by simp) (by simp)] at h
  have hD : ∀ (s : Store Key (Value ℤ)), vals s (.sp n .density_source) = vals s6 (.sp n .density_source) →
      ∀ i, added st s n .density_source i = g.divK (fun i => gasD g o st n i * fieldOf st n .density i) (logP g (gasP st n)) true i := by
    intro s hs i
    unfold added
    rw [fieldOf_congr hs, d6 i, fieldOf_congr (congrFun e5' _)]
    ring
  have hE : ∀ (s : Store Key (Value ℤ)), vals s (.sp n .energy_source) = vals s7 (.sp n .energy_source) →
      ∀ i, added st s n .energy_source i = npdEnergy g o (fieldOf st n .density) (fieldOf st n .temperature) (gasP st n) (gasD g o st n) i := by
    intro s hs i
    unfold added
    rw [fieldOf_congr hs, d7 i, fieldOf_congr (show vals s6 _ = vals st _ by rw [k6 _ (by simp), e5'])]
    ring
  cases hc : ((vals st (.sp n .velocity)).isSome && o.viscosity)
  · rw [hc] at h
    obtain ⟨-, rfl⟩ := pure_ok h
    refine ⟨hD _ ?_, hE _ (congrFun e8 _), ?_, ?_⟩
    · rw [e8]; exact k7 _ (by simp)
    · intro i
      unfold added
      rw [fieldOf_congr (show vals st' _ = vals st _ by rw [e8]; exact v7 _ (by simp) (by simp)), sub_self]
      rfl
    · intro k h1 h2 _
      rw [e8]; exact v7 k h1 h2
  · rw [hc] at h
    obtain ⟨s9, e9, h⟩ := getF_bind h
    obtain ⟨s10, e10, h⟩ := getF_bind h
    have e9' := e9.trans e8
    have e10' := e10.trans e9'
    rw [fieldOf_congr (show vals s8 (.sp n .velocity) = vals st _ by rw [e8]; exact v7 _ (by simp) (by simp)),
      fieldOf_congr (show vals s9 (.sp n .momentum) = vals st _ by rw [e9']; exact v7 _ (by simp) (by simp))] at h
    obtain ⟨d11, k11⟩ := add_field_ok h
    refine ⟨hD _ ?_, hE _ ?_, ?_, ?_⟩
    · rw [k11 _ (by simp), e10']; exact k7 _ (by simp)
    · rw [k11 _ (by simp), e10']
    · intro i
      unfold added
      rw [d11 i, fieldOf_congr (show vals s10 (.sp n .momentum_source) = vals st _ by rw [e10']; exact v7 _ (by simp) (by simp))]
      rw [if_pos rfl]
      ring
    · intro k h1 h2 h3
      rw [k11 k h3, e10']
      exact v7 k h1 h2

open Classical in
theorem ifNeutral_ok {n : String} {m : Prog ℤ Unit} {u : Unit} (h : ifNeutral n m st = (.ok u, st')) :
    (Neutral st n ∧ ∃ s, vals s = vals st ∧ m s = (.ok u, st')) ∨ (¬Neutral st n ∧ vals st' = vals st) := by
  unfold ifNeutral at h
  replace h := isSet_bind h
  cases hc : (vals st (.sp n .charge)).isSome
  · rw [hc] at h
    exact Or.inl ⟨Or.inl (Option.not_isSome_iff_eq_none.1 (by rw [hc]; simp)), st, rfl, h⟩
  · rw [hc] at h
    obtain ⟨s1, e1, h⟩ := getR_bind h
    by_cases hq : realOf st n .charge ≠ 0
    · rw [if_pos hq] at h
      obtain ⟨-, rfl⟩ := pure_ok h
      refine Or.inr ⟨?_, e1⟩
      rintro (h0 | h0)
      · rw [h0] at hc; cases hc
      · exact hq h0
    · rw [if_neg hq] at h
      exact Or.inl ⟨Or.inr (not_not.1 hq), s1, e1, h⟩

theorem added_congr {s t s' t' : Store Key (Value ℤ)} {n : String} {v : Var} (h1 : vals s (.sp n v) = vals t (.sp n v))
    (h2 : vals s' (.sp n v) = vals t' (.sp n v)) : added s s' n v = added t t' n v := by
  unfold added
  rw [fieldOf_congr h1, fieldOf_congr h2]

theorem ifNeutral_local {m : String → Prog ℤ Unit} (hm : ∀ n s u s', m n s = (.ok u, s') → ∀ k, (∀ v, k ≠ .sp n v) → vals s' k = vals s k) :
    ∀ n s u s', ifNeutral n (m n) s = (.ok u, s') → ∀ k, (∀ v, k ≠ .sp n v) → vals s' k = vals s k := by
  intro n s u s' h k hk
  rcases ifNeutral_ok h with ⟨_, t, e, h⟩ | ⟨_, e⟩
  · rw [hm n t u s' h k hk, e]
  · rw [e]

theorem neutral_congr {s t : Store Key (Value ℤ)} {n : String} (h : ∀ v, vals t (.sp n v) = vals s (.sp n v)) : Neutral t n ↔ Neutral s n := by
  unfold Neutral
  rw [h .charge, realOf_congr (h .charge)]

/-- What a successful call does: the loop over the species in terms of the state before it. -/
theorem neutralParallelDiffusion_ok {g : Line} {o : NPDOpts} {names : List String} {u : Unit} (hn : names.Nodup)
    (h : neutralParallelDiffusion g o names st = (.ok u, st')) {n : String} (hmem : n ∈ names) :
    (Neutral st n →
      (∀ i, added st st' n .density_source i = g.divK (fun i => gasD g o st n i * fieldOf st n .density i) (logP g (gasP st n)) true i) ∧
      (∀ i, added st st' n .energy_source i = npdEnergy g o (fieldOf st n .density) (fieldOf st n .temperature) (gasP st n) (gasD g o st n) i) ∧
      (∀ i, added st st' n .momentum_source i = if (vals st (.sp n .velocity)).isSome && o.viscosity then
        npdForce g o (fieldOf st n .density) (fieldOf st n .velocity) (fieldOf st n .momentum) (gasP st n) (gasD g o st n) i else 0)) ∧
    (¬Neutral st n → ∀ v, vals st' (.sp n v) = vals st (.sp n v)) := by
  obtain ⟨h1, -⟩ := forM_bodies (ifNeutral_local fun n s u s' h k hk => (npdSources_ok h).2.2.2 k (hk _) (hk _) (hk _)) hn h
  obtain ⟨t, t', u', hb, b, a⟩ := h1 n hmem
  rcases ifNeutral_ok hb with ⟨hN, s, e, hs⟩ | ⟨hN, e⟩
  · refine ⟨fun _ => ?_, fun hc => absurd ((neutral_congr b).1 hN) hc⟩
    have b' : ∀ v, vals s (.sp n v) = vals st (.sp n v) := fun v => by rw [e]; exact b v
    obtain ⟨r1, r2, r3, -⟩ := npdSources_ok hs
    have eD : gasD g o s n = gasD g o st n := by
      unfold gasD
      rw [realOf_congr (b' .AA), fieldOf_congr (b' .temperature), fieldOf_congr (b' .collision_frequency)]
    have eP : gasP s n = gasP st n := by
      unfold gasP
      rw [b' .pressure, fieldOf_congr (b' .pressure), fieldOf_congr (b' .density), fieldOf_congr (b' .temperature)]
    rw [eD, eP] at r1 r2 r3
    rw [fieldOf_congr (b' .density)] at r1 r2 r3
    rw [fieldOf_congr (b' .temperature)] at r2
    rw [fieldOf_congr (b' .velocity), fieldOf_congr (b' .momentum), b' .velocity] at r3
    rw [added_congr (b' .density_source) (a .density_source)] at r1
    rw [added_congr (b' .energy_source) (a .energy_source)] at r2
    rw [added_congr (b' .momentum_source) (a .momentum_source)] at r3
    exact ⟨r1, r2, r3⟩
  · refine ⟨fun hc => absurd ((neutral_congr b).2 hc) hN, fun _ v => ?_⟩
    rw [← a v, e, b v]

/-- **C64.**  Charged species, and everything that is not a species of the list, are left alone. -/
theorem only_neutrals_diffuse {g : Line} {o : NPDOpts} {names : List String} {u : Unit} (hn : names.Nodup)
    (h : neutralParallelDiffusion g o names st = (.ok u, st')) {n : String} (hc : ¬Neutral st n) (v : Var) :
    vals st' (.sp n v) = vals st (.sp n v) := by
  by_cases hm : n ∈ names
  · exact (neutralParallelDiffusion_ok hn h hm).2 hc v
  · refine (forM_bodies (ifNeutral_local fun n s u s' h k hk => (npdSources_ok h).2.2.2 k (hk _) (hk _) (hk _)) hn h).2 _ ?_
    intro m hm' v' e
    cases e
    exact hm hm'

theorem content_add' (g : Line) (a b : Fld ℤ) : content g (fun i => a i + b i) = content g a + content g b := by
  unfold content
  rw [← Finset.sum_add_distrib]
  exact Finset.sum_congr rfl fun i _ => by ring

theorem content_ext {g : Line} {a b : Fld ℤ} (h : ∀ i, a i = b i) : content g a = content g b := by
  rw [show a = b from funext h]

/-- Flow into a line through its two ends, of the conduction of `f` with coefficient `K`. -/
noncomputable def throughEnds (g : Line) (K f : Fld ℤ) : ℝ :=
  (g.condFluxUp K f g.yend - g.condFluxDown K f g.ystart) * (g.dx g.ystart * g.dz g.ystart)

theorem divK_through {g : Line} (hg : Regular g) (hu : UniformPerp g) (K f : Fld ℤ) : content g (g.divK K f true) = throughEnds g K f := by
  have h := conduction_weighted hg hu K f (fun _ => 1) true
  simp only [one_mul, sub_self, zero_mul, Finset.sum_const_zero, sub_zero] at h
  have e : content g (g.divK K f true) = content g (fun i => g.divParKGradPar K f true i) := rfl
  rw [e, h]
  unfold openUp openDown throughEnds Line.condUp Line.condDown
  simp

/-- **C64.**  The gas stays on a line with walls at both ends: for every neutral species the particle source integrates to zero,
whatever the guard cells contain. -/
theorem gas_conserved {g : Line} (hg : Regular g) (hu : UniformPerp g) (hc : Closed g) {o : NPDOpts} {names : List String} {u : Unit}
    (hn : names.Nodup) (h : neutralParallelDiffusion g o names st = (.ok u, st')) {n : String} (hmem : n ∈ names) (hN : Neutral st n) :
    content g (added st st' n .density_source) = 0 := by
  rw [content_ext ((neutralParallelDiffusion_ok hn h hmem).1 hN).1]
  exact flat_conserves hg hu (flat_neumann hg hc _) _ _

/-- **C64.**  Heat leaves only by conduction into the walls: the energy source integrates to the flux of heat conduction at the two
ends, which is zero if conduction is off or the temperature has no gradient there. -/
theorem heat_leaves_by_conduction {g : Line} (hg : Regular g) (hu : UniformPerp g) (hc : Closed g) {o : NPDOpts} {names : List String} {u : Unit}
    (hn : names.Nodup) (h : neutralParallelDiffusion g o names st = (.ok u, st')) {n : String} (hmem : n ∈ names) (hN : Neutral st n) :
    content g (added st st' n .energy_source) =
      (if o.thermal_conduction then throughEnds g (npdKappa g o (fieldOf st n .density) (gasD g o st n)) (fieldOf st n .temperature) else 0) ∧
    (FlatEnds g (fieldOf st n .temperature) → content g (added st st' n .energy_source) = 0) := by
  have e : content g (added st st' n .energy_source) =
      if o.thermal_conduction then throughEnds g (npdKappa g o (fieldOf st n .density) (gasD g o st n)) (fieldOf st n .temperature) else 0 := by
    rw [content_ext ((neutralParallelDiffusion_ok hn h hmem).1 hN).2.1]
    unfold npdEnergy
    rw [content_add', show content g (fun i => g.divK (fun i => gasD g o st n i * (if o.equation_fix then 5 / 2 else 3 / 2) * gasP st n i) (logP g (gasP st n)) true i) = 0
      from flat_conserves hg hu (flat_neumann hg hc _) _ _, zero_add]
    cases o.thermal_conduction
    · simp [content]
    · simp only [if_true]
      exact divK_through hg hu _ _
  refine ⟨e, fun hf => ?_⟩
  rw [e]
  unfold throughEnds
  rw [(flat_faces hf _).1, (flat_faces hf _).2]
  simp

/-- **C64.**  Momentum leaves only by viscous stress on the walls. -/
theorem momentum_leaves_by_viscosity {g : Line} (hg : Regular g) (hu : UniformPerp g) (hc : Closed g) {o : NPDOpts} {names : List String} {u : Unit}
    (hn : names.Nodup) (h : neutralParallelDiffusion g o names st = (.ok u, st')) {n : String} (hmem : n ∈ names) (hN : Neutral st n)
    (hf : FlatEnds g (fieldOf st n .velocity)) : content g (added st st' n .momentum_source) = 0 := by
  rw [content_ext ((neutralParallelDiffusion_ok hn h hmem).1 hN).2.2]
  cases ((vals st (.sp n .velocity)).isSome && o.viscosity)
  · simp [content]
  · simp only [if_true]
    unfold npdForce
    rw [content_add', show content g (fun i => g.divK (fun i => fieldOf st n .momentum i * gasD g o st n i) (logP g (gasP st n)) true i) = 0
      from flat_conserves hg hu (flat_neumann hg hc _) _ _, zero_add]
    exact flat_conserves hg hu hf _ _

/-- The state of a gas in which diffusion makes sense. -/
structure Physical (g : Line) (o : NPDOpts) (st : Store Key (Value ℤ)) (n : String) : Prop where
  dneut : 0 ≤ o.dneut
  mass : 0 < realOf st n .AA
  density : ∀ i, g.ystart ≤ i → i ≤ g.yend → 0 ≤ fieldOf st n .density i
  temperature : ∀ i, g.ystart ≤ i → i ≤ g.yend → 0 ≤ fieldOf st n .temperature i
  collisions : ∀ i, g.ystart ≤ i → i ≤ g.yend → 0 < fieldOf st n .collision_frequency i

theorem Physical.D_nonneg {g : Line} {o : NPDOpts} {n : String} (h : Physical g o st n) {i : ℤ} (h1 : g.ystart ≤ i) (h2 : i ≤ g.yend) : 0 ≤ gasD g o st n i := by
  unfold gasD npdD
  rw [dirichlet_inside _ h1 h2]
  exact div_nonneg (mul_nonneg h.dneut (h.temperature i h1 h2)) (mul_pos h.mass (h.collisions i h1 h2)).le

theorem floorTo_lo_le (x lo : ℝ) : lo ≤ floorTo x lo := by
  unfold floorTo
  split_ifs with h
  · exact le_refl _
  · exact not_lt.1 h

/-- A cell at the pressure floor is the lowest point of `log P`. -/
theorem logP_floor {g : Line} (hg : Regular g) (hc : Closed g) {P : Fld ℤ} {i : ℤ} (h1 : g.ystart ≤ i) (h2 : i ≤ g.yend) (hP : P i ≤ 1e-7) :
    logP g P i ≤ logP g P (i - 1) ∧ logP g P i ≤ logP g P (i + 1) := by
  have e : logP g P i = Real.log 1e-7 := by
    unfold logP
    rw [neumann_inside _ h1 h2]
    congr 1
    unfold floorTo
    split_ifs with h
    · rfl
    · exact le_antisymm hP (not_lt.1 h)
  have lo : ∀ x, Real.log 1e-7 ≤ Real.log (floorTo x 1e-7) := fun x => Real.log_le_log (by norm_num) (floorTo_lo_le x _)
  have all : ∀ j, Real.log 1e-7 ≤ logP g P j := by
    intro j
    unfold logP Line.neumann
    split_ifs <;> exact lo _
  rw [e]
  exact ⟨all _, all _⟩

/-- **C64.**  An empty cell fills: where the pressure is at or below its floor the particle source is not negative. -/
theorem empty_cell_fills {g : Line} (hg : Regular g) (hp : Positive g) (hc : Closed g) {o : NPDOpts} {names : List String} {u : Unit}
    (hn : names.Nodup) (h : neutralParallelDiffusion g o names st = (.ok u, st')) {n : String} (hmem : n ∈ names) (hN : Neutral st n)
    (hphys : Physical g o st n) {i : ℤ} (h1 : g.ystart ≤ i) (h2 : i ≤ g.yend) (hP : gasP st n i ≤ 1e-7) :
    0 ≤ added st st' n .density_source i := by
  rw [((neutralParallelDiffusion_ok hn h hmem).1 hN).1 i]
  exact flat_fills hp (flat_neumann hg hc _) (fun j a b => mul_nonneg (hphys.D_nonneg a b) (hphys.density j a b)) _ h1 h2 (logP_floor hg hc h1 h2 hP)

/-- Particles flow from high to low pressure: a cell of highest pressure loses gas and one of lowest pressure gains it. -/
theorem gas_flows_down {g : Line} (hg : Regular g) (hp : Positive g) (hc : Closed g) {o : NPDOpts} {names : List String} {u : Unit}
    (hn : names.Nodup) (h : neutralParallelDiffusion g o names st = (.ok u, st')) {n : String} (hmem : n ∈ names) (hN : Neutral st n)
    (hphys : Physical g o st n) {i : ℤ} (h1 : g.ystart ≤ i) (h2 : i ≤ g.yend)
    (hl : (i = g.ystart ∨ gasP st n i ≤ gasP st n (i - 1)) ∧ (i = g.yend ∨ gasP st n i ≤ gasP st n (i + 1))) :
    0 ≤ added st st' n .density_source i := by
  rw [((neutralParallelDiffusion_ok hn h hmem).1 hN).1 i]
  have hf := flat_neumann hg hc fun i => Real.log (floorTo (gasP st n i) 1e-7)
  have mono : ∀ x y : ℝ, x ≤ y → Real.log (floorTo x 1e-7) ≤ Real.log (floorTo y 1e-7) := by
    intro x y hxy
    refine Real.log_le_log (lt_of_lt_of_le (by norm_num) (floorTo_lo_le x 1e-7)) ?_
    unfold floorTo
    split_ifs <;> linarith
  refine flat_fills hp hf (fun j a b => mul_nonneg (hphys.D_nonneg a b) (hphys.density j a b)) _ h1 h2 ⟨?_, ?_⟩
  · rcases hl.1 with e | e
    · rw [e]
      exact le_of_eq hf.1.symm
    · rcases lt_or_eq_of_le h1 with hlt | heq
      · rw [neumann_inside _ h1 h2, neumann_inside _ (by omega) (by omega)]
        exact mono _ _ e
      · rw [← heq]
        exact le_of_eq hf.1.symm
  · rcases hl.2 with e | e
    · rw [e]
      exact le_of_eq hf.2.symm
    · rcases lt_or_eq_of_le h2 with hlt | heq
      · rw [neumann_inside _ h1 h2, neumann_inside _ (by omega) (by omega)]
        exact mono _ _ e
      · rw [heq]
        exact le_of_eq hf.2.symm

/-! ## Viscosity -/

/-- Between flat ends diffusion of `f` takes away `∑ f² V`. -/
theorem flat_dissipates {g : Line} (hg : Regular g) (hp : Positive g) (hu : UniformPerp g) {f : Fld ℤ} (hf : FlatEnds g f) {K : Fld ℤ}
    (hK : ∀ i, g.ystart ≤ i → i ≤ g.yend → 0 ≤ K i) (b : Bool) : content g (fun i => f i * g.divK K f b i) ≤ 0 := by
  let K' : Fld ℤ := fun i => if g.ystart ≤ i ∧ i ≤ g.yend then K i else 0
  have hK' : ∀ j, 0 ≤ K' j := by
    intro j
    show 0 ≤ if g.ystart ≤ j ∧ j ≤ g.yend then K j else 0
    split_ifs with h
    · exact hK j h.1 h.2
    · exact le_refl _
  have e : content g (fun i => f i * g.divK K f b i) = content g (fun i => f i * g.divParKGradPar K' f b i) := by
    unfold content
    refine Finset.sum_congr rfl fun i hi => ?_
    obtain ⟨a, c⟩ := Finset.mem_Icc.1 hi
    show f i * g.divK K f b i * volume g i = f i * g.divParKGradPar K' f b i * volume g i
    rw [flat_congr hf (K' := K') (fun i a b => (if_pos ⟨a, b⟩ : K' i = K i).symm) b a c]
    rfl
  rw [e, conduction_weighted hg hu, (flat_open hf K' b).1, (flat_open hf K' b).2]
  have s : 0 ≤ ∑ i ∈ Icc g.ystart (g.yend - 1), (f (i + 1) - f i) * g.condFluxUp K' f i := by
    refine Finset.sum_nonneg fun i _ => ?_
    have h := condFluxUp_sign hp K' f hK' i
    rcases le_total (f i) (f (i + 1)) with c | c
    · exact mul_nonneg (by linarith) (h.2 c)
    · exact mul_nonneg_of_nonpos_of_nonpos (by linarith) (h.1 c)
  have d := mul_pos (hp.dx g.ystart) (hp.dz g.ystart)
  nlinarith

theorem Physical.kappa_nonneg {g : Line} {o : NPDOpts} {n : String} (h : Physical g o st n) {i : ℤ} (h1 : g.ystart ≤ i) (h2 : i ≤ g.yend) :
    0 ≤ 2 / 5 * npdKappa g o (fieldOf st n .density) (gasD g o st n) i := by
  unfold npdKappa
  rw [neumann_inside _ h1 h2]
  have a := mul_nonneg (h.density i h1 h2) (h.D_nonneg h1 h2)
  have : 0 ≤ (if o.equation_fix then (5 / 2 : ℝ) else 1) := by split_ifs <;> norm_num
  have := mul_nonneg this a
  linarith

theorem logP_const {g : Line} {P : Fld ℤ} {c : ℝ} (h : ∀ i, P i = c) : logP g P = fun _ => Real.log (floorTo c 1e-7) := by
  funext i
  unfold logP Line.neumann
  simp only [h]
  split_ifs <;> rfl

theorem divK_const (g : Line) (K : Fld ℤ) (c : ℝ) (b : Bool) (i : ℤ) : g.divK K (fun _ => c) b i = 0 := conduction_of_constant g K c b i

/-- **C64.**  In a gas of uniform pressure and temperature only viscosity acts.  It slows the flow down, and the kinetic energy it
takes does not come back as heat: the energy source is zero. -/
theorem viscosity_takes_energy {g : Line} (hg : Regular g) (hp : Positive g) (hu : UniformPerp g) {o : NPDOpts} {names : List String} {u : Unit}
    (hn : names.Nodup) (h : neutralParallelDiffusion g o names st = (.ok u, st')) {n : String} (hmem : n ∈ names) (hN : Neutral st n)
    (hphys : Physical g o st n) (hf : FlatEnds g (fieldOf st n .velocity)) {p T : ℝ} (hP : ∀ i, gasP st n i = p) (hT : ∀ i, fieldOf st n .temperature i = T) :
    (∀ i, added st st' n .density_source i = 0) ∧ (∀ i, added st st' n .energy_source i = 0) ∧
    content g (fun i => fieldOf st n .velocity i * added st st' n .momentum_source i) ≤ 0 := by
  obtain ⟨r1, r2, r3⟩ := (neutralParallelDiffusion_ok hn h hmem).1 hN
  have hT' : fieldOf st n .temperature = fun _ => T := funext hT
  refine ⟨fun i => ?_, fun i => ?_, ?_⟩
  · rw [r1, logP_const hP, divK_const]
  · rw [r2]
    unfold npdEnergy
    rw [logP_const hP, divK_const, hT', divK_const]
    simp
  · cases hc : ((vals st (.sp n .velocity)).isSome && o.viscosity)
    · rw [hc] at r3
      rw [show content g (fun i => fieldOf st n .velocity i * added st st' n .momentum_source i) = content g fun _ => 0 from
        content_ext fun i => by rw [r3 i]; simp]
      simp [content]
    · rw [hc] at r3
      rw [show content g (fun i => fieldOf st n .velocity i * added st st' n .momentum_source i) =
        content g (fun i => fieldOf st n .velocity i * g.divK (fun i => 2 / 5 * npdKappa g o (fieldOf st n .density) (gasD g o st n) i)
          (fieldOf st n .velocity) true i) from content_ext fun i => by
          rw [r3 i, if_pos rfl]
          unfold npdForce
          rw [logP_const hP, divK_const, zero_add]]
      exact flat_dissipates hg hp hu hf (fun i a b => hphys.kappa_nonneg a b) true

/-! ## SOL-KiT -/

/-- A loop whose bodies change one variable each. -/
theorem forM_one {body : String → Prog ℤ Unit} {v : Var} (hb : ∀ n s u s', body n s = (.ok u, s') → ∀ k, k ≠ .sp n v → vals s' k = vals s k) :
    ∀ {names : List String} {s s' : Store Key (Value ℤ)} {u : Unit}, names.Nodup → names.forM body s = (.ok u, s') →
    (∀ n ∈ names, ∃ t t' u, body n t = (.ok u, t') ∧ (∀ k, (∀ m, m ≠ n → k ≠ .sp m v) → vals t k = vals s k) ∧ vals t' (.sp n v) = vals s' (.sp n v)) ∧
    ∀ k, (∀ n ∈ names, k ≠ .sp n v) → vals s' k = vals s k
  | [], s, s', u, _, h => by
    obtain ⟨-, rfl⟩ := pure_ok (show (pure () : Prog ℤ Unit) s = (.ok u, s') from h)
    exact ⟨(by intro n hm; cases hm), fun _ _ => rfl⟩
  | n :: l, s, s', u, hn, h => by
    have h' : ((body n : Prog ℤ Unit) >>= fun _ => l.forM body) s = (.ok u, s') := h
    obtain ⟨u1, s1, a, b⟩ := M_bind_ok h'
    obtain ⟨hl, hrest⟩ := List.nodup_cons.1 hn
    obtain ⟨r1, r2⟩ := forM_one hb hrest b
    refine ⟨?_, ?_⟩
    · intro m hm
      rcases List.mem_cons.1 hm with rfl | hm
      · refine ⟨s, s1, u1, a, fun _ _ => rfl, ?_⟩
        refine (r2 _ ?_).symm
        intro m' hm' e
        cases e
        exact hl hm'
      · obtain ⟨t, t', u', c, d, e⟩ := r1 m hm
        refine ⟨t, t', u', c, fun k hk => ?_, e⟩
        rw [d k hk, hb n s u1 s1 a k (hk n (by rintro rfl; exact hl hm))]
    · intro k hk
      rw [r2 k fun m hm => hk m (List.mem_cons_of_mem _ hm), hb n s u1 s1 a k (hk n List.mem_cons_self)]

open Classical in
/-- Cross section for collisions of a neutral particle with species `m`, in m². -/
noncomputable def crossSection (st : Store Key (Value ℤ)) (m : String) : ℝ := if m = "e" ∨ Neutral st m then 8.8e-21 else 3e-19

open Classical in
theorem solkitTerm_ok {o : SolkitOpts} {x y : Fld ℤ} {m : String} (h : solkitTerm o x m st = (.ok y, st')) :
    y = (fun i => x i + crossSection st m / o.area_norm * fieldOf st m .density i) ∧ vals st' = vals st := by
  unfold solkitTerm at h
  unfold crossSection
  by_cases hm : m = "e"
  · rw [if_pos hm] at h
    obtain ⟨s1, e1, h⟩ := getF_bind h
    obtain ⟨rfl, rfl⟩ := pure_ok h
    rw [if_pos (Or.inl hm)]
    exact ⟨rfl, e1⟩
  · rw [if_neg hm] at h
    replace h := isSet_bind h
    cases hc : (vals st (.sp m .charge)).isSome
    · rw [hc] at h
      obtain ⟨s1, e1, h⟩ := getF_bind h
      obtain ⟨rfl, rfl⟩ := pure_ok h
      rw [if_pos (show m = "e" ∨ Neutral st m from Or.inr (Or.inl (Option.not_isSome_iff_eq_none.1 (by rw [hc]; simp))))]
      exact ⟨rfl, e1⟩
    · rw [hc] at h
      obtain ⟨s1, e1, h⟩ := getR_bind h
      obtain ⟨s2, e2, h⟩ := getF_bind h
      by_cases hq : realOf st m .charge ≠ 0
      · rw [if_pos hq] at h
        obtain ⟨rfl, rfl⟩ := pure_ok h
        rw [if_neg, fieldOf_congr (congrFun e1 _)]
        · exact ⟨rfl, e2.trans e1⟩
        · rintro (h0 | h0 | h0)
          · exact hm h0
          · rw [h0] at hc; cases hc
          · exact hq h0
      · rw [if_neg hq] at h
        obtain ⟨rfl, rfl⟩ := pure_ok h
        rw [if_pos (show m = "e" ∨ Neutral st m from Or.inr (Or.inr (not_not.1 hq))), fieldOf_congr (congrFun e1 _)]
        exact ⟨rfl, e2.trans e1⟩

/-- Collisions per unit length of a neutral particle with all species, its own included. -/
noncomputable def inverseMfp (o : SolkitOpts) (names : List String) (st : Store Key (Value ℤ)) : Fld ℤ := fun i =>
  (names.map fun m => crossSection st m / o.area_norm * fieldOf st m .density i).sum

theorem crossSection_congr {s t : Store Key (Value ℤ)} {n : String} (h : vals t (.sp n .charge) = vals s (.sp n .charge)) : crossSection t n = crossSection s n := by
  unfold crossSection Neutral
  rw [h, realOf_congr h]

theorem mfp_ok {o : SolkitOpts} : ∀ {names : List String} {x y : Fld ℤ} {st st' : Store Key (Value ℤ)},
    names.foldlM (solkitTerm o) x st = (.ok y, st') → (∀ i, y i = x i + inverseMfp o names st i) ∧ vals st' = vals st
  | [], x, y, st, st', h => by
    obtain ⟨rfl, rfl⟩ := pure_ok (show (pure x : Prog ℤ (Fld ℤ)) st = (.ok y, st') from h)
    exact ⟨fun i => by simp [inverseMfp], rfl⟩
  | m :: l, x, y, st, st', h => by
    rw [List.foldlM_cons] at h
    obtain ⟨z, s1, a, b⟩ := M_bind_ok h
    obtain ⟨rfl, e⟩ := solkitTerm_ok a
    obtain ⟨r, e'⟩ := mfp_ok b
    refine ⟨fun i => ?_, e'.trans e⟩
    rw [r i]
    have : inverseMfp o l s1 i = inverseMfp o l st i := by
      unfold inverseMfp
      congr 1
      refine List.map_congr_left fun q _ => ?_
      rw [crossSection_congr (congrFun e _), fieldOf_congr (congrFun e _)]
    rw [this]
    simp only [inverseMfp, List.map_cons, List.sum_cons]
    ring

theorem solkitSources_ok {g : Line} {o : SolkitOpts} {names : List String} {n : String} {u : Unit} (h : solkitSources g o names n st = (.ok u, st')) :
    (∀ i, added st st' n .density_source i = g.divK (fun i => solkitD g o (realOf st n .AA) (inverseMfp o names st) i * fieldOf st n .density i)
      (logP g fun i => fieldOf st n .density i * o.neutral_temperature) true i) ∧
    ∀ k, k ≠ .sp n .density_source → vals st' k = vals st k := by
  unfold solkitSources at h
  obtain ⟨y, s1, a, h⟩ := M_bind_ok h
  obtain ⟨ey, e1⟩ := mfp_ok a
  obtain ⟨s2, e2, h⟩ := getR_bind h
  obtain ⟨s3, e3, h⟩ := getF_bind h
  have e2' := e2.trans e1
  have e3' := e3.trans e2'
  rw [realOf_congr (congrFun e1 _), fieldOf_congr (congrFun e2' _), show y = inverseMfp o names st from funext fun i => by rw [ey i, zero_add]] at h
  obtain ⟨d, k⟩ := add_field_ok h
  refine ⟨fun i => ?_, fun q hq => by rw [k q hq, e3']⟩
  unfold added
  rw [d i, fieldOf_congr (congrFun e3' _)]
  ring

/-- What a successful call does, in terms of the state before it. -/
theorem solkit_ok {g : Line} {o : SolkitOpts} {names : List String} {u : Unit} (hn : names.Nodup)
    (h : solkitNeutralDiffusion g o names st = (.ok u, st')) {n : String} (hmem : n ∈ names) :
    (Neutral st n → ∀ i, added st st' n .density_source i = g.divK (fun i => solkitD g o (realOf st n .AA) (inverseMfp o names st) i * fieldOf st n .density i)
      (logP g fun i => fieldOf st n .density i * o.neutral_temperature) true i) ∧
    (¬Neutral st n → vals st' (.sp n .density_source) = vals st (.sp n .density_source)) := by
  have hb : ∀ n s u s', ifNeutral n (solkitSources g o names n) s = (.ok u, s') → ∀ k, k ≠ .sp n .density_source → vals s' k = vals s k := by
    intro n s u s' h k hk
    rcases ifNeutral_ok h with ⟨_, t, e, h⟩ | ⟨_, e⟩
    · rw [(solkitSources_ok h).2 k hk, e]
    · rw [e]
  obtain ⟨t, t', u', ht, b, a⟩ := (forM_one hb hn h).1 n hmem
  have ch : ∀ m, vals t (.sp m .charge) = vals st (.sp m .charge) := fun m => b _ fun q _ => by simp
  have de : ∀ m, vals t (.sp m .density) = vals st (.sp m .density) := fun m => b _ fun q _ => by simp
  have so : vals t (.sp n .density_source) = vals st (.sp n .density_source) := b _ fun q hq e => by cases e; exact hq rfl
  have hN : Neutral t n ↔ Neutral st n := by unfold Neutral; rw [ch n, realOf_congr (ch n)]
  rcases ifNeutral_ok ht with ⟨h0, s, e, hs⟩ | ⟨h0, e⟩
  · refine ⟨fun _ i => ?_, fun hc => absurd (hN.1 h0) hc⟩
    have r := (solkitSources_ok hs).1 i
    have em : inverseMfp o names s = inverseMfp o names st := by
      funext i
      unfold inverseMfp
      congr 1
      refine List.map_congr_left fun m _ => ?_
      rw [crossSection_congr ((congrFun e _).trans (ch m)), fieldOf_congr ((congrFun e _).trans (de m))]
    rw [em, realOf_congr ((congrFun e _).trans (b (.sp n .AA) fun q _ => by simp)), fieldOf_congr ((congrFun e _).trans (de n)),
      added_congr ((congrFun e _).trans so) a] at r
    exact r
  · refine ⟨fun hc => absurd (hN.2 hc) h0, fun _ => ?_⟩
    rw [← a, e, so]

/-- **C64.**  SOL-KiT diffusion keeps the gas on a closed line and leaves every other variable, in particular all of the charged species, alone. -/
theorem solkit_conserves {g : Line} (hg : Regular g) (hu : UniformPerp g) (hc : Closed g) {o : SolkitOpts} {names : List String} {u : Unit}
    (hn : names.Nodup) (h : solkitNeutralDiffusion g o names st = (.ok u, st')) {n : String} (hmem : n ∈ names) :
    (Neutral st n → content g (added st st' n .density_source) = 0) ∧ (¬Neutral st n → ∀ i, added st st' n .density_source i = 0) := by
  refine ⟨fun hN => ?_, fun hN i => ?_⟩
  · rw [content_ext ((solkit_ok hn h hmem).1 hN)]
    exact flat_conserves hg hu (flat_neumann hg hc _) _ _
  · unfold added
    rw [fieldOf_congr ((solkit_ok hn h hmem).2 hN), sub_self]

/-- **C64.**  SOL-KiT diffusion fills empty cells. -/
theorem solkit_empty_cell_fills {g : Line} (hg : Regular g) (hp : Positive g) (hc : Closed g) {o : SolkitOpts} {names : List String} {u : Unit}
    (hn : names.Nodup) (h : solkitNeutralDiffusion g o names st = (.ok u, st')) {n : String} (hmem : n ∈ names) (hN : Neutral st n)
    (ha : 0 < o.area_norm) (hd : ∀ m ∈ names, ∀ i, g.ystart ≤ i → i ≤ g.yend → 0 ≤ fieldOf st m .density i) {i : ℤ} (h1 : g.ystart ≤ i) (h2 : i ≤ g.yend)
    (hP : fieldOf st n .density i * o.neutral_temperature ≤ 1e-7) : 0 ≤ added st st' n .density_source i := by
  rw [(solkit_ok hn h hmem).1 hN i]
  refine flat_fills hp (flat_neumann hg hc _) (fun j a b => mul_nonneg ?_ (hd n hmem j a b)) _ h1 h2 (logP_floor hg hc h1 h2 hP)
  unfold solkitD
  rw [dirichlet_inside _ a b]
  refine div_nonneg (Real.sqrt_nonneg _) (mul_nonneg (by norm_num) (List.sum_nonneg ?_))
  intro x hx
  obtain ⟨m, hm, rfl⟩ := List.mem_map.1 hx
  refine mul_nonneg (div_nonneg ?_ ha.le) (hd m hm j a b)
  unfold crossSection
  split_ifs <;> norm_num

/-! ## Concrete runs -/

section
open Hermes.Runs

def npdAccess (names : List String) : Access where
  found k := ∃ s ∈ names, k = .sp s .AA ∨ k = .sp s .density ∨ k = .sp s .temperature ∨ k = .sp s .collision_frequency ∨ k = .sp s .momentum
  own k := (∃ s, k = .sp s .density_source) ∨ (∃ s, k = .sp s .momentum_source) ∨ ∃ s, k = .sp s .energy_source
  edge _ := False
  num k := (∃ s, k = .sp s .AA) ∨ ∃ s, k = .sp s .charge

/-- A call ends normally if mass, density, temperature, collision frequency and momentum are known and the sources may still be set. -/
theorem npd_runs (g : Line) (o : NPDOpts) (names : List String) : Runs (npdAccess names) (neutralParallelDiffusion g o names) := by
  have no : ∀ s v, v ≠ .density_source → v ≠ .momentum_source → v ≠ .energy_source → ¬(npdAccess names).own (.sp s v) := by
    rintro s v h1 h2 h3 (⟨_, e⟩ | ⟨_, e⟩ | ⟨_, e⟩)
    · exact h1 (Key.sp.inj e).2
    · exact h2 (Key.sp.inj e).2
    · exact h3 (Key.sp.inj e).2
  have nn : ∀ s v, v ≠ .AA → v ≠ .charge → ¬(npdAccess names).num (.sp s v) := by
    rintro s v h1 h2 (⟨_, e⟩ | ⟨_, e⟩)
    · exact h1 (Key.sp.inj e).2
    · exact h2 (Key.sp.inj e).2
  have hadd : ∀ (B : Access) s v f, B.own = (npdAccess names).own → B.num = (npdAccess names).num →
      v = .density_source ∨ v = .momentum_source ∨ v = .energy_source → Runs (ι := ℤ) B (addF s v f) := by
    rintro B s v f h1 h2 hv
    refine runs_add ?_ ?_
    · rw [h1]
      rcases hv with rfl | rfl | rfl
      · exact Or.inl ⟨_, rfl⟩
      · exact Or.inr (Or.inl ⟨_, rfl⟩)
      · exact Or.inr (Or.inr ⟨_, rfl⟩)
    · rw [h2]
      rcases hv with rfl | rfl | rfl <;> exact nn _ _ (by decide) (by decide)
  have main : ∀ (B : Access) n, B.own = (npdAccess names).own → B.num = (npdAccess names).num → B.edge = (npdAccess names).edge →
      (∀ k, (npdAccess names).found k → B.found k) → n ∈ names → Runs B (npdSources g o n) := by
    intro B n ho hnum he hf hn
    have no' : ∀ v, v ≠ .density_source → v ≠ .momentum_source → v ≠ .energy_source → ¬B.own (.sp n v) := fun v a b c => by rw [ho]; exact no n v a b c
    have ed : ∀ k, ¬B.edge k := fun k => by rw [he]; exact id
    have hf' : ∀ v, Key.sp n v = .sp n .AA ∨ Key.sp n v = .sp n .density ∨ Key.sp n v = .sp n .temperature ∨ Key.sp n v = .sp n .collision_frequency ∨ Key.sp n v = .sp n .momentum →
      B.found (.sp n v) := fun v hv => hf _ ⟨n, hn, hv⟩
    unfold npdSources
    refine Runs.bind (runs_getF (hf' _ (Or.inr (Or.inr (Or.inr (Or.inl rfl))))) (no' _ (by decide) (by decide) (by decide)) (ed _)) fun nu => ?_
    refine Runs.bind (runs_getR (hf' _ (Or.inl rfl)) (by rw [hnum]; exact Or.inl ⟨_, rfl⟩) (no' _ (by decide) (by decide) (by decide)) (ed _)) fun AA => ?_
    refine Runs.bind (runs_getF (hf' _ (Or.inr (Or.inl rfl))) (no' _ (by decide) (by decide) (by decide)) (ed _)) fun N => ?_
    refine Runs.bind (runs_getF (hf' _ (Or.inr (Or.inr (Or.inl rfl)))) (no' _ (by decide) (by decide) (by decide)) (ed _)) fun T => ?_
    refine Runs.bind ?_ fun P => ?_
    · unfold npdPressure
      exact Runs.ifSet (tests_isSetFinal (no' _ (by decide) (by decide) (by decide)) (ed _))
        (runs_getF (Or.inr rfl) (no' _ (by decide) (by decide) (by decide)) (ed _)) (Runs.pure _)
    refine Runs.bind (hadd _ _ _ _ ho hnum (Or.inl rfl)) fun _ => ?_
    refine Runs.bind (hadd _ _ _ _ ho hnum (Or.inr (Or.inr rfl))) fun _ => ?_
    unfold npdMomentum
    cases o.viscosity
    · refine Runs.bind (runs_isSetFinal (no' _ (by decide) (by decide) (by decide)) (ed _)) fun b => ?_
      rw [Bool.and_false]
      exact Runs.pure _
    · simp only [Bool.and_true]
      refine Runs.ifSet (tests_isSetFinal (no' _ (by decide) (by decide) (by decide)) (ed _)) ?_ (Runs.pure _)
      refine Runs.bind (runs_getF (Or.inr rfl) (no' _ (by decide) (by decide) (by decide)) (ed _)) fun V => ?_
      refine Runs.bind (runs_getF (Or.inl (hf' _ (Or.inr (Or.inr (Or.inr (Or.inr rfl)))))) (no' _ (by decide) (by decide) (by decide)) (ed _)) fun NV => ?_
      exact hadd _ _ _ _ ho hnum (Or.inr (Or.inl rfl))
  unfold neutralParallelDiffusion
  refine Runs.forM names fun n hn => ?_
  unfold ifNeutral
  refine Runs.ifSet tests_isSet ?_ (main _ n rfl rfl rfl (fun _ h => h) hn)
  refine Runs.bind (runs_getR (Or.inr rfl) (Or.inr ⟨_, rfl⟩) (no _ _ (by decide) (by decide) (by decide)) id) fun q => ?_
  exact Runs.ite (fun _ => Runs.pure _) fun _ => main _ n rfl rfl rfl (fun _ h => Or.inl h) hn

/-- Three cells between two walls. -/
noncomputable def threeCells : Line := ⟨0, 2, true, true, false, fun _ => 1, fun _ => 1, fun _ => 1, fun _ => 1, fun _ => 1⟩

theorem threeCells_regular : Regular threeCells := ⟨by decide, fun _ _ _ => one_ne_zero, fun _ _ _ => one_ne_zero⟩
theorem threeCells_positive : Positive threeCells := ⟨fun _ => one_pos, fun _ => one_pos, fun _ => one_pos, fun _ => one_pos, fun _ => one_pos⟩
theorem threeCells_uniform : UniformPerp threeCells := fun _ _ => ⟨rfl, rfl⟩
theorem threeCells_closed : Closed threeCells := ⟨rfl, rfl, rfl⟩

/-- A gas of atoms of mass `m`, with density `N` and velocity `V` between the walls, next to an ion species. -/
noncomputable def gas (m : ℝ) (N V : Fld ℤ) : Store Key (Value ℤ) where
  ent
    | .sp _ .density => { val := some (.field N), final := false, finalDomain := false }
    | .sp s .charge => { val := some (.real (if s = "d+" then 1 else 0)), final := false, finalDomain := false }
    | .sp _ .temperature => { val := some (.field fun _ => 1), final := false, finalDomain := false }
    | .sp _ .velocity => { val := some (.field V), final := false, finalDomain := false }
    | .sp _ .momentum => { val := some (.field fun i => m * N i * V i), final := false, finalDomain := false }
    | .sp _ .collision_frequency => { val := some (.field fun _ => 1), final := false, finalDomain := false }
    | .sp _ .AA => { val := some (.real m), final := false, finalDomain := false }
    | _ => { val := none, final := false, finalDomain := false }
  check := true

theorem gas_runs (g : Line) (o : NPDOpts) (m : ℝ) (N V : Fld ℤ) : ∃ st', neutralParallelDiffusion g o ["d", "d+"] (gas m N V) = (.ok (), st') := by
  obtain ⟨_, st', h, -⟩ := npd_runs g o ["d", "d+"] (gas m N V)
    ⟨by rintro k (⟨s, rfl⟩ | ⟨s, rfl⟩) x hx <;> exact ⟨_, (Option.some.inj hx).symm⟩,
     by rintro k ⟨s, -, rfl | rfl | rfl | rfl | rfl⟩ <;> rfl,
     by rintro k (⟨s, rfl⟩ | ⟨s, rfl⟩ | ⟨s, rfl⟩) <;> exact ⟨rfl, rfl⟩, fun k hk => hk.elim⟩
  exact ⟨st', h⟩

theorem gas_neutral (m : ℝ) (N V : Fld ℤ) : Neutral (gas m N V) "d" ∧ ¬Neutral (gas m N V) "d+" := by
  refine ⟨Or.inr ?_, ?_⟩
  · show (if "d" = "d+" then (1 : ℝ) else 0) = 0
    rw [if_neg (by decide)]
  · rintro (h | h)
    · cases h
    · have : (if "d+" = "d+" then (1 : ℝ) else 0) = 0 := h
      rw [if_pos rfl] at this
      exact one_ne_zero this

/-- Gas at rest in one half. -/
noncomputable def lastMoves : Fld ℤ := fun i => if 2 ≤ i then 1 else 0

theorem gas_force {m : ℝ} {st' : Store Key (Value ℤ)} (h : neutralParallelDiffusion threeCells ⟨1, true, true, true⟩ ["d", "d+"] (gas m (fun _ => 1) lastMoves) = (.ok (), st')) :
    added (gas m (fun _ => 1) lastMoves) st' "d" .momentum_source 0 = 0 ∧ added (gas m (fun _ => 1) lastMoves) st' "d" .momentum_source 1 = 1 / m ∧
    added (gas m (fun _ => 1) lastMoves) st' "d" .momentum_source 2 = -(1 / m) := by
  have r := ((neutralParallelDiffusion_ok (by decide) h (n := "d") (by simp)).1 (gas_neutral _ _ _).1).2.2
  have hP : ∀ i, gasP (gas m (fun _ => 1) lastMoves) "d" i = 1 := fun i => by
    show (1 : ℝ) * 1 = 1
    norm_num
  have hD : ∀ i, 0 ≤ i → i ≤ 2 → gasD threeCells ⟨1, true, true, true⟩ (gas m (fun _ => 1) lastMoves) "d" i = 1 / m := fun i a b => by
    unfold gasD npdD
    rw [dirichlet_inside _ a b]
    show 1 * 1 / (m * 1) = 1 / m
    rw [mul_one, mul_one]
  have hK : ∀ i, threeCells.ystart ≤ i → i ≤ threeCells.yend →
      2 / 5 * npdKappa threeCells ⟨1, true, true, true⟩ (fieldOf (gas m (fun _ => 1) lastMoves) "d" .density) (gasD threeCells ⟨1, true, true, true⟩ (gas m (fun _ => 1) lastMoves) "d") i = 1 / m := by
    intro i a b
    unfold npdKappa
    rw [neumann_inside _ a b, hD i a b]
    show 2 / 5 * (5 / 2 * 1 * (1 / m)) = 1 / m
    ring
  have hf : FlatEnds threeCells lastMoves := ⟨by simp [threeCells, lastMoves], by simp [threeCells, lastMoves]⟩
  have step : ∀ i, 0 ≤ i → i ≤ 2 → added (gas m (fun _ => 1) lastMoves) st' "d" .momentum_source i = threeCells.divK (fun _ => 1 / m) lastMoves true i := by
    intro i a b
    rw [r i, if_pos (show ((vals (gas m (fun _ => 1) lastMoves) (.sp "d" .velocity)).isSome && true) = true from rfl)]
    unfold npdForce
    rw [logP_const hP, divK_const, zero_add]
    exact flat_congr hf hK true a b
  refine ⟨?_, ?_, ?_⟩
  · rw [step 0 (by norm_num) (by norm_num)]
    norm_num [Line.divK, Line.divParKGradPar, Line.condUp, Line.condDown, Line.condFluxUp, Line.condFluxDown, threeCells, lastMoves]
  · rw [step 1 (by norm_num) (by norm_num)]
    norm_num [Line.divK, Line.divParKGradPar, Line.condUp, Line.condDown, Line.condFluxUp, Line.condFluxDown, threeCells, lastMoves]
    ring
  · rw [step 2 (by norm_num) (by norm_num)]
    norm_num [Line.divK, Line.divParKGradPar, Line.condUp, Line.condDown, Line.condFluxUp, Line.condFluxDown, threeCells, lastMoves]
    ring

/-- The hypotheses of the theorems above are met, by a gas that fills one cell only. -/
example : ∃ st', neutralParallelDiffusion threeCells ⟨1, true, true, true⟩ ["d", "d+"] (gas 2 (fun i => if 2 ≤ i then 1 else 0) lastMoves) = (.ok (), st') ∧
    Neutral (gas 2 (fun i => if 2 ≤ i then 1 else 0) lastMoves) "d" ∧ ¬Neutral (gas 2 (fun i => if 2 ≤ i then 1 else 0) lastMoves) "d+" ∧
    Physical threeCells ⟨1, true, true, true⟩ (gas 2 (fun i => if 2 ≤ i then 1 else 0) lastMoves) "d" ∧
    gasP (gas 2 (fun i => if 2 ≤ i then 1 else 0) lastMoves) "d" 0 ≤ 1e-7 ∧ 1e-7 < gasP (gas 2 (fun i => if 2 ≤ i then 1 else 0) lastMoves) "d" 2 := by
  obtain ⟨st', h⟩ := gas_runs threeCells ⟨1, true, true, true⟩ 2 (fun i => if 2 ≤ i then 1 else 0) lastMoves
  refine ⟨st', h, (gas_neutral _ _ _).1, (gas_neutral _ _ _).2, ⟨by norm_num, ?_, ?_, ?_, ?_⟩, ?_, ?_⟩
  · show (0 : ℝ) < 2
    norm_num
  · intro i _ _
    show (0 : ℝ) ≤ if 2 ≤ i then 1 else 0
    split_ifs <;> norm_num
  · intro i _ _
    show (0 : ℝ) ≤ 1
    norm_num
  · intro i _ _
    show (0 : ℝ) < 1
    norm_num
  · show (if (2 : ℤ) ≤ 0 then (1 : ℝ) else 0) * 1 ≤ 1e-7
    norm_num
  · show (1e-7 : ℝ) < (if (2 : ℤ) ≤ 2 then (1 : ℝ) else 0) * 1
    norm_num

/-- **C64 fails for the energy of the flow.**  A closed gas of uniform density and temperature loses kinetic energy by viscosity, and nothing is added to its heat. -/
theorem viscous_heat_lost : ∃ st', neutralParallelDiffusion threeCells ⟨1, true, true, true⟩ ["d", "d+"] (gas 2 (fun _ => 1) lastMoves) = (.ok (), st') ∧
    (∀ i, added (gas 2 (fun _ => 1) lastMoves) st' "d" .density_source i = 0) ∧
    (∀ i, added (gas 2 (fun _ => 1) lastMoves) st' "d" .energy_source i = 0) ∧
    content threeCells (fun i => fieldOf (gas 2 (fun _ => 1) lastMoves) "d" .velocity i * added (gas 2 (fun _ => 1) lastMoves) st' "d" .momentum_source i) = -(1 / 2) := by
  obtain ⟨st', h⟩ := gas_runs threeCells ⟨1, true, true, true⟩ 2 (fun _ => 1) lastMoves
  have hphys : Physical threeCells ⟨1, true, true, true⟩ (gas 2 (fun _ => 1) lastMoves) "d" := by
    refine ⟨by norm_num, ?_, fun i _ _ => ?_, fun i _ _ => ?_, fun i _ _ => ?_⟩
    · show (0 : ℝ) < 2
      norm_num
    · show (0 : ℝ) ≤ 1
      norm_num
    · show (0 : ℝ) ≤ 1
      norm_num
    · show (0 : ℝ) < 1
      norm_num
  obtain ⟨a, b, -⟩ := viscosity_takes_energy threeCells_regular threeCells_positive threeCells_uniform (by decide) h (n := "d") (by simp) (gas_neutral _ _ _).1 hphys
    (show FlatEnds threeCells lastMoves from ⟨by simp [threeCells, lastMoves], by simp [threeCells, lastMoves]⟩) (p := 1) (T := 1)
    (fun i => by show (1 : ℝ) * 1 = 1; norm_num) (fun i => rfl)
  obtain ⟨f0, f1, f2⟩ := gas_force h
  refine ⟨st', h, a, b, ?_⟩
  have hV : fieldOf (gas 2 (fun _ => 1) lastMoves) "d" .velocity = lastMoves := rfl
  unfold content
  rw [show Icc threeCells.ystart threeCells.yend = {0, 1, 2} from by decide]
  rw [Finset.sum_insert (by decide), Finset.sum_insert (by decide), Finset.sum_singleton]
  beta_reduce
  rw [f0, f1, f2, hV]
  norm_num [lastMoves, volume, threeCells]

/-- **C64 fails for the mass of the gas.**  At the same density, temperature and collision frequency the viscosity of a gas does not depend on the mass of its
atoms, yet the force on atoms of mass 2 is half of that on atoms of mass 1: the factor `AA` that `neutral_mixed` has is missing. -/
theorem viscosity_misses_mass : ∃ st1 st2, neutralParallelDiffusion threeCells ⟨1, true, true, true⟩ ["d", "d+"] (gas 1 (fun _ => 1) lastMoves) = (.ok (), st1) ∧
    neutralParallelDiffusion threeCells ⟨1, true, true, true⟩ ["d", "d+"] (gas 2 (fun _ => 1) lastMoves) = (.ok (), st2) ∧
    added (gas 1 (fun _ => 1) lastMoves) st1 "d" .momentum_source 1 = 1 ∧ added (gas 2 (fun _ => 1) lastMoves) st2 "d" .momentum_source 1 = 1 / 2 := by
  obtain ⟨s1, h1⟩ := gas_runs threeCells ⟨1, true, true, true⟩ 1 (fun _ => 1) lastMoves
  obtain ⟨s2, h2⟩ := gas_runs threeCells ⟨1, true, true, true⟩ 2 (fun _ => 1) lastMoves
  exact ⟨s1, s2, h1, h2, by rw [(gas_force h1).2.1]; norm_num, (gas_force h2).2.1⟩

/-- **C64.**  The diffusion coefficients of both components vanish on the walls, half way between the last cell and the guard cell;
inside, one is `dneut T / (AA ν)` and that of SOL-KiT is half of the thermal speed `v`, `AA v² = 2 T`, times the mean free path. -/
theorem diffusion_stops_at_walls (g : Line) (hg : g.ystart ≤ g.yend) (ho : g.periodicY = false ∧ g.firstY = true ∧ g.lastY = true) :
    (∀ (o : NPDOpts) (AA : ℝ) (T nu : Fld ℤ), AA ≠ 0 →
      npdD g o AA T nu (g.ystart - 1) + npdD g o AA T nu g.ystart = 0 ∧ npdD g o AA T nu g.yend + npdD g o AA T nu (g.yend + 1) = 0 ∧
      ∀ i, g.ystart ≤ i → i ≤ g.yend → nu i ≠ 0 → AA * nu i * npdD g o AA T nu i = o.dneut * T i) ∧
    ∀ (o : SolkitOpts) (AA : ℝ) (inv_mfp : Fld ℤ), 0 < AA → 0 ≤ o.neutral_temperature →
      solkitD g o AA inv_mfp (g.ystart - 1) + solkitD g o AA inv_mfp g.ystart = 0 ∧
      solkitD g o AA inv_mfp g.yend + solkitD g o AA inv_mfp (g.yend + 1) = 0 ∧
      ∀ i, g.ystart ≤ i → i ≤ g.yend → inv_mfp i ≠ 0 →
        ∃ v, 0 ≤ v ∧ AA * v ^ 2 = 2 * o.neutral_temperature ∧ solkitD g o AA inv_mfp i = v * (1 / inv_mfp i) / 2 := by
  have hd : ∀ f, g.dirichlet f (g.ystart - 1) + g.dirichlet f g.ystart = 0 ∧ g.dirichlet f g.yend + g.dirichlet f (g.yend + 1) = 0 := by
    intro f
    rw [dirichlet_inside f le_rfl hg, dirichlet_inside f hg le_rfl]
    unfold Line.dirichlet
    rw [if_pos ⟨rfl, ho.2.1, ho.1⟩, if_neg (by omega), if_pos ⟨rfl, ho.2.2, ho.1⟩]
    constructor <;> ring
  refine ⟨fun o AA T nu hA => ⟨(hd _).1, (hd _).2, fun i h1 h2 h0 => by
    unfold npdD
    rw [dirichlet_inside _ h1 h2]
    field_simp⟩, fun o AA l hA hT => ⟨(hd _).1, (hd _).2, fun i h1 h2 h0 => ?_⟩⟩
  refine ⟨Real.sqrt (2 * o.neutral_temperature / AA), Real.sqrt_nonneg _, ?_, ?_⟩
  · rw [Real.sq_sqrt (by positivity)]
    field_simp
  · unfold solkitD
    rw [dirichlet_inside _ h1 h2]
    field_simp

end

end Hermes.ParDiffusion
