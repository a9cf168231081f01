import Verif.Props.CollisionExamples
import Verif.Props.SimpleReactions

/-!
# Reactions and collisions in a moving frame (C93)

The documentation says of the heating by reactions and by friction that it "is Galilean invariant".  Here the same plasma is
looked at twice: once as it is, and once from a frame in which everything moves faster by a constant `u`.  Densities,
temperatures and numbers are the same, all velocities are larger by `u`.  Physics then requires, for every species,
* the same particle sources, the same sources of thermal energy, the same collision frequencies,
* a momentum source that is larger by `m u` times the particle source: particles are created with the extra velocity.
-/

set_option linter.unusedSimpArgs false

namespace Hermes.Galilean

variable {ι : Type}

/-! ## What is claimed -/

/-- The same state in a frame in which everything moves faster by `u`.  A velocity that is not set stays so. -/
def boosted (u : ℝ) (w : World ι) : World ι where
  st := {
    check := w.st.check
    ent := fun k => match k with
      | .sp s .velocity => { w.st.ent (.sp s .velocity) with val := (w.st.ent (.sp s .velocity)).val.map fun v i => v i + u }
      | k => w.st.ent k }
  num := w.num
  ym := w.ym
  yp := w.yp
  J := w.J
  lim := w.lim

/-- The sources that component `c` adds for species `s` are those of the same particles seen from another frame. -/
def SameParticles (c : SourceComponent ι) (w : World ι) (u : ℝ) (s : String) : Prop :=
  let after := (c.transform w).2
  let after' := (c.transform (boosted u w)).2
  ∀ i, gain (boosted u w).st after' s .density_source i = gain w.st after s .density_source i

def SameHeat (c : SourceComponent ι) (w : World ι) (u : ℝ) (s : String) : Prop :=
  let after := (c.transform w).2
  let after' := (c.transform (boosted u w)).2
  ∀ i, gain (boosted u w).st after' s .energy_source i = gain w.st after s .energy_source i

def SameFrequency (c : SourceComponent ι) (w : World ι) (u : ℝ) (s : String) : Prop :=
  let after := (c.transform w).2
  let after' := (c.transform (boosted u w)).2
  ∀ i, gain (boosted u w).st after' s .collision_frequency i = gain w.st after s .collision_frequency i

/-- The momentum source changes by the momentum `m u` of every particle that is added. -/
def MomentumCarried (c : SourceComponent ι) (w : World ι) (u : ℝ) (s : String) : Prop :=
  let after := (c.transform w).2
  let after' := (c.transform (boosted u w)).2
  ∀ i, gain (boosted u w).st after' s .momentum_source i =
    gain w.st after s .momentum_source i + mass w s * u * gain w.st after s .density_source i

/-- The same exception, or none in both frames. -/
def SameOutcome (c : SourceComponent ι) (w : World ι) (u : ℝ) : Prop := (c.transform (boosted u w)).1 = (c.transform w).1

/-! ## Reading in both frames -/

/-- Both computations throw the same exception, or give results in relation `P`. -/
def Same {α β : Type} (P : α → β → Prop) : Except Err α → Except Err β → Prop
  | .ok a, .ok b => P a b
  | .error e, .error e' => e = e'
  | _, _ => False

theorem Same.bind {α β γ δ : Type} {P : α → β → Prop} {Q : γ → δ → Prop} {x : Except Err α} {y : Except Err β}
    {f : α → Except Err γ} {g : β → Except Err δ} (h : Same P x y) (hf : ∀ a b, x = .ok a → P a b → Same Q (f a) (g b)) :
    Same Q (x >>= f) (y >>= g) := by
  cases x <;> cases y <;> simp only [Same] at h
  · subst h; rfl
  · exact hf _ _ rfl h

theorem Same.map {α β γ δ : Type} {P : α → β → Prop} {Q : γ → δ → Prop} {x : Except Err α} {y : Except Err β}
    {f : α → γ} {g : β → δ} (h : Same P x y) (hf : ∀ a b, x = .ok a → P a b → Q (f a) (g b)) : Same Q (x.map f) (y.map g) := by
  cases x <;> cases y <;> simp only [Same] at h
  · subst h; rfl
  · exact hf _ _ rfl h

theorem Same.refl {α : Type} (x : Except Err α) : Same (fun a b => b = a) x x := by
  cases x <;> simp [Same]

theorem Same.pure {α β : Type} {P : α → β → Prop} {a : α} {b : β} (h : P a b) :
    Same P (Pure.pure a : Except Err α) (Pure.pure b : Except Err β) := h

theorem Same.ite {α β : Type} {P : α → β → Prop} {p : Prop} [Decidable p] {x x' : Except Err α} {y y' : Except Err β}
    (h : p → Same P x y) (h' : ¬p → Same P x' y') : Same P (if p then x else x') (if p then y else y') := by
  split
  · exact h ‹_›
  · exact h' ‹_›

theorem same_field (u : ℝ) (w : World ι) (s : String) {v : Var} (hv : v ≠ .velocity) :
    Same (fun a b => b = a) (w.field s v) ((boosted u w).field s v) := by
  have : (boosted u w).field s v = w.field s v := by cases v <;> first | rfl | exact absurd rfl hv
  rw [this]
  exact Same.refl _

theorem same_velocity (u : ℝ) (w : World ι) (s : String) :
    Same (fun a b => b = fun i => a i + u) (w.field s .velocity) ((boosted u w).field s .velocity) := by
  unfold World.field
  have : ((boosted u w).st.ent (.sp s .velocity)).val = (w.st.ent (.sp s .velocity)).val.map fun v i => v i + u := rfl
  rw [this]
  cases (w.st.ent (.sp s .velocity)).val <;> simp [Same]

theorem same_real (u : ℝ) (w : World ι) (s : String) (v : Var) :
    Same (fun a b => b = a) (w.real s v) ((boosted u w).real s v) := Same.refl _

theorem boosted_isSetF (u : ℝ) (w : World ι) (s : String) (v : Var) : (boosted u w).isSetF s v = w.isSetF s v := by
  unfold World.isSetF
  cases v <;> first | rfl | simp [boosted]

theorem boosted_unread {u : ℝ} {w : World ι} (h : SourcesUnread w.st) : SourcesUnread (boosted u w).st := by
  intro s v hv
  have := h s v hv
  simp only [List.mem_cons, List.not_mem_nil, or_false] at hv
  rcases hv with rfl | rfl | rfl | rfl <;> exact this

/-! ## From contributions to sources -/

/-- Only sources and collision frequencies are contributed to. -/
def OnlySources (cs : List (Contrib Key ι)) : Prop :=
  ∀ c ∈ cs, ∃ s, ∃ v ∈ [Var.density_source, Var.momentum_source, Var.energy_source, Var.collision_frequency], c.1 = .sp s v

@[simp] theorem onlySources_nil : OnlySources ([] : List (Contrib Key ι)) := by simp [OnlySources]

@[simp] theorem onlySources_cons (s : String) (v : Var) (fb : Fld ι × Bool) (cs : List (Contrib Key ι)) :
    OnlySources ((.sp s v, fb) :: cs) ↔
      v ∈ [Var.density_source, Var.momentum_source, Var.energy_source, Var.collision_frequency] ∧ OnlySources cs := by
  unfold OnlySources
  rw [List.forall_mem_cons]
  refine and_congr_left fun _ => ⟨?_, fun h => ⟨s, v, h, rfl⟩⟩
  rintro ⟨s', v', hv, e⟩
  cases e
  exact hv

@[simp] theorem onlySources_append (cs ds : List (Contrib Key ι)) :
    OnlySources (cs ++ ds) ↔ OnlySources cs ∧ OnlySources ds := by
  simp only [OnlySources, List.mem_append]
  exact ⟨fun h => ⟨fun c hc => h c (Or.inl hc), fun c hc => h c (Or.inr hc)⟩, fun h c hc => hc.elim (h.1 c) (h.2 c)⟩

theorem contribute_sources {cs : List (Contrib Key ι)} {st : Store Key (Fld ι)} (hk : OnlySources cs) (hu : SourcesUnread st) :
    ∃ st', contributeAll cs st = (.ok (), st') ∧ ∀ s v i, gain st st' s v i = signedSum (.sp s v) i cs := by
  obtain ⟨st', h1, -, h3⟩ := State.sources_accumulate cs st (by
    intro c hc
    obtain ⟨s, v, hv, e⟩ := hk c hc
    rw [e]
    exact hu s v hv)
  exact ⟨st', h1, fun s v i => gain_eq_signedSum (fun k => (h3 k).1) s v i⟩

/-- Contributions in the two frames: `P` relates, cell by cell, the sums that go to the variables of species `s`. -/
def Related (P : String → (Var → ℝ) → (Var → ℝ) → Prop) (cs cs' : List (Contrib Key ι)) : Prop :=
  OnlySources cs ∧ OnlySources cs' ∧ ∀ s i, P s (fun v => signedSum (.sp s v) i cs) (fun v => signedSum (.sp s v) i cs')

/-- If the contributions are related, so are the sources, and the exceptions are the same. -/
theorem sources_of {P : String → (Var → ℝ) → (Var → ℝ) → Prop} (h0 : ∀ s, P s (fun _ => 0) (fun _ => 0))
    {c : SourceComponent ι} {w : World ι} (hu : SourcesUnread w.st) {u : ℝ}
    (h : Same (Related P) (c w) (c (boosted u w))) :
    SameOutcome c w u ∧ ∀ s i, P s (fun v => gain w.st (c.transform w).2 s v i)
      (fun v => gain (boosted u w).st (c.transform (boosted u w)).2 s v i) := by
  unfold SameOutcome SourceComponent.transform
  cases hc : c w with
  | error e =>
    cases hc' : c (boosted u w) with
    | error e' =>
      rw [hc, hc'] at h
      simp only [Same] at h
      refine ⟨by simp [h], fun s i => ?_⟩
      simpa [gain] using h0 s
    | ok cs' => rw [hc, hc'] at h; exact h.elim
  | ok cs =>
    cases hc' : c (boosted u w) with
    | error e' => rw [hc, hc'] at h; exact h.elim
    | ok cs' =>
      rw [hc, hc'] at h
      obtain ⟨k1, k2, hP⟩ := h
      obtain ⟨a, e1, g1⟩ := contribute_sources k1 hu
      obtain ⟨b, e2, g2⟩ := contribute_sources k2 (boosted_unread (u := u) hu)
      simp only [e1, e2, g1, g2]
      exact ⟨trivial, hP⟩

/-- Nothing changes but the momentum, which is carried by the particles, for the species of `S`; for the others at least the
particles and frequencies are the same. -/
def Carried (w : World ι) (u : ℝ) (S H : String → Prop) (s : String) (x y : Var → ℝ) : Prop :=
  y .density_source = x .density_source ∧ y .collision_frequency = x .collision_frequency ∧
  (H s → y .energy_source = x .energy_source) ∧
  (S s → y .momentum_source = x .momentum_source + mass w s * u * x .density_source)

theorem carried_zero {w : World ι} {u : ℝ} {S H : String → Prop} (s : String) : Carried w u S H s (fun _ => 0) (fun _ => 0) := by
  simp [Carried]

theorem carried {c : SourceComponent ι} {w : World ι} (hu : SourcesUnread w.st) {u : ℝ} {S H : String → Prop}
    (h : Same (Related (Carried w u S H)) (c w) (c (boosted u w))) :
    SameOutcome c w u ∧ ∀ s, SameParticles c w u s ∧ SameFrequency c w u s ∧ (H s → SameHeat c w u s) ∧
      (S s → MomentumCarried c w u s) := by
  obtain ⟨h1, h2⟩ := sources_of carried_zero hu h
  exact ⟨h1, fun s => ⟨fun i => (h2 s i).1, fun i => (h2 s i).2.1, fun hH i => (h2 s i).2.2.1 hH, fun hS i => (h2 s i).2.2.2 hS⟩⟩

theorem related_append {w : World ι} {u : ℝ} {S H : String → Prop} {a a' b b' : List (Contrib Key ι)}
    (h : Related (Carried w u S H) a a') (h' : Related (Carried w u S H) b b') :
    Related (Carried w u S H) (a ++ b) (a' ++ b') := by
  obtain ⟨k1, k2, hP⟩ := h
  obtain ⟨l1, l2, hQ⟩ := h'
  refine ⟨by simp [k1, l1], by simp [k2, l2], fun s i => ?_⟩
  obtain ⟨p1, p2, p3, p4⟩ := hP s i
  obtain ⟨q1, q2, q3, q4⟩ := hQ s i
  simp only [Carried, signedSum_append] at p1 p2 p3 p4 q1 q2 q3 q4 ⊢
  refine ⟨by rw [p1, q1], by rw [p2, q2], fun hH => by rw [p3 hH, q3 hH], fun hS => ?_⟩
  rw [p4 hS, q4 hS]
  ring

/-- `p a` is 1 for the species `s` and 0 for the others. -/
theorem picker (w : World ι) (s : String) : ∃ p : String → ℝ,
    (∀ (a : String) (v v' : Var) (x : ℝ), (if Key.sp a v = Key.sp s v' then x else 0) = if v = v' then p a * x else 0) ∧
    (∀ (a : String) (A : ℝ), mass w a = A → A * p a = mass w s * p a) ∧ (∀ a, s ≠ a → p a = 0) ∧ p s = 1 := by
  refine ⟨fun a => if a = s then 1 else 0, fun a v v' x => ?_, fun a A h => ?_, fun a h => if_neg h.symm, if_pos rfl⟩
  · by_cases h : a = s <;> by_cases h' : v = v' <;> simp [h, h']
  · by_cases h' : a = s
    · subst h'; simp [h]
    · simp [h']

/-! ## AMJUEL reactions -/

/-- The sources of the three species of an AMJUEL reaction. -/
theorem amjuel_related (nm : Norms) (rate rad : ℝ → ℝ → ℝ) (heat kr kR : ℝ) (e fr dst : String) (w : World ι) (u : ℝ)
    (hef : e ≠ fr) (hed : e ≠ dst) :
    Same (Related (Carried w u (· ≠ e) (fun s => s ≠ e ∨ w.isSetF e .velocity = false ∨ charge w fr = charge w dst)))
      (Reactions.amjuel nm rate rad heat kr kR e fr dst w) (Reactions.amjuel nm rate rad heat kr kR e fr dst (boosted u w)) := by
  unfold Reactions.amjuel electronReaction
  refine Same.map (P := fun a b => Related (Carried w u (· ≠ e) (fun s => s ≠ e ∨ w.isSetF e .velocity = false ∨
    charge w fr = charge w dst)) a.contribs b.contribs) ?_ (fun _ _ _ h => h)
  refine Same.bind (same_field u w _ (by decide)) ?_; rintro _ Ne - rfl
  refine Same.bind (same_field u w _ (by decide)) ?_; rintro _ Te - rfl
  refine Same.bind (same_field u w _ (by decide)) ?_; rintro _ N1 - rfl
  refine Same.bind (same_field u w _ (by decide)) ?_; rintro _ T1 - rfl
  refine Same.bind (same_velocity u w _) ?_; rintro V1 _ - rfl
  refine Same.bind (same_real u w _ _) ?_; rintro _ A hA rfl
  refine Same.bind (same_real u w _ _) ?_; rintro _ A2 hA2 rfl
  refine Same.bind (Same.refl _) ?_; rintro _ _ hAA -
  refine Same.bind (same_velocity u w _) ?_; rintro V2 _ - rfl
  have hAA := assert1_ok hAA
  subst hAA
  have m1 : mass w fr = A := by simp [mass, real_ok hA]
  have m2 : mass w dst = A := by simp [mass, real_ok hA2]
  refine Same.bind (P := fun x y => (y.isSome = x.isSome) ∧
    (x.isSome = true → w.isSetF e .velocity = true ∧ w.chargeOr0 fr ≠ w.chargeOr0 dst)) ?_ ?_
  · unfold readElectronVelocity
    rw [boosted_isSetF]
    refine Same.ite (fun h => ?_) (fun h => ?_)
    · refine Same.bind (same_velocity u w _) ?_; rintro Ve _ - rfl
      refine Same.bind (same_real u w _ _) ?_; rintro _ Ae - rfl
      exact Same.pure ⟨rfl, fun _ => ⟨h.2, h.1⟩⟩
    · exact Same.pure ⟨rfl, fun h => by simp at h⟩
  · intro x y _ hxy
    refine Same.pure ⟨?_, ?_, ?_⟩
    · unfold electronReactionOf
      rcases x with _ | ⟨_, _⟩ <;> by_cases hq : w.chargeOr0 fr ≠ w.chargeOr0 dst <;> simp [hq]
    · unfold electronReactionOf
      have : ∀ s, (boosted u w).chargeOr0 s = w.chargeOr0 s := fun _ => rfl
      rcases y with _ | ⟨_, _⟩ <;> by_cases hq : w.chargeOr0 fr ≠ w.chargeOr0 dst <;> simp [hq, this]
    · intro s i
      have hc : ∀ s, (boosted u w).chargeOr0 s = w.chargeOr0 s := fun _ => rfl
      have hav : ∀ f a b c, (boosted u w).avg3 f a b c = w.avg3 f a b c := fun _ _ _ _ => rfl
      unfold Carried electronReactionOf
      dsimp only
      simp only [hc, hav]
      generalize w.avg3 (fun ne n1 te => ne * n1 * rate (te * nm.T) (ne * nm.N) * nm.N / nm.Freq * kr) Ne N1 Te = R
      generalize w.avg3 (fun ne n1 te => ne * n1 * rad (te * nm.T) (ne * nm.N) * nm.N / (nm.T * nm.Freq) * kR) Ne N1 Te = L
      refine ⟨?_, ?_, fun hH => ?_, fun hS => ?_⟩
      · by_cases hq : w.chargeOr0 fr = w.chargeOr0 dst <;> rcases x with _ | ⟨_, _⟩ <;> rcases y with _ | ⟨_, _⟩ <;>
          simp [hq] at hxy ⊢
      · by_cases hq : w.chargeOr0 fr = w.chargeOr0 dst <;> rcases x with _ | ⟨_, _⟩ <;> rcases y with _ | ⟨_, _⟩ <;>
          simp [hq] at hxy ⊢
      · by_cases hq : w.chargeOr0 fr = w.chargeOr0 dst
        · simp [hq]
        · rcases x with _ | ⟨_, _⟩ <;> rcases y with _ | ⟨_, _⟩
          · simp [hq]
          · simp at hxy
          · simp at hxy
          · have h1 : e ≠ s := by
              rcases hH with h | h | h
              · exact h.symm
              · rw [h] at hxy; simp at hxy
              · exact absurd h hq
            simp [hq, h1]
      · obtain ⟨p, pick, hm, hz, -⟩ := picker w s
        have g1 := hm _ _ m1
        have g2 := hm _ _ m2
        have g3 : p e = 0 := hz e hS
        by_cases hq : w.chargeOr0 fr = w.chargeOr0 dst <;> rcases x with _ | ⟨_, _⟩ <;> rcases y with _ | ⟨_, _⟩ <;>
        · simp only [ne_eq, hq, not_true_eq_false, not_false_eq_true, if_true, if_false, signedSum_append, signedSum_cons,
            signedSum_nil, pick, reduceCtorEq, reduceIte, g3]
          linear_combination (u * R i) * (g2 - g1)

/-- **C93.**  An AMJUEL ionisation or recombination seen from a moving frame: the exceptions, particle sources and collision
frequencies are the same; the atoms and ions are heated in the same way, and their momentum is carried by the particles.  The
electrons get the same heat if their velocity is not set.  Missing: the momentum of the electrons, and their heat if they have a
velocity (`electrons_born_at_rest`). -/
theorem amjuel_galilean_partial (nm : Norms) (rate rad : ℝ → ℝ → ℝ) (heat kr kR : ℝ) (e fr dst : String) (w : World ι)
    (hu : SourcesUnread w.st) (hef : e ≠ fr) (hed : e ≠ dst) (u : ℝ) :
    let c := Reactions.amjuel nm rate rad heat kr kR e fr dst
    SameOutcome c w u ∧ (∀ s, SameParticles c w u s ∧ SameFrequency c w u s) ∧
    (∀ s, s ≠ e → SameHeat c w u s ∧ MomentumCarried c w u s) ∧
    (w.isSetF e .velocity = false → SameHeat c w u e) := by
  obtain ⟨h1, h2⟩ := carried hu (amjuel_related nm rate rad heat kr kR e fr dst w u hef hed)
  exact ⟨h1, fun s => ⟨(h2 s).1, (h2 s).2.1⟩, fun s hs => ⟨(h2 s).2.2.1 (Or.inl hs), (h2 s).2.2.2 hs⟩,
    fun hv => (h2 e).2.2.1 (Or.inr (Or.inl hv))⟩

/-! ## Hydrogen charge exchange -/

theorem cx_related (nm : Norms) (k : ℝ) (ng : Bool) (atom1 ion1 atom2 ion2 : String) (w : World ι) (u : ℝ) :
    Same (Related (Carried w u (fun s => ng = true → s ≠ ion2) (fun _ => True)))
      (Reactions.cx nm k ng atom1 ion1 atom2 ion2 w) (Reactions.cx nm k ng atom1 ion1 atom2 ion2 (boosted u w)) := by
  unfold Reactions.cx chargeExchange
  refine Same.map (P := fun a b => Related (Carried w u (fun s => ng = true → s ≠ ion2) (fun _ => True)) a.contribs b.contribs) ?_
    (fun _ _ _ h => h)
  refine Same.bind (same_field u w _ (by decide)) ?_; rintro _ Ta - rfl
  refine Same.bind (same_real u w _ _) ?_; rintro _ Aa hAa rfl
  refine Same.bind (same_real u w _ _) ?_; rintro _ Aa2 hAa2 rfl
  refine Same.bind (Same.refl _) ?_; rintro _ _ h1 -
  refine Same.bind (same_field u w _ (by decide)) ?_; rintro _ Ti - rfl
  refine Same.bind (same_real u w _ _) ?_; rintro _ Ai hAi rfl
  refine Same.bind (same_real u w _ _) ?_; rintro _ Ai2 hAi2 rfl
  refine Same.bind (Same.refl _) ?_; rintro _ _ h2 -
  refine Same.bind (same_field u w _ (by decide)) ?_; rintro _ na - rfl
  refine Same.bind (same_field u w _ (by decide)) ?_; rintro _ ni - rfl
  refine Same.bind (same_velocity u w _) ?_; rintro va1 _ - rfl
  refine Same.bind (same_velocity u w _) ?_; rintro vi1 _ - rfl
  refine Same.bind (same_velocity u w _) ?_; rintro vi2 _ - rfl
  refine Same.bind (same_velocity u w _) ?_; rintro va2 _ - rfl
  have h1 := assert1_ok h1
  have h2 := assert1_ok h2
  subst h1; subst h2
  have m1 : mass w atom1 = Aa2 := by simp [mass, real_ok hAa]
  have m2 : mass w ion2 = Aa2 := by simp [mass, real_ok hAa2]
  have m3 : mass w ion1 = Ai2 := by simp [mass, real_ok hAi]
  have m4 : mass w atom2 = Ai2 := by simp [mass, real_ok hAi2]
  refine Same.pure ⟨?_, ?_, ?_⟩
  · unfold chargeExchangeOf
    cases ng <;> by_cases hq : atom1 ≠ atom2 ∨ ion1 ≠ ion2 <;> simp [hq]
  · unfold chargeExchangeOf
    cases ng <;> by_cases hq : atom1 ≠ atom2 ∨ ion1 ≠ ion2 <;> simp [hq]
  · intro s i
    unfold Carried chargeExchangeOf
    dsimp only
    generalize (Real.exp (cxLnSigmav (Real.log (cxTeff nm.T (Ta i) Aa2 (Ti i) Ai2))) * (1e-6 * nm.N / nm.Freq) * k) = sv
    generalize hR : max (na i) 1e-5 * max (ni i) 1e-5 = nn
    refine ⟨?_, ?_, fun _ => ?_, fun hS => ?_⟩
    · by_cases hq : atom1 ≠ atom2 ∨ ion1 ≠ ion2 <;> cases ng <;> simp [hq]
    · by_cases hq : atom1 ≠ atom2 ∨ ion1 ≠ ion2 <;> cases ng <;> simp [hq]
    · by_cases hq : atom1 ≠ atom2 ∨ ion1 ≠ ion2 <;> cases ng <;> simp [hq]
    · obtain ⟨p, pick, hm, hz, -⟩ := picker w s
      have g1 := hm _ _ m1
      have g2 := hm _ _ m2
      have g3 := hm _ _ m3
      have g4 := hm _ _ m4
      by_cases hq : atom1 ≠ atom2 ∨ ion1 ≠ ion2
      · cases ng
        · simp only [hq, if_true, signedSum_append, signedSum_cons, signedSum_nil, pick, reduceCtorEq, if_false, reduceIte]
          generalize (Real.exp (cxLnSigmav (Real.log (cxTeff nm.T (Ta i) Aa2 (Ti i) Ai2))) * (1e-6 * nm.N / nm.Freq) * k) = sv
          generalize max (na i) 1e-5 * max (ni i) 1e-5 = nn
          linear_combination (u * nn * sv) * (g2 - g1 - g3 + g4)
        · have : p ion2 = 0 := hz _ (hS rfl)
          simp only [hq, if_true, signedSum_append, signedSum_cons, signedSum_nil, pick, reduceCtorEq, if_false, reduceIte, this]
          generalize (Real.exp (cxLnSigmav (Real.log (cxTeff nm.T (Ta i) Aa2 (Ti i) Ai2))) * (1e-6 * nm.N / nm.Freq) * k) = sv
          generalize max (na i) 1e-5 * max (ni i) 1e-5 = nn
          linear_combination (u * nn * sv) * (g4 - g1 - g3)
      · obtain ⟨e1, e2⟩ := not_or.1 hq
        have e1 := not_not.1 e1
        have e2 := not_not.1 e2
        subst e1; subst e2
        have hA : Aa2 = Ai2 := m1.symm.trans m4
        cases ng
        · simp only [ne_eq, not_true_eq_false, or_self, signedSum_append, signedSum_cons, signedSum_nil, pick, reduceCtorEq,
            if_false, if_true, reduceIte]
          generalize (Real.exp (cxLnSigmav (Real.log (cxTeff nm.T (Ta i) Aa2 (Ti i) Ai2))) * (1e-6 * nm.N / nm.Freq) * k) = sv
          generalize max (na i) 1e-5 * max (ni i) 1e-5 = nn
          rw [hA]
          ring
        · have : p ion1 = 0 := hz _ (hS rfl)
          simp only [ne_eq, not_true_eq_false, or_self, signedSum_append, signedSum_cons, signedSum_nil, pick, reduceCtorEq,
            if_false, if_true, reduceIte, this]
          generalize (Real.exp (cxLnSigmav (Real.log (cxTeff nm.T (Ta i) Aa2 (Ti i) Ai2))) * (1e-6 * nm.N / nm.Freq) * k) = sv
          generalize max (na i) 1e-5 * max (ni i) 1e-5 = nn
          rw [hA]
          ring

/-- **C93.**  Hydrogen charge exchange seen from a moving frame: the same exceptions, particle sources, heat sources and collision
frequencies, and the momentum is carried by the particles.  Missing: with `no_neutral_cx_mom_gain` the momentum of `ion2`. -/
theorem cx_galilean_partial (nm : Norms) (k : ℝ) (ng : Bool) (atom1 ion1 atom2 ion2 : String) (w : World ι) (hu : SourcesUnread w.st) (u : ℝ) :
    let c := Reactions.cx nm k ng atom1 ion1 atom2 ion2
    SameOutcome c w u ∧ ∀ s, SameParticles c w u s ∧ SameFrequency c w u s ∧ SameHeat c w u s ∧
      ((ng = true → s ≠ ion2) → MomentumCarried c w u s) := by
  obtain ⟨h1, h2⟩ := carried hu (cx_related nm k ng atom1 ion1 atom2 ion2 w u)
  exact ⟨h1, fun s => ⟨(h2 s).1, (h2 s).2.1, (h2 s).2.2.1 trivial, (h2 s).2.2.2⟩⟩

/-! ## OpenADAS -/

theorem adas_related (nm : Norms) (rate rad : ℝ → ℝ → ℝ) (heat : ℝ) (e fr dst : String) (w : World ι) (u : ℝ) :
    Same (Related (Carried w u (· ≠ e) (fun _ => True)))
      (Reactions.adas nm rate rad heat e fr dst w) (Reactions.adas nm rate rad heat e fr dst (boosted u w)) := by
  unfold Reactions.adas adasReaction
  refine Same.map (P := fun a b => Related (Carried w u (· ≠ e) (fun _ => True)) a.contribs b.contribs) ?_ (fun _ _ _ h => h)
  refine Same.bind (same_field u w _ (by decide)) ?_; rintro _ Ne - rfl
  refine Same.bind (same_field u w _ (by decide)) ?_; rintro _ Te - rfl
  refine Same.bind (same_field u w _ (by decide)) ?_; rintro _ N1 - rfl
  refine Same.bind (same_field u w _ (by decide)) ?_; rintro _ T1 - rfl
  refine Same.bind (same_velocity u w _) ?_; rintro V1 _ - rfl
  refine Same.bind (same_real u w _ _) ?_; rintro _ A hA rfl
  refine Same.bind (same_real u w _ _) ?_; rintro _ A2 hA2 rfl
  refine Same.bind (Same.refl _) ?_; rintro _ _ hAA -
  have hAA := assert1_ok hAA
  subst hAA
  have m1 : mass w fr = A := by simp [mass, real_ok hA]
  have m2 : mass w dst = A := by simp [mass, real_ok hA2]
  have hc : ∀ s, (boosted u w).chargeOr0 s = w.chargeOr0 s := fun _ => rfl
  have hav : ∀ f a b c, (boosted u w).avg3 f a b c = w.avg3 f a b c := fun _ _ _ _ => rfl
  refine Same.pure ⟨?_, ?_, ?_⟩
  · unfold adasReactionOf
    by_cases hq : w.chargeOr0 fr ≠ w.chargeOr0 dst <;> simp [hq]
  · unfold adasReactionOf
    by_cases hq : w.chargeOr0 fr ≠ w.chargeOr0 dst <;> simp [hq, hc]
  · intro s i
    unfold Carried adasReactionOf
    dsimp only
    simp only [hc, hav]
    generalize w.avg3 (fun ne n1 te => floor0 ne * floor0 n1 * rate (te * nm.T) (ne * nm.N) * nm.N / nm.Freq) Ne N1 Te = R
    refine ⟨?_, ?_, fun _ => ?_, fun hS => ?_⟩
    · by_cases hq : w.chargeOr0 fr = w.chargeOr0 dst <;> simp [hq]
    · by_cases hq : w.chargeOr0 fr = w.chargeOr0 dst <;> simp [hq]
    · by_cases hq : w.chargeOr0 fr = w.chargeOr0 dst <;> simp [hq]
    · obtain ⟨p, pick, hm, hz, -⟩ := picker w s
      have g1 := hm _ _ m1
      have g2 := hm _ _ m2
      have g3 : p e = 0 := hz e hS
      by_cases hq : w.chargeOr0 fr = w.chargeOr0 dst <;>
      · simp only [ne_eq, hq, not_true_eq_false, not_false_eq_true, if_true, if_false, signedSum_append, signedSum_cons,
          signedSum_nil, pick, reduceCtorEq, reduceIte, g3]
        linear_combination (u * R i) * (g2 - g1)

/-- **C93.**  An OpenADAS ionisation or recombination seen from a moving frame: the same exceptions, particle sources, heat sources
and collision frequencies, and the momentum of atoms and ions is carried by the particles.  Missing: the momentum of the electrons. -/
theorem adas_galilean_partial (nm : Norms) (rate rad : ℝ → ℝ → ℝ) (heat : ℝ) (e fr dst : String) (w : World ι) (hu : SourcesUnread w.st) (u : ℝ) :
    let c := Reactions.adas nm rate rad heat e fr dst
    SameOutcome c w u ∧ ∀ s, SameParticles c w u s ∧ SameFrequency c w u s ∧ SameHeat c w u s ∧ (s ≠ e → MomentumCarried c w u s) := by
  obtain ⟨h1, h2⟩ := carried hu (adas_related nm rate rad heat e fr dst w u)
  exact ⟨h1, fun s => ⟨(h2 s).1, (h2 s).2.1, (h2 s).2.2.1 trivial, (h2 s).2.2.2⟩⟩

theorem transfer_related {w : World ι} {u A : ℝ} {R V T : Fld ι} {fr dst : String} (m1 : mass w fr = A) (m2 : mass w dst = A) :
    Related (Carried w u (fun _ => True) (fun _ => True)) (adasTransfer R A V T fr dst) (adasTransfer R A (fun i => V i + u) T fr dst) := by
  unfold adasTransfer
  refine ⟨by simp, by simp, fun s i => ?_⟩
  unfold Carried
  refine ⟨by simp, by simp, fun _ => by simp, fun _ => ?_⟩
  obtain ⟨p, pick, hm, -, -⟩ := picker w s
  have g1 := hm _ _ m1
  have g2 := hm _ _ m2
  simp only [if_true, if_false, signedSum_cons, signedSum_nil, pick, reduceCtorEq, reduceIte]
  linear_combination (u * R i) * (g2 - g1)

theorem adasCX_related (nm : Norms) (rate : ℝ → ℝ → ℝ) (e fA fB tA tB : String) (w : World ι) (u : ℝ) :
    Same (Related (Carried w u (fun _ => True) (fun _ => True)))
      (Reactions.adasCX nm rate e fA fB tA tB w) (Reactions.adasCX nm rate e fA fB tA tB (boosted u w)) := by
  unfold Reactions.adasCX adasChargeExchange
  refine Same.map (P := fun a b => Related (Carried w u (fun _ => True) (fun _ => True)) a.2 b.2) ?_ (fun _ _ _ h => h)
  refine Same.bind (same_real u w _ _) ?_; rintro _ A hA rfl
  refine Same.bind (same_real u w _ _) ?_; rintro _ A' hA' rfl
  refine Same.bind (Same.refl _) ?_; rintro _ _ h1 -
  refine Same.bind (same_real u w _ _) ?_; rintro _ B hB rfl
  refine Same.bind (same_real u w _ _) ?_; rintro _ B' hB' rfl
  refine Same.bind (Same.refl _) ?_; rintro _ _ h2 -
  refine Same.bind (same_field u w _ (by decide)) ?_; rintro _ Te - rfl
  refine Same.bind (same_field u w _ (by decide)) ?_; rintro _ Ne - rfl
  refine Same.bind (same_field u w _ (by decide)) ?_; rintro _ Na - rfl
  refine Same.bind (same_field u w _ (by decide)) ?_; rintro _ Nb - rfl
  refine Same.bind (same_velocity u w _) ?_; rintro VA _ - rfl
  refine Same.bind (same_field u w _ (by decide)) ?_; rintro _ TA - rfl
  refine Same.bind (same_velocity u w _) ?_; rintro VB _ - rfl
  refine Same.bind (same_field u w _ (by decide)) ?_; rintro _ TB - rfl
  have h1 := assert1_ok h1
  have h2 := assert1_ok h2
  subst h1; subst h2
  exact Same.pure (related_append (transfer_related (by simp [mass, real_ok hA]) (by simp [mass, real_ok hA']))
    (transfer_related (by simp [mass, real_ok hB]) (by simp [mass, real_ok hB'])))

/-- **C93.**  OpenADAS charge exchange seen from a moving frame. -/
theorem adas_cx_galilean (nm : Norms) (rate : ℝ → ℝ → ℝ) (e fA fB tA tB : String) (w : World ι) (hu : SourcesUnread w.st) (u : ℝ) :
    let c := Reactions.adasCX nm rate e fA fB tA tB
    SameOutcome c w u ∧ ∀ s, SameParticles c w u s ∧ SameFrequency c w u s ∧ SameHeat c w u s ∧ MomentumCarried c w u s := by
  obtain ⟨h1, h2⟩ := carried hu (adasCX_related nm rate e fA fB tA tB w u)
  exact ⟨h1, fun s => ⟨(h2 s).1, (h2 s).2.1, (h2 s).2.2.1 trivial, (h2 s).2.2.2 trivial⟩⟩

/-! ## The simple ionisation -/

theorem ionise_related (nm : Norms) (sigmav : ℝ → ℝ) (E : ℝ) (w : World ι) (u : ℝ) :
    Same (Related (Carried w u (fun _ => True) (fun _ => True)))
      (SimpleReactions.ionise nm sigmav E w) (SimpleReactions.ionise nm sigmav E (boosted u w)) := by
  unfold SimpleReactions.ionise ionisation
  refine Same.map (P := fun a b => Related (Carried w u (fun _ => True) (fun _ => True)) a.contribs b.contribs) ?_ (fun _ _ _ h => h)
  refine Same.bind (same_field u w _ (by decide)) ?_; rintro _ Nn - rfl
  refine Same.bind (same_field u w _ (by decide)) ?_; rintro _ Tn - rfl
  refine Same.bind (same_velocity u w _) ?_; rintro Vn _ - rfl
  refine Same.bind (same_real u w _ _) ?_; rintro _ A hA rfl
  refine Same.bind (same_field u w _ (by decide)) ?_; rintro _ Ne - rfl
  refine Same.bind (same_field u w _ (by decide)) ?_; rintro _ Te - rfl
  refine Same.bind (same_real u w _ _) ?_; rintro _ A2 hA2 rfl
  refine Same.bind (Same.refl _) ?_; rintro _ _ hAA -
  have hAA := assert1_ok hAA
  subst hAA
  have m1 : mass w "h" = A := by simp [mass, real_ok hA]
  have m2 : mass w "h+" = A := by simp [mass, real_ok hA2]
  have hav : ∀ f a b c, (boosted u w).avg3 f a b c = w.avg3 f a b c := fun _ _ _ _ => rfl
  unfold ionisationOf
  refine Same.pure ⟨by simp, by simp, fun s i => ?_⟩
  unfold Carried
  dsimp only
  simp only [hav]
  generalize w.avg3 (fun ne nn te => ne * nn * sigmav (te * nm.T) * nm.N / nm.Freq) Ne Nn Te = R
  refine ⟨by simp, by simp, fun _ => by simp, fun _ => ?_⟩
  obtain ⟨p, pick, hm, -, -⟩ := picker w s
  have g1 := hm _ _ m1
  have g2 := hm _ _ m2
  simp only [if_true, if_false, signedSum_cons, signedSum_nil, pick, reduceCtorEq, reduceIte]
  linear_combination (u * R i) * (g2 - g1)

/-- **C93.**  The simple ionisation seen from a moving frame. -/
theorem ionisation_galilean (nm : Norms) (sigmav : ℝ → ℝ) (E : ℝ) (w : World ι) (hu : SourcesUnread w.st) (u : ℝ) :
    let c := SimpleReactions.ionise nm sigmav E
    SameOutcome c w u ∧ ∀ s, SameParticles c w u s ∧ SameFrequency c w u s ∧ SameHeat c w u s ∧ MomentumCarried c w u s := by
  obtain ⟨h1, h2⟩ := carried hu (ionise_related nm sigmav E w u)
  exact ⟨h1, fun s => ⟨(h2 s).1, (h2 s).2.1, (h2 s).2.2.1 trivial, (h2 s).2.2.2 trivial⟩⟩

/-! ## Collisions -/

/-- All species have a velocity, or none has. -/
def AllMove (names : List String) (w : World ι) : Prop := ∀ a ∈ names, ∀ b ∈ names, w.isSetF a .velocity = w.isSetF b .velocity

theorem boosted_fieldOr0 (u : ℝ) (w : World ι) (s : String) {v : Var} (hv : v ≠ .velocity) :
    (boosted u w).fieldOr0 s v = w.fieldOr0 s v := by
  cases v <;> first | rfl | exact absurd rfl hv

theorem boosted_velocity {u : ℝ} {w : World ι} {s : String} (hs : w.isSetF s .velocity = true) :
    (boosted u w).fieldOr0 s .velocity = fun i => w.fieldOr0 s .velocity i + u := by
  unfold World.isSetF at hs
  unfold World.fieldOr0
  have : ((boosted u w).st.ent (.sp s .velocity)).val = (w.st.ent (.sp s .velocity)).val.map fun v i => v i + u := rfl
  rw [this]
  cases h : (w.st.ent (.sp s .velocity)).val with
  | none => rw [h] at hs; simp at hs
  | some f => rfl

/-- The contributions are the same in both frames and nothing is created. -/
def Unchanged (cs cs' : List (Contrib Key ι)) : Prop :=
  cs' = cs ∧ OnlySources cs ∧ ∀ s i, signedSum (.sp s .density_source) i cs = 0

theorem unchanged_nil : Unchanged ([] : List (Contrib Key ι)) [] := ⟨rfl, by simp, by simp⟩

theorem unchanged_append {a a' b b' : List (Contrib Key ι)} (h : Unchanged a a') (h' : Unchanged b b') : Unchanged (a ++ b) (a' ++ b') := by
  obtain ⟨rfl, k, d⟩ := h
  obtain ⟨rfl, k', d'⟩ := h'
  exact ⟨rfl, by simp [k, k'], fun s i => by simp [d, d']⟩

theorem unchanged_related {w : World ι} {u : ℝ} {cs cs' : List (Contrib Key ι)} (h : Unchanged cs cs') :
    Related (Carried w u (fun _ => True) (fun _ => True)) cs cs' := by
  obtain ⟨rfl, k, d⟩ := h
  exact ⟨k, k, fun s i => by simp [Carried, d]⟩

theorem collide_same {fh : Bool} {a b : String} {nu : Fld ι} {coef : ℝ} {w : World ι} {u : ℝ}
    (h : w.isSetF a .velocity = w.isSetF b .velocity) :
    Same Unchanged (collide fh a b nu coef w) (collide fh a b nu coef (boosted u w)) := by
  unfold collide
  refine Same.ite (fun _ => Same.pure ⟨rfl, by simp, by simp⟩) (fun hab => ?_)
  refine Same.bind (same_real u w _ _) ?_; rintro _ A1 - rfl
  refine Same.bind (same_real u w _ _) ?_; rintro _ A2 - rfl
  refine Same.bind (same_field u w _ (by decide)) ?_; rintro _ n1 - rfl
  refine Same.bind (same_field u w _ (by decide)) ?_; rintro _ n2 - rfl
  refine Same.bind (P := Unchanged) ?_ ?_
  · unfold heatExchange
    simp only [boosted_isSetF]
    refine Same.ite (fun _ => ?_) (fun _ => Same.pure unchanged_nil)
    refine Same.bind (same_field u w _ (by decide)) ?_; rintro _ T1 - rfl
    refine Same.bind (same_field u w _ (by decide)) ?_; rintro _ T2 - rfl
    exact Same.pure ⟨rfl, by simp [heatExchangeOf], by simp [heatExchangeOf]⟩
  · intro q q' _ hq
    refine Same.pure (unchanged_append (unchanged_append ⟨rfl, by simp, by simp⟩ ?_) hq)
    rw [boosted_isSetF, boosted_isSetF]
    by_cases hv : w.isSetF a .velocity = true
    · have hv' : w.isSetF b .velocity = true := h ▸ hv
      rw [boosted_velocity hv, boosted_velocity hv']
      simp only [hv, hv', Bool.or_self, if_true]
      refine ⟨?_, ?_, ?_⟩
      · simp [frictionOf]
      · cases fh <;> simp [frictionOf]
      · cases fh <;> simp [frictionOf]
    · have hv' : ¬ w.isSetF b .velocity = true := h ▸ hv
      simp only [hv, hv', Bool.or_self, if_false]
      exact unchanged_nil

theorem collectM_same {α : Type} {f f' : α → Except Err (List (Contrib Key ι))} :
    ∀ l : List α, (∀ a ∈ l, Same Unchanged (f a) (f' a)) → Same Unchanged (collectM f l) (collectM f' l)
  | [], _ => unchanged_nil
  | a :: l, h => by
    refine Same.bind (h a (by simp)) fun x y _ hxy => ?_
    refine Same.bind (collectM_same l fun b hb => h b (by simp [hb])) fun x' y' _ h' => ?_
    exact Same.pure (unchanged_append hxy h')

theorem readHeavy_same (k : CollNorms) (w : World ι) (u : ℝ) (n : String) :
    Same (fun a b => b = a) (readHeavy k w n) (readHeavy k (boosted u w) n) := by
  unfold readHeavy
  refine Same.bind (same_field u w _ (by decide)) ?_; rintro _ N - rfl
  refine Same.bind (same_real u w _ _) ?_; rintro _ A - rfl
  refine Same.pure ?_
  rw [boosted_fieldOr0 u w n (by decide)]

open Classical in
theorem electronWith_same {k : CollNorms} {o : CollOpts} {w : World ι} {u : ℝ} {names : List String} (hm : AllMove names w)
    (he : "e" ∈ names) (Te Ne : Fld ι) {n : String} (hn : n ∈ names) :
    Same Unchanged (electronWith k o w Te Ne n) (electronWith k o (boosted u w) Te Ne n) := by
  unfold electronWith
  refine Same.ite (fun _ => Same.ite (fun _ => Same.pure unchanged_nil) fun _ => collide_same rfl) (fun _ => ?_)
  refine Same.ite (fun _ => Same.ite (fun _ => Same.pure unchanged_nil) fun _ => ?_) (fun _ => ?_)
  · refine Same.bind (same_field u w _ (by decide)) ?_; rintro _ Ti - rfl
    refine Same.bind (same_field u w _ (by decide)) ?_; rintro _ Ni - rfl
    refine Same.bind (same_real u w _ _) ?_; rintro _ Zi - rfl
    refine Same.bind (same_real u w _ _) ?_; rintro _ Ai - rfl
    exact collide_same (hm _ he _ hn)
  · refine Same.ite (fun _ => Same.pure unchanged_nil) (fun _ => Same.ite (fun _ => Same.pure unchanged_nil) fun _ => ?_)
    refine Same.bind (same_field u w _ (by decide)) ?_; rintro _ Nn - rfl
    refine Same.bind (Same.refl _) fun _ _ _ _ => ?_
    exact collide_same (hm _ he _ hn)

theorem hardSphere_same {k : CollNorms} {o : CollOpts} {w : World ι} {u : ℝ} {a0 : ℝ} {a b : String} {x y : HeavyInput ι}
    (h : w.isSetF a .velocity = w.isSetF b .velocity) :
    Same Unchanged (hardSphere k o w a0 a b x y) (hardSphere k o (boosted u w) a0 a b x y) := by
  unfold hardSphere
  exact Same.bind (Same.refl _) fun _ _ _ _ => collide_same h

open Classical in
theorem heavyWith_same {k : CollNorms} {o : CollOpts} {w : World ι} {u : ℝ} {names : List String} (hm : AllMove names w)
    {a : String} (ha : a ∈ names) {rest : List String} (hr : ∀ b ∈ rest, b ∈ names) :
    Same Unchanged (heavyWith k o w a rest) (heavyWith k o (boosted u w) a rest) := by
  unfold heavyWith
  refine Same.ite (fun _ => Same.pure unchanged_nil) (fun _ => ?_)
  refine Same.bind (readHeavy_same k w u _) ?_; rintro _ x - rfl
  refine Same.ite (fun _ => collectM_same _ fun b hb => ?_) (fun _ => collectM_same _ fun b hb => ?_)
  · unfold chargedWith
    refine Same.ite (fun _ => Same.pure unchanged_nil) (fun _ => ?_)
    refine Same.bind (readHeavy_same k w u _) ?_; rintro _ y - rfl
    refine Same.ite (fun _ => Same.ite (fun _ => Same.pure unchanged_nil) fun _ => ?_) (fun _ => hardSphere_same (hm _ ha _ (hr b hb)))
    unfold ionIon
    refine Same.bind (same_real u w _ _) ?_; rintro _ Z1 - rfl
    refine Same.bind (same_real u w _ _) ?_; rintro _ Z2 - rfl
    refine Same.bind (Same.refl _) fun _ _ _ _ => ?_
    exact collide_same (hm _ ha _ (hr b hb))
  · unfold neutralWith
    refine Same.ite (fun _ => Same.pure unchanged_nil) (fun _ => ?_)
    refine Same.bind (readHeavy_same k w u _) ?_; rintro _ y - rfl
    refine Same.ite (fun _ => Same.ite (fun _ => Same.pure unchanged_nil) fun _ => hardSphere_same (hm _ ha _ (hr b hb)))
      (fun _ => Same.ite (fun _ => Same.pure unchanged_nil) fun _ => hardSphere_same (hm _ ha _ (hr b hb)))

theorem heavyLoop_same {k : CollNorms} {o : CollOpts} {w : World ι} {u : ℝ} {names : List String} (hm : AllMove names w) :
    ∀ l : List String, (∀ b ∈ l, b ∈ names) → Same Unchanged (heavyLoop k o w l) (heavyLoop k o (boosted u w) l)
  | [], _ => unchanged_nil
  | a :: l, h => by
    refine Same.bind (heavyWith_same hm (h a (by simp)) h) fun x y _ hxy => ?_
    refine Same.bind (heavyLoop_same hm l fun b hb => h b (by simp [hb])) fun x' y' _ h' => ?_
    exact Same.pure (unchanged_append hxy h')

theorem collisions_related (k : CollNorms) (o : CollOpts) (names : List String) (w : World ι) (hm : AllMove names w) (u : ℝ) :
    Same (Related (Carried w u (fun _ => True) (fun _ => True))) (collisions k o names w) (collisions k o names (boosted u w)) := by
  unfold collisions
  refine Same.bind (P := Unchanged) ?_ fun x y _ hxy => ?_
  · unfold electronLoop
    refine Same.ite (fun he => ?_) (fun _ => Same.pure unchanged_nil)
    refine Same.bind (same_field u w _ (by decide)) ?_; rintro _ Te - rfl
    refine Same.bind (same_field u w _ (by decide)) ?_; rintro _ Ne - rfl
    exact collectM_same _ fun n hn => electronWith_same hm he _ _ hn
  · refine Same.bind (heavyLoop_same hm names fun _ h => h) fun x' y' _ h' => ?_
    exact Same.pure (unchanged_related (unchanged_append hxy h'))

/-- **C93.**  Collisions seen from a moving frame, if all species have a velocity (or none): the same exceptions, frequencies, heat
and forces.  (Collisions create no particles, so `MomentumCarried` says that the forces are the same.)  Missing: some species without velocity
(`unset_velocity_frame`). -/
theorem collisions_galilean_partial (k : CollNorms) (o : CollOpts) (names : List String) (w : World ι) (hu : SourcesUnread w.st)
    (hm : AllMove names w) (u : ℝ) :
    let c := collisions k o names
    SameOutcome c w u ∧ ∀ s, SameParticles c w u s ∧ SameFrequency c w u s ∧ SameHeat c w u s ∧ MomentumCarried c w u s := by
  obtain ⟨h1, h2⟩ := carried hu (collisions_related k o names w hm u)
  exact ⟨h1, fun s => ⟨(h2 s).1, (h2 s).2.1, (h2 s).2.2.1 trivial, (h2 s).2.2.2 trivial⟩⟩

/-! ## Where the frame matters -/

open Reactions in
theorem boosted_demo (u : ℝ) (N T V : String → ℝ) : boosted u (demo N T V) = demo N T (fun s => V s + u) := by
  unfold boosted demo
  congr 2
  funext k
  cases k with
  | top v => rfl
  | sp s v => cases v <;> rfl

/-- The electrons of an ionisation: the energy and momentum they get in the frame in which they move with velocity `v`. -/
theorem demo_electrons (v : ℝ) :
    let w := Reactions.demo (fun _ => 1) (fun _ => 1) (fun _ => v)
    let t := (Reactions.amjuel ⟨1, 1, 1⟩ (fun _ _ => 1) (fun _ _ => 0) 0 1 1 "e" "d" "d+").transform w
    t.1 = .ok () ∧ ∀ i, gain w.st t.2 "e" .density_source i = 1 ∧ gain w.st t.2 "e" .momentum_source i = 0 ∧
      gain w.st t.2 "e" .energy_source i = 1 / 2 * (1 / 1836) * v ^ 2 := by
  intro w t
  obtain ⟨r, hr⟩ := Reactions.demo_electron ⟨1, 1, 1⟩ (fun _ _ => 1) (fun _ _ => 0) 0 1 1 (fun _ => 1) (fun _ => 1) (fun _ => v)
  obtain ⟨h1, -, h2⟩ := Reactions.amjuel_conserves _ _ _ _ _ _ "e" "d" "d+" (by decide) (by decide) (by decide) w r hr
    (Reactions.demo_unread _ _ _) (Reactions.demo_charges _ _ _).2.2
  refine ⟨h1, fun i => ?_⟩
  obtain ⟨a1, a2, -, a4, -, a6, a7⟩ := h2 i
  obtain ⟨Ne, Te, N1, T1, V1, V2, A, e1, e2, e3, -, -, -, -, -, ev, -, rfl⟩ := Reactions.electronReaction_ok hr
  cases e1; cases e2; cases e3
  simp only [electronReactionOf, Reactions.demo_avg3] at a6 a7
  have c1 : charge w "e" = -1 := by simp [w, charge, Reactions.demo]
  have c2 : charge w "d" = 0 := by simp [w, charge, Reactions.demo]
  have c3 : charge w "d+" = 1 := by simp [w, charge, Reactions.demo]
  rw [c1, c2, c3] at a2
  have hm : mass w "e" = 1 / 1836 := by simp [w, mass, Reactions.demo]
  have hv : velocity w "e" i = v := rfl
  have s1 : gain w.st t.2 "e" .density_source i = 1 := by
    have : gain w.st t.2 "d+" .density_source i = 1 := by rw [a7]; norm_num
    have := a2
    simp only [t] at *
    linarith
  have s2 : gain w.st t.2 "e" .momentum_source i = 0 := a4
  refine ⟨s1, s2, ?_⟩
  unfold totalEnergyRate at a6
  rw [hm, hv] at a6
  simp only [t] at s1 s2 a6 ⊢
  rw [s1, s2] at a6
  norm_num at a6 ⊢
  linarith

/-- **C93 fails for electrons.**  Electrons born in an AMJUEL ionisation are born at rest in the frame of the simulation: they bring
no momentum, and the energy they need to be swept along, `1/2 m V²` each, depends on the frame.  Deuterium and electrons all at rest,
seen from a frame in which they move with velocity 1. -/
theorem electrons_born_at_rest : ∃ (nm : Norms) (rate rad : ℝ → ℝ → ℝ) (w : World (Fin 1)) (u : ℝ), SourcesUnread w.st ∧
    let c := Reactions.amjuel nm rate rad 0 1 1 "e" "d" "d+"
    (c.transform w).1 = .ok () ∧ ¬ SameHeat c w u "e" ∧ ¬ MomentumCarried c w u "e" := by
  refine ⟨⟨1, 1, 1⟩, fun _ _ => 1, fun _ _ => 0, Reactions.demo (fun _ => 1) (fun _ => 1) (fun _ => 0), 1,
    Reactions.demo_unread _ _ _, (demo_electrons 0).1, ?_, ?_⟩
  · intro h
    have h := h 0
    rw [boosted_demo] at h
    rw [((demo_electrons (0 + 1)).2 0).2.2, ((demo_electrons 0).2 0).2.2] at h
    norm_num at h
  · intro h
    have h := h 0
    rw [boosted_demo] at h
    rw [((demo_electrons (0 + 1)).2 0).2.1, ((demo_electrons 0).2 0).2.1, ((demo_electrons 0).2 0).1] at h
    have hm : mass (Reactions.demo (fun _ => 1) (fun _ => 1) (fun _ => 0)) "e" = 1 / 1836 := by simp [mass, Reactions.demo]
    rw [hm] at h
    norm_num at h

/-- **C93 fails for SOL-KiT charge exchange.**  Its rate is proportional to the speed of the ions in the frame of the simulation, not
relative to the atoms: ions that stream through atoms at rest are slowed down, but seen from the frame of the ions they are not. -/
theorem solkit_frame : ∃ (w : World (Fin 1)) (u : ℝ), SourcesUnread w.st ∧
    let c := SimpleReactions.solkit 1e19 1 "d" "d+"
    (c.transform w).1 = .ok () ∧ ∀ i, gain w.st (c.transform w).2 "d" .momentum_source i ≠ 0 ∧
      gain (boosted u w).st (c.transform (boosted u w)).2 "d" .momentum_source i = 0 ∧
      gain w.st (c.transform w).2 "d" .density_source i = 0 := by
  let V : String → ℝ := fun s => if s = "d+" then 1 else 0
  have key : ∀ V : String → ℝ, let w := Reactions.demo (fun _ => 1) (fun _ => 1) V
      let t := (SimpleReactions.solkit 1e19 1 "d" "d+").transform w
      t.1 = .ok () ∧ ∀ i, gain w.st t.2 "d" .momentum_source i = 2 * (1 * 1 * (3e-19 * |V "d+"|) * (1e19 * 1)) * (V "d+" - V "d") ∧
        gain w.st t.2 "d" .density_source i = 0 := by
    intro V w t
    obtain ⟨cs, hcs⟩ := SimpleReactions.demo_solkit 1e19 1 (fun _ => 1) (fun _ => 1) V
    have hu := Reactions.demo_unread (fun _ => 1) (fun _ => 1) V
    obtain ⟨h1, h2, -⟩ := SimpleReactions.solkit_conserves 1e19 1 "d" "d+" (by decide) w cs hcs hu
    have h3 := (SimpleReactions.solkit_drags 1e19 1 "d" "d+" (by decide) w cs hcs hu).2
    refine ⟨h1, fun i => ⟨?_, ?_⟩⟩
    · have hm : mass w "d+" = 2 := by simp [w, mass, Reactions.demo]
      have := h3 i (fun _ => 1) (fun _ => 1) 1 1 (V "d") (V "d+") rfl rfl (by intro c; simp [w, Reactions.demo, upwind]) (by simp [w, Reactions.demo])
        (by intro j _; exact ⟨rfl, rfl, rfl, rfl, rfl⟩) (by norm_num) (by norm_num)
      rw [hm] at this
      exact this
    · have := h2 (.sp "d" .density_source) (by simp)
      simp only [gain, t]
      rw [this]
      exact sub_self _
  refine ⟨Reactions.demo (fun _ => 1) (fun _ => 1) V, -1, Reactions.demo_unread _ _ _, (key V).1, fun i => ⟨?_, ?_, ((key V).2 i).2⟩⟩
  · rw [((key V).2 i).1]
    have : V "d" = 0 := if_neg (by decide)
    rw [this]
    norm_num [V]
  · rw [boosted_demo, ((key _).2 i).1]
    norm_num [V]

/-- Two gases of which the second has no velocity. -/
noncomputable def halfMoving (v : ℝ) : World Unit :=
  let g := Collisions.gas (fun _ => 1) (fun _ => 1) (fun _ => 0) (fun _ => 1) (fun _ => none)
  { g with st := { check := true, ent := fun k => match k with
    | .sp s .velocity => if s = "b" then { val := none } else { val := some fun _ => v }
    | k => g.st.ent k } }

theorem boosted_half (u v : ℝ) : boosted u (halfMoving v) = halfMoving (v + u) := by
  unfold boosted halfMoving
  dsimp only
  congr 2
  funext k
  cases k with
  | top v => rfl
  | sp s v => cases v <;> first | rfl | (by_cases h : s = "b" <;> simp [h])

theorem half_unread (v : ℝ) : SourcesUnread (halfMoving v).st := by
  intro s v hv
  simp only [List.mem_cons, List.not_mem_nil, or_false] at hv
  rcases hv with rfl | rfl | rfl | rfl <;> exact ⟨rfl, rfl⟩

open Collisions in
theorem half_force (v : ℝ) : ∃ after,
    SourceComponent.transform (collisions unit1 ⟨true, true, true, true, true, true, true, 1⟩ ["a", "b"]) (halfMoving v) = (.ok (), after) ∧
    gain (halfMoving v).st after "a" .momentum_source () = - (nuHard unit1 a0Neutral 1 1 1 1 1 * v) := by
  have hr : Ready unit1 ["a", "b"] (halfMoving v) := {
    Tnorm := by norm_num [unit1]
    Mp := by norm_num [unit1]
    Me := by norm_num [unit1]
    density := fun _ _ => ⟨_, rfl⟩
    temperature := fun s hs => ⟨_, rfl, fun _ => zero_le_one⟩
    mass := fun s hs => ⟨_, rfl, zero_lt_one⟩
    charges := fun a ha b hb ea eb x y hx => by simp [halfMoving, Collisions.gas] at hx }
  obtain ⟨after, h⟩ := collisions_succeed unit1 ⟨true, true, true, true, true, true, true, 1⟩ ["a", "b"] (halfMoving v) hr (half_unread v)
  refine ⟨after, h, ?_⟩
  have n1 : IsNeutral (halfMoving v) "a" := rfl
  have n2 : IsNeutral (halfMoving v) "b" := rfl
  have r : ∀ s, readHeavy unit1 (halfMoving v) s = .ok ⟨fun _ => 1 * 1, fun _ => 1 * 1, 1⟩ := fun s => rfl
  rw [gain_two (by decide) (half_unread v) h, pairE_neutral_neutral (by decide) (by decide) (r _) (r _) (not_ion_of_neutral n1) n2,
    if_neg (by decide)]
  unfold hardSphere
  obtain ⟨cs, hc⟩ := collide_succeeds hr true (a := "a") (b := "b") (by simp) (by simp)
    (fun _ : Unit => nuHard unit1 a0Neutral 1 1 (1 * 1) (1 * 1) (1 * 1)) 1
  have hc' := collide_ok hc true
  rw [ok_bind (valid_of (by intro i; norm_num [unit1])) hc']
  simp only [val, collideOf]
  rw [if_neg (by decide)]
  simp [frictionOf, heatExchangeOf, World.isSetF, halfMoving, Collisions.gas, World.fieldOr0, mass]

/-- **C93 fails for a species without velocity.**  Collisions take it to be at rest in the frame of the simulation: the friction
between it and a gas at rest vanishes, and does not when everything is seen from a moving frame. -/
theorem unset_velocity_frame : ∃ (k : CollNorms) (o : CollOpts) (w : World Unit) (u : ℝ), SourcesUnread w.st ∧
    let c := collisions k o ["a", "b"]
    (c.transform w).1 = .ok () ∧ ¬ AllMove ["a", "b"] w ∧ gain w.st (c.transform w).2 "a" .momentum_source () = 0 ∧
      gain (boosted u w).st (c.transform (boosted u w)).2 "a" .momentum_source () ≠ 0 := by
  obtain ⟨after, h, g⟩ := half_force 0
  obtain ⟨after', h', g'⟩ := half_force (0 + 1)
  refine ⟨Collisions.unit1, ⟨true, true, true, true, true, true, true, 1⟩, halfMoving 0, 1, half_unread 0, by rw [h], ?_, ?_, ?_⟩
  · intro hm
    have := hm "a" (by simp) "b" (by simp)
    simp [World.isSetF, halfMoving] at this
  · rw [h, g]; simp
  · rw [boosted_half, h', g']
    have : (0 : ℝ) < Real.sqrt (1 / (1 * 1) + 1 / (1 * 1)) := Real.sqrt_pos.2 (by norm_num)
    have pi := Real.pi_pos
    simp only [nuHard, Collisions.unit1, a0Neutral]
    have : 0 < Real.sqrt (1 / (1 * 1) + 1 / (1 * 1)) * 1 * (Real.pi * 2.8e-10 ^ 2) * 1 := by positivity
    linarith

/-! ## The hypotheses of the positive theorems are met -/

/-- Ionisation, charge exchange and collisions in states where all species move: none throws. -/
example : SourcesUnread (Reactions.demo (fun _ => 1) (fun _ => 1) (fun s => if s = "d" then 0 else 1)).st ∧
    (∃ r, electronReaction ⟨1, 1, 1⟩ (fun _ _ => 1) (fun _ _ => 1) 0 1 1 "e" "d" "d+"
      (Reactions.demo (fun _ => 1) (fun _ => 1) (fun s => if s = "d" then 0 else 1)) = .ok r) ∧
    (∃ r, chargeExchange ⟨1, 1, 1⟩ 1 false "d" "d+" "d" "d+"
      (Reactions.demo (fun _ => 1) (fun _ => 1) (fun s => if s = "d" then 0 else 1)) = .ok r) ∧
    SourcesUnread Collisions.plasma.st ∧ AllMove ["d", "d+", "e"] Collisions.plasma ∧
    ∃ after, SourceComponent.transform (collisions Collisions.unit1 ⟨true, true, true, true, true, true, true, 1⟩ ["d", "d+", "e"])
      Collisions.plasma = (.ok (), after) :=
  ⟨Reactions.demo_unread _ _ _, Reactions.demo_electron _ _ _ _ _ _ _ _ _, Reactions.demo_cx _ _ _ _ _ _, Collisions.gas_unread,
    fun _ _ _ _ => rfl, Collisions.collisions_succeed _ _ _ _ Collisions.plasma_ready Collisions.gas_unread⟩

end Hermes.Galilean
