import Verif.Lemmas.Species

/-!
# Specification vocabulary for conservation laws

Used by the reaction, collision and other source components.  `gain` is what a component added to a
variable during `transform`; nothing here refers to how the component computes it.
-/

namespace Hermes

variable {ι : Type}

/-- No component has read the sources yet (they are read only in `finally`). -/
def SourcesUnread (st : Store Key (Fld ι)) : Prop :=
  ∀ s, ∀ v ∈ [Var.density_source, Var.momentum_source, Var.energy_source, Var.collision_frequency],
    (st.ent (.sp s v)).final = false ∧ (st.ent (.sp s v)).finalDomain = false

/-- Change of variable `v` of species `s` in cell `i` (an unset source is zero). -/
def gain (before after : Store Key (Fld ι)) (s : String) (v : Var) (i : ι) : ℝ :=
  ((after.ent (.sp s v)).val.getD 0) i - ((before.ent (.sp s v)).val.getD 0) i

/-- Velocity of a species (zero if it has none). -/
def velocity (w : World ι) (s : String) (i : ι) : ℝ := ((w.st.ent (.sp s Var.velocity)).val.getD 0) i

/-- Mass of a species in proton masses. -/
def mass (w : World ι) (s : String) : ℝ := (w.num s Var.AA).getD 0

/-- Charge of a species. -/
def charge (w : World ι) (s : String) : ℝ := (w.num s Var.charge).getD 0

/-- Rate of change of the total energy `3/2 p + 1/2 m n V²` of species `s`:
with `momentum = m n V`, `d(1/2 m n V²)/dt = V d(m n V)/dt - 1/2 m V² dn/dt`. -/
noncomputable def totalEnergyRate (w : World ι) (after : Store Key (Fld ι)) (s : String) (i : ι) : ℝ :=
  gain w.st after s Var.energy_source i + velocity w s i * gain w.st after s Var.momentum_source i
    - 1 / 2 * mass w s * velocity w s i ^ 2 * gain w.st after s Var.density_source i

/-- Everything but the listed variables of the listed species is left alone. -/
def OnlyTouches (before after : Store Key (Fld ι)) (species : List String) (vars : List Var) : Prop :=
  ∀ k, (∀ s ∈ species, ∀ v ∈ vars, k ≠ .sp s v) → after.ent k = before.ent k

/-- All contributions go to the listed variables of the listed species. -/
def KeysIn (species : List String) (vars : List Var) (cs : List (Contrib Key ι)) : Prop :=
  ∀ c ∈ cs, ∃ s ∈ species, ∃ v ∈ vars, c.1 = .sp s v

@[simp] theorem keysIn_nil (species : List String) (vars : List Var) : KeysIn species vars ([] : List (Contrib Key ι)) := by
  simp [KeysIn]

@[simp] theorem keysIn_cons (species : List String) (vars : List Var) (s : String) (v : Var) (fb : Fld ι × Bool)
    (cs : List (Contrib Key ι)) :
    KeysIn species vars ((.sp s v, fb) :: cs) ↔ (s ∈ species ∧ v ∈ vars) ∧ KeysIn species vars cs := by
  simp [KeysIn]

@[simp] theorem keysIn_append (species : List String) (vars : List Var) (cs ds : List (Contrib Key ι)) :
    KeysIn species vars (cs ++ ds) ↔ KeysIn species vars cs ∧ KeysIn species vars ds := by
  simp only [KeysIn, List.mem_append]
  exact ⟨fun h => ⟨fun c hc => h c (Or.inl hc), fun c hc => h c (Or.inr hc)⟩,
    fun h c hc => hc.elim (h.1 c) (h.2 c)⟩

theorem gain_eq_signedSum {cs : List (Contrib Key ι)} {st st' : Store Key (Fld ι)}
    (h : ∀ k, State.valueOf st' k = State.accumulated (State.valueOf st k) (State.signedTo k cs))
    (s : String) (v : Var) (i : ι) : gain st st' s v i = signedSum (.sp s v) i cs := by
  have := h (.sp s v)
  unfold State.valueOf State.accumulated at this
  unfold gain
  rw [this, ← signedTo_sum]
  split
  · rename_i hn; simp [hn]
  · simp

/-- Contributions to unread sources: they succeed, the gains are the signed sums, nothing else changes. -/
theorem contributeAll_gain (cs : List (Contrib Key ι)) (st : Store Key (Fld ι)) (species : List String) (vars : List Var)
    (hk : KeysIn species vars cs)
    (hv : ∀ v ∈ vars, v ∈ [Var.density_source, Var.momentum_source, Var.energy_source, Var.collision_frequency])
    (hu : SourcesUnread st) :
    ∃ st', contributeAll cs st = (.ok (), st') ∧ OnlyTouches st st' species vars ∧
      ∀ s v i, gain st st' s v i = signedSum (.sp s v) i cs := by
  obtain ⟨st', h1, h2, h3⟩ := State.sources_accumulate cs st (by
    intro c hc
    obtain ⟨s, _, v, hv', e⟩ := hk c hc
    rw [e]
    exact hu s v (hv v hv'))
  refine ⟨st', h1, ?_, fun s v i => gain_eq_signedSum (fun k => (h3 k).1) s v i⟩
  intro k hne
  obtain ⟨a, b, c⟩ := h3 k
  have hn : State.signedTo k cs = [] := by
    rw [signedTo_nil_iff]
    intro c hc e
    obtain ⟨s, hs, v, hv', e'⟩ := hk c hc
    exact hne s hs v hv' (by rw [← e, e'])
  rw [hn] at a
  simp only [State.accumulated, if_true, State.valueOf] at a
  cases h : st'.ent k; cases h' : st.ent k
  simp_all

end Hermes
