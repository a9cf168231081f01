import Verif.Model.SheathSimple
import Verif.Lemmas.Sheath

/-!
# Runs that end without exception

`Safe` programs end normally from every state in which the required variables are set and none of the variables that
they set has been read in a way that forbids it.
-/

set_option linter.unusedSectionVars false

namespace Hermes.Sheath

variable {ι : Type}

/-- The variables whose guard cells are set. -/
def bndryVars : List Var := [.density, .temperature, .pressure, .velocity, .momentum]

/-- State that can be handed to a sheath component.  `req`: variables that are set. -/
structure Ready (names : List String) (req : Key → Prop) (st : Store Key (Value ι)) : Prop where
  typed : ∀ s v, v ∈ [Var.AA, .charge, .adiabatic] → ∀ x, vals st (.sp s v) = some x → ∃ r, x = .real r
  isSet : ∀ k, req k → (vals st k).isSome
  bndry : ∀ s v, v ∈ bndryVars → s ∈ "e" :: names → (st.ent (.sp s v)).final = false
  phi : (st.ent (.top "fields:phi")).final = false
  src : ∀ s, s ∈ "e" :: names → ∀ v, v ∈ [Var.energy_source, .energy_flow_ylow] →
    (st.ent (.sp s v)).final = false ∧ (st.ent (.sp s v)).finalDomain = false

/-- Keys that may be marked as final: not those that are set later. -/
def Constant (k : Key) : Prop := ∃ s v, k = .sp s v ∧ v ∉ bndryVars ∧ v ∉ [Var.energy_source, .energy_flow_ylow]
/-- Keys that may be marked as final in the domain. -/
def Interior (k : Key) : Prop := ∀ s, k ≠ .sp s .energy_source ∧ k ≠ .sp s .energy_flow_ylow

/-- `m` ends normally in a `Ready` state. -/
def Safe {α : Type} (names : List String) (req : Key → Prop) (m : Prog ι α) : Prop :=
  ∀ st, Ready names req st → ∃ a st', m st = (.ok a, st') ∧ Ready names req st'

variable {names : List String} {req : Key → Prop} {α β : Type}

theorem Safe.pure (a : α) : Safe (ι := ι) names req (pure a : Prog ι α) := fun st h => ⟨a, st, rfl, h⟩

theorem Safe.bind {m : Prog ι α} {f : α → Prog ι β} (hm : Safe names req m) (hf : ∀ a, Safe names req (f a)) :
    Safe names req (m >>= f) := by
  intro st h
  obtain ⟨a, s1, h1, r1⟩ := hm st h
  obtain ⟨b, s2, h2, r2⟩ := hf a s1 r1
  refine ⟨b, s2, ?_, r2⟩
  show M.bind m f st = _
  unfold M.bind
  rw [h1]
  exact h2

theorem Safe.ite {p : Prop} {d : Decidable p} {m n : Prog ι α} (hm : p → Safe names req m) (hn : ¬ p → Safe names req n) :
    Safe names req (if p then m else n) := by
  split
  · exact hm ‹_›
  · exact hn ‹_›

theorem Safe.foldlM {f : α → String → Prog ι α} : ∀ (l : List String), (∀ n ∈ l, ∀ a, Safe names req (f a n)) → ∀ a,
    Safe names req (l.foldlM f a)
  | [], _, a => Safe.pure a
  | n :: l, h, a => by
    rw [List.foldlM_cons]
    exact Safe.bind (h n List.mem_cons_self a) fun b => Safe.foldlM l (fun n' h' => h n' (List.mem_cons_of_mem _ h')) b

theorem Safe.forM {f : String → Prog ι PUnit} : ∀ (l : List String), (∀ n ∈ l, Safe names req (f n)) →
    Safe names req (l.forM f)
  | [], _ => Safe.pure _
  | n :: l, h => by
    show Safe names req (f n >>= fun _ => l.forM f)
    exact Safe.bind (h n List.mem_cons_self) fun _ => Safe.forM l (fun n' h' => h n' (List.mem_cons_of_mem _ h'))

theorem Ready.weaken {req' : Key → Prop} {st : Store Key (Value ι)} (h : Ready names req' st) (hr : ∀ k, req k → req' k) :
    Ready names req st := ⟨h.typed, fun k hk => h.isSet k (hr k hk), h.bndry, h.phi, h.src⟩

/-! ## Marking and setting -/

theorem Ready.markFinal {st : Store Key (Value ι)} (h : Ready names req st) {k : Key} (hk : Constant k) :
    Ready names req (st.markFinal k) := by
  obtain ⟨s0, v0, rfl, hb, hs⟩ := hk
  have hv := markFinal_vals st (.sp s0 v0)
  have hent : ∀ k, k ≠ .sp s0 v0 → (st.markFinal (.sp s0 v0)).ent k = st.ent k := by
    intro k hne
    unfold Store.markFinal
    split
    · show (if k = _ then _ else _) = _
      rw [if_neg hne]
    · rfl
  refine ⟨by rw [hv]; exact h.typed, by rw [hv]; exact h.isSet, fun s v hv' hm => ?_, ?_, fun s hm v hv' => ?_⟩
  · rw [hent _ (by intro e; obtain ⟨-, rfl⟩ := Key.sp.inj e; exact hb hv')]; exact h.bndry s v hv' hm
  · rw [hent _ (by intro e; cases e)]; exact h.phi
  · rw [hent _ (by intro e; obtain ⟨-, rfl⟩ := Key.sp.inj e; exact hs hv')]; exact h.src s hm v hv'

theorem Ready.markFinalDomain {st : Store Key (Value ι)} (h : Ready names req st) {k : Key} (hk : Interior k) :
    Ready names req (st.markFinalDomain k) := by
  have hv := markFinalDomain_vals st k
  have hfin : ∀ k', ((st.markFinalDomain k).ent k').final = (st.ent k').final := by
    intro k'
    unfold Store.markFinalDomain
    split
    · show (if k' = _ then _ else _ : Entry (Value ι)).final = _
      split
      · rename_i e; subst e; rfl
      · rfl
    · rfl
  have hent : ∀ k', k' ≠ k → (st.markFinalDomain k).ent k' = st.ent k' := by
    intro k' hne
    unfold Store.markFinalDomain
    split
    · show (if k' = _ then _ else _) = _
      rw [if_neg hne]
    · rfl
  refine ⟨by rw [hv]; exact h.typed, by rw [hv]; exact h.isSet, fun s v hv' hm => ?_, ?_, fun s hm v hv' => ?_⟩
  · rw [hfin]; exact h.bndry s v hv' hm
  · rw [hfin]; exact h.phi
  · rw [hent _ (by
      simp only [List.mem_cons, List.not_mem_nil, or_false] at hv'
      rcases hv' with rfl | rfl
      · exact (hk s).1.symm
      · exact (hk s).2.symm)]
    exact h.src s hm v hv'

/-- Setting a field keeps the state ready. -/
theorem Ready.force {st : Store Key (Value ι)} (h : Ready names req st) {k : Key} {f : Fld ι}
    (hk : ∀ s v, v ∈ [Var.AA, .charge, .adiabatic] → k ≠ .sp s v) : Ready names req (st.force k (.field f)) := by
  have hv : ∀ k', vals (st.force k (.field f)) k' = if k' = k then some (.field f) else vals st k' := by
    intro k'; exact force_val st k k' _
  have hflag : ∀ k', ((st.force k (.field f)).ent k').final = (st.ent k').final ∧
      ((st.force k (.field f)).ent k').finalDomain = (st.ent k').finalDomain := by
    intro k'
    unfold Store.force Store.update
    dsimp only
    split
    · rename_i e; subst e; exact ⟨rfl, rfl⟩
    · exact ⟨rfl, rfl⟩
  refine ⟨fun s v hm x hx => ?_, fun k' hr => ?_, fun s v hm hs => ?_, ?_, fun s hs v hm => ?_⟩
  · rw [hv, if_neg (hk s v hm).symm] at hx; exact h.typed s v hm x hx
  · rw [hv]; split
    · rfl
    · exact h.isSet k' hr
  · rw [(hflag _).1]; exact h.bndry s v hm hs
  · rw [(hflag _).1]; exact h.phi
  · rw [(hflag _).1, (hflag _).2]; exact h.src s hs v hm

/-! ## Access functions -/

theorem safe_isSetFinal {k : Key} (hk : Constant k) : Safe (ι := ι) names req (isSetFinal k) :=
  fun _ h => ⟨_, _, rfl, h.markFinal hk⟩
theorem safe_isSetNB {k : Key} (hk : Interior k) : Safe (ι := ι) names req (isSetFinalNoBoundary k) :=
  fun _ h => ⟨_, _, rfl, h.markFinalDomain hk⟩
theorem safe_isSet {k : Key} : Safe (ι := ι) names req (isSet k) := fun _ h => ⟨_, _, rfl, h⟩

/-- `if (isSet(k)) B else A`: in `B` the variable is set. -/
theorem Safe.ifSet {k : Key} {t : Prog ι Bool} {A B : Prog ι α}
    (ht : ∀ st, Ready names req st → ∃ st', t st = (.ok (vals st k).isSome, st') ∧ vals st' = vals st ∧ Ready names req st')
    (hA : Safe names req A) (hB : Safe names (fun k' => req k' ∨ k' = k) B) :
    Safe names req (t >>= fun b => if b then B else A) := by
  intro st h
  obtain ⟨s1, h1, hv, r1⟩ := ht st h
  have hb : (t >>= fun b => if b then B else A) st = (if (vals st k).isSome then B else A) s1 := by
    show M.bind t _ st = _
    unfold M.bind
    rw [h1]
  rw [hb]
  split
  · rename_i hs
    have r1' : Ready names (fun k' => req k' ∨ k' = k) s1 := by
      refine ⟨r1.typed, fun k' hk' => ?_, r1.bndry, r1.phi, r1.src⟩
      rcases hk' with hk' | rfl
      · exact r1.isSet k' hk'
      · rw [hv]; exact hs
    obtain ⟨a, s2, h2, r2⟩ := hB s1 r1'
    exact ⟨a, s2, h2, r2.weaken fun _ hk => Or.inl hk⟩
  · exact hA s1 r1

theorem test_isSetFinal {k : Key} (hk : Constant k) (st : Store Key (Value ι)) (h : Ready names req st) :
    ∃ st', isSetFinal k st = (.ok (vals st k).isSome, st') ∧ vals st' = vals st ∧ Ready names req st' := by
  refine ⟨_, ?_, markFinal_vals st k, h.markFinal hk⟩
  show (Except.ok (vals (st.markFinal k) k).isSome, _) = _
  rw [markFinal_vals]

theorem test_isSetNB {k : Key} (hk : Interior k) (st : Store Key (Value ι)) (h : Ready names req st) :
    ∃ st', isSetFinalNoBoundary k st = (.ok (vals st k).isSome, st') ∧ vals st' = vals st ∧ Ready names req st' := by
  refine ⟨_, ?_, markFinalDomain_vals st k, h.markFinalDomain hk⟩
  show (Except.ok (vals (st.markFinalDomain k) k).isSome, _) = _
  rw [markFinalDomain_vals]

theorem test_isSet {k : Key} (st : Store Key (Value ι)) (h : Ready names req st) :
    ∃ st', isSet k st = (.ok (vals st k).isSome, st') ∧ vals st' = vals st ∧ Ready names req st' := ⟨st, rfl, rfl, h⟩

theorem getNonFinal_field {st : Store Key (Value ι)} {k : Key} (h : (vals st k).isSome) :
    ∃ f, getNonFinal asField k st = (.ok f, st) := by
  obtain ⟨x, hx⟩ := Option.isSome_iff_exists.1 h
  unfold vals at hx
  unfold getNonFinal
  rw [hx]
  cases x <;> exact ⟨_, rfl⟩

theorem getNonFinal_real {st : Store Key (Value ι)} {k : Key} {r : ℝ} (h : vals st k = some (.real r)) :
    getNonFinal asReal k st = (.ok r, st) := by
  unfold vals at h
  unfold getNonFinal
  rw [h]
  rfl

theorem safe_getNB {k : Key} (hk : Interior k) (hr : req k) : Safe (ι := ι) names req (getNoBoundary asField k) := by
  intro st h
  obtain ⟨f, hf⟩ := getNonFinal_field (st := st.markFinalDomain k) (k := k) ((h.markFinalDomain hk).isSet k hr)
  exact ⟨f, _, hf, h.markFinalDomain hk⟩

theorem safe_getNonFinal {k : Key} (hr : req k) : Safe (ι := ι) names req (getNonFinal asField k) := by
  intro st h
  obtain ⟨f, hf⟩ := getNonFinal_field (st := st) (k := k) (h.isSet k hr)
  exact ⟨f, _, hf, h⟩

theorem safe_getReal {s : String} {v : Var} (hv : v ∈ [Var.AA, .charge, .adiabatic]) (hr : req (.sp s v)) :
    Safe (ι := ι) names req (get asReal (.sp s v)) := by
  intro st h
  have hc : Constant (.sp s v) := ⟨s, v, rfl, by
    simp only [List.mem_cons, List.not_mem_nil, or_false] at hv
    rcases hv with rfl | rfl | rfl <;> decide, by
    simp only [List.mem_cons, List.not_mem_nil, or_false] at hv
    rcases hv with rfl | rfl | rfl <;> decide⟩
  have h' := h.markFinal hc
  obtain ⟨x, hx⟩ := Option.isSome_iff_exists.1 (h'.isSet _ hr)
  obtain ⟨r, rfl⟩ := h'.typed s v hv x hx
  exact ⟨r, _, getNonFinal_real hx, h'⟩

theorem safe_getRealNB {s : String} {v : Var} (hv : v ∈ [Var.AA, .charge, .adiabatic]) (hr : req (.sp s v)) :
    Safe (ι := ι) names req (getNoBoundary asReal (.sp s v)) := by
  intro st h
  have hc : Interior (.sp s v) := by
    intro s'
    simp only [List.mem_cons, List.not_mem_nil, or_false] at hv
    constructor <;> (intro e; obtain ⟨-, rfl⟩ := Key.sp.inj e; simp at hv)
  have h' := h.markFinalDomain hc
  obtain ⟨x, hx⟩ := Option.isSome_iff_exists.1 (h'.isSet _ hr)
  obtain ⟨r, rfl⟩ := h'.typed s v hv x hx
  exact ⟨r, _, getNonFinal_real hx, h'⟩

theorem interior_sp {s : String} {v : Var} (hv : v ∉ [Var.energy_source, .energy_flow_ylow]) : Interior (.sp s v) := by
  intro s'
  simp only [List.mem_cons, List.not_mem_nil, or_false, not_or] at hv
  exact ⟨fun e => hv.1 (Key.sp.inj e).2, fun e => hv.2 (Key.sp.inj e).2⟩

theorem interior_top {s : String} : Interior (.top s) := fun _ => ⟨(by intro e; cases e), (by intro e; cases e)⟩

theorem constant_sp {s : String} {v : Var} (hv : v ∈ [Var.AA, .charge, .adiabatic]) : Constant (.sp s v) := by
  simp only [List.mem_cons, List.not_mem_nil, or_false] at hv
  refine ⟨s, v, rfl, ?_, ?_⟩ <;> rcases hv with rfl | rfl | rfl <;> decide

theorem safe_readNB {k : Key} (hk : Interior k) (d : Fld ι) : Safe names req (readNB k d) :=
  Safe.ifSet (test_isSetNB hk) (Safe.pure d) (safe_getNB hk (Or.inr rfl))

theorem safe_readSet {k : Key} (hk : Interior k) (d : Fld ι) : Safe names req (readSet k d) :=
  Safe.ifSet test_isSet (Safe.pure d) (safe_getNB hk (Or.inr rfl))

theorem safe_readSource {k : Key} : Safe (ι := ι) names req (readSource k) :=
  Safe.ifSet test_isSet (Safe.pure _) (safe_getNonFinal (Or.inr rfl))

theorem safe_readReal {s : String} {v : Var} (hv : v ∈ [Var.AA, .charge, .adiabatic]) (d : ℝ) :
    Safe (ι := ι) names req (readReal (.sp s v) d) :=
  Safe.ifSet (test_isSetFinal (constant_sp hv)) (Safe.pure d) (safe_getReal hv (Or.inr rfl))

theorem safe_setBoundary {s : String} {v : Var} (hv : v ∈ bndryVars) (hs : s ∈ "e" :: names) (f : Fld ι) :
    Safe names req (setBoundary (.sp s v) (.field f)) := by
  intro st h
  refine ⟨(), st.force (.sp s v) (.field f), ?_, h.force fun s' v' hv' e => ?_⟩
  · unfold setBoundary
    rw [h.bndry s v hv hs, Bool.and_false]
    rfl
  · obtain ⟨-, rfl⟩ := Key.sp.inj e
    simp only [List.mem_cons, List.not_mem_nil, or_false] at hv'
    rcases hv' with rfl | rfl | rfl <;> exact absurd hv (by decide)

theorem safe_setPhi (f : Fld ι) : Safe names req (setBoundary (.top "fields:phi") (.field f)) := by
  intro st h
  refine ⟨(), st.force (.top "fields:phi") (.field f), ?_, h.force (by intro s' v' hv' e; cases e)⟩
  unfold setBoundary
  rw [h.phi, Bool.and_false]
  rfl

theorem safe_setSource {s : String} {v : Var} (hv : v ∈ [Var.energy_source, .energy_flow_ylow]) (hs : s ∈ "e" :: names)
    (f : Fld ι) : Safe names req (set (.sp s v) (.field f)) := by
  intro st h
  obtain ⟨h1, h2⟩ := h.src s hs v hv
  refine ⟨(), st.force (.sp s v) (.field f), ?_, h.force fun s' v' hv' e => ?_⟩
  · unfold set
    rw [h1, h2, Bool.and_false]
    show (if (st.check && false) = true then _ else _) = _
    rw [Bool.and_false]
    rfl
  · obtain ⟨-, rfl⟩ := Key.sp.inj e
    simp only [List.mem_cons, List.not_mem_nil, or_false] at hv hv'
    rcases hv' with rfl | rfl | rfl <;> simp at hv

theorem safe_setBoundaryIfSet {s : String} {v : Var} (hv : v ∈ bndryVars) (hs : s ∈ "e" :: names) (f : Fld ι) :
    Safe names req (setBoundaryIfSet (.sp s v) f) :=
  Safe.bind safe_isSet fun _ => Safe.ite (fun _ => safe_setBoundary hv hs f) fun _ => Safe.pure _

theorem interior_bndry {s : String} {v : Var} (hv : v ∈ bndryVars) : Interior (.sp s v) := by
  refine interior_sp fun h => ?_
  simp only [List.mem_cons, List.not_mem_nil, or_false] at h
  rcases h with rfl | rfl <;> exact absurd hv (by decide)

theorem safe_setBoundaryIfSetNB {s : String} {v : Var} (hv : v ∈ bndryVars) (hs : s ∈ "e" :: names) (f : Fld ι) :
    Safe names req (setBoundaryIfSetNB (.sp s v) f) :=
  Safe.bind (safe_isSetNB (interior_bndry hv)) fun _ => Safe.ite (fun _ => safe_setBoundary hv hs f) fun _ => Safe.pure _

theorem safe_setPhiIfSetNB (f : Fld ι) : Safe names req (setBoundaryIfSetNB (.top "fields:phi") f) :=
  Safe.bind (safe_isSetNB interior_top) fun _ => Safe.ite (fun _ => safe_setPhi f) fun _ => Safe.pure _

/-! ## SheathBoundary -/

/-- What the sheath components need: density and temperature of all species, and the mass of all but the electrons. -/
def sheathInputs (names : List String) (k : Key) : Prop :=
  (∃ s ∈ "e" :: names, k = .sp s .density ∨ k = .sp s .temperature) ∨ ∃ s ∈ names, s ≠ "e" ∧ k = .sp s .AA

variable [DecidableEq ι]

theorem safe_publishElectrons (always : Bool) (r : (ι → ECell) × Fld ι) : Safe names req (publishElectrons always r) := by
  have he : "e" ∈ "e" :: names := List.mem_cons_self
  exact Safe.bind (safe_setBoundary (by decide) he _) fun _ => Safe.bind (safe_setBoundary (by decide) he _) fun _ =>
    Safe.bind (safe_setBoundary (by decide) he _) fun _ => Safe.bind (safe_setSource (by decide) he _) fun _ =>
    Safe.bind (safe_setBoundaryIfSetNB (by decide) he _) fun _ =>
    Safe.bind (safe_setBoundaryIfSetNB (by decide) he _) fun _ =>
    Safe.ite (fun _ => safe_setPhi _) fun _ => safe_setPhiIfSetNB _

theorem safe_publishIons {n : String} (hn : n ∈ names) (r : (ι → ICell) × Fld ι) : Safe names req (publishIons n r) := by
  have he : n ∈ "e" :: names := List.mem_cons_of_mem _ hn
  exact Safe.bind (safe_setBoundary (by decide) he _) fun _ => Safe.bind (safe_setBoundary (by decide) he _) fun _ =>
    Safe.bind (safe_setBoundary (by decide) he _) fun _ => Safe.bind (safe_setBoundaryIfSet (by decide) he _) fun _ =>
    Safe.bind (safe_setBoundaryIfSet (by decide) he _) fun _ => safe_setSource (by decide) he _

theorem Safe.branch {m : Prog ι Bool} {A B : Prog ι α} (h : Safe names req (m >>= fun b => if b then B else A)) :
    Safe names req (m >>= fun b => if !b then A else B) := by
  have : (fun b : Bool => if !b then A else B) = fun b => if b then B else A := by
    funext b; cases b <;> rfl
  rw [this]
  exact h

theorem safe_ionSumTerm (o : SheathOpts ι) (m : YMesh ι) (Ne Te s : Fld ι) {n : String} (hn : n ∈ names) :
    Safe names (sheathInputs names) (ionSumTerm o m Ne Te s n) := by
  refine Safe.ite (fun _ => Safe.pure _) fun hne => Safe.branch (Safe.ifSet (test_isSetFinal (constant_sp (by decide)))
    (Safe.pure _) ?_)
  have he : n ∈ "e" :: names := List.mem_cons_of_mem _ hn
  refine Safe.bind (safe_getReal (by decide) (Or.inr rfl)) fun Z => Safe.ite (fun _ => Safe.pure _) fun _ => ?_
  exact Safe.bind (safe_getNB (interior_sp (by decide)) (Or.inl (Or.inl ⟨n, he, Or.inl rfl⟩))) fun _ =>
    Safe.bind (safe_getNB (interior_sp (by decide)) (Or.inl (Or.inl ⟨n, he, Or.inr rfl⟩))) fun _ =>
    Safe.bind (safe_getRealNB (by decide) (Or.inl (Or.inr ⟨n, hn, hne, rfl⟩))) fun _ =>
    Safe.bind (safe_getRealNB (by decide) (Or.inr rfl)) fun _ =>
    Safe.bind (safe_readReal (by decide) _) fun _ => Safe.pure _

theorem safe_sheathPhi (o : SheathOpts ι) (m : YMesh ι) (garbage : Fld ι) (Me : ℝ) (Ne Te : Fld ι) :
    Safe names (sheathInputs names) (sheathPhi o m garbage names Me Ne Te) :=
  Safe.ifSet (test_isSetNB interior_top)
    (Safe.bind (Safe.foldlM names (fun n hn a => safe_ionSumTerm o m Ne Te a hn) _) fun _ => Safe.pure _)
    (safe_getNB interior_top (Or.inr rfl))

theorem safe_electronTransform (o : SheathOpts ι) (m : YMesh ι) (garbage : Fld ι) :
    Safe names (sheathInputs names) (electronTransform o m garbage names) := by
  have he : "e" ∈ "e" :: names := List.mem_cons_self
  exact Safe.bind (safe_getNB (interior_sp (by decide)) (Or.inl ⟨"e", he, Or.inl rfl⟩)) fun _ =>
    Safe.bind (safe_getNB (interior_sp (by decide)) (Or.inl ⟨"e", he, Or.inr rfl⟩)) fun _ =>
    Safe.bind (safe_readNB (interior_sp (by decide)) _) fun _ => Safe.bind (safe_readReal (by decide) _) fun _ =>
    Safe.bind (safe_readReal (by decide) _) fun _ => Safe.bind (safe_readNB (interior_sp (by decide)) _) fun _ =>
    Safe.bind (safe_readNB (interior_sp (by decide)) _) fun _ => Safe.bind (safe_sheathPhi o m garbage _ _ _) fun _ =>
    Safe.bind safe_readSource fun _ => Safe.bind (safe_publishElectrons _ _) fun _ => Safe.pure _

theorem safe_ionTransform (o : SheathOpts ι) (m : YMesh ι) (e : ι → ECell) {n : String} (hn : n ∈ names) :
    Safe names (sheathInputs names) (ionTransform o m e n) := by
  have he : n ∈ "e" :: names := List.mem_cons_of_mem _ hn
  refine Safe.ite (fun _ => Safe.pure _) fun hne => Safe.bind (safe_readReal (by decide) _) fun Z =>
    Safe.ite (fun _ => Safe.pure _) fun _ => ?_
  exact Safe.bind (safe_getReal (by decide) (Or.inr ⟨n, hn, hne, rfl⟩)) fun _ =>
    Safe.bind (safe_readReal (by decide) _) fun _ =>
    Safe.bind (safe_getNB (interior_sp (by decide)) (Or.inl ⟨n, he, Or.inl rfl⟩)) fun _ =>
    Safe.bind (safe_getNB (interior_sp (by decide)) (Or.inl ⟨n, he, Or.inr rfl⟩)) fun _ =>
    Safe.bind (safe_readSet (interior_sp (by decide)) _) fun _ => Safe.bind (safe_readSet (interior_sp (by decide)) _) fun _ =>
    Safe.bind (safe_readSet (interior_sp (by decide)) _) fun _ => Safe.bind safe_readSource fun _ =>
    safe_publishIons hn _

/-- The component ends normally in every state in which density and temperature of all species and the mass of the ions
are set, and no variable has been read in a way that forbids setting its guard cells. -/
theorem sheathBoundary_runs (o : SheathOpts ι) (m : YMesh ι) (garbage : Fld ι) {st : Store Key (Value ι)}
    (h : Ready names (sheathInputs names) st) : ∃ st', sheathBoundary o m garbage names st = (.ok (), st') := by
  obtain ⟨_, st', h1, _⟩ := Safe.bind (safe_electronTransform o m garbage)
    (fun e => Safe.forM names fun n hn => safe_ionTransform o m e hn) st h
  exact ⟨st', h1⟩

end Hermes.Sheath
