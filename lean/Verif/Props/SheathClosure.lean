import Verif.Model.SheathClosure
import Verif.Lemmas.Contrib

/-!
# 2D sheath closure (C44)
-/

set_option linter.unusedSectionVars false
set_option linter.unusedVariables false

namespace Hermes.SheathClosure
open Hermes.Closures Hermes.Sheath

variable {ι : Type} [DecidableEq ι]

/-! ## Specification -/

/-- Divergence of the current into the sheath. -/
noncomputable def divJ (o : ClosureOpts) (st : Store Key (Value ι)) (i : ι) : ℝ :=
  fieldOf st "e" .density i * (topField st "fields:phi" i - o.offset) / o.L_par

/-- Sound speed of the mixture: total pressure over total mass density. -/
noncomputable def soundSpeed (names : List String) (st : Store Key (Value ι)) (i : ι) : ℝ :=
  Real.sqrt ((names.map fun s => fieldOf st s .density i * fieldOf st s .temperature i).sum /
    (names.map fun s => realOf st s .AA * fieldOf st s .density i).sum)

/-- Flux of species `s` into the sheath, not negative. -/
noncomputable def fluxOf (names : List String) (st : Store Key (Value ι)) (s : String) (i : ι) : ℝ :=
  max (fieldOf st s .density i * soundSpeed names st i) 0

/-- Heat flux of an ion (or neutral) species. -/
noncomputable def heatOf (o : ClosureOpts) (names : List String) (st : Store Key (Value ι)) (s : String) (i : ι) : ℝ :=
  max (o.sheath_gamma_ions * fieldOf st s .temperature i * fluxOf names st s i) 0

/-- Heat flux of the electrons. -/
noncomputable def electronHeat (o : ClosureOpts) (st : Store Key (Value ι)) (i : ι) : ℝ :=
  max (o.sheath_gamma * fieldOf st "e" .density i * fieldOf st "e" .temperature i * Real.sqrt (fieldOf st "e" .temperature i)) 0

/-! ## What the component does -/

theorem floorTo_max (x : ℝ) : floorTo x 0 = max x 0 := by
  unfold floorTo
  split
  · rename_i h; rw [max_eq_right h.le]
  · rename_i h; rw [max_eq_left (not_lt.1 h)]

theorem getTop_bind {β : Type} {k : String} {f : Fld ι → Prog ι β} {st st'' : Store Key (Value ι)} {b : β}
    (h : (get asField (.top k) >>= f) st = (.ok b, st'')) : ∃ st', vals st' = vals st ∧ f (topField st k) st' = (.ok b, st'') := by
  obtain ⟨a, s', h1, h2, h3⟩ := (den_get asField _).bind_ok h
  refine ⟨s', h2, ?_⟩
  have : topField st k = a := by
    obtain ⟨x, e1, e2⟩ := readVal_asField h1
    unfold topField
    rw [e1]
    simp [e2]
  rw [this]; exact h3

theorem topField_congr {st st' : Store Key (Value ι)} (k : String) (h : vals st' = vals st) : topField st' k = topField st k := by
  unfold topField; rw [h]

theorem realOf_congr' {st st' : Store Key (Value ι)} {s : String} {v : Var} (h : vals st' (.sp s v) = vals st (.sp s v)) :
    realOf st' s v = realOf st s v := by
  unfold realOf; rw [h]

/-- The first loop. -/
theorem totals_ok {names : List String} {a b : Fld ι × Fld ι} {st st' : Store Key (Value ι)}
    (h : names.foldlM closureTotals a st = (.ok b, st')) :
    vals st' = vals st ∧
    (∀ i, b.1 i = a.1 i + (names.map fun s => fieldOf st s .density i * fieldOf st s .temperature i).sum) ∧
    ∀ i, b.2 i = a.2 i + (names.map fun s => realOf st s .AA * fieldOf st s .density i).sum := by
  induction names generalizing a st with
  | nil => cases h; exact ⟨rfl, fun i => by simp, fun i => by simp⟩
  | cons n l ih =>
    rw [List.foldlM_cons] at h
    obtain ⟨c, s1, h1, h2⟩ := M_bind_ok h
    unfold closureTotals at h1
    obtain ⟨s2, e2, h1⟩ := getR_bind h1
    obtain ⟨s3, e3, h1⟩ := getF_bind h1
    obtain ⟨s4, e4, h1⟩ := getF_bind h1
    obtain ⟨hc, rfl⟩ := pure_ok h1
    rw [e2] at e3; rw [e3] at e4
    obtain ⟨i1, i2, i3⟩ := ih h2
    have hf : ∀ {s : Store Key (Value ι)}, vals s = vals st → ∀ n v, fieldOf s n v = fieldOf st n v :=
      fun hs n v => fieldOf_congr (by rw [hs])
    have hr : ∀ n v, realOf s1 n v = realOf st n v := fun n v => realOf_congr' (by rw [e4])
    refine ⟨by rw [i1, e4], fun i => ?_, fun i => ?_⟩
    · rw [i2, hc, List.map_cons, List.sum_cons]
      simp only [hf e4, hf e3, hf e2]
      ring
    · rw [i3, hc, List.map_cons, List.sum_cons]
      simp only [hf e4, hf e3, hf e2, hr]
      ring

/-- The field in a value, zero if there is none. -/
def fieldFrom (x : Option (Value ι)) : Fld ι := (x.bind asField).getD 0

theorem fieldOf_from (st : Store Key (Value ι)) (s : String) (v : Var) : fieldOf st s v = fieldFrom (vals st (.sp s v)) := by
  rw [← fieldAt_sp]; rfl

/-- The second loop, one species. -/
theorem sink_ok {o : ClosureOpts} {c : Fld ι} {n : String} {st st' : Store Key (Value ι)} {u : Unit}
    (h : closureSink o c n st = (.ok u, st')) :
    (∀ i, fieldOf st' n .density_source i = fieldOf st n .density_source i - max (fieldOf st n .density i * c i) 0 / o.L_par) ∧
    (∀ i, fieldOf st' n .energy_source i = fieldOf st n .energy_source i - if n = "e" then 0 else
      max (o.sheath_gamma_ions * fieldOf st n .temperature i * max (fieldOf st n .density i * c i) 0) 0 / o.L_par) ∧
    ∀ k, k ≠ .sp n .density_source → k ≠ .sp n .energy_source → vals st' k = vals st k := by
  unfold closureSink at h
  obtain ⟨s1, e1, h⟩ := getF_bind h
  obtain ⟨_, s2, h2, h⟩ := M_bind_ok h
  obtain ⟨a1, a2⟩ := sub_field_ok h2
  simp only [floorTo_max] at a1 h
  split at h
  · rename_i hn
    obtain ⟨s3, e3, h⟩ := getF_bind h
    obtain ⟨b1, b2⟩ := sub_field_ok h
    have kne : Key.sp n .density_source ≠ .sp n .energy_source := by simp
    refine ⟨fun i => ?_, fun i => ?_, fun k hk1 hk2 => ?_⟩
    · rw [fieldOf_congr (st := s3) (b2 _ kne), fieldOf_congr (st := s2) (by rw [e3]), a1, fieldOf_congr (st := st) (by rw [e1])]
    · rw [b1, if_neg hn, fieldOf_congr (st := s2) (v := .energy_source) (by rw [e3]), fieldOf_congr (st := s1) (v := .energy_source) (a2 _ kne.symm),
        fieldOf_congr (st := st) (v := .energy_source) (by rw [e1]), fieldOf_congr (st := s1) (v := .temperature) (a2 _ (by simp)),
        fieldOf_congr (st := st) (v := .temperature) (by rw [e1])]
    · rw [b2 k hk2, e3, a2 k hk1, e1]
  · rename_i hn
    rw [not_not] at hn
    obtain ⟨-, rfl⟩ := pure_ok h
    refine ⟨fun i => ?_, fun i => ?_, fun k hk1 hk2 => ?_⟩
    · rw [a1, fieldOf_congr (st := st) (by rw [e1])]
    · rw [if_pos hn, sub_zero, fieldOf_congr (st := s1) (a2 _ (by simp)), fieldOf_congr (st := st) (by rw [e1])]
    · rw [a2 k hk1, e1]

/-- The second loop. -/
theorem sinks_loop {o : ClosureOpts} {c : Fld ι} {names : List String} {st st' : Store Key (Value ι)} {u : Unit} (hn : names.Nodup)
    (h : names.forM (closureSink o c) st = (.ok u, st')) :
    (∀ n ∈ names, (∀ i, fieldOf st' n .density_source i = fieldOf st n .density_source i - max (fieldOf st n .density i * c i) 0 / o.L_par) ∧
      (∀ i, fieldOf st' n .energy_source i = fieldOf st n .energy_source i - if n = "e" then 0 else
        max (o.sheath_gamma_ions * fieldOf st n .temperature i * max (fieldOf st n .density i * c i) 0) 0 / o.L_par)) ∧
    ∀ k, (∀ n ∈ names, k ≠ .sp n .density_source ∧ k ≠ .sp n .energy_source) → vals st' k = vals st k := by
  obtain ⟨h1, h2⟩ := forM_species
    (R := fun n b a => (∀ i, fieldFrom (a .density_source) i = fieldFrom (b .density_source) i - max (fieldFrom (b .density) i * c i) 0 / o.L_par) ∧
      (∀ i, fieldFrom (a .energy_source) i = fieldFrom (b .energy_source) i - if n = "e" then 0 else
        max (o.sheath_gamma_ions * fieldFrom (b .temperature) i * max (fieldFrom (b .density) i * c i) 0) 0 / o.L_par) ∧
      ∀ v, v ≠ .density_source → v ≠ .energy_source → a v = b v)
    (by
      intro n s u s' h
      obtain ⟨a1, a2, a3⟩ := sink_ok h
      simp only [fieldOf_from] at a1 a2
      exact ⟨⟨a1, a2, fun v h1 h2 => a3 _ (by intro e; exact h1 (Key.sp.inj e).2) (by intro e; exact h2 (Key.sp.inj e).2)⟩,
        fun k hk => a3 k (hk _) (hk _)⟩) hn h
  refine ⟨fun n hmem => ?_, fun k hk => ?_⟩
  · obtain ⟨a, b, -⟩ := h1 n hmem
    simp only [fieldOf_from]
    exact ⟨a, b⟩
  · by_cases hx : ∃ n ∈ names, ∃ v, k = .sp n v
    · obtain ⟨n, hmem, v, rfl⟩ := hx
      obtain ⟨-, -, hv⟩ := h1 n hmem
      exact hv v (by rintro rfl; exact (hk n hmem).1 rfl) (by rintro rfl; exact (hk n hmem).2 rfl)
    · push Not at hx
      exact h2 k hx

theorem electronHeat_ok {o : ClosureOpts} {n : Fld ι} {st st' : Store Key (Value ι)} {u : Unit}
    (h : closureElectronHeat o n st = (.ok u, st')) :
    (∀ i, fieldOf st' "e" .energy_source i = fieldOf st "e" .energy_source i -
      max (o.sheath_gamma * n i * fieldOf st "e" .temperature i * Real.sqrt (fieldOf st "e" .temperature i)) 0 / o.L_par) ∧
    ∀ k, k ≠ .sp "e" .energy_source → vals st' k = vals st k := by
  unfold closureElectronHeat at h
  have h := isSet_bind h
  split at h
  · obtain ⟨s1, e1, h⟩ := getF_bind h
    obtain ⟨b1, b2⟩ := sub_field_ok h
    simp only [floorTo_max] at b1
    refine ⟨fun i => ?_, fun k hk => by rw [b2 k hk, e1]⟩
    rw [b1, fieldOf_congr (st := st) (v := .energy_source) (by rw [e1])]
  · rename_i hs
    obtain ⟨-, rfl⟩ := pure_ok h
    rw [Bool.not_eq_true] at hs
    refine ⟨fun i => ?_, fun k _ => rfl⟩
    rw [fieldOf_unset hs]
    simp

/-- **C44.**  What the component does: the divergence of the sheath current goes to the vorticity equation (`DivJextra`) and to
the electron density source; the electrons lose heat; with sinks, every species loses particles, and every species but the
electrons loses heat with them.  Nothing else changes. -/
theorem closure_ok {o : ClosureOpts} {names : List String} (hn : names.Nodup) {st st' : Store Key (Value ι)}
    (h : sheathClosure o names st = (.ok (), st')) :
    (∀ i, topField st' "fields:DivJextra" i = topField st "fields:DivJextra" i + divJ o st i) ∧
    (∀ s i, fieldOf st' s .density_source i = fieldOf st s .density_source i + (if s = "e" then divJ o st i else 0)
      - if o.sinks = true ∧ s ∈ names then fluxOf names st s i / o.L_par else 0) ∧
    (∀ s i, fieldOf st' s .energy_source i = fieldOf st s .energy_source i - (if s = "e" then electronHeat o st i / o.L_par else 0)
      - if o.sinks = true ∧ s ∈ names ∧ s ≠ "e" then heatOf o names st s i / o.L_par else 0) ∧
    ∀ k, k ≠ .top "fields:DivJextra" → (∀ s, k ≠ .sp s .density_source ∧ k ≠ .sp s .energy_source) → vals st' k = vals st k := by
  unfold sheathClosure at h
  obtain ⟨s1, e1, h⟩ := getTop_bind h
  obtain ⟨s2, e2, h⟩ := getF_bind h
  rw [e1] at e2
  rw [fieldOf_congr (st := st) (st' := s1) (v := .density) (by rw [e1])] at h
  obtain ⟨_, s3, h3, h⟩ := M_bind_ok h
  obtain ⟨a1, a2⟩ := add_at_ok h3
  obtain ⟨_, s4, h4, h⟩ := M_bind_ok h
  obtain ⟨b1, b2⟩ := add_field_ok h4
  obtain ⟨_, s5, h5, h⟩ := M_bind_ok h
  obtain ⟨c1, c2⟩ := electronHeat_ok h5
  -- the state before the sinks
  have hD5 : ∀ i, topField s5 "fields:DivJextra" i = topField st "fields:DivJextra" i + divJ o st i := by
    intro i
    have t5 : vals s5 (.top "fields:DivJextra") = vals s3 (.top "fields:DivJextra") := by rw [c2 _ (by simp), b2 _ (by simp)]
    have : topField s5 "fields:DivJextra" = fieldAt s3 (.top "fields:DivJextra") := by unfold topField fieldAt; rw [t5]
    rw [this, a1]
    have : fieldAt s2 (.top "fields:DivJextra") = topField st "fields:DivJextra" := by unfold topField fieldAt; rw [e2]
    rw [this]; rfl
  have hds5 : ∀ s i, fieldOf s5 s .density_source i = fieldOf st s .density_source i + if s = "e" then divJ o st i else 0 := by
    intro s i
    rw [fieldOf_congr (st := s4) (c2 _ (by simp))]
    by_cases hs : s = "e"
    · subst hs
      rw [b1, if_pos rfl, fieldOf_congr (st := s2) (a2 _ (by simp)), fieldOf_congr (st := st) (by rw [e2])]
      rfl
    · rw [fieldOf_congr (st := s3) (b2 _ (by intro e; exact hs (Key.sp.inj e).1)), fieldOf_congr (st := s2) (a2 _ (by simp)),
        fieldOf_congr (st := st) (by rw [e2]), if_neg hs, add_zero]
  have keep : ∀ k, k ≠ .top "fields:DivJextra" → k ≠ .sp "e" .density_source → k ≠ .sp "e" .energy_source → vals s5 k = vals st k := by
    intro k k1 k2 k3
    rw [c2 k k3, b2 k k2, a2 k k1, e2]
  have hes5 : ∀ s i, fieldOf s5 s .energy_source i = fieldOf st s .energy_source i - if s = "e" then electronHeat o st i / o.L_par else 0 := by
    intro s i
    by_cases hs : s = "e"
    · subst hs
      have f4 : ∀ v, v ≠ .density_source → fieldOf s4 "e" v = fieldOf st "e" v := fun v hv => by
        refine fieldOf_congr ?_
        rw [b2 _ (by intro e; exact hv (Key.sp.inj e).2), a2 _ (by simp), e2]
      rw [c1, if_pos rfl, f4 .energy_source (by decide), f4 .temperature (by decide)]
      rfl
    · rw [fieldOf_congr (keep (.sp s .energy_source) (by simp) (by simp) (by intro e; exact hs (Key.sp.inj e).1)), if_neg hs, sub_zero]
  split at h
  · rename_i hsink
    unfold closureSinks at h
    obtain ⟨tot, s6, h6, h⟩ := M_bind_ok h
    obtain ⟨t1, t2, t3⟩ := totals_ok h6
    obtain ⟨l1, l2⟩ := sinks_loop hn h
    have f5 : ∀ s v, v ≠ .density_source → v ≠ .energy_source → fieldOf s6 s v = fieldOf st s v := by
      intro s v h1 h2
      refine fieldOf_congr ?_
      rw [t1, keep _ (by simp) (by intro e; exact h1 (Key.sp.inj e).2) (by intro e; exact h2 (Key.sp.inj e).2)]
    have hcs : ∀ i, Real.sqrt (tot.1 i / tot.2 i) = soundSpeed names st i := by
      intro i
      unfold soundSpeed
      rw [t2, t3]
      have g1 : ∀ s, fieldOf s5 s .density = fieldOf st s .density := fun s => by
        rw [← f5 s .density (by decide) (by decide)]; exact (fieldOf_congr (by rw [t1])).symm
      have g2 : ∀ s, fieldOf s5 s .temperature = fieldOf st s .temperature := fun s => by
        rw [← f5 s .temperature (by decide) (by decide)]; exact (fieldOf_congr (by rw [t1])).symm
      have g3 : ∀ s, realOf s5 s .AA = realOf st s .AA := fun s =>
        realOf_congr' (keep _ (by simp) (by simp) (by simp))
      simp only [g1, g2, g3, zero_add]
    simp only [hcs] at l1
    refine ⟨fun i => ?_, fun s i => ?_, fun s i => ?_, fun k hk1 hk2 => ?_⟩
    · have : vals st' (.top "fields:DivJextra") = vals s5 (.top "fields:DivJextra") := by
        rw [l2 _ (fun n _ => ⟨by simp, by simp⟩), t1]
      rw [← hD5]
      unfold topField
      rw [this]
    · by_cases hs : s ∈ names
      · rw [(l1 s hs).1, if_pos (show o.sinks = true ∧ s ∈ names from ⟨hsink, hs⟩), f5 s .density (by decide) (by decide), fieldOf_congr (st := s5) (st' := s6) (by rw [t1]), hds5]
        rfl
      · rw [if_neg (show ¬(o.sinks = true ∧ s ∈ names) from fun hh => hs hh.2), sub_zero, ← hds5]
        refine congrFun (fieldOf_congr ?_) i
        rw [l2 _ (fun n hmem => ⟨by intro e; exact hs ((Key.sp.inj e).1 ▸ hmem), by simp⟩), t1]
    · by_cases hs : s ∈ names
      · rw [(l1 s hs).2, f5 s .density (by decide) (by decide), f5 s .temperature (by decide) (by decide),
          fieldOf_congr (st := s5) (st' := s6) (v := .energy_source) (by rw [t1]), hes5]
        by_cases he : s = "e"
        · rw [if_pos he, if_pos he, sub_zero, if_neg (show ¬(o.sinks = true ∧ s ∈ names ∧ s ≠ "e") from fun hh => hh.2.2 he), sub_zero]
        · rw [if_neg (show ¬s = "e" from he), if_neg (show ¬s = "e" from he), if_pos (show o.sinks = true ∧ s ∈ names ∧ s ≠ "e" from ⟨hsink, hs, he⟩)]
          rfl
      · rw [if_neg (show ¬(o.sinks = true ∧ s ∈ names ∧ s ≠ "e") from fun hh => hs hh.2.1), sub_zero, ← hes5]
        refine congrFun (fieldOf_congr ?_) i
        rw [l2 _ (fun n hmem => ⟨by simp, by intro e; exact hs ((Key.sp.inj e).1 ▸ hmem)⟩), t1]
    · rw [l2 _ (fun n _ => hk2 n), t1, keep k hk1 (hk2 _).1 (hk2 _).2]
  · rename_i hsink
    obtain ⟨-, rfl⟩ := pure_ok h
    refine ⟨hD5, fun s i => ?_, fun s i => ?_, fun k hk1 hk2 => keep k hk1 (hk2 _).1 (hk2 _).2⟩
    · rw [hds5, if_neg (show ¬(o.sinks = true ∧ s ∈ names) from fun hh => hsink hh.1), sub_zero]
    · rw [hes5, if_neg (show ¬(o.sinks = true ∧ s ∈ names ∧ s ≠ "e") from fun hh => hsink hh.1), sub_zero]

/-! ## C44 -/

/-- **C44.**  Without sinks: what is handed to the vorticity equation equals what the electron density source gets, in every
cell and for every state. -/
theorem current_is_electron_source {o : ClosureOpts} {names : List String} (hn : names.Nodup) (hs : o.sinks = false)
    {st st' : Store Key (Value ι)} (h : sheathClosure o names st = (.ok (), st')) (i : ι) :
    topField st' "fields:DivJextra" i - topField st "fields:DivJextra" i =
      fieldOf st' "e" .density_source i - fieldOf st "e" .density_source i := by
  obtain ⟨h1, h2, -, -⟩ := closure_ok hn h
  rw [h1, h2, if_pos rfl, hs]
  simp

/-- The states the sink model is meant for: non-negative densities, masses and temperatures. -/
structure Plasma (names : List String) (st : Store Key (Value ι)) (i : ι) : Prop where
  n : ∀ s ∈ names, 0 ≤ fieldOf st s .density i
  t : ∀ s ∈ names, 0 ≤ fieldOf st s .temperature i
  m : ∀ s ∈ names, 0 < realOf st s .AA
  some : ∃ s ∈ names, 0 < fieldOf st s .density i

/-- In such a state the sound speed is a root of a non-negative number (no NaN, no division by zero). -/
theorem soundSpeed_sq {names : List String} {st : Store Key (Value ι)} {i : ι} (hp : Plasma names st i) :
    0 < (names.map fun s => realOf st s .AA * fieldOf st s .density i).sum ∧
    soundSpeed names st i ^ 2 * (names.map fun s => realOf st s .AA * fieldOf st s .density i).sum =
      (names.map fun s => fieldOf st s .density i * fieldOf st s .temperature i).sum := by
  have hpos : 0 < (names.map fun s => realOf st s .AA * fieldOf st s .density i).sum := by
    obtain ⟨s, hs, h0⟩ := hp.some
    have hle : realOf st s .AA * fieldOf st s .density i ≤ (names.map fun s => realOf st s .AA * fieldOf st s .density i).sum := by
      refine List.single_le_sum ?_ _ (List.mem_map.2 ⟨s, hs, rfl⟩)
      intro x hx
      obtain ⟨a, ha, rfl⟩ := List.mem_map.1 hx
      exact mul_nonneg (hp.m a ha).le (hp.n a ha)
    have := hp.m s hs
    have : 0 < realOf st s .AA * fieldOf st s .density i := by positivity
    linarith
  have hP : 0 ≤ (names.map fun s => fieldOf st s .density i * fieldOf st s .temperature i).sum := by
    refine List.sum_nonneg ?_
    intro x hx
    obtain ⟨a, ha, rfl⟩ := List.mem_map.1 hx
    exact mul_nonneg (hp.n a ha) (hp.t a ha)
  refine ⟨hpos, ?_⟩
  unfold soundSpeed
  rw [Real.sq_sqrt (div_nonneg hP hpos.le)]
  field_simp

theorem fluxOf_eq {names : List String} {st : Store Key (Value ι)} {i : ι} {s : String} (h : 0 ≤ fieldOf st s .density i) :
    fluxOf names st s i = fieldOf st s .density i * soundSpeed names st i :=
  max_eq_left (mul_nonneg h (Real.sqrt_nonneg _))

/-- **C44.**  With sinks: in a quasineutral plasma (any number of species with any charges) the particle sinks carry no net
current, so the charge that the species lose is exactly the divergence handed to the vorticity equation. -/
theorem sinks_ambipolar {o : ClosureOpts} {names : List String} (hn : names.Nodup) (he : "e" ∈ names) (hs : o.sinks = true)
    {st st' : Store Key (Value ι)} (h : sheathClosure o names st = (.ok (), st')) {i : ι} (hp : Plasma names st i)
    {Z : String → ℝ} (hZ : Z "e" = -1) (hq : (names.map fun s => Z s * fieldOf st s .density i).sum = 0) :
    (names.map fun s => Z s * (fluxOf names st s i / o.L_par)).sum = 0 ∧
    (names.map fun s => Z s * (fieldOf st' s .density_source i - fieldOf st s .density_source i)).sum =
      -(topField st' "fields:DivJextra" i - topField st "fields:DivJextra" i) := by
  have key : (names.map fun s => Z s * (fluxOf names st s i / o.L_par)).sum = 0 := by
    have : (names.map fun s => Z s * (fluxOf names st s i / o.L_par)) =
        names.map fun s => soundSpeed names st i / o.L_par * (Z s * fieldOf st s .density i) := by
      refine List.map_congr_left fun s hs => ?_
      rw [fluxOf_eq (hp.n s hs)]
      ring
    rw [this, List.sum_map_mul_left, hq, mul_zero]
  refine ⟨key, ?_⟩
  obtain ⟨h1, h2, -, -⟩ := closure_ok hn h
  rw [h1, add_sub_cancel_left]
  have e : (names.map fun s => Z s * (fieldOf st' s .density_source i - fieldOf st s .density_source i)) =
      names.map fun s => (if s = "e" then -divJ o st i else 0) - Z s * (fluxOf names st s i / o.L_par) := by
    refine List.map_congr_left fun s hs' => ?_
    rw [h2, if_pos (show o.sinks = true ∧ s ∈ names from ⟨hs, hs'⟩)]
    by_cases hse : s = "e"
    · subst hse; rw [if_pos rfl, if_pos rfl, hZ]; ring
    · rw [if_neg hse, if_neg hse]; ring
  have hsub : ∀ (f g : String → ℝ) (l : List String), (l.map fun s => f s - g s).sum = (l.map f).sum - (l.map g).sum := by
    intro f g l
    induction l with
    | nil => simp
    | cons a l ih => simp only [List.map_cons, List.sum_cons, ih]; ring
  rw [e, hsub, key, sub_zero]
  have : ∀ l : List String, l.Nodup → "e" ∈ l → (l.map fun s => if s = "e" then -divJ o st i else 0).sum = -divJ o st i := by
    intro l hl hmem
    induction l with
    | nil => cases hmem
    | cons a l ih =>
      rw [List.nodup_cons] at hl
      rw [List.map_cons, List.sum_cons]
      rcases List.mem_cons.1 hmem with rfl | hm
      · rw [if_pos rfl]
        have hz : (l.map fun s => if s = "e" then -divJ o st i else 0) = l.map fun _ => (0 : ℝ) :=
          List.map_congr_left fun s hs => if_neg (by rintro rfl; exact hl.1 hs)
        rw [hz]
        simp
      · rw [if_neg (by rintro rfl; exact hl.1 hm), ih hl.2 hm, zero_add]
  exact this names hn he

/-- **C44.**  The sinks never add particles or energy: for every state, every species but the electrons has a density source that
does not grow, the electron density source grows by at most the divergence of the current, and no energy source grows. -/
theorem sinks_only_remove {o : ClosureOpts} {names : List String} (hn : names.Nodup) (hL : 0 < o.L_par)
    {st st' : Store Key (Value ι)} (h : sheathClosure o names st = (.ok (), st')) (s : String) (i : ι) :
    (s ≠ "e" → fieldOf st' s .density_source i ≤ fieldOf st s .density_source i) ∧
    fieldOf st' "e" .density_source i - fieldOf st "e" .density_source i ≤ topField st' "fields:DivJextra" i - topField st "fields:DivJextra" i ∧
    fieldOf st' s .energy_source i ≤ fieldOf st s .energy_source i := by
  obtain ⟨h1, h2, h3, -⟩ := closure_ok hn h
  have hf : ∀ s, 0 ≤ if o.sinks = true ∧ s ∈ names then fluxOf names st s i / o.L_par else 0 := by
    intro s
    split
    · exact div_nonneg (le_max_right _ _) hL.le
    · exact le_refl _
  refine ⟨fun hs => ?_, ?_, ?_⟩
  · rw [h2, if_neg hs]
    linarith [hf s]
  · rw [h1, h2, if_pos rfl]
    linarith [hf "e"]
  · rw [h3]
    have a1 : 0 ≤ if s = "e" then electronHeat o st i / o.L_par else 0 := by
      split
      · exact div_nonneg (le_max_right _ _) hL.le
      · exact le_refl _
    have a2 : 0 ≤ if o.sinks = true ∧ s ∈ names ∧ s ≠ "e" then heatOf o names st s i / o.L_par else 0 := by
      split
      · exact div_nonneg (le_max_right _ _) hL.le
      · exact le_refl _
    linarith

/-- **C44.**  At zero current (`phi` equal to the offset) with sinks, electrons and ions of a pure plasma are lost at the Bohm rate
`n c_s / L`. -/
theorem pure_plasma_loss {o : ClosureOpts} {names : List String} (hn : names.Nodup) (hs : o.sinks = true)
    {st st' : Store Key (Value ι)} (h : sheathClosure o names st = (.ok (), st')) {i : ι} (hp : Plasma names st i)
    (h0 : topField st "fields:phi" i = o.offset) {s : String} (hmem : s ∈ names) :
    fieldOf st s .density_source i - fieldOf st' s .density_source i = fieldOf st s .density i * soundSpeed names st i / o.L_par := by
  obtain ⟨-, h2, -, -⟩ := closure_ok hn h
  rw [h2, if_pos (show o.sinks = true ∧ s ∈ names from ⟨hs, hmem⟩), fluxOf_eq (hp.n s hmem)]
  unfold divJ
  rw [h0]
  simp

/-! ## Concrete runs -/

section
open Hermes.Runs

/-- What the component reads and sets. -/
def access (names : List String) : Access where
  found k := k = .top "fields:phi" ∨ k = .sp "e" .density ∨ k = .sp "e" .temperature ∨
    ∃ s ∈ names, k = .sp s .AA ∨ k = .sp s .density ∨ k = .sp s .temperature
  own k := k = .top "fields:DivJextra" ∨ (∃ s, k = .sp s .density_source) ∨ ∃ s, k = .sp s .energy_source
  edge _ := False
  num k := ∃ s, k = .sp s .AA

theorem closure_runs (o : ClosureOpts) (names : List String) : Runs (ι := ι) (access names) (sheathClosure o names) := by
  have no : ∀ s v, v ≠ .density_source → v ≠ .energy_source → ¬(access names).own (.sp s v) := by
    rintro s v h1 h2 (e | ⟨_, e⟩ | ⟨_, e⟩)
    · cases e
    · exact h1 (Key.sp.inj e).2
    · exact h2 (Key.sp.inj e).2
  have nn : ∀ s v, v ≠ .AA → ¬(access names).num (.sp s v) := by
    rintro s v h1 ⟨_, e⟩
    exact h1 (Key.sp.inj e).2
  unfold sheathClosure
  refine Runs.bind (runs_get (Or.inl rfl) (by rintro (e | ⟨_, e⟩ | ⟨_, e⟩) <;> simp at e) id) fun phi => ?_
  refine Runs.bind (runs_getF (Or.inr (Or.inl rfl)) (no _ _ (by decide) (by decide)) id) fun n => ?_
  refine Runs.bind (runs_add (Or.inl rfl) (by rintro ⟨_, e⟩; cases e)) fun _ => ?_
  refine Runs.bind (runs_add (Or.inr (Or.inl ⟨_, rfl⟩)) (nn _ _ (by decide))) fun _ => ?_
  refine Runs.bind ?_ fun _ => ?_
  · unfold closureElectronHeat
    refine Runs.bind runs_isSet fun b => Runs.ite (fun _ => ?_) fun _ => Runs.pure _
    exact Runs.bind (runs_getF (Or.inr (Or.inr (Or.inl rfl))) (no _ _ (by decide) (by decide)) id) fun Te =>
      runs_subtract (Or.inr (Or.inr ⟨_, rfl⟩)) (nn _ _ (by decide))
  refine Runs.ite (fun _ => ?_) fun _ => Runs.pure _
  unfold closureSinks
  refine Runs.bind (Runs.foldlM names (fun s hs a => ?_) _) fun tot => Runs.forM names fun s hs => ?_
  · unfold closureTotals
    have hf : ∀ k, k = .sp s .AA ∨ k = .sp s .density ∨ k = .sp s .temperature → (access names).found k :=
      fun k hk => Or.inr (Or.inr (Or.inr ⟨s, hs, hk⟩))
    refine Runs.bind (runs_getR (hf _ (Or.inl rfl)) ⟨_, rfl⟩ (no _ _ (by decide) (by decide)) id) fun A => ?_
    refine Runs.bind (runs_getF (hf _ (Or.inr (Or.inl rfl))) (no _ _ (by decide) (by decide)) id) fun N => ?_
    exact Runs.bind (runs_getF (hf _ (Or.inr (Or.inr rfl))) (no _ _ (by decide) (by decide)) id) fun T => Runs.pure _
  · unfold closureSink
    have hf : ∀ k, k = .sp s .AA ∨ k = .sp s .density ∨ k = .sp s .temperature → (access names).found k :=
      fun k hk => Or.inr (Or.inr (Or.inr ⟨s, hs, hk⟩))
    refine Runs.bind (runs_getF (hf _ (Or.inr (Or.inl rfl))) (no _ _ (by decide) (by decide)) id) fun N => ?_
    refine Runs.bind (runs_subtract (Or.inr (Or.inl ⟨_, rfl⟩)) (nn _ _ (by decide))) fun _ => ?_
    refine Runs.ite (fun _ => ?_) fun _ => Runs.pure _
    refine Runs.bind (runs_getF (hf _ (Or.inr (Or.inr rfl))) (no _ _ (by decide) (by decide)) id) fun T => ?_
    exact runs_subtract (Or.inr (Or.inr ⟨_, rfl⟩)) (nn _ _ (by decide))

/-- Deuterium plasma with 10 % of doubly charged helium, and some neutral gas. -/
noncomputable def mix : Store Key (Value Unit) where
  ent
    | .top "fields:phi" => { val := some (.field fun _ => 3), final := false, finalDomain := false }
    | .sp s .density => { val := some (.field fun _ => if s = "e" then 1 else if s = "d+" then 0.8 else if s = "he+2" then 0.1 else 0.5), final := false, finalDomain := false }
    | .sp _ .temperature => { val := some (.field fun _ => 1), final := false, finalDomain := false }
    | .sp s .AA => { val := some (.real (if s = "e" then 1 / 1836 else if s = "he+2" then 4 else 2)), final := false, finalDomain := false }
    | _ => { val := none, final := false, finalDomain := false }
  check := true

theorem mix_run (o : ClosureOpts) : ∃ st', sheathClosure o ["d", "d+", "e", "he+2"] mix = (.ok (), st') := by
  obtain ⟨_, st', h, -⟩ := closure_runs o ["d", "d+", "e", "he+2"] mix
    ⟨by
      rintro k ⟨s, rfl⟩ x hx
      exact ⟨_, (Option.some.inj hx).symm⟩, by
      rintro k (rfl | rfl | rfl | ⟨s, -, rfl | rfl | rfl⟩) <;> rfl, by
      rintro k (rfl | ⟨s, rfl⟩ | ⟨s, rfl⟩) <;> exact ⟨rfl, rfl⟩, fun k hk => hk.elim⟩
  exact ⟨st', h⟩

/-- The hypotheses of the theorems above are met. -/
example : ∃ (o : ClosureOpts) (st' : Store Key (Value Unit)) (Z : String → ℝ),
    sheathClosure o ["d", "d+", "e", "he+2"] mix = (.ok (), st') ∧ o.sinks = true ∧ 0 < o.L_par ∧
    Plasma ["d", "d+", "e", "he+2"] mix () ∧ Z "e" = -1 ∧
    (["d", "d+", "e", "he+2"].map fun s => Z s * fieldOf mix s .density ()).sum = 0 := by
  obtain ⟨st', h⟩ := mix_run ⟨10, 6.5, 2, 0, true⟩
  have hd : ∀ s, fieldOf mix s .density () = if s = "e" then 1 else if s = "d+" then 0.8 else if s = "he+2" then 0.1 else 0.5 := fun _ => rfl
  have ht : ∀ s, fieldOf mix s .temperature () = 1 := fun _ => rfl
  have ha : ∀ s, realOf mix s .AA = if s = "e" then 1 / 1836 else if s = "he+2" then 4 else 2 := fun _ => rfl
  refine ⟨⟨10, 6.5, 2, 0, true⟩, st', fun s => if s = "e" then -1 else if s = "d+" then 1 else if s = "he+2" then 2 else 0, h, rfl,
    by norm_num, ⟨fun s _ => ?_, fun s _ => ?_, fun s _ => ?_, ⟨"e", by simp, ?_⟩⟩, by simp, ?_⟩
  · rw [hd]; split_ifs <;> norm_num
  · rw [ht]; norm_num
  · rw [ha]; split_ifs <;> norm_num
  · rw [hd]; norm_num
  · simp only [hd]
    simp
    norm_num

/-- Neutral gas is treated like the ions: with sinks it is lost into the sheath at the ion sound speed. -/
theorem neutrals_are_lost : ∃ st', sheathClosure ⟨10, 6.5, 2, 0, true⟩ ["d", "d+", "e", "he+2"] mix = (.ok (), st') ∧
    fieldOf st' "d" .density_source () < fieldOf mix "d" .density_source () := by
  obtain ⟨st', h⟩ := mix_run ⟨10, 6.5, 2, 0, true⟩
  refine ⟨st', h, ?_⟩
  obtain ⟨-, h2, -, -⟩ := closure_ok (by decide) h
  have hd : ∀ s, fieldOf mix s .density () = if s = "e" then 1 else if s = "d+" then 0.8 else if s = "he+2" then 0.1 else 0.5 := fun _ => rfl
  have ht : ∀ s, fieldOf mix s .temperature () = 1 := fun _ => rfl
  have ha : ∀ s, realOf mix s .AA = if s = "e" then 1 / 1836 else if s = "he+2" then 4 else 2 := fun _ => rfl
  have hf : 0 < fluxOf ["d", "d+", "e", "he+2"] mix "d" () := by
    unfold fluxOf soundSpeed
    simp only [hd, ht, ha]
    simp
    norm_num
  rw [h2, if_neg (by decide), if_pos ⟨rfl, by simp⟩]
  show _ - _ / (10 : ℝ) < _
  linarith

end

end Hermes.SheathClosure
