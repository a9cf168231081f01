import Verif.Model.AparBoundary
import Verif.Props.PhiBoundary

/-!
# C78: potential and vector potential at the radial boundaries after a restart
-/

namespace Hermes.Restart
open Hermes.PhiBoundary

/-! ## Specification -/

/-- The solution depends on the initial guess only through the values in the guard cells. -/
def OnlyBoundary (m : XMesh) (solve : XYZ → XYZ) : Prop :=
  ∀ x0 x0' : XYZ, (∀ s, Has m s → ∀ j ∈ m.js, ∀ k, k < m.LocalNz → x0 s.g j k = x0' s.g j k) → solve x0 = solve x0'

/-- Gradient of `Apar` through the boundary `s`, from the smaller to the larger index. -/
noncomputable def gradient (m : XMesh) (o : AparOpts) (A : XYZ) (s : Side) (j k : ℕ) : ℝ :=
  (if s = inner m then A s.x j k - A s.g j k else A s.g j k - A s.x j k) / (Real.sqrt (o.g_11 s.g j) * o.dx s.g j)

/-- Difference of `Apar` between the last two cells, divided by the same distance. -/
noncomputable def inside (m : XMesh) (o : AparOpts) (A : XYZ) (s : Side) (j k : ℕ) : ℝ :=
  (if s = inner m then A (s.x + 1) j k - A s.x j k else A s.x j k - A (s.x - 1) j k) / (Real.sqrt (o.g_11 s.g j) * o.dx s.g j)

/-- The solver gives the solution the gradient that is in the guard cells of the right-hand side (`INVERT_DC_GRAD + INVERT_AC_GRAD + INVERT_RHS`). -/
def GradientSolver (m : XMesh) (o : AparOpts) (solve : XYZ → XYZ → XYZ) : Prop :=
  ∀ (rhs guess : XYZ) (s : Side), Has m s → ∀ j ∈ m.js, ∀ k, k < m.LocalNz → gradient m o (solve rhs guess) s j k = rhs s.g j k

/-- What a new process finds: the state `file` that the old one, in the state `field`, saves.  `first` and `before` are the flag and the options of the old
process, before the call. -/
def file (first : Bool) (before : Option XYZ) (field : XYZ) : Option XYZ := (restartField first before field).2.1

/-! ## Saving -/

theorem file_holds_field {first : Bool} {before : Option XYZ} (h : first = false ∨ before = none) (field : XYZ) : file first before field = some field := by
  rcases h with rfl | rfl
  · rfl
  · cases first <;> rfl

/-- Once a value has been read the calls only save. -/
theorem read_once (saved field field' : XYZ) (before : Option XYZ) :
    let r := restartField true (some saved) field
    r = (false, some saved, saved) ∧ restartField r.1 before field' = (false, some field', field') := ⟨rfl, rfl⟩

/-- In a run that was not restarted the second call that gets the same options puts the field back to what it was at the first call, and saves that. -/
theorem second_save_resets (field field' : XYZ) :
    let r := restartField true none field
    r.2.2 = field ∧ restartField r.1 r.2.1 field' = (false, some field, field) := ⟨rfl, rfl⟩

/-! ## Potential -/

/-- **C78.**  A simulation stopped after any number of evaluations, of which the last is at the latest time, and restarted from the file is in the same
state as the one that was not stopped, after the first evaluation and after any further ones. -/
theorem potential_restarts {m : XMesh} (hm : MeshOk m) (o : PhiOpts) (np : ℕ) (st0 : PhiState) {c0 : PhiCall} (hs : SolverOk m c0.solve)
    (hb : OnlyBoundary m c0.solve) (ht : st0.last < 0 ∨ st0.last ≤ c0.time) {first : Bool} {before : Option XYZ} (hf : first = false ∨ before = none)
    (l : List PhiCall) :
    let stopped := phiCall m o np st0 c0
    after m o np (PhiState.start (file first before stopped.phi)) (c0 :: l) = after m o np stopped l := by
  intro saved
  rw [file_holds_field hf]
  have hlast : saved.last = c0.time := by
    simp only [saved, phiCall, relaxPhi]
    split
    · rfl
    · split
      · rfl
      · rename_i h1 h2
        rcases ht with h | h
        · exact absurd h h1
        · exact le_antisymm h (not_lt.1 h2) |>.trans rfl
  have hphi : solvePhi m c0.solve c0.Pi_hat saved.phi = saved.phi := by
    have e : saved.phi = solvePhi m c0.solve c0.Pi_hat (relaxPhi m o np c0.others c0.time st0).phi := rfl
    generalize (relaxPhi m o np c0.others c0.time st0).phi = p at e
    have : c0.solve (shiftBoundaries m fun x j k => saved.phi x j k + c0.Pi_hat x j k) =
        c0.solve (shiftBoundaries m fun x j k => p x j k + c0.Pi_hat x j k) := by
      refine hb _ _ fun s h j hj k hk => ?_
      rw [shiftBoundaries_ok hm _ h hj hk, shiftBoundaries_ok hm _ h hj hk]
      have := solve_keeps_edge hm hs c0.Pi_hat p h hj hk
      rw [← e] at this
      unfold edge at this ⊢
      linarith
    have h2 : solvePhi m c0.solve c0.Pi_hat saved.phi = solvePhi m c0.solve c0.Pi_hat p := by
      unfold solvePhi
      simp only
      rw [this]
    exact h2.trans e.symm
  have : phiCall m o np (PhiState.start (some saved.phi)) c0 = saved := by
    have h1 : relaxPhi m o np c0.others c0.time (PhiState.start (some saved.phi)) = ⟨c0.time, saved.phi⟩ := by
      unfold relaxPhi PhiState.start
      rw [if_pos (by norm_num)]
      rfl
    unfold phiCall
    simp only [h1]
    rw [hphi, ← hlast]
  unfold after
  rw [List.foldl_cons, this]

/-- If the solver had tried a later time before the file was written, the restarted simulation relaxes again over the time of the trial: it is ahead of the
one that was not stopped by exactly that time. -/
theorem potential_relaxes_again {m : XMesh} (hm : MeshOk m) (o : PhiOpts) (np : ℕ) (st : PhiState) {c0 : PhiCall} (hs0 : SolverOk m c0.solve)
    {first : Bool} {before : Option XYZ} (hf : first = false ∨ before = none)
    (h0 : 0 ≤ c0.time) (ht : c0.time ≤ st.last) {s : Side} (hs : Has m s) {j : ℕ} (hj : j ∈ m.js) {v : ℝ} (l : List PhiCall)
    (hsol : ∀ c ∈ l, SolverOk m c.solve) (hT : Targets m o np s j (· = v) st l)
    (hT' : Targets m o np s j (· = v) (phiCall m o np (PhiState.start (file first before st.phi)) c0) l) (hend : st.last ≤ latest c0.time l) :
    edge (after m o np (PhiState.start (file first before st.phi)) (c0 :: l)).phi s.g s.x j 0 - v =
      (edge (after m o np st l).phi s.g s.x j 0 - v) * Real.exp (-(st.last - c0.time) / o.phi_boundary_timescale) := by
  rw [file_holds_field hf] at hT' ⊢
  have h1 := (relaxation hm o np hs hj l hsol st (h0.trans ht) hT).2
  obtain ⟨a1, a2⟩ := (call_ok hm o np (PhiState.start (some st.phi)) hs0 hs hj hm.z).1 (by norm_num [PhiState.start])
  have h2 := (relaxation hm o np hs hj l hsol (phiCall m o np (PhiState.start (some st.phi)) c0) (by rw [a1]; exact h0) hT').2
  have e : latest st.last l = latest c0.time l := by
    have key : ∀ (l : List PhiCall) (a b : ℝ), b ≤ a → a ≤ latest b l → latest a l = latest b l := by
      intro l
      induction l with
      | nil => intro a b h h'; exact le_antisymm h' h
      | cons c l ih =>
        intro a b h h'
        simp only [latest, List.foldl_cons] at h' ⊢
        rcases le_total a c.time with hc | hc
        · rw [max_eq_right hc, max_eq_right (h.trans hc)]
        · rw [max_eq_left hc]
          exact ih a _ (max_le h hc) h'
    exact key l _ _ ht hend
  have e' : edge (PhiState.start (some st.phi)).phi s.g s.x j 0 = edge st.phi s.g s.x j 0 := rfl
  rw [a1, a2, e'] at h2
  rw [show after m o np (PhiState.start (some st.phi)) (c0 :: l) = after m o np (phiCall m o np (PhiState.start (some st.phi)) c0) l from rfl, h2, h1, e]
  have : Real.exp (-(latest c0.time l - c0.time) / o.phi_boundary_timescale) =
      Real.exp (-(latest c0.time l - st.last) / o.phi_boundary_timescale) * Real.exp (-(st.last - c0.time) / o.phi_boundary_timescale) := by
    rw [← Real.exp_add]; congr 1; ring
  rw [this]
  ring

/-! ## Vector potential -/

theorem rhs_guard {m : XMesh} (hm : MeshOk m) (o : AparOpts) (w : ℝ) (rhs A : XYZ) {s : Side} (hs : Has m s) {j : ℕ} (hj : j ∈ m.js) {k : ℕ}
    (hk : k < m.LocalNz) : aparRhs m o w rhs A s.g j k = w * gradient m o A s j k + (1 - w) * inside m o A s j k := by
  have hx0 := hm.x0
  have hx1 := hm.x1
  have loop : ∀ (x : ℕ) (val : ℕ → ℕ → ℝ) (f : XYZ), let r := m.js.foldl (fun rhs y => m.ks.foldl (fun rhs z => rhs.put x y z (val y z)) rhs) f
      (∀ j ∈ m.js, ∀ k, k < m.LocalNz → r x j k = val j k) ∧ ∀ x', x' ≠ x → r x' = f x' := by
    intro x val f r
    have key := foldl_jk m (fun f j k => f.put x j k (val j k)) (fun f j k x' j' k' h => put_of_ne _ _ fun hc => h ⟨hc.2.1, hc.2.2⟩)
      (fun f g j k h x' => by simp only [XYZ.put, h x']) f
    refine ⟨fun j hj k hk => ?_, fun x' hx => ?_⟩
    · exact ((key x j k).1 hj hk).trans (put_self _ _ _ _ _)
    · funext j k
      by_cases h : j ∈ m.js ∧ k < m.LocalNz
      · exact ((key x' j k).1 h.1 h.2).trans (put_of_ne _ _ fun hc => hx hc.1)
      · exact (key x' j k).2 h
  unfold aparRhs
  simp only
  rcases hs with ⟨rfl, hf⟩ | ⟨rfl, hl⟩
  · have hg : (inner m).g = m.xstart - 1 := rfl
    have h1 : m.xstart - 1 + 1 = m.xstart := by omega
    have h2 : m.xstart - 1 + 2 = m.xstart + 1 := by omega
    have e : ∀ f : XYZ, (if m.lastX then m.js.foldl (fun rhs y => m.ks.foldl (fun rhs z => rhs.put (m.xend + 1) y z ((w * (A (m.xend + 1) y z - A (m.xend + 1 - 1) y z)
        + (1 - w) * (A (m.xend + 1 - 1) y z - A (m.xend + 1 - 2) y z)) / Real.sqrt (o.g_11 (m.xend + 1) y) / o.dx (m.xend + 1) y)) rhs) f else f)
        (m.xstart - 1) = f (m.xstart - 1) := by
      intro f
      split
      · exact (loop _ _ f).2 _ (by omega)
      · rfl
    rw [hg, e, if_pos hf, (loop (m.xstart - 1) _ rhs).1 j hj k hk, h1, h2]
    simp only [gradient, inside, if_true]
    simp only [inner]
    ring
  · have hg : (outer m).g = m.xend + 1 := rfl
    have h1 : m.xend + 1 - 1 = m.xend := by omega
    have h2 : m.xend + 1 - 2 = m.xend - 1 := by omega
    rw [hg, if_pos hl, (loop (m.xend + 1) _ _).1 j hj k hk, h1, h2]
    simp only [gradient, inside, if_neg (inner_ne_outer hm)]
    simp only [outer, div_div]
    ring

/-- What one evaluation does to the gradient through a boundary. -/
theorem apar_call {m : XMesh} (hm : MeshOk m) (o : AparOpts) (st : AparState) {c : AparCall} (hc : GradientSolver m o c.solve) {s : Side} (hs : Has m s)
    {j : ℕ} (hj : j ∈ m.js) {k : ℕ} (hk : k < m.LocalNz) :
    (aparCall m o st c).last = c.time ∧
    (c.time ≤ st.last → gradient m o (aparCall m o st c).Apar s j k = gradient m o st.Apar s j k) ∧
    (st.last < c.time → gradient m o (aparCall m o st c).Apar s j k = inside m o st.Apar s j k
      + (gradient m o st.Apar s j k - inside m o st.Apar s j k) * Real.exp (-(c.time - st.last) / o.timescale)) := by
  refine ⟨rfl, fun h => ?_, fun h => ?_⟩
  · simp only [aparCall]
    rw [if_neg (not_lt.2 h), hc _ _ s hs j hj k hk, rhs_guard hm o _ _ _ hs hj hk]
    ring
  · simp only [aparCall]
    rw [if_pos h, hc _ _ s hs j hj k hk, rhs_guard hm o _ _ _ hs hj hk, show st.last - c.time = -(c.time - st.last) by ring]
    ring

/-- The state after a sequence of evaluations. -/
noncomputable def aparAfter (m : XMesh) (o : AparOpts) (st : AparState) (l : List AparCall) : AparState := l.foldl (aparCall m o) st

/-- The gradient inside is `v` at every evaluation. -/
def Inside (m : XMesh) (o : AparOpts) (s : Side) (j k : ℕ) (v : ℝ) : AparState → List AparCall → Prop
  | _, [] => True
  | st, c :: l => inside m o st.Apar s j k = v ∧ Inside m o s j k v (aparCall m o st c) l

/-- Sum of all steps forward in time. -/
noncomputable def forward : ℝ → List AparCall → ℝ
  | _, [] => 0
  | t, c :: l => max 0 (c.time - t) + forward c.time l

/-- **C78.**  The gradient at the boundary relaxes to the one inside by the sum of all steps forward, steps that the solver tried and rejected included. -/
theorem apar_relaxation {m : XMesh} (hm : MeshOk m) (o : AparOpts) {s : Side} (hs : Has m s) {j : ℕ} (hj : j ∈ m.js) {k : ℕ} (hk : k < m.LocalNz) {v : ℝ}
    (l : List AparCall) (hl : ∀ c ∈ l, GradientSolver m o c.solve) (st : AparState) (hv : Inside m o s j k v st l) :
    gradient m o (aparAfter m o st l).Apar s j k = v + (gradient m o st.Apar s j k - v) * Real.exp (-forward st.last l / o.timescale) := by
  induction l generalizing st with
  | nil => simp [aparAfter, forward]
  | cons c l ih =>
    obtain ⟨e1, e2, e3⟩ := apar_call hm o st (hl c List.mem_cons_self) hs hj hk
    have h := ih (fun c h => hl c (List.mem_cons_of_mem _ h)) (aparCall m o st c) hv.2
    rw [show aparAfter m o st (c :: l) = aparAfter m o (aparCall m o st c) l from rfl, h, e1, forward]
    rcases le_or_gt c.time st.last with hle | hlt
    · rw [e2 hle, max_eq_left (by linarith), zero_add]
    · rw [e3 hlt, max_eq_right (by linarith), hv.1]
      have : Real.exp (-(c.time - st.last + forward c.time l) / o.timescale) =
          Real.exp (-(c.time - st.last) / o.timescale) * Real.exp (-forward c.time l / o.timescale) := by
        rw [← Real.exp_add]; congr 1; ring
      rw [this]
      ring

theorem forward_of_sorted (t : ℝ) (l : List AparCall) (h : (t :: l.map (·.time)).Pairwise (· ≤ ·)) :
    forward t l = (t :: l.map (·.time)).getLast (List.cons_ne_nil _ _) - t := by
  induction l generalizing t with
  | nil => simp [forward]
  | cons c l ih =>
    rw [List.map_cons, List.pairwise_cons] at h
    have h1 := h.1 c.time List.mem_cons_self
    rw [forward, ih c.time h.2, max_eq_right (by linarith)]
    simp only [List.map_cons, List.getLast_cons_cons]
    ring

/-- **C78.**  If time never goes back, the relaxation depends only on the time that has passed, not on the steps. -/
theorem apar_steps_partial {m : XMesh} (hm : MeshOk m) (o : AparOpts) {s : Side} (hs : Has m s) {j : ℕ} (hj : j ∈ m.js) {k : ℕ} (hk : k < m.LocalNz) {v : ℝ}
    (l : List AparCall) (hl : ∀ c ∈ l, GradientSolver m o c.solve) (st : AparState) (hv : Inside m o s j k v st l)
    (ht : (st.last :: l.map (·.time)).Pairwise (· ≤ ·)) :
    gradient m o (aparAfter m o st l).Apar s j k = v + (gradient m o st.Apar s j k - v)
      * Real.exp (-((st.last :: l.map (·.time)).getLast (List.cons_ne_nil _ _) - st.last) / o.timescale) := by
  rw [apar_relaxation hm o hs hj hk l hl st hv, forward_of_sorted _ _ ht]

/-- Without `const_gradient` nothing is remembered but the guess. -/
theorem apar_plain_restarts (st : AparState) (c : AparCall) (hg : ∀ rhs g g', c.solve rhs g = c.solve rhs g') (saved : Option XYZ) :
    (aparPlainCall (AparState.start saved) c).Apar = (aparPlainCall st c).Apar := hg _ _ _

/-- A restart, with `const_gradient`: the constructor puts the last time to zero, so that the first evaluation relaxes over the whole time that has been
simulated. -/
theorem apar_restart_jumps {m : XMesh} (hm : MeshOk m) (o : AparOpts) (st0 : AparState) {c0 : AparCall} (hc : GradientSolver m o c0.solve)
    (h0 : 0 < c0.time) {s : Side} (hs : Has m s) {j : ℕ} (hj : j ∈ m.js) {k : ℕ} (hk : k < m.LocalNz)
    {first : Bool} {before : Option XYZ} (hf : first = false ∨ before = none) :
    let saved := aparCall m o st0 c0
    gradient m o (aparCall m o saved c0).Apar s j k = gradient m o saved.Apar s j k ∧
    gradient m o (aparCall m o (AparState.start (file first before saved.Apar)) c0).Apar s j k = inside m o saved.Apar s j k
      + (gradient m o saved.Apar s j k - inside m o saved.Apar s j k) * Real.exp (-c0.time / o.timescale) := by
  intro saved
  refine ⟨(apar_call hm o saved hc hs hj hk).2.1 le_rfl, ?_⟩
  rw [file_holds_field hf]
  have := (apar_call hm o (AparState.start (some saved.Apar)) hc hs hj hk).2.2 h0
  rw [this]
  simp only [AparState.start, restartField, sub_zero]

/-! ## Examples and counterexamples -/

/-- Unit distances. -/
def unitOpts : AparOpts := ⟨1, fun _ _ => 1, fun _ _ => 1⟩

/-- A solver for `mesh` with the gradients asked for; zero inside. -/
def stepSolver (rhs _ : XYZ) : XYZ := fun x j k => if x = 1 then -rhs 1 j k else if x = 6 then rhs 6 j k else 0

theorem stepSolver_ok : GradientSolver mesh unitOpts stepSolver := by
  rintro rhs g s (⟨rfl, _⟩ | ⟨rfl, _⟩) j hj k hk
  · simp [gradient, inner, mesh, stepSolver, unitOpts]
  · have : outer mesh ≠ inner mesh := inner_ne_outer mesh_ok
    rw [gradient, if_neg this]
    simp [outer, mesh, stepSolver, unitOpts]

/-- Gradient 1 at the inner boundary, none inside. -/
def stepState : AparState := ⟨0, fun x _ _ => if x = 1 then -1 else 0⟩

def at_ (t : ℝ) : AparCall := ⟨t, fun _ _ _ => 0, stepSolver⟩

theorem step_inside (st : AparState) (h : inside mesh unitOpts st.Apar (inner mesh) 2 0 = 0) (l : List ℝ) :
    Inside mesh unitOpts (inner mesh) 2 0 0 st (l.map at_) := by
  induction l generalizing st with
  | nil => trivial
  | cons t l ih =>
    refine ⟨h, ih _ ?_⟩
    simp [inside, inner, mesh, aparCall, at_, stepSolver]

theorem step_relaxes (l : List ℝ) : gradient mesh unitOpts (aparAfter mesh unitOpts stepState (l.map at_)).Apar (inner mesh) 2 0 =
    Real.exp (-forward 0 (l.map at_)) := by
  have h := apar_relaxation mesh_ok unitOpts (s := inner mesh) (Or.inl ⟨rfl, rfl⟩) (j := 2) (by decide) (k := 0) (by decide) (v := 0) (l.map at_)
    (by intro c hc; obtain ⟨t, _, rfl⟩ := List.mem_map.1 hc; exact stepSolver_ok) stepState
    (step_inside stepState (by simp [inside, inner, mesh, stepState]) l)
  rw [h]
  have g : gradient mesh unitOpts stepState.Apar (inner mesh) 2 0 = 1 := by simp [gradient, inner, mesh, stepState, unitOpts]
  rw [g]
  simp [stepState, unitOpts]

/-- The full statement fails: a step that the solver tried and repeated counts twice.  Going to time 1 directly, and going to 1, back to 0 and to 1 again
give different gradients. -/
theorem rejected_step_counts :
    gradient mesh unitOpts (aparAfter mesh unitOpts stepState ([1, 0, 1].map at_)).Apar (inner mesh) 2 0 = Real.exp (-2) ∧
    gradient mesh unitOpts (aparAfter mesh unitOpts stepState ([1].map at_)).Apar (inner mesh) 2 0 = Real.exp (-1) ∧
    Real.exp (-2) < Real.exp (-1) := by
  refine ⟨?_, ?_, Real.exp_lt_exp.2 (by norm_num)⟩
  · rw [step_relaxes]; norm_num [forward, at_]
  · rw [step_relaxes]; norm_num [forward, at_]

/-- And a restart changes the gradient: stopped at time 1, the simulation that goes on has `exp(-1)`, the restarted one `exp(-2)`. -/
theorem restart_changes_gradient :
    let saved := aparCall mesh unitOpts stepState (at_ 1)
    gradient mesh unitOpts (aparCall mesh unitOpts saved (at_ 1)).Apar (inner mesh) 2 0 = Real.exp (-1) ∧
    gradient mesh unitOpts (aparCall mesh unitOpts (AparState.start (file false none saved.Apar)) (at_ 1)).Apar (inner mesh) 2 0 = Real.exp (-2) := by
  intro saved
  have h1 : gradient mesh unitOpts saved.Apar (inner mesh) 2 0 = Real.exp (-1) := by
    have := step_relaxes [1]
    norm_num [forward, at_] at this
    exact this
  have h2 : inside mesh unitOpts saved.Apar (inner mesh) 2 0 = 0 := by simp [saved, inside, inner, mesh, aparCall, at_, stepSolver]
  obtain ⟨a, b⟩ := apar_restart_jumps mesh_ok unitOpts stepState (c0 := at_ 1) stepSolver_ok (by norm_num [at_]) (s := inner mesh) (Or.inl ⟨rfl, rfl⟩)
    (j := 2) (by decide) (k := 0) (by decide) (first := false) (before := none) (Or.inl rfl)
  refine ⟨a.trans h1, ?_⟩
  rw [b, h1, h2, zero_add, sub_zero, ← Real.exp_add]
  norm_num [at_, unitOpts]

/-- `flatSolver`, zero outside the domain. -/
noncomputable def cutSolver (x0 : XYZ) : XYZ := fun x j k => if j ∈ mesh.js ∧ k < mesh.LocalNz then flatSolver x0 x j k else 0

theorem cutSolver_ok : SolverOk mesh cutSolver ∧ OnlyBoundary mesh cutSolver := by
  constructor
  · intro x0 s hs j hj k hk
    have := flatSolver_ok x0 s hs j hj k hk
    simp only [edge, cutSolver, hj, hk, and_self, if_true] at this ⊢
    exact this
  · intro x0 x0' h
    funext x j k
    simp only [cutSolver]
    split_ifs with hc
    · have h1 := h (inner mesh) (Or.inl ⟨rfl, rfl⟩) j hc.1 k hc.2
      have h2 := h (outer mesh) (Or.inr ⟨rfl, rfl⟩) j hc.1 k hc.2
      simp only [inner, outer, mesh] at h1 h2
      simp only [flatSolver, h1, h2]
    · rfl

/-- A run from `phi = 0` with two evaluations, stopped, restarted and carried on with a third. -/
example (o : PhiOpts) (P : XYZ) :
    let c (t : ℝ) : PhiCall := ⟨t, P, cutSolver, 0⟩
    let stopped := after mesh o 1 (PhiState.start none) [c 1, c 2]
    after mesh o 1 (PhiState.start (file true none stopped.phi)) [c 2, c 3] = after mesh o 1 stopped [c 3] := by
  intro c stopped
  exact potential_restarts mesh_ok o 1 (phiCall mesh o 1 (PhiState.start none) (c 1)) (c0 := c 2) cutSolver_ok.1 cutSolver_ok.2
    (Or.inr (by
      rw [((call_ok mesh_ok o 1 (PhiState.start none) (c := c 1) cutSolver_ok.1 (s := inner mesh) (Or.inl ⟨rfl, rfl⟩) (j := 2) (by decide)
        (k := 0) (by decide)).1 (by norm_num [PhiState.start])).1]
      norm_num [c])) (first := true) (before := none) (Or.inr rfl) [c 3]

end Hermes.Restart
