import Verif.Model.Anomalous
import Verif.Props.PerpOps
import Verif.Lemmas.Rhs
import Verif.Props.DensityEquation

/-!
# C63: anomalous diffusion

`anomalousDiffusion o g B s` is what the component adds to the sources and flows of a species.  It moves particles, momentum and
energy across the field without making any, and because the particles carry the temperature and velocity of the cell they come
from, it should make no new hottest, coldest, fastest or emptiest cell.
-/

namespace Hermes.Anomalous
open Finset Hermes Hermes.PerpOps Hermes.Rhs Hermes.DensityEquation

variable {nz : ℕ} [NeZero nz]

/-- Axisymmetric field. -/
def Axi (f : F3 nz) : Prop := ∀ i j k k', f i j k = f i j k'

/-- The shift to field-aligned coordinates does not change axisymmetric fields. -/
def KeepsAxi (B : BoutOps nz) : Prop := ∀ f, Axi f → B.toFA f = f ∧ B.fromFA f = f

theorem axi_DC (f : F3 nz) : Axi (DC f) := fun _ _ _ _ => rfl

theorem axi_profile (o : AnomalousOpts) (g : Grid) (f : F3 nz) : Axi (profile o g f) := by
  intro i j k k'
  unfold profile yNeumann
  split_ifs <;> rfl

/-- Net flow into cell `(i, j)` through the faces in `x` and in `y`. -/
noncomputable def netX (g : Grid) (a f : F3 nz) (i j : ℤ) (k : Fin nz) : ℝ := g.upwindX a f i j k - g.upwindX a f (i - 1) j k
noncomputable def netY (g : Grid) (a f : F3 nz) (i j : ℤ) (k : Fin nz) : ℝ := g.upwindYup a f i j k - g.upwindYdown a f i j k

theorem axi_aligned (g : Grid) {a f : F3 nz} (ha : Axi a) (hf : Axi f) (i j : ℤ) (k : Fin nz) :
    (g.divPerpUpwind a f a f).2 i j k = netY g a f i j k / (g.dy i j * g.J i j) := by
  unfold Grid.divPerpUpwind netY
  simp only
  rw [g.yzLoop_apply]
  have : g.upwindZ a f i j k = g.upwindZ a f i j (k - 1) := by
    unfold Grid.upwindZ Grid.gradZ
    simp only [sub_add_cancel]
    rw [hf i j (k + 1) k, hf i j (k - 1) k, hf i (j + 1) (k + 1) k, hf i (j - 1) (k + 1) k, hf i (j + 1) (k - 1) k, hf i (j - 1) (k - 1) k,
      ha i j (k + 1) k, ha i j (k - 1) k]
  rw [this, sub_self, zero_div, ite_self, add_zero]

theorem axi_netY (g : Grid) {a f : F3 nz} (ha : Axi a) (hf : Axi f) : Axi (fun i j k => netY g a f i j k / (g.dy i j * g.J i j)) := by
  intro i j k k'
  simp only [netY, Grid.upwindYup, Grid.upwindYdown]
  rw [hf i j (k + 1) k, hf i j (k - 1) k, hf i (j + 1) (k + 1) k, hf i (j + 1) (k - 1) k, hf i (j - 1) (k + 1) k, hf i (j - 1) (k - 1) k,
    hf i j (k' + 1) k, hf i j (k' - 1) k, hf i (j + 1) (k' + 1) k, hf i (j + 1) (k' - 1) k, hf i (j - 1) (k' + 1) k, hf i (j - 1) (k' - 1) k,
    ha i j k' k, ha i (j + 1) k' k, ha i (j - 1) k' k, hf i j k' k, hf i (j + 1) k' k, hf i (j - 1) k' k]

theorem upwindFlows_source (g : Grid) {B : BoutOps nz} (hB : KeepsAxi B) {a f : F3 nz} (ha : Axi a) (hf : Axi f) :
    (g.upwindFlows B a f).source = (g.divPerpUpwind a f a f).1 + (g.divPerpUpwind a f a f).2 := by
  unfold Grid.upwindFlows
  simp only
  rw [(hB a ha).1, (hB f hf).1]
  have : (g.divPerpUpwind a f a f).2 = fun i j k => netY g a f i j k / (g.dy i j * g.J i j) := by
    funext i j k
    exact axi_aligned g ha hf i j k
  rw [(hB _ (this ▸ axi_netY g ha hf)).2]

theorem source_apply (g : Grid) {B : BoutOps nz} (hB : KeepsAxi B) {a f : F3 nz} (ha : Axi a) (hf : Axi f) {i j : ℤ} (k : Fin nz)
    (hi : g.xstart ≤ i ∧ i ≤ g.xend) (hj : g.ystart ≤ j ∧ j ≤ g.yend) :
    (g.upwindFlows B a f).source i j k = netX g a f i j k / (g.dx i j * g.J i j) + netY g a f i j k / (g.dy i j * g.J i j) := by
  rw [upwindFlows_source g hB ha hf, Pi.add_apply, Pi.add_apply, Pi.add_apply, axi_aligned g ha hf]
  congr 1
  unfold Grid.divPerpUpwind netX
  simp only
  rw [g.xLoop_apply, if_pos ⟨by omega, hj⟩, if_pos ⟨by omega, hj⟩]

/-! ## Conservation -/

/-- Column `i` of the geometry is closed on itself. -/
structure Ring (g : Grid) (i : ℤ) : Prop where
  J : ∀ j, g.J i (j + (g.yend + 1 - g.ystart)) = g.J i j
  g23 : ∀ j, g.g23 i (j + (g.yend + 1 - g.ystart)) = g.g23 i j
  g_23 : ∀ j, g.g_23 i (j + (g.yend + 1 - g.ystart)) = g.g_23 i j
  Bxy : ∀ j, g.Bxy i (j + (g.yend + 1 - g.ystart)) = g.Bxy i j
  dy : ∀ j, g.dy i (j + (g.yend + 1 - g.ystart)) = g.dy i j

/-- A field that repeats along column `i`. -/
def Repeats (g : Grid) (q : F3 nz) (i : ℤ) : Prop := ∀ j k, q i (j + (g.yend + 1 - g.ystart)) k = q i j k

/-- Nothing leaves column `i` through its ends: either both ends have zero gradient, or the column is a ring. -/
def EndsClosed (g : Grid) (a f : F3 nz) (i : ℤ) : Prop :=
  (∀ k, f i (g.ystart - 1) k = f i g.ystart k ∧ f i (g.yend + 1) k = f i g.yend k) ∨ (Ring g i ∧ Repeats g a i ∧ Repeats g f i)

theorem ends_cancel {g : Grid} (hs : Separable g) {a f : F3 nz} (hf : Axi f) {i : ℤ} (h : EndsClosed g a f i) (k : Fin nz) :
    g.upwindYup a f i g.yend k - g.upwindYdown a f i g.ystart k = 0 := by
  rcases h with h | ⟨hr, ra, rf⟩
  · have e1 := (h k).1
    have e2 := (h k).2
    simp only [Grid.upwindYup, Grid.upwindYdown]
    rw [hf i g.yend (k + 1) k, hf i g.yend (k - 1) k, hf i (g.yend + 1) (k + 1) k, hf i (g.yend + 1) (k - 1) k,
      hf i g.ystart (k + 1) k, hf i g.ystart (k - 1) k, hf i (g.ystart - 1) (k + 1) k, hf i (g.ystart - 1) (k - 1) k, e1, e2]
    ring
  · have e0 : g.yend = g.ystart - 1 + (g.yend + 1 - g.ystart) := by ring
    have e1 : g.yend + 1 = g.ystart + (g.yend + 1 - g.ystart) := by ring
    have at0 : ∀ {q : ℤ → ℤ → ℝ}, (∀ j, q i (j + (g.yend + 1 - g.ystart)) = q i j) →
        q i g.yend = q i (g.ystart - 1) ∧ q i (g.yend + 1) = q i g.ystart := by
      intro q hq
      have h0 := hq (g.ystart - 1)
      have h1 := hq g.ystart
      rw [← e0] at h0
      rw [← e1] at h1
      exact ⟨h0, h1⟩
    have at3 : ∀ {q : F3 nz}, Repeats g q i → ∀ k, q i g.yend k = q i (g.ystart - 1) k ∧ q i (g.yend + 1) k = q i g.ystart k := by
      intro q hq k
      have h0 := hq (g.ystart - 1) k
      have h1 := hq g.ystart k
      rw [← e0] at h0
      rw [← e1] at h1
      exact ⟨h0, h1⟩
    simp only [Grid.upwindYup, Grid.upwindYdown]
    rw [(at0 hr.J).1, (at0 hr.J).2, (at0 hr.g23).1, (at0 hr.g23).2, (at0 hr.g_23).1, (at0 hr.g_23).2, (at0 hr.Bxy).1, (at0 hr.Bxy).2,
      (at0 hr.dy).1, (at0 hr.dy).2, (at3 ra k).1, (at3 ra k).2, (at3 rf k).1, (at3 rf k).2, (at3 rf (k + 1)).1, (at3 rf (k + 1)).2,
      (at3 rf (k - 1)).1, (at3 rf (k - 1)).2, hs.dz i i g.yend g.ystart]
    ring

theorem upwindFlows_balance {g : Grid} (hg : Regular g) (hs : Separable g) {B : BoutOps nz} (hB : KeepsAxi B) {a f : F3 nz} (ha : Axi a)
    (hf : Axi f) (hc : ∀ i, g.xstart ≤ i ∧ i ≤ g.xend → EndsClosed g a f i) :
    content g (g.upwindFlows B a f).source = ∑ j ∈ Icc g.ystart g.yend, ∑ k,
      ((g.upwindFlows B a f).flow_xlow g.xstart j k - (g.upwindFlows B a f).flow_xlow (g.xend + 1) j k) := by
  rw [upwindFlows_source g hB ha hf, content_add]
  have h1 := radial_content_changes_at_boundaries hg hs (.upwind a f a f)
  have h2 := aligned_content_changes_at_ends hg hs (.upwind a f a f)
  have e1 : content g (g.divPerpUpwind a f a f).1 = _ := h1
  have e2 : content g (g.divPerpUpwind a f a f).2 = _ := h2
  have z : ∑ i ∈ Icc g.xstart g.xend, ∑ k, ((Operator.upwind a f a f).faceUp g i g.yend k - (Operator.upwind a f a f).faceDown g i g.ystart k)
      * g.dx i g.ystart * g.dz i g.ystart = 0 := by
    refine Finset.sum_eq_zero fun i hi => Finset.sum_eq_zero fun k _ => ?_
    have := ends_cancel hs hf (hc i (mem_Icc.1 hi)) k
    simp only [Operator.faceUp, Operator.faceDown]
    rw [this, zero_mul, zero_mul]
  rw [e1, e2, z, add_zero]
  refine Finset.sum_congr rfl fun j hj => Finset.sum_congr rfl fun k _ => ?_
  have hx := hg.x_nonempty
  simp only [Grid.upwindFlows]
  rw [if_pos ⟨by omega, mem_Icc.1 hj⟩, if_pos ⟨by omega, mem_Icc.1 hj⟩]
  rfl

/-- Reads of a successful call, and what it returns. -/
theorem anomalous_ok {o : AnomalousOpts} {g : Grid} {B : BoutOps nz} {s : SpeciesIn nz} {r : AnomalousOut nz}
    (h : anomalousDiffusion o g B s = .ok r) : ∃ N, s.density = some N ∧ (o.include_D = true ∨ o.include_nu = true → ∃ AA, s.AA = some AA) ∧
      (r.particles = if o.include_D then g.upwindFlows B (fun i j _ => o.D i j) (profile o g N) else .zero) ∧
      (r.momentum = PerpOut.add
        (if o.include_D then g.upwindFlows B (fun i j k => s.AA.getD 0 * profile o g (s.velocity.getD 0) i j k * o.D i j) (profile o g N) else .zero)
        (if o.include_nu then g.upwindFlows B (fun i j k => o.nu i j * s.AA.getD 0 * profile o g N i j k) (profile o g (s.velocity.getD 0)) else .zero)) ∧
      (r.energy = PerpOut.add
        (if o.include_D then g.upwindFlows B (fun i j k => 3 / 2 * profile o g (s.temperature.getD 0) i j k * o.D i j) (profile o g N) else .zero)
        (if o.include_chi then g.upwindFlows B (fun i j k => o.chi i j * profile o g N i j k) (profile o g (s.temperature.getD 0)) else .zero)) := by
  unfold anomalousDiffusion at h
  obtain ⟨N, hN, h⟩ := except_bind_ok h
  obtain ⟨d, hd, h⟩ := except_bind_ok h
  obtain ⟨nu, hn, h⟩ := except_bind_ok h
  cases h
  refine ⟨N, need_ok hN, ?_, ?_, ?_, ?_⟩
  · rintro (hD | hD)
    · rw [hD, if_pos rfl] at hd
      obtain ⟨AA, hA, -⟩ := except_bind_ok hd
      exact ⟨AA, need_ok hA⟩
    · rw [hD, if_pos rfl] at hn
      obtain ⟨AA, hA, -⟩ := except_bind_ok hn
      exact ⟨AA, need_ok hA⟩
  all_goals
    cases hD : o.include_D <;> cases hnu : o.include_nu <;> rw [hD] at hd <;> rw [hnu] at hn
    · cases hd; cases hn; rfl
    · rw [if_pos rfl] at hn
      obtain ⟨AA, hA, hn⟩ := except_bind_ok hn
      cases hn; cases hd
      (try rw [need_ok hA]); rfl
    · rw [if_pos rfl] at hd
      obtain ⟨AA, hA, hd⟩ := except_bind_ok hd
      cases hn; cases hd
      (try rw [need_ok hA]); rfl
    · rw [if_pos rfl] at hd hn
      obtain ⟨AA, hA, hd⟩ := except_bind_ok hd
      obtain ⟨AA', hA', hn⟩ := except_bind_ok hn
      have := (need_ok hA).symm.trans (need_ok hA')
      cases this
      cases hn; cases hd
      (try rw [need_ok hA]); rfl

/-- Rate at which a channel gains through the radial boundaries, from the reported flows. -/
noncomputable def radialGain (g : Grid) (p : PerpOut nz) : ℝ :=
  ∑ j ∈ Icc g.ystart g.yend, ∑ k, (p.flow_xlow g.xstart j k - p.flow_xlow (g.xend + 1) j k)

theorem radialGain_add (g : Grid) (p q : PerpOut nz) : radialGain g (p.add q) = radialGain g p + radialGain g q := by
  unfold radialGain PerpOut.add
  rw [← Finset.sum_add_distrib]
  refine Finset.sum_congr rfl fun j _ => ?_
  rw [← Finset.sum_add_distrib]
  refine Finset.sum_congr rfl fun k _ => ?_
  simp only [Pi.add_apply]
  ring

theorem radialGain_zero (g : Grid) : radialGain g (PerpOut.zero : PerpOut nz) = 0 := by simp [radialGain, PerpOut.zero]

/-- Column `i` is not open to the sheath: it has both its ends in the domain and the sheath flux is off, or it is closed on itself
and everything repeats along it. -/
def ColumnClosed (o : AnomalousOpts) (g : Grid) (s : SpeciesIn nz) (i : ℤ) : Prop :=
  (o.sheath_flux = false ∧ g.firstY i = true ∧ g.lastY i = true) ∨
  (Ring g i ∧ (∀ q, s.density = some q ∨ s.temperature = some q ∨ s.velocity = some q → Repeats g (profile o g q) i) ∧
    ∀ j, o.D i (j + (g.yend + 1 - g.ystart)) = o.D i j ∧ o.chi i (j + (g.yend + 1 - g.ystart)) = o.chi i j ∧
      o.nu i (j + (g.yend + 1 - g.ystart)) = o.nu i j)

theorem profile_zero (o : AnomalousOpts) (g : Grid) : profile o g (0 : F3 nz) = 0 := by
  have e : DC (0 : F3 nz) = 0 := by
    funext i j k
    simp [DC]
  unfold profile
  rw [e]
  split_ifs
  · rfl
  · funext i j k
    simp [yNeumann]

theorem ends_of_column {o : AnomalousOpts} {g : Grid} (hg : Regular g) {s : SpeciesIn nz} {i : ℤ} (h : ColumnClosed o g s i) {q a : F3 nz}
    (hq : s.density = some q ∨ s.temperature = some q ∨ s.velocity = some q ∨ q = 0)
    (ha : Ring g i → (∀ q, s.density = some q ∨ s.temperature = some q ∨ s.velocity = some q → Repeats g (profile o g q) i) →
      (∀ j, o.D i (j + (g.yend + 1 - g.ystart)) = o.D i j ∧ o.chi i (j + (g.yend + 1 - g.ystart)) = o.chi i j ∧
      o.nu i (j + (g.yend + 1 - g.ystart)) = o.nu i j) → Repeats g a i) : EndsClosed g a (profile o g q) i := by
  rcases h with ⟨hs, h1, h2⟩ | ⟨hr, hf, hd⟩
  · left
    intro k
    have hy := hg.y_nonempty
    unfold profile yNeumann
    rw [hs]
    simp only [Bool.false_eq_true, if_false, h1, h2, and_true]
    refine ⟨?_, ?_⟩
    · rw [if_pos trivial, if_neg (by omega), if_neg (by omega)]
    · rw [if_neg (by omega), if_pos trivial, if_neg (by omega), if_neg (by omega)]
  · right
    refine ⟨hr, ha hr hf hd, ?_⟩
    rcases hq with h | h | h | h
    · exact hf q (Or.inl h)
    · exact hf q (Or.inr (Or.inl h))
    · exact hf q (Or.inr (Or.inr h))
    · rw [h, profile_zero]
      exact fun _ _ => rfl

theorem repeats_getD {o : AnomalousOpts} {g : Grid} {i : ℤ} {x : Option (F3 nz)} (h : ∀ q, x = some q → Repeats g (profile o g q) i) :
    Repeats g (profile o g (x.getD 0)) i := by
  cases x with
  | none => rw [Option.getD_none, profile_zero]; exact fun _ _ => rfl
  | some q => exact h q rfl

theorem getD_some_or_zero (x : Option (F3 nz)) : x = some (x.getD 0) ∨ x.getD 0 = 0 := by
  cases x
  · exact Or.inr rfl
  · exact Or.inl rfl

/-- **C63.**  Anomalous diffusion moves particles, momentum and energy and makes none: over a domain whose field lines are closed
to the sheath, each source integrates to what the reported flows carry through the two radial boundaries.  For every state,
geometry, coefficient profile and choice of options. -/
theorem anomalous_conserves {o : AnomalousOpts} {g : Grid} (hg : Regular g) (hs : Separable g) {B : BoutOps nz} (hB : KeepsAxi B)
    {s : SpeciesIn nz} (hc : ∀ i, g.xstart ≤ i ∧ i ≤ g.xend → ColumnClosed o g s i) {r : AnomalousOut nz}
    (h : anomalousDiffusion o g B s = .ok r) :
    content g r.particles.source = radialGain g r.particles ∧ content g r.momentum.source = radialGain g r.momentum ∧
      content g r.energy.source = radialGain g r.energy := by
  obtain ⟨N, hN, -, e1, e2, e3⟩ := anomalous_ok h
  have one : ∀ (b : Bool) (a f : F3 nz), Axi a → Axi f → (∀ i, g.xstart ≤ i ∧ i ≤ g.xend → EndsClosed g a f i) →
      content g (if b then g.upwindFlows B a f else PerpOut.zero).source = radialGain g (if b then g.upwindFlows B a f else PerpOut.zero) := by
    intro b a f ha hf hcl
    cases b
    · simp only [Bool.false_eq_true, if_false]
      rw [radialGain_zero]
      exact content_zero g
    · simp only [if_true]
      exact upwindFlows_balance hg hs hB ha hf hcl
  have sum : ∀ p q : PerpOut nz, content g p.source = radialGain g p → content g q.source = radialGain g q →
      content g (p.add q).source = radialGain g (p.add q) := by
    intro p q hp hq
    rw [radialGain_add, ← hp, ← hq]
    exact content_add g _ _
  have hN2 := axi_profile o g N
  have hT2 := axi_profile o g (s.temperature.getD 0)
  have hV2 := axi_profile o g (s.velocity.getD 0)
  have rT : ∀ i, (∀ q, s.density = some q ∨ s.temperature = some q ∨ s.velocity = some q → Repeats g (profile o g q) i) →
      Repeats g (profile o g (s.temperature.getD 0)) i := fun i hf => repeats_getD fun q hq => hf q (Or.inr (Or.inl hq))
  have rV : ∀ i, (∀ q, s.density = some q ∨ s.temperature = some q ∨ s.velocity = some q → Repeats g (profile o g q) i) →
      Repeats g (profile o g (s.velocity.getD 0)) i := fun i hf => repeats_getD fun q hq => hf q (Or.inr (Or.inr hq))
  refine ⟨?_, ?_, ?_⟩
  · rw [e1]
    refine one _ _ _ (fun _ _ _ _ => rfl) hN2 fun i hi => ends_of_column hg (hc i hi) (Or.inl hN) ?_
    intro _ _ hd j k
    exact (hd j).1
  · rw [e2]
    refine sum _ _ (one _ _ _ ?_ hN2 fun i hi => ends_of_column hg (hc i hi) (Or.inl hN) ?_)
      (one _ _ _ ?_ hV2 fun i hi => ends_of_column hg (hc i hi) ?_ ?_)
    · intro i j k k'; simp only; rw [hV2 i j k k']
    · intro _ hf hd j k
      simp only
      rw [rV i hf j k, (hd j).1]
    · intro i j k k'; simp only; rw [hN2 i j k k']
    · rcases getD_some_or_zero s.velocity with hv | hv
      · exact Or.inr (Or.inr (Or.inl hv))
      · exact Or.inr (Or.inr (Or.inr hv))
    · intro _ hf hd j k
      simp only
      rw [hf N (Or.inl hN) j k, (hd j).2.2]
  · rw [e3]
    refine sum _ _ (one _ _ _ ?_ hN2 fun i hi => ends_of_column hg (hc i hi) (Or.inl hN) ?_)
      (one _ _ _ ?_ hT2 fun i hi => ends_of_column hg (hc i hi) ?_ ?_)
    · intro i j k k'; simp only; rw [hT2 i j k k']
    · intro _ hf hd j k
      simp only
      rw [rT i hf j k, (hd j).1]
    · intro i j k k'; simp only; rw [hN2 i j k k']
    · rcases getD_some_or_zero s.temperature with hv | hv
      · exact Or.inr (Or.inl hv)
      · exact Or.inr (Or.inr (Or.inr hv))
    · intro _ hf hd j k
      simp only
      rw [hf N (Or.inl hN) j k, (hd j).2.1]

/-- **C63.**  With zero gradients at the two radial boundaries as well, nothing at all is made or lost. -/
theorem anomalous_closed {o : AnomalousOpts} {g : Grid} (hg : Regular g) (hs : Separable g) {B : BoutOps nz} (hB : KeepsAxi B)
    {s : SpeciesIn nz} (hc : ∀ i, g.xstart ≤ i ∧ i ≤ g.xend → ColumnClosed o g s i) {r : AnomalousOut nz}
    (h : anomalousDiffusion o g B s = .ok r)
    (hz : ∀ q, s.density = some q ∨ s.temperature = some q ∨ s.velocity = some q → ZeroGradientX g (profile o g q)) :
    content g r.particles.source = 0 ∧ content g r.momentum.source = 0 ∧ content g r.energy.source = 0 := by
  obtain ⟨h1, h2, h3⟩ := anomalous_conserves hg hs hB hc h
  obtain ⟨N, hN, -, e1, e2, e3⟩ := anomalous_ok h
  have one : ∀ (b : Bool) (a f : F3 nz), ZeroGradientX g f → radialGain g (if b then g.upwindFlows B a f else PerpOut.zero) = 0 := by
    intro b a f hf
    cases b
    · simp only [Bool.false_eq_true, if_false]
      exact radialGain_zero g
    · simp only [if_true]
      unfold radialGain
      refine Finset.sum_eq_zero fun j _ => Finset.sum_eq_zero fun k _ => ?_
      have z1 : g.upwindX a f (g.xstart - 1) j k = 0 := by
        simp [Grid.upwindX, (hf j k).1]
      have z2 : g.upwindX a f g.xend j k = 0 := by
        simp [Grid.upwindX, (hf j k).2]
      simp only [Grid.upwindFlows, Grid.flowX, add_sub_cancel_right]
      rw [z1, z2]
      simp
  have zero : ZeroGradientX g (0 : F3 nz) := fun _ _ => ⟨rfl, rfl⟩
  have opt : ∀ x : Option (F3 nz), (∀ q, x = some q → ZeroGradientX g (profile o g q)) → ZeroGradientX g (profile o g (x.getD 0)) := by
    intro x hx
    cases x with
    | none => rw [Option.getD_none, profile_zero]; exact zero
    | some q => exact hx q rfl
  have zN := hz N (Or.inl hN)
  have zT := opt s.temperature fun q hq => hz q (Or.inr (Or.inl hq))
  have zV := opt s.velocity fun q hq => hz q (Or.inr (Or.inr hq))
  rw [h1, h2, h3, e1, e2, e3, radialGain_add, radialGain_add, one _ _ _ zN, one _ _ _ zN, one _ _ _ zN, one _ _ _ zT, one _ _ _ zV]
  simp

/-! ## Reported flows -/

theorem upwindFlows_divergence {g : Grid} (hg : Regular g) (hs : Separable g) {B : BoutOps nz} (hB : KeepsAxi B) {a f : F3 nz} (ha : Axi a)
    (hf : Axi f) {i j : ℤ} (k : Fin nz) (hi : g.xstart ≤ i ∧ i ≤ g.xend) (hj : g.ystart ≤ j ∧ j ≤ g.yend)
    (hend : j < g.yend ∨ ∀ k, f i (g.yend + 1) k = f i g.yend k) :
    (g.upwindFlows B a f).source i j k * volume g i j =
      (g.upwindFlows B a f).flow_xlow i j k - (g.upwindFlows B a f).flow_xlow (i + 1) j k
      + ((g.upwindFlows B a f).flow_ylow i j k - (g.upwindFlows B a f).flow_ylow i (j + 1) k) := by
  have hfy : (g.upwindFlows B a f).flow_ylow = fun i j k => if (g.xstart ≤ i ∧ i ≤ g.xend) ∧ g.ystart ≤ j ∧ j ≤ g.yend then
      g.flowY (g.upwindYdown a f) i j k else 0 := by
    simp only [Grid.upwindFlows]
    rw [(hB a ha).1, (hB f hf).1]
    refine (hB _ ?_).2
    intro i j k k'
    simp only [Grid.flowY, Grid.upwindYdown]
    rw [hf i j (k + 1) k, hf i j (k - 1) k, hf i (j - 1) (k + 1) k, hf i (j - 1) (k - 1) k, hf i j (k' + 1) k, hf i j (k' - 1) k,
      hf i (j - 1) (k' + 1) k, hf i (j - 1) (k' - 1) k, ha i j k' k, ha i (j - 1) k' k, hf i j k' k, hf i (j - 1) k' k]
  rw [source_apply g hB ha hf k hi hj, hfy]
  have up : g.flowY (g.upwindYdown a f) i (j + 1) k = -(g.upwindYup a f i j k) * g.dx i j * g.dz i j ∨ j = g.yend := by
    rcases lt_or_eq_of_le hj.2 with h | h
    · left
      have e := faceUp_eq_faceDown (i := i) hs (.upwind a f a f) k hj.1 h
      have e' : g.upwindYup a f i j k = g.upwindYdown a f i (j + 1) k := e
      unfold Grid.flowY
      rw [← e', hs.dx i (j + 1) j, hs.dz i i (j + 1) j]
      ring
    · exact Or.inr h
  have ux : (g.upwindFlows B a f).flow_xlow i j k - (g.upwindFlows B a f).flow_xlow (i + 1) j k = netX g a f i j k * g.dy i j * g.dz i j := by
    simp only [Grid.upwindFlows]
    rw [if_pos ⟨by omega, hj⟩, if_pos ⟨by omega, hj⟩]
    unfold Grid.flowX netX
    rw [add_sub_cancel_right, hs.dy (i - 1) i j, hs.dz (i - 1) i j j]
    ring
  rw [ux]
  have hJ := hg.J_ne i j
  have hdx := hg.dx_ne i j
  have hdy := hg.dy_ne i j
  have fy : (if (g.xstart ≤ i ∧ i ≤ g.xend) ∧ g.ystart ≤ j ∧ j ≤ g.yend then g.flowY (g.upwindYdown a f) i j k else 0)
      - (if (g.xstart ≤ i ∧ i ≤ g.xend) ∧ g.ystart ≤ j + 1 ∧ j + 1 ≤ g.yend then g.flowY (g.upwindYdown a f) i (j + 1) k else 0)
      = netY g a f i j k * g.dx i j * g.dz i j := by
    rw [if_pos ⟨hi, hj⟩]
    rcases lt_or_eq_of_le hj.2 with h | h
    · rw [if_pos ⟨hi, by omega, by omega⟩]
      rcases up with up | up
      · rw [up]
        unfold Grid.flowY netY
        ring
      · omega
    · rw [if_neg (by omega)]
      rcases hend with hend | hend
      · omega
      · subst h
        have z : g.upwindYup a f i g.yend k = 0 := by
          simp only [Grid.upwindYup]
          rw [hend, hend, hend, hf i g.yend (k + 1) k, hf i g.yend (k - 1) k]
          ring
        unfold Grid.flowY netY
        rw [z]
        ring
  rw [fy]
  unfold volume
  field_simp

/-- **C63.**  In each channel the reported flows account for the source, cell by cell: what a cell gains is what flows in through
its four faces.  (At the upper end of a column the flow through the last face is reported as zero, so there the column must end in
the domain with the sheath flux off.) -/
theorem flows_reproduce_sources_partial {o : AnomalousOpts} {g : Grid} (hg : Regular g) (hs : Separable g) {B : BoutOps nz} (hB : KeepsAxi B)
    {s : SpeciesIn nz} {r : AnomalousOut nz} (h : anomalousDiffusion o g B s = .ok r) {i j : ℤ} (k : Fin nz)
    (hi : g.xstart ≤ i ∧ i ≤ g.xend) (hj : g.ystart ≤ j ∧ j ≤ g.yend)
    (hend : j < g.yend ∨ (o.sheath_flux = false ∧ g.lastY i = true)) :
    ∀ p ∈ [r.particles, r.momentum, r.energy],
      p.source i j k * volume g i j = p.flow_xlow i j k - p.flow_xlow (i + 1) j k + (p.flow_ylow i j k - p.flow_ylow i (j + 1) k) := by
  obtain ⟨N, hN, -, e1, e2, e3⟩ := anomalous_ok h
  have hy := hg.y_nonempty
  have ends : ∀ q : F3 nz, j < g.yend ∨ ∀ k, profile o g q i (g.yend + 1) k = profile o g q i g.yend k := by
    intro q
    rcases hend with h | ⟨h1, h2⟩
    · exact Or.inl h
    · right
      intro k
      unfold profile yNeumann
      rw [h1]
      simp only [Bool.false_eq_true, if_false, h2, and_true]
      rw [if_neg (by omega), if_pos trivial, if_neg (by omega), if_neg (by omega)]
  let good : PerpOut nz → Prop := fun p =>
    p.source i j k * volume g i j = p.flow_xlow i j k - p.flow_xlow (i + 1) j k + (p.flow_ylow i j k - p.flow_ylow i (j + 1) k)
  have one : ∀ (b : Bool) (a q : F3 nz), Axi a → good (if b then g.upwindFlows B a (profile o g q) else PerpOut.zero) := by
    intro b a q ha
    cases b
    · simp [good, PerpOut.zero]
    · exact upwindFlows_divergence hg hs hB ha (axi_profile o g q) k hi hj (ends q)
  have sum : ∀ p q : PerpOut nz, good p → good q → good (p.add q) := by
    intro p q hp hq
    simp only [good, PerpOut.add, Pi.add_apply] at hp hq ⊢
    rw [add_mul, hp, hq]
    ring
  have hN2 := axi_profile o g N
  have hT2 := axi_profile o g (s.temperature.getD 0)
  have hV2 := axi_profile o g (s.velocity.getD 0)
  intro p hp
  simp only [List.mem_cons, List.not_mem_nil, or_false] at hp
  rcases hp with rfl | rfl | rfl
  · rw [e1]
    exact one _ _ _ fun _ _ _ _ => rfl
  · rw [e2]
    refine sum _ _ (one _ _ _ ?_) (one _ _ _ ?_)
    · intro i j k k'; simp only; rw [hV2 i j k k']
    · intro i j k k'; simp only; rw [hN2 i j k k']
  · rw [e3]
    refine sum _ _ (one _ _ _ ?_) (one _ _ _ ?_)
    · intro i j k k'; simp only; rw [hT2 i j k k']
    · intro i j k k'; simp only; rw [hN2 i j k k']

/-! ## Hottest, coldest, fastest and emptiest cells -/

/-- The metric makes the flux in `y` of an axisymmetric profile run downhill. -/
def DownhillY (g : Grid) : Prop := ∀ i j,
  (g.J i j * g.g23 i j + g.J i (j + 1) * g.g23 i (j + 1))
    * (0.5 * (g.g_23 i j / (g.J i j * g.Bxy i j) ^ 2 + g.g_23 i (j + 1) / (g.J i (j + 1) * g.Bxy i (j + 1)) ^ 2)) ≤ 0

/-- `q` has a minimum among the four neighbours of cell `(i, j)`. -/
def LowestX (q : F3 nz) (i j : ℤ) (k : Fin nz) : Prop := q i j k ≤ q (i + 1) j k ∧ q i j k ≤ q (i - 1) j k
def LowestY (q : F3 nz) (i j : ℤ) (k : Fin nz) : Prop := q i j k ≤ q i (j + 1) k ∧ q i j k ≤ q i (j - 1) k

theorem faceYup_nonneg {g : Grid} (hp : Positive g) (hd : DownhillY g) {a f : F3 nz} (ha : ∀ i j k, 0 ≤ a i j k) (hf : Axi f) {i j : ℤ} {k : Fin nz}
    (h : f i j k ≤ f i (j + 1) k) : 0 ≤ g.upwindYup a f i j k := by
  have z : f i j (k + 1) - f i j (k - 1) + f i (j + 1) (k + 1) - f i (j + 1) (k - 1) = 0 := by
    rw [hf i j (k + 1) (k - 1), hf i (j + 1) (k + 1) (k - 1)]
    ring
  simp only [Grid.upwindYup]
  rw [z]
  have d := hd i j
  set c := 0.5 * (g.g_23 i j / (g.J i j * g.Bxy i j) ^ 2 + g.g_23 i (j + 1) / (g.J i (j + 1) * g.Bxy i (j + 1)) ^ 2) with hc
  set G := g.J i j * g.g23 i j + g.J i (j + 1) * g.g23 i (j + 1) with hG
  have hdf : 0 ≤ 2 * (f i (j + 1) k - f i j k) / (g.dy i (j + 1) + g.dy i j) :=
    div_nonneg (by linarith) (by have := hp.dy i j; have := hp.dy i (j + 1); linarith)
  have ha' : 0 ≤ 0.25 * (a i j k + a i (j + 1) k) := by have := ha i j k; have := ha i (j + 1) k; linarith
  have e : 0.25 * (a i j k + a i (j + 1) k) * G * (0.25 * 0 / g.dz i j - c * (2 * (f i (j + 1) k - f i j k) / (g.dy i (j + 1) + g.dy i j)))
      = (0.25 * (a i j k + a i (j + 1) k)) * ((-(G * c)) * (2 * (f i (j + 1) k - f i j k) / (g.dy i (j + 1) + g.dy i j))) := by ring
  rw [e]
  exact mul_nonneg ha' (mul_nonneg (by linarith) hdf)

theorem faceYdown_nonpos {g : Grid} (hp : Positive g) (hd : DownhillY g) {a f : F3 nz} (ha : ∀ i j k, 0 ≤ a i j k) (hf : Axi f) {i j : ℤ} {k : Fin nz}
    (h : f i j k ≤ f i (j - 1) k) : g.upwindYdown a f i j k ≤ 0 := by
  have z : f i j (k + 1) - f i j (k - 1) + f i (j - 1) (k + 1) - f i (j - 1) (k - 1) = 0 := by
    rw [hf i j (k + 1) (k - 1), hf i (j - 1) (k + 1) (k - 1)]
    ring
  simp only [Grid.upwindYdown]
  rw [z]
  have d := hd i (j - 1)
  rw [sub_add_cancel] at d
  set c := 0.5 * (g.g_23 i j / (g.J i j * g.Bxy i j) ^ 2 + g.g_23 i (j - 1) / (g.J i (j - 1) * g.Bxy i (j - 1)) ^ 2) with hc
  set G := g.J i j * g.g23 i j + g.J i (j - 1) * g.g23 i (j - 1) with hG
  have d' : G * c ≤ 0 := by
    rw [hG, hc]
    rw [add_comm (g.J i j * g.g23 i j), add_comm (g.g_23 i j / (g.J i j * g.Bxy i j) ^ 2)]
    exact d
  have hdf : 0 ≤ 2 * (f i (j - 1) k - f i j k) / (g.dy i j + g.dy i (j - 1)) :=
    div_nonneg (by linarith) (by have := hp.dy i j; have := hp.dy i (j - 1); linarith)
  have ha' : 0 ≤ 0.25 * (a i j k + a i (j - 1) k) := by have := ha i j k; have := ha i (j - 1) k; linarith
  have e : 0.25 * (a i j k + a i (j - 1) k) * G * (0.25 * 0 / g.dz i j - c * (2 * (f i j k - f i (j - 1) k) / (g.dy i j + g.dy i (j - 1))))
      = -((0.25 * (a i j k + a i (j - 1) k)) * ((-(G * c)) * (2 * (f i (j - 1) k - f i j k) / (g.dy i j + g.dy i (j - 1))))) := by ring
  rw [e]
  have := mul_nonneg ha' (mul_nonneg (show 0 ≤ -(G * c) by linarith) hdf)
  linarith

theorem netY_nonneg {g : Grid} (hp : Positive g) (hd : DownhillY g) {a f : F3 nz} (ha : ∀ i j k, 0 ≤ a i j k) (hf : Axi f) {i j : ℤ} {k : Fin nz}
    (h : LowestY f i j k) : 0 ≤ netY g a f i j k := by
  have h1 := faceYup_nonneg hp hd ha hf h.1
  have h2 := faceYdown_nonpos hp hd ha hf h.2
  unfold netY
  linarith

/-- The gradient of `f` at the face between cells `i` and `i + 1`. -/
noncomputable def slopeX (g : Grid) (f : F3 nz) (i j : ℤ) (k : Fin nz) : ℝ :=
  (g.J i j * g.g11 i j + g.J (i + 1) j * g.g11 (i + 1) j) * (f (i + 1) j k - f i j k) / (g.dx i j + g.dx (i + 1) j)

theorem slopeX_sign {g : Grid} (hp : Positive g) (f : F3 nz) (i j : ℤ) (k : Fin nz) :
    (f i j k ≤ f (i + 1) j k → 0 ≤ slopeX g f i j k) ∧ (f (i + 1) j k ≤ f i j k → slopeX g f i j k ≤ 0) := by
  have c1 : 0 < g.J i j * g.g11 i j + g.J (i + 1) j * g.g11 (i + 1) j :=
    add_pos (mul_pos (hp.J _ _) (hp.g11 _ _)) (mul_pos (hp.J _ _) (hp.g11 _ _))
  have c2 : 0 < g.dx i j + g.dx (i + 1) j := add_pos (hp.dx _ _) (hp.dx _ _)
  unfold slopeX
  exact ⟨fun h => div_nonneg (mul_nonneg c1.le (by linarith)) c2.le, fun h => div_nonpos_of_nonpos_of_nonneg (mul_nonpos_of_nonneg_of_nonpos c1.le (by linarith)) c2.le⟩

theorem netX_nonneg {g : Grid} (hp : Positive g) {a f : F3 nz} (ha : ∀ i j k, 0 ≤ a i j k) {i j : ℤ} {k : Fin nz}
    (h : LowestX f i j k) : 0 ≤ netX g a f i j k := by
  have h1 := (slopeX_sign hp f i j k).1 h.1
  have h2 := (slopeX_sign hp f (i - 1) j k).2 (by rw [sub_add_cancel]; exact h.2)
  have e1 : 0 ≤ g.upwindX a f i j k := mul_nonneg h1 (by split_ifs <;> exact ha _ _ _)
  have e2 : g.upwindX a f (i - 1) j k ≤ 0 := mul_nonpos_of_nonpos_of_nonneg h2 (by split_ifs <;> exact ha _ _ _)
  unfold netX
  linarith

/-- Particles bring with them the value of `q` of the cell they come from. -/
theorem carried_lowest {g : Grid} {D f q : F3 nz} {c : ℝ} (hc : 0 ≤ c) (hD : ∀ i j k, 0 ≤ D i j k) {i j : ℤ} {k : Fin nz}
    (h : LowestX q i j k) :
    c * q i j k * netX g D f i j k ≤ netX g (fun i j k => c * q i j k * D i j k) f i j k := by
  have f1 : c * q i j k * g.upwindX D f i j k ≤ g.upwindX (fun i j k => c * q i j k * D i j k) f i j k := by
    simp only [Grid.upwindX]
    set G := (g.J i j * g.g11 i j + g.J (i + 1) j * g.g11 (i + 1) j) * (f (i + 1) j k - f i j k) / (g.dx i j + g.dx (i + 1) j) with hG
    by_cases hg : G > 0
    · rw [if_pos hg, if_pos hg]
      have h1 := mul_nonneg (mul_nonneg hg.le (hD (i + 1) j k)) (mul_nonneg hc (sub_nonneg.2 h.1))
      nlinarith [h1]
    · rw [if_neg hg, if_neg hg]
      exact le_of_eq (by ring)
  have f2 : g.upwindX (fun i j k => c * q i j k * D i j k) f (i - 1) j k ≤ c * q i j k * g.upwindX D f (i - 1) j k := by
    simp only [Grid.upwindX, sub_add_cancel]
    set G := (g.J (i - 1) j * g.g11 (i - 1) j + g.J i j * g.g11 i j) * (f i j k - f (i - 1) j k) / (g.dx (i - 1) j + g.dx i j) with hG
    by_cases hg : G > 0
    · rw [if_pos hg, if_pos hg]
      exact le_of_eq (by ring)
    · rw [if_neg hg, if_neg hg]
      have h1 := mul_nonneg (mul_nonneg (neg_nonneg.2 (not_lt.1 hg)) (hD (i - 1) j k)) (mul_nonneg hc (sub_nonneg.2 h.2))
      nlinarith [h1]
  unfold netX
  rw [mul_sub]
  linarith

theorem netX_neg_coef (g : Grid) (a f : F3 nz) (i j : ℤ) (k : Fin nz) : netX g (fun i j k => -a i j k) f i j k = -netX g a f i j k := by
  unfold netX Grid.upwindX
  simp only
  split_ifs <;> ring

theorem netX_neg_field {g : Grid} {a f : F3 nz} {i j : ℤ} {k : Fin nz} (hp : Positive g) (ha : ∀ i j k, 0 ≤ a i j k) (h : LowestX (-f) i j k) :
    netX g a f i j k ≤ 0 := by
  have a1 : f (i + 1) j k ≤ f i j k := by have := h.1; simp only [Pi.neg_apply] at this; linarith
  have a2 : f (i - 1) j k ≤ f i j k := by have := h.2; simp only [Pi.neg_apply] at this; linarith
  have h1 := (slopeX_sign hp f i j k).2 a1
  have h2 := (slopeX_sign hp f (i - 1) j k).1 (by rw [sub_add_cancel]; exact a2)
  have e1 : g.upwindX a f i j k ≤ 0 := mul_nonpos_of_nonpos_of_nonneg h1 (by split_ifs <;> exact ha _ _ _)
  have e2 : 0 ≤ g.upwindX a f (i - 1) j k := mul_nonneg h2 (by split_ifs <;> exact ha _ _ _)
  unfold netX
  linarith

theorem carried_highest {g : Grid} {D f q : F3 nz} {c : ℝ} (hc : 0 ≤ c) (hD : ∀ i j k, 0 ≤ D i j k) {i j : ℤ} {k : Fin nz}
    (h : LowestX (-q) i j k) :
    netX g (fun i j k => c * q i j k * D i j k) f i j k ≤ c * q i j k * netX g D f i j k := by
  have h1 := carried_lowest (g := g) (f := f) hc hD h
  have e : (fun i j k => c * (-q) i j k * D i j k) = fun i j k => -(c * q i j k * D i j k) := by
    funext i j k
    simp only [Pi.neg_apply]
    ring
  rw [e, netX_neg_coef] at h1
  simp only [Pi.neg_apply] at h1
  linarith

theorem netY_zero {g : Grid} (h23 : ∀ i j, g.g23 i j = 0) (a f : F3 nz) (i j : ℤ) (k : Fin nz) : netY g a f i j k = 0 := by
  simp [netY, Grid.upwindYup, Grid.upwindYdown, h23]

/-- **C63.**  An empty cell is not drained: where the (axisymmetric) density is lowest among its neighbours the particle source is
not negative.  For every geometry whose metric sends the flux in `y` downhill. -/
theorem lowest_density_fills {o : AnomalousOpts} {g : Grid} (hp : Positive g) (hd : DownhillY g) {B : BoutOps nz} (hB : KeepsAxi B)
    {s : SpeciesIn nz} {r : AnomalousOut nz} (h : anomalousDiffusion o g B s = .ok r) {N : F3 nz} (hN : s.density = some N)
    (hD : ∀ i j, 0 ≤ o.D i j) {i j : ℤ} (k : Fin nz) (hi : g.xstart ≤ i ∧ i ≤ g.xend) (hj : g.ystart ≤ j ∧ j ≤ g.yend)
    (hx : LowestX (profile o g N) i j k) (hy : LowestY (profile o g N) i j k) : 0 ≤ r.particles.source i j k := by
  obtain ⟨N', hN', -, e1, -, -⟩ := anomalous_ok h
  rw [hN] at hN'
  cases hN'
  rw [e1]
  cases o.include_D
  · exact le_refl _
  · simp only [if_true]
    rw [source_apply g hB (fun _ _ _ _ => rfl) (axi_profile o g N) k hi hj]
    exact add_nonneg (div_nonneg (netX_nonneg hp (fun i j _ => hD i j) hx) (mul_pos (hp.dx _ _) (hp.J _ _)).le)
      (div_nonneg (netY_nonneg hp hd (fun i j _ => hD i j) (axi_profile o g N) hy) (mul_pos (hp.dy _ _) (hp.J _ _)).le)

/-- **C63.**  Where the temperature is lowest it does not fall, and where it is highest it does not rise: the energy source covers
the heat needed by the particles that arrive.  Partial: for a metric without `g23`, so that there is no flux in `y`
(`coldest_cell_cooled_along_y` shows that the claim is false otherwise). -/
theorem temperature_extremum_partial {o : AnomalousOpts} {g : Grid} (hp : Positive g) (h23 : ∀ i j, g.g23 i j = 0) {B : BoutOps nz}
    (hB : KeepsAxi B) {s : SpeciesIn nz} {r : AnomalousOut nz} (h : anomalousDiffusion o g B s = .ok r) {N T : F3 nz}
    (hN : s.density = some N) (hT : s.temperature = some T) (hD : ∀ i j, 0 ≤ o.D i j) (hchi : ∀ i j, 0 ≤ o.chi i j)
    (hpos : ∀ i j k, 0 ≤ profile o g N i j k) {i j : ℤ} (k : Fin nz) (hi : g.xstart ≤ i ∧ i ≤ g.xend) (hj : g.ystart ≤ j ∧ j ≤ g.yend) :
    (LowestX (profile o g T) i j k → 3 / 2 * profile o g T i j k * r.particles.source i j k ≤ r.energy.source i j k) ∧
    (LowestX (-profile o g T) i j k → r.energy.source i j k ≤ 3 / 2 * profile o g T i j k * r.particles.source i j k) := by
  obtain ⟨N', hN', -, e1, -, e3⟩ := anomalous_ok h
  rw [hN] at hN'
  cases hN'
  rw [hT, Option.getD_some] at e3
  have hN2 := axi_profile o g N
  have hT2 := axi_profile o g T
  have w := mul_pos (hp.dx i j) (hp.J i j)
  have aT : Axi (fun i j k => 3 / 2 * profile o g T i j k * o.D i j) := by intro i j k k'; simp only; rw [hT2 i j k k']
  have aN : Axi (fun i j k => o.chi i j * profile o g N i j k) := by intro i j k k'; simp only; rw [hN2 i j k k']
  have sD : ∀ a f : F3 nz, Axi a → Axi f → (g.upwindFlows B a f).source i j k = netX g a f i j k / (g.dx i j * g.J i j) := by
    intro a f ha hf
    rw [source_apply g hB ha hf k hi hj, netY_zero h23, zero_div, add_zero]
  have split : r.energy.source i j k =
      (if o.include_D then g.upwindFlows B (fun i j k => 3 / 2 * profile o g T i j k * o.D i j) (profile o g N) else .zero).source i j k
      + (if o.include_chi then g.upwindFlows B (fun i j k => o.chi i j * profile o g N i j k) (profile o g T) else .zero).source i j k := by
    rw [e3]; rfl
  have chiNN : ∀ i j k, 0 ≤ o.chi i j * profile o g N i j k := fun i j k => mul_nonneg (hchi i j) (hpos i j k)
  rw [split, e1]
  constructor
  · intro hl
    have c : 0 ≤ (if o.include_chi then g.upwindFlows B (fun i j k => o.chi i j * profile o g N i j k) (profile o g T) else .zero).source i j k := by
      cases o.include_chi
      · exact le_refl _
      · simp only [if_true]
        rw [sD _ _ aN hT2]
        exact div_nonneg (netX_nonneg hp chiNN hl) w.le
    cases o.include_D
    · simp only [Bool.false_eq_true, if_false, PerpOut.zero, Pi.zero_apply, mul_zero, zero_add]
      exact c
    · simp only [if_true]
      rw [sD _ _ aT hN2, sD _ _ (fun _ _ _ _ => rfl) hN2, mul_div_assoc']
      have := carried_lowest (g := g) (f := profile o g N) (c := 3 / 2) (by norm_num) (D := fun i j _ => o.D i j) (fun i j _ => hD i j) hl
      have := div_le_div_of_nonneg_right this w.le
      linarith
  · intro hl
    have c : (if o.include_chi then g.upwindFlows B (fun i j k => o.chi i j * profile o g N i j k) (profile o g T) else .zero).source i j k ≤ 0 := by
      cases o.include_chi
      · exact le_refl _
      · simp only [if_true]
        rw [sD _ _ aN hT2]
        exact div_nonpos_of_nonpos_of_nonneg (netX_neg_field hp chiNN hl) w.le
    cases o.include_D
    · simp only [Bool.false_eq_true, if_false, PerpOut.zero, Pi.zero_apply, mul_zero, zero_add]
      exact c
    · simp only [if_true]
      rw [sD _ _ aT hN2, sD _ _ (fun _ _ _ _ => rfl) hN2, mul_div_assoc']
      have := carried_highest (g := g) (f := profile o g N) (c := 3 / 2) (by norm_num) (D := fun i j _ => o.D i j) (fun i j _ => hD i j) hl
      have := div_le_div_of_nonneg_right this w.le
      linarith

/-- **C63.**  The same for the flow speed: the slowest cell is not slowed and the fastest not accelerated. -/
theorem velocity_extremum_partial {o : AnomalousOpts} {g : Grid} (hp : Positive g) (h23 : ∀ i j, g.g23 i j = 0) {B : BoutOps nz}
    (hB : KeepsAxi B) {s : SpeciesIn nz} {r : AnomalousOut nz} (h : anomalousDiffusion o g B s = .ok r) {N V : F3 nz} {AA : ℝ}
    (hN : s.density = some N) (hV : s.velocity = some V) (hA : s.AA = some AA) (hA0 : 0 ≤ AA) (hD : ∀ i j, 0 ≤ o.D i j)
    (hnu : ∀ i j, 0 ≤ o.nu i j) (hpos : ∀ i j k, 0 ≤ profile o g N i j k) {i j : ℤ} (k : Fin nz) (hi : g.xstart ≤ i ∧ i ≤ g.xend)
    (hj : g.ystart ≤ j ∧ j ≤ g.yend) :
    (LowestX (profile o g V) i j k → AA * profile o g V i j k * r.particles.source i j k ≤ r.momentum.source i j k) ∧
    (LowestX (-profile o g V) i j k → r.momentum.source i j k ≤ AA * profile o g V i j k * r.particles.source i j k) := by
  obtain ⟨N', hN', -, e1, e2, -⟩ := anomalous_ok h
  rw [hN] at hN'
  cases hN'
  rw [hV, hA, Option.getD_some, Option.getD_some] at e2
  have hN2 := axi_profile o g N
  have hV2 := axi_profile o g V
  have w := mul_pos (hp.dx i j) (hp.J i j)
  have aV : Axi (fun i j k => AA * profile o g V i j k * o.D i j) := by intro i j k k'; simp only; rw [hV2 i j k k']
  have aN : Axi (fun i j k => o.nu i j * AA * profile o g N i j k) := by intro i j k k'; simp only; rw [hN2 i j k k']
  have sD : ∀ a f : F3 nz, Axi a → Axi f → (g.upwindFlows B a f).source i j k = netX g a f i j k / (g.dx i j * g.J i j) := by
    intro a f ha hf
    rw [source_apply g hB ha hf k hi hj, netY_zero h23, zero_div, add_zero]
  have split : r.momentum.source i j k =
      (if o.include_D then g.upwindFlows B (fun i j k => AA * profile o g V i j k * o.D i j) (profile o g N) else .zero).source i j k
      + (if o.include_nu then g.upwindFlows B (fun i j k => o.nu i j * AA * profile o g N i j k) (profile o g V) else .zero).source i j k := by
    rw [e2]; rfl
  have nuNN : ∀ i j k, 0 ≤ o.nu i j * AA * profile o g N i j k := fun i j k => mul_nonneg (mul_nonneg (hnu i j) hA0) (hpos i j k)
  rw [split, e1]
  constructor
  · intro hl
    have c : 0 ≤ (if o.include_nu then g.upwindFlows B (fun i j k => o.nu i j * AA * profile o g N i j k) (profile o g V) else .zero).source i j k := by
      cases o.include_nu
      · exact le_refl _
      · simp only [if_true]
        rw [sD _ _ aN hV2]
        exact div_nonneg (netX_nonneg hp nuNN hl) w.le
    cases o.include_D
    · simp only [Bool.false_eq_true, if_false, PerpOut.zero, Pi.zero_apply, mul_zero, zero_add]
      exact c
    · simp only [if_true]
      rw [sD _ _ aV hN2, sD _ _ (fun _ _ _ _ => rfl) hN2, mul_div_assoc']
      have := carried_lowest (g := g) (f := profile o g N) hA0 (D := fun i j _ => o.D i j) (fun i j _ => hD i j) hl
      have := div_le_div_of_nonneg_right this w.le
      linarith
  · intro hl
    have c : (if o.include_nu then g.upwindFlows B (fun i j k => o.nu i j * AA * profile o g N i j k) (profile o g V) else .zero).source i j k ≤ 0 := by
      cases o.include_nu
      · exact le_refl _
      · simp only [if_true]
        rw [sD _ _ aN hV2]
        exact div_nonpos_of_nonpos_of_nonneg (netX_neg_field hp nuNN hl) w.le
    cases o.include_D
    · simp only [Bool.false_eq_true, if_false, PerpOut.zero, Pi.zero_apply, mul_zero, zero_add]
      exact c
    · simp only [if_true]
      rw [sD _ _ aV hN2, sD _ _ (fun _ _ _ _ => rfl) hN2, mul_div_assoc']
      have := carried_highest (g := g) (f := profile o g N) hA0 (D := fun i j _ => o.D i j) (fun i j _ => hD i j) hl
      have := div_le_div_of_nonneg_right this w.le
      linarith

/-! ## Where the claims fail -/

/-- Particle diffusion with coefficient 1 and nothing else. -/
noncomputable def onlyD : AnomalousOpts where
  include_D := true
  D _ _ := 1
  include_chi := false
  chi _ _ := 0
  include_nu := false
  nu _ _ := 0

/-- Viscosity with coefficient 1 and nothing else. -/
noncomputable def onlyNu : AnomalousOpts where
  include_D := false
  D _ _ := 0
  include_chi := false
  chi _ _ := 0
  include_nu := true
  nu _ _ := 1

/-- A grid whose metric has `g23`. -/
noncomputable def tiltGrid : Grid := { boxGrid with g23 := fun _ _ => 1, g_23 := fun _ _ => -1 }

theorem tiltGrid_positive : Positive tiltGrid := by
  constructor <;> intro _ _ <;> norm_num [tiltGrid, boxGrid]

theorem tiltGrid_downhill : DownhillY tiltGrid := by
  intro i j
  norm_num [tiltGrid, boxGrid]

theorem plain_keeps (nz : ℕ) [NeZero nz] : KeepsAxi (ExB.plainOps nz) := fun _ _ => ⟨rfl, rfl⟩

theorem DC_axi {f : F3 nz} (hf : Axi f) : DC f = f := by
  funext i j k
  unfold DC
  rw [Finset.sum_congr rfl fun k' _ => hf i j k' k, Finset.sum_const, Finset.card_univ, Fintype.card_fin, nsmul_eq_mul]
  have : (nz : ℝ) ≠ 0 := Nat.cast_ne_zero.2 (NeZero.ne nz)
  field_simp

/-- A field given per column and row. -/
def flat (q : ℤ → ℤ → ℝ) : F3 3 := fun i j _ => q i j

theorem DC_flat (q : ℤ → ℤ → ℝ) : DC (flat q) = flat q := DC_axi fun _ _ _ _ => rfl

/-- Zero gradient at the rows 2 and 3. -/
def closedRows (q : ℤ → ℤ → ℝ) : F3 3 := flat fun i j => if j = 1 then q i 2 else if j = 4 then q i 3 else q i j

theorem profile_box {o : AnomalousOpts} (ho : o.sheath_flux = false) (q : ℤ → ℤ → ℝ) : profile o boxGrid (flat q) = closedRows q := by
  unfold profile
  rw [ho, DC_flat]
  funext i j k
  rw [if_neg (by simp)]
  simp only [yNeumann, closedRows, flat, boxGrid, and_true]
  norm_num

theorem profile_tilt {o : AnomalousOpts} (ho : o.sheath_flux = false) (q : ℤ → ℤ → ℝ) : profile o tiltGrid (flat q) = closedRows q := by
  unfold profile
  rw [ho, DC_flat]
  funext i j k
  rw [if_neg (by simp)]
  simp only [yNeumann, closedRows, flat, tiltGrid, boxGrid, and_true]
  norm_num

theorem onlyD_off : onlyD.sheath_flux = false := rfl
theorem onlyNu_off : onlyNu.sheath_flux = false := rfl

/-- C63 is violated by the flux in `y`: it uses the average of the two cells instead of the upwind one (against the comment that
upwind operators are used, "or unphysical increases in temperature and flow can be produced").  A full cell at zero temperature beside
an empty hot one loses particles *and* heat, although it has none: its energy becomes negative. -/
theorem coldest_cell_cooled_along_y : ∃ (g : Grid) (s : SpeciesIn 3) (T : F3 3) (r : AnomalousOut 3), Positive g ∧ DownhillY g ∧
    s.temperature = some T ∧ (∀ i j k, 0 ≤ T i j k) ∧ anomalousDiffusion onlyD g (ExB.plainOps 3) s = .ok r ∧
    LowestX (profile onlyD g T) 2 2 0 ∧ LowestY (profile onlyD g T) 2 2 0 ∧ T 2 2 0 = 0 ∧
    r.particles.source 2 2 0 < 0 ∧ r.energy.source 2 2 0 < 0 := by
  refine ⟨tiltGrid, { AA := some 1, density := some (flat fun _ j => if j ≤ 2 then 1 else 0), temperature := some (flat fun _ j => if j ≤ 2 then 0 else 1) },
    flat fun _ j => if j ≤ 2 then 0 else 1, _, tiltGrid_positive, tiltGrid_downhill, rfl, ?_, rfl, ?_, ?_, ?_, ?_, ?_⟩
  · intro i j k
    simp only [flat]
    split_ifs <;> norm_num
  · simp only [LowestX, profile_box onlyD_off, profile_tilt onlyD_off]
    norm_num [tiltGrid, boxGrid, flat, closedRows, onlyD]
  · simp only [LowestY, profile_box onlyD_off, profile_tilt onlyD_off]
    norm_num [tiltGrid, boxGrid, flat, closedRows, onlyD]
  · simp [flat]
  · show (tiltGrid.upwindFlows (ExB.plainOps 3) _ _).source 2 2 0 < 0
    rw [source_apply tiltGrid (plain_keeps 3) (fun _ _ _ _ => rfl) (axi_profile _ _ _) 0 (by norm_num [tiltGrid, boxGrid]) (by norm_num [tiltGrid, boxGrid])]
    simp only [netX, netY, Grid.upwindX, Grid.upwindYup, Grid.upwindYdown, profile_box onlyD_off, profile_tilt onlyD_off]
    norm_num [tiltGrid, boxGrid, flat, closedRows, onlyD]
  · show ((tiltGrid.upwindFlows (ExB.plainOps 3) (fun i j k => 3 / 2 * profile onlyD tiltGrid (flat fun _ j => if j ≤ 2 then 0 else 1) i j k * onlyD.D i j) _).source + 0) 2 2 0 < 0
    rw [add_zero, source_apply tiltGrid (plain_keeps 3) ?_ (axi_profile _ _ _) 0 (by norm_num [tiltGrid, boxGrid]) (by norm_num [tiltGrid, boxGrid])]
    · simp only [netX, netY, Grid.upwindX, Grid.upwindYup, Grid.upwindYdown, profile_box onlyD_off, profile_tilt onlyD_off]
      norm_num [tiltGrid, boxGrid, flat, closedRows, onlyD]
    · intro i j k k'
      simp only
      rw [axi_profile onlyD tiltGrid _ i j k k']

/-- The operator works on averages over `z`, so in a turbulent state it drains cells that are empty: here a blob fills one cell in
`z`, and the same amount is taken from the two empty cells beside it. -/
theorem empty_cell_drained : ∃ (s : SpeciesIn 3) (N : F3 3) (r : AnomalousOut 3), s.density = some N ∧ (∀ i j k, 0 ≤ N i j k) ∧
    anomalousDiffusion onlyD boxGrid (ExB.plainOps 3) s = .ok r ∧ N 2 2 1 = 0 ∧ (∀ i j, N i j 1 = 0) ∧ r.particles.source 2 2 1 < 0 := by
  refine ⟨{ AA := some 1, density := some fun i _ k => if i = 2 ∧ k = 0 then 3 else 0 }, fun i _ k => if i = 2 ∧ k = 0 then 3 else 0, _, rfl, ?_, rfl, ?_, ?_, ?_⟩
  · intro i j k
    simp only
    split_ifs <;> norm_num
  · norm_num
  · intro i j
    norm_num
  · show (boxGrid.upwindFlows (ExB.plainOps 3) _ _).source 2 2 1 < 0
    have e : DC (fun i (_ : ℤ) (k : Fin 3) => if i = 2 ∧ k = 0 then (3 : ℝ) else 0) = flat fun i _ => if i = 2 then 1 else 0 := by
      funext i j k
      simp only [DC, flat]
      rw [Fin.sum_univ_three]
      by_cases h : i = 2
      · norm_num [h, show ¬ (2 : Fin 3) = 0 by decide]
      · norm_num [h]
    have e' : profile onlyD boxGrid (fun i (_ : ℤ) (k : Fin 3) => if i = 2 ∧ k = 0 then (3 : ℝ) else 0) = closedRows fun i _ => if i = 2 then 1 else 0 := by
      rw [← profile_box onlyD_off]
      unfold profile
      rw [e, DC_flat]
    rw [source_apply boxGrid (plain_keeps 3) (fun _ _ _ _ => rfl) (axi_profile _ _ _) 1 (by norm_num [boxGrid]) (by norm_num [boxGrid])]
    simp only [netX, netY, Grid.upwindX, Grid.upwindYup, Grid.upwindYdown, e']
    norm_num [boxGrid, flat, closedRows, onlyD, onlyNu]

/-- A sheared flow. -/
noncomputable def shear : SpeciesIn 3 where
  AA := some 1
  density := some (flat fun _ _ => 1)
  velocity := some (flat fun i _ => if i ≤ 2 then 0 else 1)

theorem box_columns_closed {o : AnomalousOpts} (ho : o.sheath_flux = false) (s : SpeciesIn nz) (i : ℤ) : ColumnClosed o boxGrid s i :=
  Or.inl ⟨ho, rfl, rfl⟩

/-- Anomalous viscosity takes kinetic energy out of a sheared flow and puts it nowhere: with the density and total momentum unchanged, the work
done by the momentum source on the flow is negative, and the energy source is zero. -/
theorem viscosity_loses_energy : ∃ (V : F3 3) (r : AnomalousOut 3), shear.velocity = some V ∧
    anomalousDiffusion onlyNu boxGrid (ExB.plainOps 3) shear = .ok r ∧ r.particles.source = 0 ∧ content boxGrid r.momentum.source = 0 ∧
    content boxGrid (fun i j k => V i j k * r.momentum.source i j k) < 0 ∧ content boxGrid r.energy.source = 0 := by
  have run : ∃ r, anomalousDiffusion onlyNu boxGrid (ExB.plainOps 3) shear = .ok r := ⟨_, rfl⟩
  obtain ⟨r, hr⟩ := run
  have cl := anomalous_closed (o := onlyNu) boxGrid_regular boxGrid_separable (plain_keeps 3) (fun i _ => box_columns_closed rfl _ i) hr (by
    intro q hq
    have : q = (flat fun _ _ => 1) ∨ q = flat fun i _ => if i ≤ 2 then 0 else 1 := by
      rcases hq with hq | hq | hq
      · exact Or.inl (Option.some.inj hq).symm
      · cases hq
      · exact Or.inr (Option.some.inj hq).symm
    intro j k
    rcases this with rfl | rfl <;> simp only [profile_box onlyNu_off] <;> norm_num [boxGrid, flat, closedRows, onlyD, onlyNu])
  refine ⟨_, r, rfl, hr, ?_, cl.2.1, ?_, cl.2.2⟩
  · cases hr
    rfl
  · have src : ∀ i j k, (2 ≤ i ∧ i ≤ 3) → (2 ≤ j ∧ j ≤ 3) → r.momentum.source i j k = if i = 2 then 1 else -1 := by
      intro i j k hi hj
      cases hr
      show (0 + (boxGrid.upwindFlows (ExB.plainOps 3) (fun i j k => onlyNu.nu i j * 1 * profile onlyNu boxGrid (flat fun _ _ => 1) i j k)
        (profile onlyNu boxGrid (flat fun i _ => if i ≤ 2 then 0 else 1))).source) i j k = _
      rw [zero_add, source_apply boxGrid (plain_keeps 3) ?_ (axi_profile _ _ _) k hi hj, netY_zero (fun _ _ => rfl)]
      · simp only [netX, Grid.upwindX, profile_box onlyNu_off]
        obtain rfl | rfl : i = 2 ∨ i = 3 := by omega
        · norm_num [boxGrid, flat, closedRows, onlyD, onlyNu]
        · norm_num [boxGrid, flat, closedRows, onlyD, onlyNu]
      · intro i j k k'
        simp only
        rw [axi_profile onlyNu boxGrid _ i j k k']
    have e : content boxGrid (fun i j k => flat (fun i _ => if i ≤ 2 then 0 else 1) i j k * r.momentum.source i j k)
        = content boxGrid (fun i _ (_ : Fin 3) => if i = 2 then 0 else -1) := by
      refine content_congr fun i j hi hj => Finset.sum_congr rfl fun k _ => ?_
      rw [src i j k hi hj]
      obtain rfl | rfl : i = 2 ∨ i = 3 := by
        have : 2 ≤ i ∧ i ≤ 3 := hi
        omega
      · norm_num [flat]
      · norm_num [flat]
    rw [e]
    have I : Icc (2 : ℤ) 3 = {2, 3} := by decide
    simp only [content, boxGrid, volume, I]
    rw [Finset.sum_insert (by norm_num), Finset.sum_singleton]
    norm_num

/-- The hypotheses of the conservation and extremum theorems are met by a case in which something flows: a hot dense column beside a
cold thin one, closed in `x` and `y`. -/
noncomputable def step : SpeciesIn 3 where
  AA := some 1
  density := some (flat fun i _ => if i ≤ 2 then 2 else 1)
  temperature := some (flat fun i _ => if i ≤ 2 then 3 else 1)
  velocity := some (flat fun i _ => if i ≤ 2 then 0 else 1)

example : ∃ r, anomalousDiffusion onlyD boxGrid (ExB.plainOps 3) step = .ok r ∧
    (∀ i, ColumnClosed onlyD boxGrid step i) ∧
    (∀ q, step.density = some q ∨ step.temperature = some q ∨ step.velocity = some q → ZeroGradientX boxGrid (profile onlyD boxGrid q)) ∧
    LowestX (profile onlyD boxGrid (flat fun i _ => if i ≤ 2 then 3 else 1)) 3 2 0 ∧
    (r.particles.source 3 2 0 = 1 ∧ r.energy.source 3 2 0 = 9 / 2) := by
  refine ⟨_, rfl, fun i => box_columns_closed rfl _ i, ?_, ?_, ?_, ?_⟩
  · intro q hq j k
    rcases hq with hq | hq | hq <;> cases hq <;> simp only [profile_box onlyD_off, profile_tilt onlyD_off] <;> norm_num [boxGrid, flat, closedRows, onlyD, onlyNu]
  · simp only [LowestX, profile_box onlyD_off, profile_tilt onlyD_off]
    norm_num [boxGrid, flat, closedRows, onlyD, onlyNu]
  · show (boxGrid.upwindFlows (ExB.plainOps 3) _ _).source 3 2 0 = 1
    rw [source_apply boxGrid (plain_keeps 3) (fun _ _ _ _ => rfl) (axi_profile _ _ _) 0 (by norm_num [boxGrid]) (by norm_num [boxGrid]), netY_zero (fun _ _ => rfl)]
    simp only [netX, Grid.upwindX, profile_box onlyD_off, profile_tilt onlyD_off]
    norm_num [boxGrid, flat, closedRows, onlyD, onlyNu]
  · show ((boxGrid.upwindFlows (ExB.plainOps 3) (fun i j k => 3 / 2 * profile onlyD boxGrid (flat fun i _ => if i ≤ 2 then 3 else 1) i j k * onlyD.D i j) _).source + 0) 3 2 0 = _
    rw [add_zero, source_apply boxGrid (plain_keeps 3) ?_ (axi_profile _ _ _) 0 (by norm_num [boxGrid]) (by norm_num [boxGrid]), netY_zero (fun _ _ => rfl)]
    · simp only [netX, Grid.upwindX, profile_box onlyD_off, profile_tilt onlyD_off]
      norm_num [boxGrid, flat, closedRows, onlyD, onlyNu]
    · intro i j k k'
      simp only
      rw [axi_profile onlyD boxGrid _ i j k k']

end Hermes.Anomalous
