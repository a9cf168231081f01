import Verif.Model.NeutralGrid
import Verif.Props.NeutralMixed
import Verif.Props.MomentumEquation
import Verif.Props.AnomalousDiffusion

/-!
# C76: the mixed neutral gas on the mesh

`nmFinally o (g.nmMesh B b) (nmFields o (g.nmMesh B b) N P NV) s` are the time derivatives of density, pressure and momentum that `neutral_mixed`
gives to the time integrator, for evolving variables `N`, `P`, `NV` and sources `s`.
-/

namespace Hermes.NeutralGas
open Finset Hermes Hermes.Limiters Hermes.PerpOps Hermes.Rhs Hermes.Sheath Hermes.NeutralMixedModel
open Hermes.MomentumEquation (Relabels content_mul_fromFA lineLoss)
open Hermes.Anomalous (Ring)

variable {nz : ℕ} [NeZero nz]

/-! ## The mesh -/

theorem mem_endCells {g : Grid} {ends : ℤ → Bool} {j : ℤ} {p : Cell nz} :
    p ∈ g.endCells nz ends j ↔ (g.xstart ≤ p.1 ∧ p.1 ≤ g.xend) ∧ ends p.1 = true ∧ p.2.1 = j := by
  obtain ⟨x, y, z⟩ := p
  unfold Grid.endCells
  simp only [List.mem_map, Prod.exists, List.mem_product, List.mem_filter, mem_forRange, List.mem_finRange, and_true, Prod.mk.injEq]
  constructor
  · rintro ⟨a, b, ⟨h1, h2⟩, rfl, rfl, rfl⟩
    exact ⟨h1, h2, rfl⟩
  · rintro ⟨h1, h2, rfl⟩
    exact ⟨x, z, ⟨h1, h2⟩, rfl, rfl, rfl⟩

theorem nodup_endCells (g : Grid) (ends : ℤ → Bool) (j : ℤ) : (g.endCells nz ends j).Nodup := by
  unfold Grid.endCells
  refine List.Nodup.map ?_ (((nodup_forRange _ _).filter _).product (List.nodup_finRange _))
  rintro ⟨a, b⟩ ⟨a', b'⟩ h
  simp only [Prod.mk.injEq, true_and] at h
  exact Prod.ext h.1 h.2

/-- Boundary conditions change guard cells only. -/
structure BoundariesOnly (g : Grid) (B : RhsOps nz) (b : NMBoundaries nz) : Prop where
  T : ∀ f i j k, g.xstart ≤ i ∧ i ≤ g.xend → g.ystart ≤ j ∧ j ≤ g.yend → b.T f i j k = f i j k
  P : ∀ f i j k, g.xstart ≤ i ∧ i ≤ g.xend → g.ystart ≤ j ∧ j ≤ g.yend → b.P f i j k = f i j k
  D : ∀ f i j k, g.xstart ≤ i ∧ i ≤ g.xend → g.ystart ≤ j ∧ j ≤ g.yend → b.D f i j k = f i j k
  neumann : ∀ f i j k, g.xstart ≤ i ∧ i ≤ g.xend → g.ystart ≤ j ∧ j ≤ g.yend → b.neumann f i j k = f i j k
  communicate : ∀ f i j k, g.xstart ≤ i ∧ i ≤ g.xend → g.ystart ≤ j ∧ j ≤ g.yend → B.communicate f i j k = f i j k

theorem dom_iff {g : Grid} {B : RhsOps nz} {b : NMBoundaries nz} {p : Cell nz} :
    (g.nmMesh B b).dom p = true ↔ (g.xstart ≤ p.1 ∧ p.1 ≤ g.xend) ∧ g.ystart ≤ p.2.1 ∧ p.2.1 ≤ g.yend := by
  show decide _ = true ↔ _
  rw [decide_eq_true_iff]
  tauto

theorem mesh_ok {g : Grid} (hy : g.ystart < g.yend) (B : RhsOps nz) (b : NMBoundaries nz) : MeshOk (g.nmMesh B b).m where
  nodup := by
    refine List.nodup_append.2 ⟨(nodup_endCells g _ _).map ?_, (nodup_endCells g _ _).map ?_, ?_⟩
    · rintro ⟨x, y, z⟩ ⟨x', y', z'⟩ h
      have h' : (x, y - 1, z) = (x', y' - 1, z') := h
      simp only [Prod.mk.injEq, sub_left_inj] at h' ⊢
      exact h'
    · rintro ⟨x, y, z⟩ ⟨x', y', z'⟩ h
      have h' : (x, y + 1, z) = (x', y' + 1, z') := h
      simp only [Prod.mk.injEq, add_left_inj] at h' ⊢
      exact h'
    · intro p hp q hq e
      obtain ⟨p', hp', rfl⟩ := List.mem_map.1 hp
      obtain ⟨q', hq', rfl⟩ := List.mem_map.1 hq
      have h1 := (mem_endCells.1 hp').2.2
      have h2 := (mem_endCells.1 hq').2.2
      have h3 : p'.2.1 - 1 = q'.2.1 + 1 := congrArg (fun p : Cell nz => p.2.1) e
      omega
  sep := by
    intro p hp
    have key : p.2.1 = g.ystart - 1 ∨ p.2.1 = g.yend + 1 := by
      rcases List.mem_append.1 hp with h | h
      · obtain ⟨p', hp', rfl⟩ := List.mem_map.1 h
        left
        have := (mem_endCells.1 hp').2.2
        show p'.2.1 - 1 = _
        omega
      · obtain ⟨p', hp', rfl⟩ := List.mem_map.1 h
        right
        have := (mem_endCells.1 hp').2.2
        show p'.2.1 + 1 = _
        omega
    refine ⟨fun h => ?_, fun h => ?_, fun h => ?_, fun h => ?_⟩
    · have := (mem_endCells.1 h).2.2; omega
    · have := (mem_endCells.1 h).2.2; omega
    · obtain ⟨p', hp', e⟩ := List.mem_map.1 h
      have h1 := (mem_endCells.1 hp').2.2
      have h2 : p'.2.1 + 1 = p.2.1 := congrArg (fun p : Cell nz => p.2.1) e
      omega
    · obtain ⟨p', hp', e⟩ := List.mem_map.1 h
      have h1 := (mem_endCells.1 hp').2.2
      have h2 : p'.2.1 - 1 = p.2.1 := congrArg (fun p : Cell nz => p.2.1) e
      omega

theorem guards {g : Grid} (hy : g.ystart < g.yend) {B : RhsOps nz} {b : NMBoundaries nz} (hb : BoundariesOnly g B b) (o : NMOpts (Cell nz)) :
    Guards o (g.nmMesh B b) where
  mesh := mesh_ok hy B b
  bndryT f p hp := hb.T _ _ _ _ (dom_iff.1 hp).1 (dom_iff.1 hp).2
  bndryP f p hp := hb.P _ _ _ _ (dom_iff.1 hp).1 (dom_iff.1 hp).2
  bndryD f p hp := hb.D _ _ _ _ (dom_iff.1 hp).1 (dom_iff.1 hp).2
  neumann f p hp := hb.neumann _ _ _ _ (dom_iff.1 hp).1 (dom_iff.1 hp).2
  communicate f p hp := hb.communicate _ _ _ _ (dom_iff.1 hp).1 (dom_iff.1 hp).2
  last := by
    rintro u p q inn (⟨-, hi⟩ | ⟨-, hi⟩)
    · obtain ⟨h1, -, h3⟩ := mem_endCells.1 hi
      refine ⟨dom_iff.2 ⟨h1, by omega⟩, dom_iff.2 ⟨h1, ?_⟩, ?_⟩
      · show g.ystart ≤ p.2.1 + 1 ∧ p.2.1 + 1 ≤ g.yend
        omega
      · rw [Bool.eq_false_iff]
        intro h
        have : g.ystart ≤ p.2.1 - 1 ∧ p.2.1 - 1 ≤ g.yend := (dom_iff.1 h).2
        omega
    · obtain ⟨h1, -, h3⟩ := mem_endCells.1 hi
      refine ⟨dom_iff.2 ⟨h1, by omega⟩, dom_iff.2 ⟨h1, ?_⟩, ?_⟩
      · show g.ystart ≤ p.2.1 - 1 ∧ p.2.1 - 1 ≤ g.yend
        omega
      · rw [Bool.eq_false_iff]
        intro h
        have : g.ystart ≤ p.2.1 + 1 ∧ p.2.1 + 1 ≤ g.yend := (dom_iff.1 h).2
        omega

/-! ## Cross-field flows -/

/-- The value halfway between the last cell and the guard cell vanishes at the radial boundaries. -/
def ZeroAtX (g : Grid) (a : F3 nz) : Prop := ∀ j k, g.ystart ≤ j ∧ j ≤ g.yend →
  a (g.xstart - 1) j k = -a g.xstart j k ∧ a (g.xend + 1) j k = -a g.xend j k

/-- Nothing crosses the ends of the lines of column `i`: the (aligned) coefficient vanishes there, or the column is closed on itself. -/
def Sealed (g : Grid) (B : RhsOps nz) (a f : F3 nz) (i : ℤ) : Prop :=
  (∀ k, B.toFA a i (g.ystart - 1) k = -B.toFA a i g.ystart k ∧ B.toFA a i (g.yend + 1) k = -B.toFA a i g.yend k) ∨
  (Ring g i ∧ ∃ σ, FieldWraps g (B.toFA a) i σ ∧ FieldWraps g (B.toFA f) i σ)

theorem sealed_ends {g : Grid} (hs : Separable g) {B : RhsOps nz} {a f : F3 nz} {i : ℤ} (h : Sealed g B a f i) :
    ∑ k, (g.flowsYup (B.toFA a) (B.toFA f) i g.yend k - g.flowsYdown (B.toFA a) (B.toFA f) i g.ystart k) = 0 := by
  rcases h with h | ⟨hr, σ, ha, hf⟩
  · refine Finset.sum_eq_zero fun k _ => ?_
    unfold Grid.flowsYup Grid.flowsYdown
    dsimp only
    rw [(h k).1, (h k).2, add_neg_cancel, add_neg_cancel]
    ring
  · have e0 : g.yend = g.ystart - 1 + (g.yend + 1 - g.ystart) := by ring
    have e1 : g.yend + 1 = g.ystart + (g.yend + 1 - g.ystart) := by ring
    have at0 : ∀ {q : ℤ → ℤ → ℝ}, (∀ j, q i (j + (g.yend + 1 - g.ystart)) = q i j) →
        q i g.yend = q i (g.ystart - 1) ∧ q i (g.yend + 1) = q i g.ystart := by
      intro q hq
      have h0 := hq (g.ystart - 1)
      have h1 := hq g.ystart
      rw [← e0] at h0
      rw [← e1] at h1
      exact ⟨h0, h1⟩
    have key : ∀ k, g.flowsYup (B.toFA a) (B.toFA f) i g.yend k = g.flowsYdown (B.toFA a) (B.toFA f) i g.ystart (k + σ) := by
      intro k
      unfold Grid.flowsYup Grid.flowsYdown
      dsimp only
      rw [ha.at e0, ha.at e1, hf.at e0 k, hf.at e1 k, hf.at e0 (k + 1), hf.at e1 (k + 1), hf.at e0 (k - 1), hf.at e1 (k - 1),
        (at0 hr.J).1, (at0 hr.J).2, (at0 hr.g23).1, (at0 hr.g23).2, (at0 hr.g_23).1, (at0 hr.g_23).2, (at0 hr.Bxy).1, (at0 hr.Bxy).2,
        (at0 hr.dy).1, (at0 hr.dy).2, hs.dz i i g.yend g.ystart, hs.dz i i (g.yend + 1) g.ystart, hs.dz i i (g.ystart - 1) g.ystart,
        show k + 1 + σ = k + σ + 1 by abel, show k - 1 + σ = k + σ - 1 by abel]
      ring
    rw [Finset.sum_sub_distrib, Finset.sum_congr rfl fun k _ => key k]
    have sh := Equiv.sum_comp (Equiv.addRight σ) (fun k => g.flowsYdown (B.toFA a) (B.toFA f) i g.ystart k)
    simp only [Equiv.coe_addRight] at sh
    rw [sh, sub_self]

/-- What enters through the radial boundaries, according to the flow returned by the operator. -/
noncomputable def radialGain (g : Grid) (p : PerpOut nz) : ℝ :=
  ∑ j ∈ Icc g.ystart g.yend, ∑ k, (p.flow_xlow g.xstart j k - p.flow_xlow (g.xend + 1) j k)

theorem content_perpFlows {g : Grid} (hg : Regular g) (hs : Separable g) {B : RhsOps nz} (hB : ExB.Shifts B.toBoutOps) {a f : F3 nz}
    (hc : ∀ i, g.xstart ≤ i ∧ i ≤ g.xend → Sealed g B a f i) :
    content g (g.perpFlows B.toBoutOps a f).source = radialGain g (g.perpFlows B.toBoutOps a f) := by
  have e : (g.perpFlows B.toBoutOps a f).source = (g.divPerpFlows a f (B.toFA a) (B.toFA f)).1 + B.fromFA (g.divPerpFlows a f (B.toFA a) (B.toFA f)).2 := rfl
  rw [e, content_add, content_fromFA g hB]
  have h1 : content g (g.divPerpFlows a f (B.toFA a) (B.toFA f)).1 = _ :=
    radial_content_changes_at_boundaries hg hs (.flows a f (B.toFA a) (B.toFA f))
  have h2 : content g (g.divPerpFlows a f (B.toFA a) (B.toFA f)).2 = _ :=
    aligned_content_changes_at_ends hg hs (.flows a f (B.toFA a) (B.toFA f))
  rw [h1, h2]
  have z : ∑ i ∈ Icc g.xstart g.xend, ∑ k, ((Operator.flows a f (B.toFA a) (B.toFA f)).faceUp g i g.yend k
      - (Operator.flows a f (B.toFA a) (B.toFA f)).faceDown g i g.ystart k) * g.dx i g.ystart * g.dz i g.ystart = 0 := by
    refine Finset.sum_eq_zero fun i hi => ?_
    rw [← Finset.sum_mul, ← Finset.sum_mul]
    have := sealed_ends hs (hc i (mem_Icc.1 hi))
    simp only [Operator.faceUp, Operator.faceDown]
    rw [this, zero_mul, zero_mul]
  rw [z, add_zero]
  unfold radialGain
  refine Finset.sum_congr rfl fun j hj => Finset.sum_congr rfl fun k _ => ?_
  have hx := hg.x_nonempty
  have hj := mem_Icc.1 hj
  unfold Grid.perpFlows
  dsimp only
  rw [if_pos ⟨⟨le_rfl, by omega⟩, hj⟩, if_pos ⟨⟨by omega, le_rfl⟩, hj⟩]
  rfl

theorem radialGain_zero {g : Grid} {B : BoutOps nz} {a f : F3 nz} (h : ZeroAtX g a) : radialGain g (g.perpFlows B a f) = 0 := by
  unfold radialGain
  refine Finset.sum_eq_zero fun j hj => Finset.sum_eq_zero fun k _ => ?_
  obtain ⟨h1, h2⟩ := h j k (mem_Icc.1 hj)
  have z1 : g.flowX (g.flowsX a f) g.xstart j k = 0 := by
    unfold Grid.flowX Grid.flowsX
    rw [sub_add_cancel, h1, neg_add_cancel]
    ring
  have z2 : g.flowX (g.flowsX a f) (g.xend + 1) j k = 0 := by
    unfold Grid.flowX Grid.flowsX
    rw [add_sub_cancel_right, h2, add_neg_cancel]
    ring
  unfold Grid.perpFlows
  dsimp only
  rw [z1, z2, ite_self, ite_self, sub_zero]

/-! ## Momentum on rings -/

theorem content_fvv_columns {g : Grid} (hg : Regular g) (hs : Separable g) {B : RhsOps nz} (hB : ExB.Shifts B.toBoutOps) (lim : Limiter)
    {n V w : F3 nz} (hc : ∀ i, g.xstart ≤ i ∧ i ≤ g.xend → ClosedEnds g B V i ∨ (GeometryWraps g B i ∧ ∃ τ, FieldWraps g (B.toFA n) i τ ∧
      FieldWraps g (B.toFA V) i τ ∧ FieldWraps g (B.toFA w) i τ)) : content g (g.divParFvv3 B lim n V w true) = 0 := by
  unfold Grid.divParFvv3
  rw [content_fromFA g hB, content_lines g B]
  refine Finset.sum_eq_zero fun i hi => ?_
  rcases hc i (mem_Icc.1 hi) with hci | ⟨h, τ, hf, hv, hw⟩
  · refine Finset.sum_eq_zero fun k _ => ?_
    have h := ParOps.momentum_changes_at_ends (line_regular hg B i) (line_uniform hs B i) (closed_line hci) lim
      (alongY (B.toFA n) i k) (alongY (B.toFA V) i k) (alongY (B.toFA w) i k)
    have u : alongY (B.toFA V) i k (g.line B i).yend + alongY (B.toFA V) i k ((g.line B i).yend + 1) = 0 := hci.upper k
    have l : alongY (B.toFA V) i k (g.line B i).ystart + alongY (B.toFA V) i k ((g.line B i).ystart - 1) = 0 := hci.lower k
    rw [u, l] at h
    refine h.trans ?_
    norm_num
  · have hp : (g.line B i).periodicY = true := h.periodic
    let FR := fun k => (g.line B i).fvvFluxR lim (alongY (B.toFA n) i k) (alongY (B.toFA V) i k) (alongY (B.toFA w) i k) true
    let FL := fun k => (g.line B i).fvvFluxL lim (alongY (B.toFA n) i k) (alongY (B.toFA V) i k) (alongY (B.toFA w) i k) true
    have key : ∀ k, (g.line B i).total (FR k) (FL k) g.yend = (g.line B i).total (FR (k + τ)) (FL (k + τ)) (g.ystart - 1) := by
      intro k
      refine total_wraps (L := g.line B i) hp hg.y_nonempty ?_ ?_
      · have e0 : g.yend = g.ystart - 1 + (g.yend + 1 - g.ystart) := by ring
        have e1 : g.yend + 1 = g.ystart - 1 + 1 + (g.yend + 1 - g.ystart) := by ring
        have e2 : g.yend - 1 = g.ystart - 1 - 1 + (g.yend + 1 - g.ystart) := by ring
        simp only [FR, Line.fvvFluxR, Line.isLast, hp, Bool.not_true, Bool.and_false, Bool.false_eq_true, if_false, edges, alongY,
          show (g.line B i).yend = g.yend from rfl, show (g.line B i).ystart = g.ystart from rfl,
          hf.at e0, hf.at e1, hf.at e2, hv.at e0, hv.at e1, hv.at e2, hw.at e0, hw.at e1]
      · have e0 : g.yend + 1 = g.ystart + (g.yend + 1 - g.ystart) := by ring
        have e1 : g.yend + 1 + 1 = g.ystart + 1 + (g.yend + 1 - g.ystart) := by ring
        have e2 : g.yend + 1 - 1 = g.ystart - 1 + (g.yend + 1 - g.ystart) := by ring
        simp only [FL, Line.fvvFluxL, Line.isFirst, hp, Bool.not_true, Bool.and_false, Bool.false_eq_true, if_false, edges, alongY,
          show (g.line B i).yend = g.yend from rfl, show (g.line B i).ystart = g.ystart from rfl,
          hf.at e0, hf.at e1, hf.at e2, hv.at e0, hv.at e1, hv.at e2, hw.at e0, hw.at e2]
    have e : ∀ k, ParOps.content (g.line B i) ((g.line B i).divParFvv lim (alongY (B.toFA n) i k) (alongY (B.toFA V) i k) (alongY (B.toFA w) i k) true) =
        ((g.line B i).faceR (g.ystart - 1) * (g.line B i).total (FR (k + τ)) (FL (k + τ)) (g.ystart - 1)
          - (g.line B i).faceR (g.ystart - 1) * (g.line B i).total (FR k) (FL k) (g.ystart - 1)) * (g.dx i g.ystart * g.dz i g.ystart) := by
      intro k
      have hh := ParOps.content_fluxLoop (line_regular hg B i) (line_uniform hs B i) (FR k) (FL k)
      have e1 : (g.line B i).yend = g.yend := rfl
      have e2 : (g.line B i).ystart = g.ystart := rfl
      rw [e1, e2, key k, faceR_wraps h] at hh
      exact hh
    have sh := Equiv.sum_comp (Equiv.addRight τ) (fun k => (g.line B i).faceR (g.ystart - 1) * (g.line B i).total (FR k) (FL k) (g.ystart - 1))
    simp only [Equiv.coe_addRight] at sh
    refine (Finset.sum_congr rfl fun k _ => e k).trans ?_
    rw [← Finset.sum_mul, Finset.sum_sub_distrib, sh, sub_self, zero_mul]

/-! ## A closed chamber -/

/-- A column of open field lines between two walls; the shift to field-aligned coordinates does not change across the walls. -/
structure Walled (g : Grid) (B : RhsOps nz) (o : NMOpts (Cell nz)) (σ : ℤ → ℤ → Equiv.Perm (Fin nz)) (i : ℤ) : Prop where
  open_line : B.periodicY i = false
  first : g.firstY i = true
  last : g.lastY i = true
  ydown : o.sheath_ydown = true
  yup : o.sheath_yup = true
  shift_lower : σ i (g.ystart - 1) = σ i g.ystart
  shift_upper : σ i (g.yend + 1) = σ i g.yend

/-- A column of closed field lines. -/
structure Looped (g : Grid) (B : RhsOps nz) (b : NMBoundaries nz) (τ : Fin nz) (i : ℤ) : Prop where
  ring : Ring g i
  geometry : GeometryWraps g B i
  first : g.firstY i = false
  last : g.lastY i = false
  communicate : ∀ f, FieldWraps g (B.toFA (B.communicate f)) i τ
  T : ∀ f, FieldWraps g (B.toFA f) i τ → FieldWraps g (B.toFA (b.T f)) i τ
  P : ∀ f, FieldWraps g (B.toFA f) i τ → FieldWraps g (B.toFA (b.P f)) i τ
  D : ∀ f, FieldWraps g (B.toFA f) i τ → FieldWraps g (B.toFA (b.D f)) i τ
  neumann : ∀ f, FieldWraps g (B.toFA f) i τ → FieldWraps g (B.toFA (b.neumann f)) i τ

/-- A chamber that no neutrals leave: the diffusion coefficient has the (default) boundary condition zero, every field line ends on two walls or is
closed, and the fields have been communicated. -/
structure Chamber (g : Grid) (B : RhsOps nz) (b : NMBoundaries nz) (o : NMOpts (Cell nz)) (σ : ℤ → ℤ → Equiv.Perm (Fin nz))
    (N P NV : Fld (Cell nz)) : Prop where
  two_cells : g.ystart < g.yend
  relabels : Relabels B σ
  boundaries : BoundariesOnly g B b
  dirichlet : ∀ f, ZeroAtX g (b.D f)
  columns : ∀ i, g.xstart ≤ i ∧ i ≤ g.xend → Walled g B o σ i ∨ ∃ τ, Looped g B b τ i ∧ FieldWraps g (B.toFA (asF3 N)) i τ ∧
    FieldWraps g (B.toFA (asF3 P)) i τ ∧ FieldWraps g (B.toFA (asF3 NV)) i τ

section
variable {g : Grid} {B : RhsOps nz} {b : NMBoundaries nz} {o : NMOpts (Cell nz)} {σ : ℤ → ℤ → Equiv.Perm (Fin nz)} {N P NV : Fld (Cell nz)}

/-- A cell in a column of the domain that is no target. -/
theorem not_target {p : Cell nz} (h : (g.xstart ≤ p.1 ∧ p.1 ≤ g.xend) → g.firstY p.1 = false ∧ g.lastY p.1 = false) :
    ∀ u i inn, ¬ Target (g.nmMesh B b).m o.sheath_ydown o.sheath_yup u i p inn := by
  rintro u q inn (⟨-, hi⟩ | ⟨-, hi⟩)
  · obtain ⟨h1, h2, -⟩ := mem_endCells.1 hi
    have : g.firstY q.1 = false := (h h1).1
    rw [this] at h2
    cases h2
  · obtain ⟨h1, h2, -⟩ := mem_endCells.1 hi
    have : g.lastY q.1 = false := (h h1).2
    rw [this] at h2
    cases h2

theorem target_lower {i : ℤ} (hi : g.xstart ≤ i ∧ i ≤ g.xend) (h : Walled g B o σ i) (k : Fin nz) :
    AtWall o (g.nmMesh B b) false (i, g.ystart, k) (i, g.ystart - 1, k) (i, g.ystart + 1, k) :=
  Target.lower (m := (g.nmMesh B b).m) h.ydown (mem_endCells.2 ⟨hi, h.first, rfl⟩)

theorem target_upper {i : ℤ} (hi : g.xstart ≤ i ∧ i ≤ g.xend) (h : Walled g B o σ i) (k : Fin nz) :
    AtWall o (g.nmMesh B b) true (i, g.yend, k) (i, g.yend + 1, k) (i, g.yend - 1, k) :=
  Target.upper (m := (g.nmMesh B b).m) h.yup (mem_endCells.2 ⟨hi, h.last, rfl⟩)

/-- Wrapping depends on the values in the column, and passes through functions of the values. -/
theorem wraps_congr (hσ : Relabels B σ) {i : ℤ} {τ : Fin nz} {f f' : F3 nz} (h : ∀ j k, f i j k = f' i j k) (hf : FieldWraps g (B.toFA f') i τ) :
    FieldWraps g (B.toFA f) i τ := by
  intro j k
  have := hf j k
  rw [hσ.toFA, hσ.toFA] at this ⊢
  rw [h, h, this]

theorem wraps_map (hσ : Relabels B σ) {i : ℤ} {τ : Fin nz} (F : ℝ → ℝ) {f : F3 nz} (hf : FieldWraps g (B.toFA f) i τ) :
    FieldWraps g (B.toFA fun i j k => F (f i j k)) i τ := by
  intro j k
  have := hf j k
  rw [hσ.toFA, hσ.toFA] at this ⊢
  beta_reduce
  rw [this]

theorem wraps_map2 (hσ : Relabels B σ) {i : ℤ} {τ : Fin nz} (F : ℝ → ℝ → ℝ) {f f' : F3 nz} (hf : FieldWraps g (B.toFA f) i τ)
    (hf' : FieldWraps g (B.toFA f') i τ) : FieldWraps g (B.toFA fun i j k => F (f i j k) (f' i j k)) i τ := by
  intro j k
  have h := hf j k
  have h' := hf' j k
  rw [hσ.toFA, hσ.toFA] at h h' ⊢
  beta_reduce
  rw [h, h']

theorem looped_fields (hσ : Relabels B σ) {i : ℤ} {τ : Fin nz} (h : Looped g B b τ i) (hN : FieldWraps g (B.toFA (asF3 N)) i τ)
    (hP : FieldWraps g (B.toFA (asF3 P)) i τ) (hNV : FieldWraps g (B.toFA (asF3 NV)) i τ) :
    let f := nmFields o (g.nmMesh B b) N P NV
    FieldWraps g (B.toFA (asF3 f.N)) i τ ∧ FieldWraps g (B.toFA (asF3 f.Nlim)) i τ ∧ FieldWraps g (B.toFA (asF3 f.P)) i τ ∧
      FieldWraps g (B.toFA (asF3 f.Plim)) i τ ∧ FieldWraps g (B.toFA (asF3 f.T)) i τ ∧ FieldWraps g (B.toFA (asF3 f.V)) i τ ∧
      FieldWraps g (B.toFA (asF3 f.NV)) i τ := by
  have other : ∀ j k, nmTransform o (g.nmMesh B b) N P NV (i, j, k) = nmCells o (g.nmMesh B b) N P NV (i, j, k) := by
    intro j k
    rw [nmTransform_eq]
    exact bothEnds_other (not_target fun _ => ⟨h.first, h.last⟩)
  have hP0 := wraps_map hσ (fun x => floorTo x 0) hP
  have hN0 := wraps_map hσ (fun x => floorTo x 0) hN
  have hNl := wraps_map hσ (fun x => floorTo (floorTo x 0) o.density_floor) hN
  refine ⟨wraps_congr hσ (fun j k => ?_) hN0, hNl, wraps_congr hσ (fun j k => ?_) hP0,
    wraps_congr hσ (fun j k => ?_) (h.P _ (wraps_map hσ (fun x => floorTo (floorTo x 0) o.pressure_floor) hP)),
    wraps_congr hσ (fun j k => ?_) (h.T _ (wraps_map2 hσ (fun x y => x / y) hP0 hNl)),
    wraps_congr hσ (fun j k => ?_) (h.neumann _ (wraps_map2 hσ (fun x y => x / (o.AA * y)) hNV hNl)), wraps_congr hσ (fun j k => ?_) hNV⟩
  · exact congrArg NMCell.n (other j k)
  · exact congrArg NMCell.p (other j k)
  · exact congrArg NMCell.plim (other j k)
  · exact congrArg NMCell.t (other j k)
  · exact congrArg NMCell.v (other j k)
  · exact congrArg NMCell.nv (other j k)

theorem looped_product (hσ : Relabels B σ) {i : ℤ} {τ : Fin nz} (h : Looped g B b τ i) {T Pl f : Fld (Cell nz)} {nu : Option (Fld (Cell nz))}
    (hf : FieldWraps g (B.toFA (asF3 f)) i τ) : FieldWraps g (B.toFA (asF3 (nmProduct o (g.nmMesh B b) T Pl nu f))) i τ := by
  refine wraps_congr hσ (fun j k => ?_) (h.D _ (wraps_map2 hσ (fun x y => x * y) (h.D _ (h.communicate (asF3 (nmDnn0 o (g.nmMesh B b) T Pl nu)))) hf))
  show nmProduct o (g.nmMesh B b) T Pl nu f (i, j, k) = _
  unfold nmProduct
  rw [nmWall_eq]
  exact NoFlow.noFlowField_other (not_target fun _ => ⟨h.first, h.last⟩)

theorem walled_product (hy : g.ystart < g.yend) (hb : BoundariesOnly g B b) (hσ : Relabels B σ) {i : ℤ} (hi : g.xstart ≤ i ∧ i ≤ g.xend) (h : Walled g B o σ i) {T Pl f : Fld (Cell nz)}
    {nu : Option (Fld (Cell nz))} (k : Fin nz) :
    let a := asF3 (nmProduct o (g.nmMesh B b) T Pl nu f)
    B.toFA a i (g.ystart - 1) k = -B.toFA a i g.ystart k ∧ B.toFA a i (g.yend + 1) k = -B.toFA a i g.yend k := by
  have hg := guards hy hb o
  intro a
  constructor
  · rw [hσ.toFA, hσ.toFA, h.shift_lower]
    have := (wall_no_diffusion (T := T) (Plim := Pl) (nu := nu) hg (target_lower hi h (σ i g.ystart k)) f).2
    unfold mid at this
    show nmProduct o (g.nmMesh B b) T Pl nu f (i, g.ystart - 1, _) = -nmProduct o (g.nmMesh B b) T Pl nu f (i, g.ystart, _)
    linarith
  · rw [hσ.toFA, hσ.toFA, h.shift_upper]
    have := (wall_no_diffusion (T := T) (Plim := Pl) (nu := nu) hg (target_upper hi h (σ i g.yend k)) f).2
    unfold mid at this
    show nmProduct o (g.nmMesh B b) T Pl nu f (i, g.yend + 1, _) = -nmProduct o (g.nmMesh B b) T Pl nu f (i, g.yend, _)
    linarith

theorem walled_velocity (hy : g.ystart < g.yend) (hb : BoundariesOnly g B b) (hσ : Relabels B σ) {i : ℤ} (hi : g.xstart ≤ i ∧ i ≤ g.xend)
    (h : Walled g B o σ i) : ClosedEnds g B (asF3 (nmFields o (g.nmMesh B b) N P NV).V) i := by
  have hg := guards hy hb o
  have key : ∀ {u p q inn}, AtWall o (g.nmMesh B b) u p q inn →
      (nmFields o (g.nmMesh B b) N P NV).V p + (nmFields o (g.nmMesh B b) N P NV).V q = 0 := by
    intro u p q inn ht
    show (nmTransform o (g.nmMesh B b) N P NV p).v + (nmTransform o (g.nmMesh B b) N P NV q).v = 0
    rw [at_wall hg ht, in_domain hg (hg.last _ _ _ _ ht).1]
    exact add_neg_cancel _
  refine ⟨h.open_line, h.first, h.last, fun k => ?_, fun k => ?_⟩
  · rw [hσ.toFA, hσ.toFA, h.shift_upper]
    exact key (target_upper hi h _)
  · rw [hσ.toFA, hσ.toFA, h.shift_lower]
    exact key (target_lower hi h _)

/-- The coefficients of the diffusive fluxes vanish on the radial boundaries. -/
theorem product_zero_at_x (hd : ∀ f, ZeroAtX g (b.D f)) {T Pl f : Fld (Cell nz)} {nu : Option (Fld (Cell nz))} (hg : Guards o (g.nmMesh B b)) (hx : g.xstart ≤ g.xend) :
    ZeroAtX g (asF3 (nmProduct o (g.nmMesh B b) T Pl nu f)) := by
  intro j k hj
  have inn : ∀ i, g.xstart ≤ i ∧ i ≤ g.xend → nmProduct o (g.nmMesh B b) T Pl nu f (i, j, k) =
      b.D (asF3 fun p => (g.nmMesh B b).bndryD ((g.nmMesh B b).communicate (nmDnn0 o (g.nmMesh B b) T Pl nu)) p * f p) i j k := by
    intro i hi
    unfold nmProduct
    exact nmWall_dom hg (dom_iff.2 ⟨hi, hj⟩)
  have out : ∀ i, ¬(g.xstart ≤ i ∧ i ≤ g.xend) → nmProduct o (g.nmMesh B b) T Pl nu f (i, j, k) =
      b.D (asF3 fun p => (g.nmMesh B b).bndryD ((g.nmMesh B b).communicate (nmDnn0 o (g.nmMesh B b) T Pl nu)) p * f p) i j k := by
    intro i hi
    unfold nmProduct
    rw [nmWall_eq]
    exact NoFlow.noFlowField_other (not_target fun h => absurd h hi)
  have := hd (asF3 fun p => (g.nmMesh B b).bndryD ((g.nmMesh B b).communicate (nmDnn0 o (g.nmMesh B b) T Pl nu)) p * f p) j k hj
  show nmProduct _ _ _ _ _ _ _ = -nmProduct _ _ _ _ _ _ _ ∧ nmProduct _ _ _ _ _ _ _ = -nmProduct _ _ _ _ _ _ _
  rw [inn g.xstart ⟨le_rfl, hx⟩, inn g.xend ⟨hx, le_rfl⟩, out (g.xstart - 1) (by omega), out (g.xend + 1) (by omega)]
  exact this

/-! ## Each term only moves things -/

section
variable (hg : Regular g) (hs : Separable g) (hc : Chamber g B b o σ N P NV)
include hg hs hc

/-- A field that repeats on the closed field lines. -/
def Communicated (g : Grid) (B : RhsOps nz) (b : NMBoundaries nz) (N P NV : Fld (Cell nz)) (q : Fld (Cell nz)) : Prop :=
  ∀ i τ, Looped g B b τ i → FieldWraps g (B.toFA (asF3 N)) i τ → FieldWraps g (B.toFA (asF3 P)) i τ → FieldWraps g (B.toFA (asF3 NV)) i τ →
    FieldWraps g (B.toFA (asF3 q)) i τ

omit hg hs in
theorem communicated :
    let f := nmFields o (g.nmMesh B b) N P NV
    Communicated g B b N P NV f.N ∧ Communicated g B b N P NV f.Nlim ∧ Communicated g B b N P NV f.P ∧ Communicated g B b N P NV f.Plim ∧
      Communicated g B b N P NV f.T ∧ Communicated g B b N P NV f.V ∧ Communicated g B b N P NV f.NV ∧
      Communicated g B b N P NV (nmSound o f.T) ∧ Communicated g B b N P NV ((g.nmMesh B b).bndryP fun p => Real.log (f.Plim p)) := by
  intro f
  have w : ∀ i τ, Looped g B b τ i → FieldWraps g (B.toFA (asF3 N)) i τ → FieldWraps g (B.toFA (asF3 P)) i τ →
      FieldWraps g (B.toFA (asF3 NV)) i τ → _ := fun i τ h hN hP hNV => looped_fields (o := o) hc.relabels h hN hP hNV
  refine ⟨fun i τ h hN hP hNV => (w i τ h hN hP hNV).1, fun i τ h hN hP hNV => (w i τ h hN hP hNV).2.1,
    fun i τ h hN hP hNV => (w i τ h hN hP hNV).2.2.1, fun i τ h hN hP hNV => (w i τ h hN hP hNV).2.2.2.1,
    fun i τ h hN hP hNV => (w i τ h hN hP hNV).2.2.2.2.1, fun i τ h hN hP hNV => (w i τ h hN hP hNV).2.2.2.2.2.1,
    fun i τ h hN hP hNV => (w i τ h hN hP hNV).2.2.2.2.2.2, fun i τ h hN hP hNV => ?_, fun i τ h hN hP hNV => ?_⟩
  · exact wraps_map hc.relabels (fun x => if o.lax_flux then Real.sqrt (x * (5 / 3) / o.AA) else 0) (w i τ h hN hP hNV).2.2.2.2.1
  · exact h.P _ (wraps_map hc.relabels Real.log (w i τ h hN hP hNV).2.2.2.1)

/-- Parallel advection. -/
theorem advection_moves {q : Fld (Cell nz)} (hq : Communicated g B b N P NV q) :
    let f := nmFields o (g.nmMesh B b) N P NV
    content g (asF3 ((g.nmMesh B b).divParMod q f.V (nmSound o f.T)).1) = 0 := by
  intro f
  obtain ⟨-, -, -, -, -, hV, -, hS, -⟩ := communicated hc
  show content g (g.divParMod3 B upwind (asF3 q) (asF3 f.V) (asF3 (nmSound o f.T)) true) = 0
  rw [content_parMod hg hs hc.relabels.shifts]
  refine Finset.sum_eq_zero fun i hi => ?_
  rcases hc.columns i (mem_Icc.1 hi) with hw | ⟨τ, h, hN, hP, hNV⟩
  · refine Finset.sum_eq_zero fun k _ => ?_
    have hcl := walled_velocity (N := N) (P := P) (NV := NV) hc.two_cells hc.boundaries hc.relabels (mem_Icc.1 hi) hw
    rw [(closed_no_flow hg hcl upwind (asF3 q) _ k).1, (closed_no_flow hg hcl upwind (asF3 q) _ k).2, sub_zero]
  · rw [Finset.sum_sub_distrib, periodic_flow hg hs h.geometry upwind τ (hq i τ h hN hP hNV) (hV i τ h hN hP hNV) (hS i τ h hN hP hNV), sub_self]

/-- Momentum advection. -/
theorem momentum_advection_moves {q : Fld (Cell nz)} (hq : Communicated g B b N P NV q) :
    let f := nmFields o (g.nmMesh B b) N P NV
    content g (asF3 ((g.nmMesh B b).divParFvv q f.V (nmSound o f.T))) = 0 := by
  intro f
  obtain ⟨-, -, -, -, -, hV, -, hS, -⟩ := communicated hc
  refine content_fvv_columns hg hs hc.relabels.shifts upwind fun i hi => ?_
  rcases hc.columns i hi with hw | ⟨τ, h, hN, hP, hNV⟩
  · exact Or.inl (walled_velocity hc.two_cells hc.boundaries hc.relabels hi hw)
  · exact Or.inr ⟨h.geometry, τ, hq i τ h hN hP hNV, hV i τ h hN hP hNV, hS i τ h hN hP hNV⟩

/-- Diffusion of any field, with a coefficient proportional to `Dnn` times another one. -/
theorem diffusion_moves {q L T Pl : Fld (Cell nz)} {nu : Option (Fld (Cell nz))} (hq : Communicated g B b N P NV q)
    (hL : Communicated g B b N P NV L) (r : ℝ) :
    content g (asF3 ((g.nmMesh B b).divPerp (fun p => r * nmProduct o (g.nmMesh B b) T Pl nu q p) L).1) = 0 := by
  have hsm : ∀ f, asF3 (fun p => r * f p) = fun i j k => r * asF3 (nz := nz) f i j k := fun _ => rfl
  show content g (g.perpFlows B.toBoutOps (asF3 fun p => r * nmProduct o (g.nmMesh B b) T Pl nu q p) (asF3 L)).source = 0
  rw [content_perpFlows hg hs hc.relabels.shifts, radialGain_zero]
  · have h := product_zero_at_x (T := T) (Pl := Pl) (f := q) (nu := nu) hc.dirichlet (guards hc.two_cells hc.boundaries o) hg.x_nonempty
    intro j k hj
    have := h j k hj
    rw [hsm]
    beta_reduce
    rw [this.1, this.2]
    constructor <;> ring
  · intro i hi
    rcases hc.columns i hi with hw | ⟨τ, h, hN, hP, hNV⟩
    · refine Or.inl fun k => ?_
      have := walled_product (T := T) (Pl := Pl) (f := q) (nu := nu) hc.two_cells hc.boundaries hc.relabels hi hw
      rw [hsm]
      simp only [hc.relabels.toFA] at this ⊢
      rw [(this k).1, (this k).2]
      constructor <;> ring
    · refine Or.inr ⟨h.ring, τ, ?_, hL i τ h hN hP hNV⟩
      rw [hsm]
      exact wraps_map hc.relabels (fun x => r * x) (looped_product hc.relabels h (hq i τ h hN hP hNV))

/-- Conduction along the field. -/
theorem conduction_moves {q L T Pl : Fld (Cell nz)} {nu : Option (Fld (Cell nz))} (hq : Communicated g B b N P NV q)
    (hL : Communicated g B b N P NV L) (r : ℝ) :
    content g (asF3 ((g.nmMesh B b).divParK (fun p => r * nmProduct o (g.nmMesh B b) T Pl nu q p) L).1) = 0 := by
  have hsm : ∀ f, asF3 (fun p => r * f p) = fun i j k => r * asF3 (nz := nz) f i j k := fun _ => rfl
  show content g (g.conduction3 B (asF3 fun p => r * nmProduct o (g.nmMesh B b) T Pl nu q p) (asF3 L) false) = 0
  refine content_conduction_closed (velocity := none) (phi := none) (adv := asF3 L)
    (others := fun q' => q' = (asF3 fun p => r * nmProduct o (g.nmMesh B b) T Pl nu q p) ∨ q' = asF3 L) hg hs hc.relabels.shifts (Or.inl rfl)
    (Or.inr rfl) fun i hi => ?_
  rcases hc.columns i hi with hw | ⟨τ, h, hN, hP, hNV⟩
  · exact Or.inl ⟨hw.open_line, hw.first, hw.last, fun V hV => by cases hV⟩
  · refine Or.inr ⟨h.geometry, τ, hL i τ h hN hP hNV, fun V hV => by (cases hV), ?_, fun p hp => by cases hp⟩
    rintro q' (rfl | rfl)
    · rw [hsm]
      exact wraps_map hc.relabels (fun x => r * x) (looped_product hc.relabels h (hq i τ h hN hP hNV))
    · exact hL i τ h hN hP hNV

end

/-- The rates of change of density, pressure and momentum. -/
noncomputable def rates (g : Grid) (B : RhsOps nz) (b : NMBoundaries nz) (o : NMOpts (Cell nz)) (N P NV : Fld (Cell nz)) (s : NMSources (Cell nz)) :
    F3 nz × F3 nz × F3 nz :=
  let r := nmFinally o (g.nmMesh B b) (nmFields o (g.nmMesh B b) N P NV) s
  (asF3 r.1, asF3 r.2.1, asF3 r.2.2)

/-- The flow speed, and pressure, that the equations use. -/
noncomputable def flow (g : Grid) (B : RhsOps nz) (b : NMBoundaries nz) (o : NMOpts (Cell nz)) (N P NV : Fld (Cell nz)) : F3 nz :=
  asF3 (nmFields o (g.nmMesh B b) N P NV).V
noncomputable def pressure (g : Grid) (B : RhsOps nz) (b : NMBoundaries nz) (o : NMOpts (Cell nz)) (N P NV : Fld (Cell nz)) : F3 nz :=
  asF3 (nmFields o (g.nmMesh B b) N P NV).P
noncomputable def viscousForce (g : Grid) (B : RhsOps nz) (b : NMBoundaries nz) (o : NMOpts (Cell nz)) (N P NV : Fld (Cell nz))
    (s : NMSources (Cell nz)) : F3 nz :=
  if o.evolve_momentum && o.neutral_viscosity then asF3 (nmViscosity o (g.nmMesh B b) (nmFields o (g.nmMesh B b) N P NV) s) else 0

/-- No cell is so empty that its rate of change is cut off. -/
def NotEmpty (g : Grid) (o : NMOpts (Cell nz)) (N P : Fld (Cell nz)) : Prop :=
  ∀ p : Cell nz, g.xstart ≤ p.1 ∧ p.1 ≤ g.xend → g.ystart ≤ p.2.1 ∧ p.2.1 ≤ g.yend → o.density_floor * 1e-2 ≤ max (N p) 0 ∧ o.pressure_floor * 1e-2 ≤ max (P p) 0

theorem domain_fields (hc : Chamber g B b o σ N P NV) {p : Cell nz} (hx : g.xstart ≤ p.1 ∧ p.1 ≤ g.xend) (hy : g.ystart ≤ p.2.1 ∧ p.2.1 ≤ g.yend) :
    (nmFields o (g.nmMesh B b) N P NV).N p = max (N p) 0 ∧ (nmFields o (g.nmMesh B b) N P NV).P p = max (P p) 0 := by
  have h := in_domain (N := N) (P := P) (NV := NV) (guards hc.two_cells hc.boundaries o) (dom_iff.2 ⟨hx, hy⟩)
  exact ⟨(congrArg NMCell.n h).trans (floorTo_eq_max _ _), (congrArg NMCell.p h).trans (floorTo_eq_max _ _)⟩

theorem uncut (hc : Chamber g B b o σ N P NV) {s : NMSources (Cell nz)} (hsc : s.scale = none) (hne : NotEmpty g o N P) :
    content g (rates g B b o N P NV s).1 = content g (asF3 (nmDdtN o (g.nmMesh B b) (nmFields o (g.nmMesh B b) N P NV) s)) ∧
    content g (rates g B b o N P NV s).2.1 = content g (asF3 (nmDdtP o (g.nmMesh B b) (nmFields o (g.nmMesh B b) N P NV) s)) := by
  constructor
  · refine content_congr fun i j hi hj => Finset.sum_congr rfl fun k _ => ?_
    have hn := hne (i, j, k) hi hj
    have hd := domain_fields hc (p := (i, j, k)) hi hj
    exact (derivative_unchanged hsc _).1 (hd.1 ▸ hn.1)
  · refine content_congr fun i j hi hj => Finset.sum_congr rfl fun k _ => ?_
    have hn := hne (i, j, k) hi hj
    have hd := domain_fields hc (p := (i, j, k)) hi hj
    exact (derivative_unchanged hsc _).2.1 (hd.2 ▸ hn.2)

section
variable (hg : Regular g) (hs : Separable g) (hc : Chamber g B b o σ N P NV) {s : NMSources (Cell nz)}
include hg hs hc

theorem ddtN_content : content g (asF3 (nmDdtN o (g.nmMesh B b) (nmFields o (g.nmMesh B b) N P NV) s)) =
    content g (asF3 o.density_source) + content g (asF3 (orZero s.density)) := by
  obtain ⟨hN, hNl, -, -, -, -, -, -, hL⟩ := communicated hc
  have a := advection_moves hg hs hc hN
  have d := diffusion_moves hg hs hc (T := (nmFields o (g.nmMesh B b) N P NV).T) (Pl := (nmFields o (g.nmMesh B b) N P NV).Plim) (nu := s.nu) hNl hL 1
  simp only [one_mul] at d
  have e : asF3 (nmDdtN o (g.nmMesh B b) (nmFields o (g.nmMesh B b) N P NV) s) =
      -asF3 ((g.nmMesh B b).divParMod (nmFields o (g.nmMesh B b) N P NV).N (nmFields o (g.nmMesh B b) N P NV).V
          (nmSound o (nmFields o (g.nmMesh B b) N P NV).T)).1
        + asF3 ((g.nmMesh B b).divPerp (nmProduct o (g.nmMesh B b) (nmFields o (g.nmMesh B b) N P NV).T (nmFields o (g.nmMesh B b) N P NV).Plim s.nu
          (nmFields o (g.nmMesh B b) N P NV).Nlim) ((g.nmMesh B b).bndryP fun p => Real.log ((nmFields o (g.nmMesh B b) N P NV).Plim p))).1
        + (asF3 o.density_source + asF3 (orZero s.density)) := rfl
  rw [e, content_add, content_add, content_add, content_neg, a, d]
  ring

/-- **C76.**  Particles: in a closed chamber the number of neutrals changes by the sources and by nothing else. -/
theorem particles_only_from_sources (hsc : s.scale = none) (hne : NotEmpty g o N P) :
    content g (rates g B b o N P NV s).1 = content g (asF3 o.density_source) + content g (asF3 (orZero s.density)) := by
  rw [(uncut hc hsc hne).1, ddtN_content hg hs hc]

theorem viscosity_moves : content g (asF3 (nmViscosity o (g.nmMesh B b) (nmFields o (g.nmMesh B b) N P NV) s)) = 0 := by
  obtain ⟨-, hNl, -, -, -, hV, -, -, -⟩ := communicated hc
  have d := diffusion_moves hg hs hc (T := (nmFields o (g.nmMesh B b) N P NV).T) (Pl := (nmFields o (g.nmMesh B b) N P NV).Plim) (nu := s.nu) hNl hV
    (o.AA * (2 / 5) * (5 / 2))
  have k := conduction_moves hg hs hc (T := (nmFields o (g.nmMesh B b) N P NV).T) (Pl := (nmFields o (g.nmMesh B b) N P NV).Plim) (nu := s.nu) hNl hV
    (o.AA * (2 / 5) * (5 / 2))
  have e : nmEta o (g.nmMesh B b) (nmFields o (g.nmMesh B b) N P NV) s = fun p => o.AA * (2 / 5) * (5 / 2) *
      nmProduct o (g.nmMesh B b) (nmFields o (g.nmMesh B b) N P NV).T (nmFields o (g.nmMesh B b) N P NV).Plim s.nu
        (nmFields o (g.nmMesh B b) N P NV).Nlim p := by
    funext p
    unfold nmEta nmKappa
    ring
  rw [← e] at d k
  have e' : asF3 (nmViscosity o (g.nmMesh B b) (nmFields o (g.nmMesh B b) N P NV) s) =
      o.AA • asF3 ((g.nmMesh B b).divPerp (nmEta o (g.nmMesh B b) (nmFields o (g.nmMesh B b) N P NV) s) (nmFields o (g.nmMesh B b) N P NV).V).1
      + o.AA • asF3 ((g.nmMesh B b).divParK (nmEta o (g.nmMesh B b) (nmFields o (g.nmMesh B b) N P NV) s) (nmFields o (g.nmMesh B b) N P NV).V).1 := rfl
  rw [e', content_add, content_smul', content_smul', d, k]
  ring

/-- **C76.**  Momentum: in a closed chamber it changes by the gradient of the pressure and the sources (friction with other species); viscosity,
diffusion and advection only move it. -/
theorem momentum_balance (hsc : s.scale = none) (hm : o.evolve_momentum = true) :
    content g (rates g B b o N P NV s).2.2 = content g (asF3 (orZero s.momentum)) - content g (B.gradPar (pressure g B b o N P NV)) := by
  obtain ⟨-, hNl, -, -, -, -, hNV, -, hL⟩ := communicated hc
  have a := momentum_advection_moves hg hs hc hNl
  have d := diffusion_moves hg hs hc (T := (nmFields o (g.nmMesh B b) N P NV).T) (Pl := (nmFields o (g.nmMesh B b) N P NV).Plim) (nu := s.nu) hNV hL 1
  have v := viscosity_moves hg hs hc (s := s)
  simp only [one_mul] at d
  have e0 : (rates g B b o N P NV s).2.2 = asF3 (nmDdtNV o (g.nmMesh B b) (nmFields o (g.nmMesh B b) N P NV) s) := by
    funext i j k
    exact (derivative_unchanged hsc _).2.2
  have e : asF3 (nmDdtNV o (g.nmMesh B b) (nmFields o (g.nmMesh B b) N P NV) s) =
      (-o.AA) • asF3 ((g.nmMesh B b).divParFvv (nmFields o (g.nmMesh B b) N P NV).Nlim (nmFields o (g.nmMesh B b) N P NV).V
          (nmSound o (nmFields o (g.nmMesh B b) N P NV).T))
        - B.gradPar (pressure g B b o N P NV)
        + asF3 ((g.nmMesh B b).divPerp (nmProduct o (g.nmMesh B b) (nmFields o (g.nmMesh B b) N P NV).T (nmFields o (g.nmMesh B b) N P NV).Plim s.nu
          (nmFields o (g.nmMesh B b) N P NV).NV) ((g.nmMesh B b).bndryP fun p => Real.log ((nmFields o (g.nmMesh B b) N P NV).Plim p))).1
        + (if o.neutral_viscosity then asF3 (nmViscosity o (g.nmMesh B b) (nmFields o (g.nmMesh B b) N P NV) s) else 0)
        + asF3 (orZero s.momentum) := by
    funext i j k
    show nmDdtNV _ _ _ _ _ = _
    unfold nmDdtNV
    rw [if_pos hm]
    cases o.neutral_viscosity <;> rfl
  have hv : content g (if o.neutral_viscosity then asF3 (nmViscosity o (g.nmMesh B b) (nmFields o (g.nmMesh B b) N P NV) s) else 0) = 0 := by
    split
    · exact v
    · exact content_zero g
  rw [e0, e, content_add, content_add, content_add, content_sub, content_smul', a, d, hv]
  ring

theorem ddtP_content : content g (asF3 (nmDdtP o (g.nmMesh B b) (nmFields o (g.nmMesh B b) N P NV) s)) =
    content g (asF3 o.pressure_source) + 2 / 3 * content g (asF3 (orZero s.energy))
      - 2 / 3 * content g (pressure g B b o N P NV * B.divPar (flow g B b o N P NV))
      - 2 / 3 * content g (flow g B b o N P NV * viscousForce g B b o N P NV s) := by
  obtain ⟨-, hNl, hP, hPl, hT, -, -, -, hL⟩ := communicated hc
  have a := advection_moves hg hs hc hP
  have d := diffusion_moves hg hs hc (T := (nmFields o (g.nmMesh B b) N P NV).T) (Pl := (nmFields o (g.nmMesh B b) N P NV).Plim) (nu := s.nu) hPl hL 1
  have c1 := diffusion_moves hg hs hc (T := (nmFields o (g.nmMesh B b) N P NV).T) (Pl := (nmFields o (g.nmMesh B b) N P NV).Plim) (nu := s.nu) hNl hT (5 / 2)
  have c2 := conduction_moves hg hs hc (T := (nmFields o (g.nmMesh B b) N P NV).T) (Pl := (nmFields o (g.nmMesh B b) N P NV).Plim) (nu := s.nu) hNl hT (5 / 2)
  simp only [one_mul] at d
  have e : asF3 (nmDdtP o (g.nmMesh B b) (nmFields o (g.nmMesh B b) N P NV) s) =
      -asF3 ((g.nmMesh B b).divParMod (nmFields o (g.nmMesh B b) N P NV).P (nmFields o (g.nmMesh B b) N P NV).V
          (nmSound o (nmFields o (g.nmMesh B b) N P NV).T)).1
        - (2 / 3 : ℝ) • (pressure g B b o N P NV * B.divPar (flow g B b o N P NV))
        + (5 / 3 : ℝ) • asF3 ((g.nmMesh B b).divPerp (nmProduct o (g.nmMesh B b) (nmFields o (g.nmMesh B b) N P NV).T
          (nmFields o (g.nmMesh B b) N P NV).Plim s.nu (nmFields o (g.nmMesh B b) N P NV).Plim)
          ((g.nmMesh B b).bndryP fun p => Real.log ((nmFields o (g.nmMesh B b) N P NV).Plim p))).1
        + (if o.neutral_conduction then (2 / 3 : ℝ) • asF3 ((g.nmMesh B b).divPerp (nmKappa o (g.nmMesh B b) (nmFields o (g.nmMesh B b) N P NV) s)
            (nmFields o (g.nmMesh B b) N P NV).T).1 + (2 / 3 : ℝ) • asF3 ((g.nmMesh B b).divParK (nmKappa o (g.nmMesh B b)
            (nmFields o (g.nmMesh B b) N P NV) s) (nmFields o (g.nmMesh B b) N P NV).T).1 else 0)
        + (asF3 o.pressure_source + (2 / 3 : ℝ) • asF3 (orZero s.energy))
        - (2 / 3 : ℝ) • (flow g B b o N P NV * viscousForce g B b o N P NV s) := by
    funext i j k
    show nmDdtP _ _ _ _ _ = _
    unfold nmDdtP viscousForce
    cases o.neutral_conduction <;> cases (o.evolve_momentum && o.neutral_viscosity) <;>
      simp only [Pi.add_apply, Pi.sub_apply, Pi.neg_apply, Pi.mul_apply, Pi.smul_apply, smul_eq_mul, Bool.false_eq_true, if_false, if_true,
        Pi.zero_apply, mul_zero, sub_zero, add_zero] <;>
      simp only [asF3, pressure, flow, Grid.nmMesh, F3.cells] <;> ring
  have hcond : content g (if o.neutral_conduction then (2 / 3 : ℝ) • asF3 ((g.nmMesh B b).divPerp (nmKappa o (g.nmMesh B b)
      (nmFields o (g.nmMesh B b) N P NV) s) (nmFields o (g.nmMesh B b) N P NV).T).1 + (2 / 3 : ℝ) • asF3 ((g.nmMesh B b).divParK
      (nmKappa o (g.nmMesh B b) (nmFields o (g.nmMesh B b) N P NV) s) (nmFields o (g.nmMesh B b) N P NV).T).1 else 0) = 0 := by
    split
    · rw [content_add, content_smul', content_smul']
      have e1 : nmKappa o (g.nmMesh B b) (nmFields o (g.nmMesh B b) N P NV) s = fun p => 5 / 2 * nmProduct o (g.nmMesh B b)
        (nmFields o (g.nmMesh B b) N P NV).T (nmFields o (g.nmMesh B b) N P NV).Plim s.nu (nmFields o (g.nmMesh B b) N P NV).Nlim p := rfl
      rw [e1, c1, c2]
      ring
    · exact content_zero g
  rw [e, content_sub, content_add, content_add, content_add, content_sub, content_neg, content_smul', content_smul', content_add, content_smul',
    content_smul', a, d, hcond]
  ring

/-- **C76.**  Thermal energy: in a closed chamber it changes by the sources, by the work of the pressure and by the work of viscosity; advection,
diffusion and heat conduction only move it. -/
theorem thermal_energy_balance (hsc : s.scale = none) (hne : NotEmpty g o N P) :
    3 / 2 * content g (rates g B b o N P NV s).2.1 = 3 / 2 * content g (asF3 o.pressure_source) + content g (asF3 (orZero s.energy))
      - content g (pressure g B b o N P NV * B.divPar (flow g B b o N P NV))
      - content g (flow g B b o N P NV * viscousForce g B b o N P NV s) := by
  rw [(uncut hc hsc hne).2, ddtP_content hg hs hc]
  ring

/-- **C76.**  Without the restriction on empty cells: the cut-off never removes particles or heat, it can only create them. -/
theorem cutoff_creates (hp : Positive g) (hsc : s.scale = none) :
    content g (asF3 o.density_source) + content g (asF3 (orZero s.density)) ≤ content g (rates g B b o N P NV s).1 := by
  rw [← ddtN_content hg hs hc]
  unfold content
  refine Finset.sum_le_sum fun i _ => Finset.sum_le_sum fun j _ => Finset.sum_le_sum fun k _ => ?_
  have hv : 0 ≤ volume g i j := by
    have := hp.J i j; have := hp.dx i j; have := hp.dy i j; have := hp.dz i j
    unfold volume
    positivity
  refine mul_le_mul_of_nonneg_right ?_ hv
  show nmDdtN _ _ _ _ _ ≤ nmScale s (nmFloor _ _ _) _
  unfold nmScale nmFloor
  rw [hsc]
  dsimp only
  split
  · rename_i h
    exact h.2.le
  · exact le_rfl

end

/-! ## Total energy -/

/-- Behind a wall the density does not matter for the flow of momentum. -/
theorem fvv_behind_wall {L : Line} (hc : ParOps.Closed L) {n n' v w : ℤ → ℝ} (hu : v L.yend + v (L.yend + 1) = 0)
    (hl : v L.ystart + v (L.ystart - 1) = 0) (hn : ∀ j, L.ystart ≤ j ∧ j ≤ L.yend → n j = n' j) (j : ℤ) :
    L.divParFvv upwind n v w true j = L.divParFvv upwind n' v w true j := by
  have hys : L.ys = L.ystart := by unfold Line.ys; rw [hc.1, hc.2.2]; rfl
  have hye : L.ye = L.yend := by unfold Line.ye; rw [hc.2.1, hc.2.2]; rfl
  have R : ∀ j, L.ystart ≤ j ∧ j ≤ L.yend → L.fvvFluxR upwind n v w true j = L.fvvFluxR upwind n' v w true j := by
    intro j hj
    unfold Line.fvvFluxR
    by_cases h : L.isLast j = true
    · have e : j = L.yend := by
        unfold Line.isLast at h
        simp only [Bool.and_eq_true, beq_iff_eq] at h
        exact h.1.2
      dsimp only
      rw [if_pos h, if_pos h, e, hu]
      norm_num
    · dsimp only
      rw [if_neg h, if_neg h]
      unfold edges upwind
      dsimp only
      rw [hn j hj]
  have Lf : ∀ j, L.ystart ≤ j ∧ j ≤ L.yend → L.fvvFluxL upwind n v w true j = L.fvvFluxL upwind n' v w true j := by
    intro j hj
    unfold Line.fvvFluxL
    by_cases h : L.isFirst j = true
    · have e : j = L.ystart := by
        unfold Line.isFirst at h
        simp only [Bool.and_eq_true, beq_iff_eq] at h
        exact h.1.2
      dsimp only
      rw [if_pos h, if_pos h, e, hl]
      norm_num
    · dsimp only
      rw [if_neg h, if_neg h]
      unfold edges upwind
      dsimp only
      rw [hn j hj]
  have t : ∀ j, L.total (L.fvvFluxR upwind n v w true) (L.fvvFluxL upwind n v w true) j =
      L.total (L.fvvFluxR upwind n' v w true) (L.fvvFluxL upwind n' v w true) j := by
    intro j
    unfold Line.total
    rw [hys, hye]
    congr 1
    · split
      · exact R j (by assumption)
      · rfl
    · split
      · exact Lf (j + 1) (by assumption)
      · rfl
  unfold Line.divParFvv
  rw [L.fluxLoop_result, L.fluxLoop_result, t, t]

/-- The sources of energy: heat, work done on the flow, and the kinetic energy of what is added to the density. -/
noncomputable def energySources (o : NMOpts (Cell nz)) (s : NMSources (Cell nz)) (V : F3 nz) : F3 nz :=
  (3 / 2 : ℝ) • asF3 o.pressure_source + asF3 (orZero s.energy) + V * asF3 (orZero s.momentum)
    - (o.AA / 2) • (V * V * (asF3 o.density_source + asF3 (orZero s.density)))

/-- Change of kinetic energy by diffusion of particles and momentum across the field. -/
noncomputable def crossMixing (g : Grid) (B : RhsOps nz) (b : NMBoundaries nz) (o : NMOpts (Cell nz)) (N P NV : Fld (Cell nz))
    (s : NMSources (Cell nz)) : F3 nz :=
  let c := g.nmMesh B b
  let f := nmFields o c N P NV
  let V := flow g B b o N P NV
  let logP := c.bndryP fun p => Real.log (f.Plim p)
  V * asF3 (c.divPerp (nmProduct o c f.T f.Plim s.nu f.NV) logP).1 - (o.AA / 2) • (V * V * asF3 (c.divPerp (nmProduct o c f.T f.Plim s.nu f.Nlim) logP).1)

/-- The density that the equations use, and the wave speed. -/
noncomputable def density (g : Grid) (B : RhsOps nz) (b : NMBoundaries nz) (o : NMOpts (Cell nz)) (N P NV : Fld (Cell nz)) : F3 nz :=
  asF3 (nmFields o (g.nmMesh B b) N P NV).N
noncomputable def sound (g : Grid) (B : RhsOps nz) (b : NMBoundaries nz) (o : NMOpts (Cell nz)) (N P NV : Fld (Cell nz)) : F3 nz :=
  asF3 (nmSound o (nmFields o (g.nmMesh B b) N P NV).T)

theorem fvv_density (hc : Chamber g B b o σ N P NV) (h0 : 0 ≤ o.density_floor) (hd : ∀ p, o.density_floor ≤ N p) :
    content g (flow g B b o N P NV * g.divParFvv3 B upwind (asF3 (nmFields o (g.nmMesh B b) N P NV).Nlim) (flow g B b o N P NV)
        (sound g B b o N P NV) true) =
      content g (flow g B b o N P NV * g.divParFvv3 B upwind (density g B b o N P NV) (flow g B b o N P NV) (sound g B b o N P NV) true) := by
  unfold Grid.divParFvv3
  rw [content_mul_fromFA g hc.relabels, content_mul_fromFA g hc.relabels]
  refine content_congr fun i j hi hj => Finset.sum_congr rfl fun k _ => ?_
  simp only [Pi.mul_apply]
  congr 1
  have hlim : ∀ p, (nmFields o (g.nmMesh B b) N P NV).Nlim p = N p := by
    intro p
    show floorTo (floorTo (N p) 0) o.density_floor = N p
    rw [floorTo_eq_max, floorTo_eq_max, max_eq_left (h0.trans (hd p)), max_eq_left (hd p)]
  rcases hc.columns i hi with hw | ⟨τ, h, hN, hP, hNV⟩
  · have hcl := walled_velocity (N := N) (P := P) (NV := NV) hc.two_cells hc.boundaries hc.relabels hi hw
    refine fvv_behind_wall (closed_line hcl) (hcl.upper k) (hcl.lower k) (fun j' hj' => ?_) j
    simp only [alongY, hc.relabels.toFA]
    show (nmFields o (g.nmMesh B b) N P NV).Nlim (i, j', _) = (nmFields o (g.nmMesh B b) N P NV).N (i, j', _)
    rw [hlim, (domain_fields hc (p := (i, j', σ i j' k)) hi hj').1, max_eq_left (h0.trans (hd _))]
  · congr 1
    funext j'
    simp only [alongY, hc.relabels.toFA]
    show (nmFields o (g.nmMesh B b) N P NV).Nlim (i, j', _) = (nmTransform o (g.nmMesh B b) N P NV (i, j', _)).n
    rw [hlim, nmTransform_eq, bothEnds_other (not_target fun _ => ⟨h.first, h.last⟩)]
    show N (i, j', _) = floorTo (N (i, j', _)) 0
    rw [floorTo_eq_max, max_eq_left (h0.trans (hd _))]

theorem content_loss' (hc : Chamber g B b o σ N P NV) (h0 : 0 ≤ o.density_floor) (hd : ∀ p, o.density_floor ≤ N p) :
    content g (flow g B b o N P NV * g.divParFvv3 B upwind (asF3 (nmFields o (g.nmMesh B b) N P NV).Nlim) (flow g B b o N P NV)
        (sound g B b o N P NV) true)
      - 1 / 2 * content g (flow g B b o N P NV * flow g B b o N P NV * g.divParMod3 B upwind (density g B b o N P NV) (flow g B b o N P NV)
        (sound g B b o N P NV) true) =
      ∑ i ∈ Icc g.xstart g.xend, ∑ k, lineLoss g B upwind (density g B b o N P NV) (flow g B b o N P NV) (sound g B b o N P NV) i k := by
  rw [fvv_density hc h0 hd]
  exact MomentumEquation.content_loss hc.relabels upwind _ _ _

theorem rates_in_domain (hc : Chamber g B b o σ N P NV) {s : NMSources (Cell nz)} (hsc : s.scale = none) (hne : NotEmpty g o N P) {i j : ℤ}
    (hi : g.xstart ≤ i ∧ i ≤ g.xend) (hj : g.ystart ≤ j ∧ j ≤ g.yend) (k : Fin nz) :
    (rates g B b o N P NV s).1 i j k = nmDdtN o (g.nmMesh B b) (nmFields o (g.nmMesh B b) N P NV) s (i, j, k) ∧
    (rates g B b o N P NV s).2.1 i j k = nmDdtP o (g.nmMesh B b) (nmFields o (g.nmMesh B b) N P NV) s (i, j, k) ∧
    (rates g B b o N P NV s).2.2 i j k = nmDdtNV o (g.nmMesh B b) (nmFields o (g.nmMesh B b) N P NV) s (i, j, k) := by
  have hn := hne (i, j, k) hi hj
  have hd := domain_fields hc (p := (i, j, k)) hi hj
  exact ⟨(derivative_unchanged hsc _).1 (hd.1 ▸ hn.1), (derivative_unchanged hsc _).2.1 (hd.2 ▸ hn.2), (derivative_unchanged hsc _).2.2⟩

/-- Work of the pressure: what the expansion of the gas takes from the heat is what the pressure gradient gives to the flow. -/
def WorkBalanced (g : Grid) (B : RhsOps nz) (P V : F3 nz) : Prop := content g (P * B.divPar V) + content g (V * B.gradPar P) = 0

/-- **C76.**  Total energy `∫ (3/2 P + AA N V²/2)` of the neutrals in a closed chamber: it changes by the sources, by the kinetic energy that the
upwind scheme dissipates (and that is given to nobody), and by the mixing of kinetic energy by cross-field diffusion.  The work of the pressure and of
viscosity, advection of heat, diffusion of heat and heat conduction only convert or move energy. -/
theorem total_energy (hg : Regular g) (hs : Separable g) (hc : Chamber g B b o σ N P NV) {s : NMSources (Cell nz)} (hsc : s.scale = none)
    (hm : o.evolve_momentum = true) (hne : NotEmpty g o N P) (h0 : 0 ≤ o.density_floor) (hd : ∀ p, o.density_floor ≤ N p)
    (hw : WorkBalanced g B (pressure g B b o N P NV) (flow g B b o N P NV)) :
    content g (MomentumEquation.energyRate o.AA (flow g B b o N P NV) (rates g B b o N P NV s).1 (rates g B b o N P NV s).2.2
        (rates g B b o N P NV s).2.1) =
      content g (energySources o s (flow g B b o N P NV)) + content g (crossMixing g B b o N P NV s)
        - o.AA * ∑ i ∈ Icc g.xstart g.xend, ∑ k, lineLoss g B upwind (density g B b o N P NV) (flow g B b o N P NV) (sound g B b o N P NV) i k := by
  set f := nmFields o (g.nmMesh B b) N P NV with hf
  set V := flow g B b o N P NV with hV
  have hP := ddtP_content hg hs hc (s := s)
  have e1 : content g (MomentumEquation.energyRate o.AA V (rates g B b o N P NV s).1 (rates g B b o N P NV s).2.2 (rates g B b o N P NV s).2.1) =
      content g ((3 / 2 : ℝ) • asF3 (nmDdtP o (g.nmMesh B b) f s) + V * asF3 (nmDdtNV o (g.nmMesh B b) f s)
        - (o.AA / 2) • (V * V * asF3 (nmDdtN o (g.nmMesh B b) f s))) := by
    refine content_congr fun i j hi hj => Finset.sum_congr rfl fun k _ => ?_
    obtain ⟨r1, r2, r3⟩ := rates_in_domain hc hsc hne hi hj k
    simp only [MomentumEquation.energyRate, Pi.add_apply, Pi.sub_apply, Pi.mul_apply, Pi.smul_apply, smul_eq_mul, r1, r2, r3]
    rfl
  have e2 : V * asF3 (nmDdtNV o (g.nmMesh B b) f s) - (o.AA / 2) • (V * V * asF3 (nmDdtN o (g.nmMesh B b) f s)) =
      crossMixing g B b o N P NV s + V * viscousForce g B b o N P NV s - V * B.gradPar (pressure g B b o N P NV)
        + V * asF3 (orZero s.momentum) - (o.AA / 2) • (V * V * (asF3 o.density_source + asF3 (orZero s.density)))
        - o.AA • (V * g.divParFvv3 B upwind (asF3 f.Nlim) V (sound g B b o N P NV) true)
        + (o.AA / 2) • (V * V * g.divParMod3 B upwind (density g B b o N P NV) V (sound g B b o N P NV) true) := by
    set X := asF3 ((g.nmMesh B b).divPerp (nmProduct o (g.nmMesh B b) f.T f.Plim s.nu f.NV) ((g.nmMesh B b).bndryP fun p => Real.log (f.Plim p))).1 with hX
    set Y := asF3 ((g.nmMesh B b).divPerp (nmProduct o (g.nmMesh B b) f.T f.Plim s.nu f.Nlim) ((g.nmMesh B b).bndryP fun p => Real.log (f.Plim p))).1 with hY
    have c : crossMixing g B b o N P NV s = V * X - (o.AA / 2) • (V * V * Y) := rfl
    have n : asF3 (nmDdtN o (g.nmMesh B b) f s) = -g.divParMod3 B upwind (density g B b o N P NV) V (sound g B b o N P NV) true + Y
        + (asF3 o.density_source + asF3 (orZero s.density)) := rfl
    have m : asF3 (nmDdtNV o (g.nmMesh B b) f s) = (-o.AA) • g.divParFvv3 B upwind (asF3 f.Nlim) V (sound g B b o N P NV) true
        - B.gradPar (pressure g B b o N P NV) + X + viscousForce g B b o N P NV s + asF3 (orZero s.momentum) := by
      funext i j k
      show nmDdtNV _ _ _ _ _ = _
      unfold nmDdtNV viscousForce
      rw [if_pos hm, hm, Bool.true_and]
      cases o.neutral_viscosity <;> rfl
    rw [c, n, m]
    funext i j k
    simp only [Pi.add_apply, Pi.sub_apply, Pi.mul_apply, Pi.smul_apply, smul_eq_mul, Pi.neg_apply]
    ring
  have loss := content_loss' hc h0 hd
  have h2 := content_sub g (V * asF3 (nmDdtNV o (g.nmMesh B b) f s)) ((o.AA / 2) • (V * V * asF3 (nmDdtN o (g.nmMesh B b) f s)))
  rw [e2, content_add, content_sub, content_sub, content_add, content_sub, content_add, content_smul', content_smul', content_smul'] at h2
  rw [e1, content_sub, content_add, content_smul', hP]
  have hS : content g (energySources o s V) = 3 / 2 * content g (asF3 o.pressure_source) + content g (asF3 (orZero s.energy))
      + content g (V * asF3 (orZero s.momentum)) - o.AA / 2 * content g (V * V * (asF3 o.density_source + asF3 (orZero s.density))) := by
    unfold energySources
    rw [content_sub, content_add, content_add, content_smul', content_smul']
  rw [hS]
  unfold WorkBalanced at hw
  linear_combination -h2 - hw - o.AA * loss

/-- Central differences along the field, `Grad_par(f) = DDY(f) / sqrt(g_22)` and `Div_par(f) = B Grad_par(f / B)`, in a field-aligned coordinate
system (`J B` proportional to `sqrt(g_22)`). -/
structure Central (g : Grid) (B : RhsOps nz) : Prop where
  grad : ∀ f i j k, B.toFA (B.gradPar f) i j k = (B.toFA f i (j + 1) k - B.toFA f i (j - 1) k) / (2 * g.dy i j) / Real.sqrt (B.g_22 i j)
  div : ∀ f i j k, B.toFA (B.divPar f) i j k =
    g.Bxy i j * ((B.toFA f i (j + 1) k / g.Bxy i (j + 1) - B.toFA f i (j - 1) k / g.Bxy i (j - 1)) / (2 * g.dy i j) / Real.sqrt (B.g_22 i j))
  metric : ∃ c, ∀ i j, g.J i j * g.Bxy i j = c * Real.sqrt (B.g_22 i j)
  B_ne : ∀ i j, g.Bxy i j ≠ 0
  g22_pos : ∀ i j, 0 < B.g_22 i j

theorem content_toFA (g : Grid) {B : RhsOps nz} (h : Relabels B σ) (f : F3 nz) : content g (B.toFA f) = content g f := by
  refine content_congr fun i j _ _ => ?_
  simp only [h.toFA]
  exact Equiv.sum_comp (σ i j) fun k => f i j k

/-- **C76.**  With central differences the work is balanced exactly, in every closed chamber. -/
theorem central_work (hg : Regular g) (hs : Separable g) (hc : Chamber g B b o σ N P NV) (hd : Central g B)
    (hwall : ∀ i, g.xstart ≤ i ∧ i ≤ g.xend → Walled g B o σ i → g.Bxy i (g.ystart - 1) = g.Bxy i g.ystart ∧ g.Bxy i (g.yend + 1) = g.Bxy i g.yend) :
    WorkBalanced g B (pressure g B b o N P NV) (flow g B b o N P NV) := by
  obtain ⟨c, hm⟩ := hd.metric
  obtain ⟨-, -, hcP, -, -, hcV, -, -, -⟩ := communicated hc
  set p := pressure g B b o N P NV with hp
  set V := flow g B b o N P NV with hV
  let F := fun (i j : ℤ) (k : Fin nz) => B.toFA p i j k * (B.toFA V i (j + 1) k / g.Bxy i (j + 1)) + B.toFA V i j k / g.Bxy i j * B.toFA p i (j + 1) k
  have cell : ∀ i j k, B.toFA (p * B.divPar V + V * B.gradPar p) i j k * volume g i j = (F i j k - F i (j - 1) k) * (c / 2 * (g.dx i g.ystart * g.dz i g.ystart)) := by
    intro i j k
    have e : B.toFA (p * B.divPar V + V * B.gradPar p) i j k = B.toFA p i j k * B.toFA (B.divPar V) i j k + B.toFA V i j k * B.toFA (B.gradPar p) i j k := by
      simp only [hc.relabels.toFA, Pi.add_apply, Pi.mul_apply]
    rw [e, hd.grad, hd.div]
    unfold volume
    have hr : Real.sqrt (B.g_22 i j) ≠ 0 := (Real.sqrt_pos.2 (hd.g22_pos i j)).ne'
    have hJ : g.J i j = c * Real.sqrt (B.g_22 i j) / g.Bxy i j := by rw [eq_div_iff (hd.B_ne i j)]; exact hm i j
    rw [hJ, hs.dx i j g.ystart, hs.dz i i j g.ystart]
    have h1 := hd.B_ne i j
    have h2 := hg.dy_ne i j
    simp only [F, sub_add_cancel]
    have h3 := hd.B_ne i (j + 1)
    have h4 := hd.B_ne i (j - 1)
    field_simp
    ring
  have even : ∀ {u q q' inn}, AtWall o (g.nmMesh B b) u q q' inn → (nmFields o (g.nmMesh B b) N P NV).P q' = (nmFields o (g.nmMesh B b) N P NV).P q := by
    intro u q q' inn ht
    have hgd := guards hc.two_cells hc.boundaries o
    show (nmTransform o (g.nmMesh B b) N P NV q').p = (nmTransform o (g.nmMesh B b) N P NV q).p
    rw [at_wall hgd ht, in_domain hgd (hgd.last _ _ _ _ ht).1]
    rfl
  unfold WorkBalanced
  rw [← content_add, ← content_toFA g hc.relabels]
  unfold content
  refine Finset.sum_eq_zero fun i hi => ?_
  rw [Finset.sum_comm]
  have col : ∀ k, ∑ j ∈ Icc g.ystart g.yend, B.toFA (p * B.divPar V + V * B.gradPar p) i j k * volume g i j =
      (F i g.yend k - F i (g.ystart - 1) k) * (c / 2 * (g.dx i g.ystart * g.dz i g.ystart)) := by
    intro k
    rw [Finset.sum_congr rfl fun j _ => cell i j k, ← Finset.sum_mul, sum_telescope (fun j => F i j k) g.ystart g.yend (by have := hg.y_nonempty; omega)]
  rw [Finset.sum_congr rfl fun k _ => col k, ← Finset.sum_mul, Finset.sum_sub_distrib]
  have ends : ∑ k, F i g.yend k = ∑ k, F i (g.ystart - 1) k := by
    rcases hc.columns i (mem_Icc.1 hi) with hw | ⟨τ, h, hN, hP, hNV⟩
    · have hcl : ClosedEnds g B V i := walled_velocity hc.two_cells hc.boundaries hc.relabels (mem_Icc.1 hi) hw
      obtain ⟨b1, b2⟩ := hwall i (mem_Icc.1 hi) hw
      have z1 : ∀ k, F i g.yend k = 0 := by
        intro k
        have v : B.toFA V i (g.yend + 1) k = -B.toFA V i g.yend k := by have := hcl.upper k; linear_combination this
        have q : B.toFA p i (g.yend + 1) k = B.toFA p i g.yend k := by
          rw [hc.relabels.toFA, hc.relabels.toFA, hw.shift_upper]
          exact even (target_upper (mem_Icc.1 hi) hw _)
        simp only [F, v, q, b2]
        ring
      have z2 : ∀ k, F i (g.ystart - 1) k = 0 := by
        intro k
        have v : B.toFA V i (g.ystart - 1) k = -B.toFA V i g.ystart k := by have := hcl.lower k; linear_combination this
        have q : B.toFA p i (g.ystart - 1) k = B.toFA p i g.ystart k := by
          rw [hc.relabels.toFA, hc.relabels.toFA, hw.shift_lower]
          exact even (target_lower (mem_Icc.1 hi) hw _)
        simp only [F, v, q, b1, sub_add_cancel]
        ring
      simp only [z1, z2]
    · have e0 : g.yend = g.ystart - 1 + (g.yend + 1 - g.ystart) := by ring
      have e1 : g.yend + 1 = g.ystart + (g.yend + 1 - g.ystart) := by ring
      have hV' := hcV i τ h hN hP hNV
      have hP' := hcP i τ h hN hP hNV
      have B0 := h.ring.Bxy (g.ystart - 1)
      have B1 := h.ring.Bxy g.ystart
      rw [← e0] at B0
      rw [← e1] at B1
      have key : ∀ k, F i g.yend k = F i (g.ystart - 1) (k + τ) := by
        intro k
        simp only [F, sub_add_cancel]
        rw [B0, B1]
        have a1 : B.toFA p i g.yend k = B.toFA p i (g.ystart - 1) (k + τ) := hP'.at e0 k
        have a2 : B.toFA p i (g.yend + 1) k = B.toFA p i g.ystart (k + τ) := hP'.at e1 k
        have a3 : B.toFA V i g.yend k = B.toFA V i (g.ystart - 1) (k + τ) := hV'.at e0 k
        have a4 : B.toFA V i (g.yend + 1) k = B.toFA V i g.ystart (k + τ) := hV'.at e1 k
        rw [a1, a2, a3, a4]
      rw [Finset.sum_congr rfl fun k _ => key k]
      exact Equiv.sum_comp (Equiv.addRight τ) fun k => F i (g.ystart - 1) k
  rw [ends, sub_self, zero_mul]

/-! ## The dissipated energy is never negative -/

/-- On a line between two walls: the upwind scheme takes kinetic energy, and never gives any. -/
theorem upwind_dissipates {L : Line} (hr : ParOps.Regular L) (hu : ParOps.UniformPerp L) (hp : ParOps.Positive L) (hc : ParOps.Closed L) {n v w : ℤ → ℝ}
    (hU : v L.yend + v (L.yend + 1) = 0) (hL : v L.ystart + v (L.ystart - 1) = 0) (hn : ∀ j, L.ystart ≤ j ∧ j ≤ L.yend → 0 ≤ n j) :
    0 ≤ ParOps.content L (ParOps.kineticLoss L upwind n v w) := by
  have hys : L.ys = L.ystart := by unfold Line.ys; rw [hc.1, hc.2.2]; rfl
  have hye : L.ye = L.yend := by unfold Line.ye; rw [hc.2.1, hc.2.2]; rfl
  set A := L.total (L.fvvFluxR upwind n v w true) (L.fvvFluxL upwind n v w true) with hA
  set M := L.total (L.modFluxR upwind n v w true) (L.modFluxL upwind n v w true) with hM
  have hend := hr.nonempty
  have lastA : A L.yend = 0 ∧ M L.yend = 0 := by
    rw [hA, hM]
    unfold Line.total
    rw [hys, hye, if_pos ⟨hend, le_rfl⟩, if_neg (by omega), if_pos ⟨hend, le_rfl⟩, if_neg (by omega)]
    have e : L.isLast L.yend = true := by unfold Line.isLast; rw [hc.2.1, hc.2.2]; simp
    unfold Line.fvvFluxR Line.modFluxR
    dsimp only
    rw [if_pos e, if_pos e, if_pos rfl, if_pos rfl, hU]
    norm_num
  have firstA : A (L.ystart - 1) = 0 ∧ M (L.ystart - 1) = 0 := by
    rw [hA, hM]
    unfold Line.total
    rw [hys, hye, sub_add_cancel, if_neg (by omega), if_pos ⟨le_rfl, hend⟩, if_neg (by omega), if_pos ⟨le_rfl, hend⟩]
    have e : L.isFirst L.ystart = true := by unfold Line.isFirst; rw [hc.1, hc.2.2]; simp
    unfold Line.fvvFluxL Line.modFluxL
    dsimp only
    rw [if_pos e, if_pos e, if_pos rfl, if_pos rfl, hL]
    norm_num
  let G := fun j => L.faceR j * (v (j + 1) * A j - v (j + 1) ^ 2 / 2 * M j)
  have cell : ∀ j ∈ Icc L.ystart L.yend, ParOps.kineticLoss L upwind n v w j * ParOps.volume L j =
      (L.faceR j * ((v j - v (j + 1)) * A j - (v j ^ 2 - v (j + 1) ^ 2) / 2 * M j) + (G j - G (j - 1))) * (L.dx L.ystart * L.dz L.ystart) := by
    intro j hj
    obtain ⟨h1, h2⟩ := mem_Icc.1 hj
    unfold ParOps.kineticLoss Line.divParFvv Line.divParMod ParOps.volume
    rw [L.fluxLoop_result, L.fluxLoop_result, (hu j L.ystart).1, (hu j L.ystart).2]
    have := hr.J_ne j h1 h2
    have := hr.dy_ne j h1 h2
    simp only [G, sub_add_cancel, ← hA, ← hM]
    field_simp
    ring
  unfold ParOps.content
  rw [Finset.sum_congr rfl cell, ← Finset.sum_mul, Finset.sum_add_distrib, sum_telescope G L.ystart L.yend (by omega)]
  have g0 : G L.yend = 0 ∧ G (L.ystart - 1) = 0 := by
    simp only [G, lastA.1, lastA.2, firstA.1, firstA.2]
    norm_num
  rw [g0.1, g0.2, sub_self, add_zero]
  refine mul_nonneg (Finset.sum_nonneg fun j hj => ?_) (mul_pos (hp.dx _) (hp.dz _)).le
  obtain ⟨h1, h2⟩ := mem_Icc.1 hj
  rcases eq_or_lt_of_le h2 with rfl | h3
  · rw [lastA.1, lastA.2]
    norm_num
  · have hf : 0 ≤ L.faceR j := (hp.faceR_pos j).le
    refine mul_nonneg hf ?_
    have e1 : L.isLast j = false := by unfold Line.isLast; simp; intro _ h; omega
    have e2 : L.isFirst (j + 1) = false := by unfold Line.isFirst; simp; intro _ h; omega
    have a1 : A j = n j * 0.5 * (v j + max4 (w j) (w (j + 1)) |v j| |v (j + 1)|) * v j
        + n (j + 1) * 0.5 * (v (j + 1) - max4 (w (j + 1)) (w j) |v (j + 1)| |v j|) * v (j + 1) := by
      rw [hA]
      unfold Line.total
      rw [hys, hye, if_pos ⟨h1, h2⟩, if_pos ⟨by omega, by omega⟩]
      unfold Line.fvvFluxR Line.fvvFluxL
      dsimp only
      rw [e1, e2, add_sub_cancel_right]
      rfl
    have a2 : M j = n j * 0.5 * (v j + max4 (w j) (w (j + 1)) |v j| |v (j + 1)|)
        + n (j + 1) * 0.5 * (v (j + 1) - max4 (w (j + 1)) (w j) |v (j + 1)| |v j|) := by
      rw [hM]
      unfold Line.total
      rw [hys, hye, if_pos ⟨h1, h2⟩, if_pos ⟨by omega, by omega⟩]
      unfold Line.modFluxR Line.modFluxL
      dsimp only
      rw [e1, e2, add_sub_cancel_right]
      rfl
    have m1 : |v j| ≤ max4 (w j) (w (j + 1)) |v j| |v (j + 1)| := le_max_of_le_right (le_max_left _ _)
    have m2 : |v (j + 1)| ≤ max4 (w (j + 1)) (w j) |v (j + 1)| |v j| := le_max_of_le_right (le_max_left _ _)
    have r1 : 0 ≤ n j * (v j + max4 (w j) (w (j + 1)) |v j| |v (j + 1)|) :=
      mul_nonneg (hn j ⟨h1, h2⟩) (by have := neg_abs_le (v j); linarith)
    have r2 : 0 ≤ n (j + 1) * (max4 (w (j + 1)) (w j) |v (j + 1)| |v j| - v (j + 1)) :=
      mul_nonneg (hn (j + 1) ⟨by omega, by omega⟩) (by have := le_abs_self (v (j + 1)); linarith)
    rw [a1, a2]
    have := mul_nonneg (add_nonneg r1 r2) (sq_nonneg (v j - v (j + 1)))
    refine le_of_le_of_eq (div_nonneg this (show (0 : ℝ) ≤ 4 by norm_num)) ?_
    ring

/-- **C76.**  Between walls the neutrals never gain energy from the numerical scheme along the field: the energy grows by the sources and the
cross-field mixing at most. -/
theorem energy_not_created (hg : Regular g) (hp : Positive g) (hs : Separable g) (h22 : ∀ i j, 0 < B.g_22 i j) (hc : Chamber g B b o σ N P NV)
    (hw : ∀ i, g.xstart ≤ i ∧ i ≤ g.xend → Walled g B o σ i) {s : NMSources (Cell nz)} (hsc : s.scale = none)
    (hm : o.evolve_momentum = true) (hA : 0 ≤ o.AA) (hne : NotEmpty g o N P) (h0 : 0 ≤ o.density_floor) (hd : ∀ p, o.density_floor ≤ N p)
    (hwk : WorkBalanced g B (pressure g B b o N P NV) (flow g B b o N P NV)) :
    content g (MomentumEquation.energyRate o.AA (flow g B b o N P NV) (rates g B b o N P NV s).1 (rates g B b o N P NV s).2.2
        (rates g B b o N P NV s).2.1) ≤
      content g (energySources o s (flow g B b o N P NV)) + content g (crossMixing g B b o N P NV s) := by
  rw [total_energy hg hs hc hsc hm hne h0 hd hwk]
  refine sub_le_self _ (mul_nonneg hA (Finset.sum_nonneg fun i hi => Finset.sum_nonneg fun k _ => ?_))
  have hi := mem_Icc.1 hi
  have hcl : ClosedEnds g B (flow g B b o N P NV) i := walled_velocity hc.two_cells hc.boundaries hc.relabels hi (hw i hi)
  refine upwind_dissipates (line_regular hg B i) (line_uniform hs B i) ⟨hp.J i, h22 i, hp.dx i, hp.dy i, hp.dz i⟩ (closed_line hcl) (hcl.upper k)
    (hcl.lower k) fun j hj => ?_
  unfold alongY
  rw [hc.relabels.toFA]
  show 0 ≤ (nmFields o (g.nmMesh B b) N P NV).N (i, j, σ i j k)
  rw [(domain_fields hc (p := (i, j, σ i j k)) hi hj).1]
  exact le_max_right _ _

/-! ## Viscosity counts the mass twice -/

theorem perpFlows_smul (hσ : Relabels B σ) (r : ℝ) (a f : F3 nz) :
    (g.perpFlows B.toBoutOps (r • a) f).source = r • (g.perpFlows B.toBoutOps a f).source := by
  have h : B.toFA (r • a) = r • B.toFA a := by
    funext i j k
    simp only [hσ.toFA, Pi.smul_apply]
  have x : g.flowsX (r • a) f = r • g.flowsX a f := by
    funext i j k
    simp only [Grid.flowsX, Pi.smul_apply, smul_eq_mul]
    ring
  have u : g.flowsYup (r • B.toFA a) (B.toFA f) = r • g.flowsYup (B.toFA a) (B.toFA f) := by
    funext i j k
    simp only [Grid.flowsYup, Pi.smul_apply, smul_eq_mul]
    ring
  have d : g.flowsYdown (r • B.toFA a) (B.toFA f) = r • g.flowsYdown (B.toFA a) (B.toFA f) := by
    funext i j k
    simp only [Grid.flowsYdown, Pi.smul_apply, smul_eq_mul]
    ring
  have z : g.flowsZ (r • B.toFA a) (B.toFA f) = r • g.flowsZ (B.toFA a) (B.toFA f) := by
    funext i j k
    simp only [Grid.flowsZ, Pi.smul_apply, smul_eq_mul]
    ring
  unfold Grid.perpFlows Grid.divPerpFlows
  rw [h, x, u, d, z]
  funext i j k
  simp only [Pi.add_apply, Pi.smul_apply, smul_eq_mul, hσ.fromFA, Grid.xLoop_apply, Grid.yzLoop_apply]
  split_ifs <;> ring

theorem conduction3_smul (hσ : Relabels B σ) (r : ℝ) (K f : F3 nz) : g.conduction3 B (r • K) f false = r • g.conduction3 B K f false := by
  have h : B.toFA (r • K) = r • B.toFA K := by
    funext i j k
    simp only [hσ.toFA, Pi.smul_apply]
  unfold Grid.conduction3
  rw [h]
  funext i j k
  simp only [Pi.smul_apply, smul_eq_mul, hσ.fromFA, Line.divParKGradPar, Line.condFluxUp, Line.condFluxDown, alongY]
  split_ifs <;> ring

/-- The particle diffusion coefficient times the density, as `neutral_mixed` uses it for the diffusion of particles. -/
noncomputable def diffusionN (g : Grid) (B : RhsOps nz) (b : NMBoundaries nz) (o : NMOpts (Cell nz)) (N P NV : Fld (Cell nz)) (s : NMSources (Cell nz)) :
    F3 nz :=
  asF3 (nmProduct o (g.nmMesh B b) (nmFields o (g.nmMesh B b) N P NV).T (nmFields o (g.nmMesh B b) N P NV).Plim s.nu
    (nmFields o (g.nmMesh B b) N P NV).Nlim)

/-- **C76.**  The viscous force per volume is `∇·(AA² D N ∇V)`.  With the momentum density `AA N V` the kinematic viscosity is `AA D`: it is not the
diffusion coefficient `D` (as the relation `eta = 2/5 m kappa` cited in the code says), but depends on the unit of mass. -/
theorem viscosity_mass_squared (hσ : Relabels B σ) (s : NMSources (Cell nz)) (h : (o.evolve_momentum && o.neutral_viscosity) = true) :
    viscousForce g B b o N P NV s = (o.AA * o.AA) • ((g.perpFlows B.toBoutOps (diffusionN g B b o N P NV s) (flow g B b o N P NV)).source +
      g.conduction3 B (diffusionN g B b o N P NV s) (flow g B b o N P NV) false) := by
  have e : asF3 (nmEta o (g.nmMesh B b) (nmFields o (g.nmMesh B b) N P NV) s) = o.AA • diffusionN g B b o N P NV s := by
    funext i j k
    show o.AA * (2 / 5) * (5 / 2 * _) = o.AA * _
    unfold diffusionN asF3
    ring
  unfold viscousForce
  rw [if_pos h]
  have v : asF3 (nmViscosity o (g.nmMesh B b) (nmFields o (g.nmMesh B b) N P NV) s) =
      o.AA • (g.perpFlows B.toBoutOps (asF3 (nmEta o (g.nmMesh B b) (nmFields o (g.nmMesh B b) N P NV) s)) (flow g B b o N P NV)).source
      + o.AA • g.conduction3 B (asF3 (nmEta o (g.nmMesh B b) (nmFields o (g.nmMesh B b) N P NV) s)) (flow g B b o N P NV) false := rfl
  rw [v, e, perpFlows_smul hσ, conduction3_smul hσ, smul_smul, smul_smul, smul_add]

end

/-! ## The hypotheses can be met -/

section
open Hermes.DensityEquation (plainRhs)

/-- Column 2 ends on two walls, column 3 is closed on itself. -/
noncomputable def torus : Grid := { boxGrid with firstY := fun i => decide (i = 2), lastY := fun i => decide (i = 2) }

noncomputable def torusOps (nz : ℕ) [NeZero nz] : RhsOps nz :=
  { plainRhs nz with
    communicate := fun f i j k => if i = 3 then f i (2 + (j - 2) % 2) k else f i j k
    periodicY := fun i => decide (i = 3) }

/-- Zero diffusion on the radial boundaries; nothing is done to the other fields. -/
noncomputable def zeroD (nz : ℕ) : NMBoundaries nz where
  T f := f
  P f := f
  D f := fun i j k => if i = 1 then -f 2 j k else if i = 4 then -f 3 j k else f i j k
  neumann f := f
  absGrad _ := 0

noncomputable def deuterium (nz : ℕ) : NMOpts (Cell nz) :=
  ⟨2, 1e-8, 1e-10, 0.2, -1, 0.1, true, true, true, true, true, true, fun _ => 0, fun _ => 0⟩

theorem zeroD_dirichlet {g : Grid} (h1 : g.xstart = 2) (h2 : g.xend = 3) (f : F3 nz) : ZeroAtX g ((zeroD nz).D f) := by
  intro j k _
  rw [h1, h2]
  simp [zeroD]

theorem torus_chamber (nz : ℕ) [NeZero nz] {N P NV : Fld (Cell nz)} (hN : ∀ i j k, N (i, j + 2, k) = N (i, j, k)) (hP : ∀ i j k, P (i, j + 2, k) = P (i, j, k))
    (hNV : ∀ i j k, NV (i, j + 2, k) = NV (i, j, k)) : Chamber torus (torusOps nz) (zeroD nz) (deuterium nz) (fun _ _ => 1) N P NV where
  two_cells := by norm_num [torus, boxGrid]
  relabels := ⟨fun _ _ _ _ => rfl, fun _ _ _ _ => rfl⟩
  boundaries := by
    have d : ∀ f i j k, torus.xstart ≤ i ∧ i ≤ torus.xend → (zeroD nz).D f i j k = f i j k := by
      intro f i j k hi
      have h1 : 2 ≤ i := hi.1
      have h2 : i ≤ 3 := hi.2
      show (if i = 1 then _ else if i = 4 then _ else _) = _
      rw [if_neg (by omega), if_neg (by omega)]
    refine ⟨fun _ _ _ _ _ _ => rfl, fun _ _ _ _ _ _ => rfl, fun f i j k hi _ => d f i j k hi, fun _ _ _ _ _ _ => rfl, fun f i j k _ hj => ?_⟩
    have h1 : 2 ≤ j := hj.1
    have h2 : j ≤ 3 := hj.2
    show (if i = 3 then f i (2 + (j - 2) % 2) k else f i j k) = f i j k
    rw [show 2 + (j - 2) % 2 = j by omega, ite_self]
  dirichlet f := zeroD_dirichlet rfl rfl f
  columns := by
    intro i hi
    have h1 : 2 ≤ i := hi.1
    have h2 : i ≤ 3 := hi.2
    have h : i = 2 ∨ i = 3 := by omega
    have len : torus.yend + 1 - torus.ystart = 2 := by norm_num [torus, boxGrid]
    rcases h with rfl | rfl
    · exact Or.inl ⟨rfl, rfl, rfl, rfl, rfl, rfl, rfl⟩
    · have wr : ∀ (f : F3 nz), (∀ j k, f 3 (j + 2) k = f 3 j k) → FieldWraps torus ((torusOps nz).toFA f) 3 0 := by
        intro f hf j k
        rw [len, add_zero]
        exact hf j k
      have wr' : ∀ (f : F3 nz), FieldWraps torus ((torusOps nz).toFA f) 3 0 → ∀ j k, f 3 (j + 2) k = f 3 j k := by
        intro f hf j k
        have := hf j k
        rw [len, add_zero] at this
        exact this
      refine Or.inr ⟨0, ⟨⟨fun _ => rfl, fun _ => rfl, fun _ => rfl, fun _ => rfl, fun _ => rfl⟩, ⟨rfl, fun _ => rfl, fun _ => rfl, fun _ => rfl⟩, rfl, rfl, ?_,
        fun f h => h, fun f h => h, ?_, fun f h => h⟩, wr _ (hN 3), wr _ (hP 3), wr _ (hNV 3)⟩
      · intro f
        refine wr _ fun j k => ?_
        show (if (3 : ℤ) = 3 then f 3 (2 + (j + 2 - 2) % 2) k else f 3 (j + 2) k) = if (3 : ℤ) = 3 then f 3 (2 + (j - 2) % 2) k else f 3 j k
        rw [if_pos rfl, if_pos rfl, show (j + 2 - 2) % 2 = (j - 2) % 2 by omega]
      · intro f hf
        refine wr _ fun j k => ?_
        show (if (3 : ℤ) = 1 then -f 2 (j + 2) k else if (3 : ℤ) = 4 then -f 3 (j + 2) k else f 3 (j + 2) k) =
          if (3 : ℤ) = 1 then -f 2 j k else if (3 : ℤ) = 4 then -f 3 j k else f 3 j k
        rw [if_neg (by norm_num), if_neg (by norm_num), if_neg (by norm_num), if_neg (by norm_num)]
        exact wr' f hf j k

theorem torus_regular : Regular torus := ⟨by norm_num [torus, boxGrid], by norm_num [torus, boxGrid], fun _ _ => by norm_num [torus, boxGrid],
  fun _ _ => by norm_num [torus, boxGrid], fun _ _ => by norm_num [torus, boxGrid], fun _ _ => by norm_num [torus, boxGrid]⟩

theorem torus_separable : Separable torus := ⟨fun _ _ _ => rfl, fun _ _ _ => rfl, fun _ _ _ _ => rfl⟩

theorem torus_central (nz : ℕ) [NeZero nz] : Central torus (torusOps nz) where
  grad f i j k := by
    show (f i (j + 1) k - f i (j - 1) k) / 2 = (f i (j + 1) k - f i (j - 1) k) / (2 * 1) / Real.sqrt 1
    rw [Real.sqrt_one, mul_one, div_one]
  div f i j k := by
    show (f i (j + 1) k - f i (j - 1) k) / 2 = 1 * ((f i (j + 1) k / 1 - f i (j - 1) k / 1) / (2 * 1) / Real.sqrt 1)
    rw [Real.sqrt_one]
    ring
  metric := ⟨1, fun i j => by show (1 : ℝ) * 1 = 1 * Real.sqrt 1; rw [Real.sqrt_one]⟩
  B_ne _ _ := one_ne_zero
  g22_pos _ _ := one_pos

/-- Density 1 and 2, pressure 1 and 3 in alternate cells, a flow that changes direction. -/
noncomputable def gasN : Fld (Cell 1) := fun p => if p.2.1 % 2 = 0 then 1 else 2
noncomputable def gasP : Fld (Cell 1) := fun p => if p.2.1 % 2 = 0 then 1 else 3
noncomputable def gasNV : Fld (Cell 1) := fun p => if p.2.1 % 2 = 0 then 2 else -4

theorem gas_chamber : Chamber torus (torusOps 1) (zeroD 1) (deuterium 1) (fun _ _ => 1) gasN gasP gasNV :=
  torus_chamber 1 (fun i j k => by simp [gasN]) (fun i j k => by simp [gasP]) (fun i j k => by simp [gasNV])

theorem gas_not_empty : NotEmpty torus (deuterium 1) gasN gasP := by
  intro p _ _
  unfold gasN gasP deuterium
  constructor <;> split <;> norm_num

/-- All theorems of this file apply to this gas, with both kinds of columns. -/
example (s : NMSources (Cell 1)) (hs : s.scale = none) :
    content torus (rates torus (torusOps 1) (zeroD 1) (deuterium 1) gasN gasP gasNV s).1 =
      content torus (asF3 (deuterium 1).density_source) + content torus (asF3 (orZero s.density)) ∧
    content torus (MomentumEquation.energyRate 2 (flow torus (torusOps 1) (zeroD 1) (deuterium 1) gasN gasP gasNV)
        (rates torus (torusOps 1) (zeroD 1) (deuterium 1) gasN gasP gasNV s).1 (rates torus (torusOps 1) (zeroD 1) (deuterium 1) gasN gasP gasNV s).2.2
        (rates torus (torusOps 1) (zeroD 1) (deuterium 1) gasN gasP gasNV s).2.1) =
      content torus (energySources (deuterium 1) s (flow torus (torusOps 1) (zeroD 1) (deuterium 1) gasN gasP gasNV))
        + content torus (crossMixing torus (torusOps 1) (zeroD 1) (deuterium 1) gasN gasP gasNV s)
        - 2 * ∑ i ∈ Icc torus.xstart torus.xend, ∑ k, lineLoss torus (torusOps 1) upwind
          (density torus (torusOps 1) (zeroD 1) (deuterium 1) gasN gasP gasNV) (flow torus (torusOps 1) (zeroD 1) (deuterium 1) gasN gasP gasNV)
          (sound torus (torusOps 1) (zeroD 1) (deuterium 1) gasN gasP gasNV) i k :=
  ⟨particles_only_from_sources torus_regular torus_separable gas_chamber hs gas_not_empty,
    total_energy torus_regular torus_separable gas_chamber hs rfl gas_not_empty (by norm_num [deuterium])
      (fun p => by unfold gasN deuterium; split <;> norm_num)
      (central_work torus_regular torus_separable gas_chamber (torus_central 1) fun _ _ _ => ⟨rfl, rfl⟩)⟩

/-! ## Where conservation fails -/

theorem box_chamber (nz : ℕ) [NeZero nz] (N P NV : Fld (Cell nz)) :
    Chamber boxGrid (plainRhs nz) (zeroD nz) (deuterium nz) (fun _ _ => 1) N P NV where
  two_cells := by norm_num [boxGrid]
  relabels := ⟨fun _ _ _ _ => rfl, fun _ _ _ _ => rfl⟩
  boundaries := by
    refine ⟨fun _ _ _ _ _ _ => rfl, fun _ _ _ _ _ _ => rfl, fun f i j k hi _ => ?_, fun _ _ _ _ _ _ => rfl, fun f i j k _ hj => rfl⟩
    have h1 : 2 ≤ i := hi.1
    have h2 : i ≤ 3 := hi.2
    show (if i = 1 then _ else if i = 4 then _ else _) = _
    rw [if_neg (by omega), if_neg (by omega)]
  dirichlet f := zeroD_dirichlet rfl rfl f
  columns _ _ := Or.inl ⟨rfl, rfl, rfl, rfl, rfl, rfl, rfl⟩

/-- **C76 (violation).**  In an empty chamber a sink of neutrals (ionisation, say) has no effect at all: what the other species gain is not taken from
the neutrals. -/
theorem empty_cells_ignore_sinks : ∃ (N P NV : Fld (Cell 1)) (s : NMSources (Cell 1)), s.scale = none ∧
    Chamber boxGrid (plainRhs 1) (zeroD 1) (deuterium 1) (fun _ _ => 1) N P NV ∧
    content boxGrid (asF3 (deuterium 1).density_source) + content boxGrid (asF3 (orZero s.density)) = -4 ∧
    0 ≤ content boxGrid (rates boxGrid (plainRhs 1) (zeroD 1) (deuterium 1) N P NV s).1 := by
  refine ⟨fun _ => 0, fun _ => 0, fun _ => 0, ⟨none, some fun _ => -1, none, none, none⟩, rfl, box_chamber 1 _ _ _, ?_, ?_⟩
  · unfold content
    simp only [deuterium, asF3, orZero, Option.getD_some, boxGrid, volume]
    rw [show Icc (2 : ℤ) 3 = {2, 3} from rfl]
    norm_num
  · unfold content
    refine Finset.sum_nonneg fun i hi => Finset.sum_nonneg fun j hj => Finset.sum_nonneg fun k _ => mul_nonneg ?_ ?_
    · refine (not_driven_lower (s := ⟨none, some fun _ => -1, none, none, none⟩) (fun g hg => nomatch hg) _).1 ?_
      rw [(domain_fields (box_chamber 1 _ _ _) (p := (i, j, k)) (mem_Icc.1 hi) (mem_Icc.1 hj)).1]
      norm_num [deuterium]
    · norm_num [volume, boxGrid]

/-- The shift to field-aligned coordinates exchanges the two toroidal cells in row 1, behind the lower wall. -/
def wallSwap (j : ℤ) : Equiv.Perm (Fin 2) := if j = 1 then Equiv.swap 0 1 else 1

noncomputable def sheared : RhsOps 2 :=
  { plainRhs 2 with
    toFA := fun f i j k => f i j (wallSwap j k)
    fromFA := fun f i j k => f i j ((wallSwap j).symm k) }

theorem sheared_relabels : Relabels sheared fun _ j => wallSwap j := ⟨fun _ _ _ _ => rfl, fun _ _ _ _ => rfl⟩

/-- Density 1 next to the lower wall; 2 and 1 in the next row; flow in opposite directions in the two toroidal cells; uniform pressure. -/
noncomputable def leakN : Fld (Cell 2) := fun p => if p.2.1 = 3 ∧ p.2.2 = 0 then 2 else 1
noncomputable def leakNV : Fld (Cell 2) := fun p => if p.2.1 = 2 then (if p.2.2 = 0 then 2 else -2) else 0

theorem sheared_boundaries : BoundariesOnly boxGrid sheared (zeroD 2) := by
  refine ⟨fun _ _ _ _ _ _ => rfl, fun _ _ _ _ _ _ => rfl, fun f i j k hi _ => ?_, fun _ _ _ _ _ _ => rfl, fun f i j k _ hj => rfl⟩
  have h1 : 2 ≤ i := hi.1
  have h2 : i ≤ 3 := hi.2
  show (if i = 1 then _ else if i = 4 then _ else _) = _
  rw [if_neg (by omega), if_neg (by omega)]

private theorem leak_guards : Guards (deuterium 2) (boxGrid.nmMesh sheared (zeroD 2)) := guards (by norm_num [boxGrid]) sheared_boundaries _

/-- Nothing but a uniform pressure. -/
theorem leak_pressure (p : Cell 2) : (nmFields (deuterium 2) (boxGrid.nmMesh sheared (zeroD 2)) leakN (fun _ => 1) leakNV).Plim p = 1 := by
  have base : ∀ q, (nmCells (deuterium 2) (boxGrid.nmMesh sheared (zeroD 2)) leakN (fun _ => 1) leakNV q).plim = 1 := by
    intro q
    show floorTo (floorTo 1 0) 1e-10 = 1
    rw [floorTo_eq_max, floorTo_eq_max]
    norm_num
  show (nmTransform _ _ _ _ _ p).plim = 1
  by_cases h : ∃ u i inn, AtWall (deuterium 2) (boxGrid.nmMesh sheared (zeroD 2)) u i p inn
  · obtain ⟨u, i, inn, h⟩ := h
    rw [at_wall leak_guards h]
    exact base i
  · rw [nmTransform_eq, bothEnds_other fun u i inn ht => h ⟨u, i, inn, ht⟩]
    exact base p

private theorem leak_dom (i j : ℤ) (k : Fin 2) (hi : 2 ≤ i ∧ i ≤ 3) (hj : 2 ≤ j ∧ j ≤ 3) : (boxGrid.nmMesh sheared (zeroD 2)).dom (i, j, k) :=
  (dom_iff (g := boxGrid) (p := (i, j, k))).2 ⟨hi, hj⟩

private theorem leak_cell (i j : ℤ) (k : Fin 2) (hi : 2 ≤ i ∧ i ≤ 3) (hj : 2 ≤ j ∧ j ≤ 3) :
    (nmTransform (deuterium 2) (boxGrid.nmMesh sheared (zeroD 2)) leakN (fun _ => 1) leakNV (i, j, k)).n = leakN (i, j, k) ∧
    (nmTransform (deuterium 2) (boxGrid.nmMesh sheared (zeroD 2)) leakN (fun _ => 1) leakNV (i, j, k)).v = leakNV (i, j, k) / (2 * leakN (i, j, k)) := by
  rw [in_domain leak_guards (leak_dom i j k hi hj)]
  have pos : (1 : ℝ) ≤ leakN (i, j, k) := by unfold leakN; split <;> norm_num
  have e1 : floorTo (leakN (i, j, k)) 0 = leakN (i, j, k) := by rw [floorTo_eq_max, max_eq_left (by linarith)]
  refine ⟨e1, ?_⟩
  show leakNV (i, j, k) / (2 * floorTo (floorTo (leakN (i, j, k)) 0) 1e-8) = _
  rw [e1, floorTo_eq_max, max_eq_left (by norm_num; linarith)]

private theorem leak_walled (i : ℤ) (k : Fin 2) (hi : 2 ≤ i ∧ i ≤ 3) :
    AtWall (deuterium 2) (boxGrid.nmMesh sheared (zeroD 2)) false (i, 2, k) (i, 1, k) (i, 3, k) ∧
    AtWall (deuterium 2) (boxGrid.nmMesh sheared (zeroD 2)) true (i, 3, k) (i, 4, k) (i, 2, k) :=
  ⟨Target.lower (m := (boxGrid.nmMesh sheared (zeroD 2)).m) (i := (i, 2, k)) rfl ((mem_endCells (g := boxGrid) (p := (i, 2, k))).2 ⟨hi, rfl, rfl⟩),
    Target.upper (m := (boxGrid.nmMesh sheared (zeroD 2)).m) (i := (i, 3, k)) rfl ((mem_endCells (g := boxGrid) (p := (i, 3, k))).2 ⟨hi, rfl, rfl⟩)⟩

/-- **C76 (violation).**  The values behind the walls are set without going to field-aligned coordinates (`src/neutral_mixed.cxx:192-250`), but the
flux is evaluated in them.  If the shift changes across the wall and the gas is not axisymmetric, neutrals flow through the wall: here the chamber has
no sources, its walls are closed, and its content grows. -/
theorem sheared_wall_leaks : ∃ (N P NV : Fld (Cell 2)) (s : NMSources (Cell 2)), s.scale = none ∧ s.density = none ∧
    Regular boxGrid ∧ Separable boxGrid ∧ Relabels sheared (fun _ j => wallSwap j) ∧ BoundariesOnly boxGrid sheared (zeroD 2) ∧
    (∀ f, ZeroAtX boxGrid ((zeroD 2).D f)) ∧ NotEmpty boxGrid (deuterium 2) N P ∧
    content boxGrid (asF3 (deuterium 2).density_source) = 0 ∧
    content boxGrid (rates boxGrid sheared (zeroD 2) (deuterium 2) N P NV s).1 = 1 := by
  have hne : NotEmpty boxGrid (deuterium 2) leakN (fun _ => 1) := by
    intro p _ _
    unfold leakN deuterium
    constructor
    · split <;> norm_num
    · norm_num
  refine ⟨leakN, fun _ => 1, leakNV, ⟨none, none, none, none, none⟩, rfl, rfl, DensityEquation.boxGrid_regular, boxGrid_separable, sheared_relabels, sheared_boundaries,
    zeroD_dirichlet rfl rfl, hne, ?_, ?_⟩
  · exact content_zero boxGrid
  set F := nmFields (deuterium 2) (boxGrid.nmMesh sheared (zeroD 2)) leakN (fun _ => 1) leakNV with hF
  set s : NMSources (Cell 2) := ⟨none, none, none, none, none⟩
  have cut : content boxGrid (rates boxGrid sheared (zeroD 2) (deuterium 2) leakN (fun _ => 1) leakNV s).1 =
      content boxGrid (asF3 (nmDdtN (deuterium 2) (boxGrid.nmMesh sheared (zeroD 2)) F s)) := by
    refine content_congr fun i j hi hj => Finset.sum_congr rfl fun k _ => ?_
    refine (derivative_unchanged (s := s) rfl _).1 ?_
    have h := (leak_cell i j k hi hj).1
    have hn := (hne (i, j, k) hi hj).1
    show 1e-8 * 1e-2 ≤ (nmTransform _ _ _ _ _ _).n
    rw [h]
    unfold leakN
    split <;> norm_num
  have perp : ∀ a, (boxGrid.perpFlows sheared.toBoutOps a (asF3 fun p => Real.log (F.Plim p))).source = 0 := by
    intro a
    have z : (asF3 fun p => Real.log (F.Plim p)) = fun _ _ _ => (0 : ℝ) := by
      funext i j k
      show Real.log (F.Plim (i, j, k)) = 0
      rw [hF, leak_pressure, Real.log_one]
    rw [z]
    funext i j k
    have u := uniform_field_unchanged boxGrid (.flows a (fun _ _ _ => 0) (sheared.toFA a) (sheared.toFA fun _ _ _ => 0)) 0 0 rfl rfl
    have u1 := (u i j k).1
    have u2 := (u i j ((wallSwap j).symm k)).2
    exact (congrArg₂ (· + ·) u1 u2).trans (add_zero 0)
  have e : asF3 (nmDdtN (deuterium 2) (boxGrid.nmMesh sheared (zeroD 2)) F s) =
      -boxGrid.divParMod3 sheared upwind (asF3 F.N) (asF3 F.V) (asF3 (nmSound (deuterium 2) F.T)) true
        + (boxGrid.perpFlows sheared.toBoutOps (asF3 (nmProduct (deuterium 2) (boxGrid.nmMesh sheared (zeroD 2)) F.T F.Plim s.nu F.Nlim))
          (asF3 fun p => Real.log (F.Plim p))).source + (0 + 0) := rfl
  rw [cut, e, perp, add_zero, add_zero, add_zero, content_neg, content_parMod DensityEquation.boxGrid_regular boxGrid_separable sheared_relabels.shifts]
  have closed : ∀ i, ParOps.Closed (boxGrid.line sheared i) := fun i => ⟨rfl, rfl, rfl⟩
  have up : ∀ i, 2 ≤ i ∧ i ≤ 3 → ∀ k, parFlow boxGrid sheared upwind (asF3 F.N) (asF3 F.V) (asF3 (nmSound (deuterium 2) F.T)) i (boxGrid.yend + 1) k = 0 := by
    intro i hi k
    refine (ParOps.upper_end_flow_is_midpoint (closed i) (by norm_num [boxGrid, Grid.line]) upwind _ _ _).trans ?_
    have v : alongY (sheared.toFA (asF3 F.V)) i k 3 = 0 := by
      show (nmTransform _ _ _ _ _ (i, 3, k)).v = 0
      rw [(leak_cell i 3 k hi ⟨by norm_num, le_rfl⟩).2]
      simp [leakNV]
    have v' : alongY (sheared.toFA (asF3 F.V)) i k (3 + 1) = 0 := by
      show (nmTransform _ _ _ _ _ (i, 4, k)).v = 0
      rw [at_wall leak_guards (leak_walled i k hi).2]
      show -(nmCells _ _ _ _ _ (i, 3, k)).v = 0
      rw [← in_domain leak_guards (leak_dom i 3 k hi ⟨by norm_num, le_rfl⟩), (leak_cell i 3 k hi ⟨by norm_num, le_rfl⟩).2]
      simp [leakNV]
    show _ * ((alongY (sheared.toFA (asF3 F.V)) i k 3 + alongY (sheared.toFA (asF3 F.V)) i k (3 + 1)) / 2) * _ * _ * _ = 0
    rw [v, v']
    ring
  have low : ∀ i, 2 ≤ i ∧ i ≤ 3 → ∀ k, parFlow boxGrid sheared upwind (asF3 F.N) (asF3 F.V) (asF3 (nmSound (deuterium 2) F.T)) i boxGrid.ystart k =
      if k = 0 then 1 else -1 / 2 := by
    intro i hi k
    refine (ParOps.lower_end_flow_is_midpoint (closed i) (by norm_num [boxGrid, Grid.line]) upwind _ _ _).trans ?_
    have inn : ∀ k, F.N (i, 2, k) = 1 ∧ F.V (i, 2, k) = if k = 0 then 1 else -1 := by
      intro k
      have h := leak_cell i 2 k hi ⟨le_rfl, by norm_num⟩
      refine ⟨h.1.trans (by simp [leakN]), h.2.trans ?_⟩
      fin_cases k <;> norm_num [leakN, leakNV]
    have out : ∀ k, F.N (i, 1, k) = (if k = 0 then 0 else 1) ∧ F.V (i, 1, k) = if k = 0 then -1 else 1 := by
      intro k
      have h2 := leak_cell i 2 k hi ⟨le_rfl, by norm_num⟩
      have h3 := leak_cell i 3 k hi ⟨by norm_num, le_rfl⟩
      rw [in_domain leak_guards (leak_dom i 2 k hi ⟨le_rfl, by norm_num⟩)] at h2
      rw [in_domain leak_guards (leak_dom i 3 k hi ⟨by norm_num, le_rfl⟩)] at h3
      have w := at_wall (N := leakN) (P := fun _ => 1) (NV := leakNV) leak_guards (leak_walled i k hi).1
      constructor
      · show (nmTransform _ _ _ _ _ (i, 1, k)).n = _
        rw [w]
        unfold nmGuard
        dsimp only
        rw [h2.1, h3.1]
        fin_cases k <;> norm_num [leakN]
      · show (nmTransform _ _ _ _ _ (i, 1, k)).v = _
        rw [w]
        unfold nmGuard
        dsimp only
        rw [h2.2]
        fin_cases k <;> norm_num [leakN, leakNV]
    have geom : ((1 : ℝ) + 1) / (√1 + √1) = 1 := by rw [Real.sqrt_one]; norm_num
    show (F.N (i, 2, wallSwap 2 k) + F.N (i, 1, wallSwap 1 k)) / 2 * ((F.V (i, 2, wallSwap 2 k) + F.V (i, 1, wallSwap 1 k)) / 2) *
      (((1 : ℝ) + 1) / (√1 + √1)) * 1 * 1 = _
    rw [geom, (inn _).1, (inn _).2, (out _).1, (out _).2]
    fin_cases k <;> norm_num [wallSwap]
  have fin : ∑ i ∈ Icc boxGrid.xstart boxGrid.xend, ∑ k, (parFlow boxGrid sheared upwind (asF3 F.N) (asF3 F.V) (asF3 (nmSound (deuterium 2) F.T)) i (boxGrid.yend + 1) k
      - parFlow boxGrid sheared upwind (asF3 F.N) (asF3 F.V) (asF3 (nmSound (deuterium 2) F.T)) i boxGrid.ystart k) =
      ∑ i ∈ Icc (2 : ℤ) 3, ∑ k : Fin 2, (0 - if k = 0 then 1 else -1 / 2) :=
    Finset.sum_congr rfl fun i hi => Finset.sum_congr rfl fun k _ => by rw [up i (mem_Icc.1 hi), low i (mem_Icc.1 hi)]
  rw [fin, show Icc (2 : ℤ) 3 = {2, 3} from rfl]
  norm_num

end

end Hermes.NeutralGas
