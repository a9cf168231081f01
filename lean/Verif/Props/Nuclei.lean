import Verif.Model.System
import Verif.Props.Recycling
import Verif.Props.DensityEquation
import Verif.Props.NeutralGas
import Verif.Props.SheathPhysics
import Verif.Props.Registry

/-!
# C77: complete recycling keeps the nuclei

Sheath, recycling and the density equations are separate components.  What the density equation of an ion loses through the targets
is computed from the state by the parallel advection operator; what the neutrals gain is computed by `recycling` with another formula.
Here: both are the same number, so that with complete recycling nothing is lost.
-/

set_option linter.unusedSectionVars false
set_option linter.unusedVariables false

namespace Hermes.Nuclei
open Finset Hermes Hermes.Limiters Hermes.PerpOps Hermes.Rhs Hermes.Closures Hermes.Sheath Hermes.Recycling Hermes.MomentumEquation
open Hermes.DensityEquation (Assumed)

variable {nz : ℕ} [NeZero nz]

/-! ## Specification -/

/-- Particles of species `n` per time that reach the wall behind cell `p`, guard cell `q`. -/
noncomputable def wallFlow (m : RMesh (Cell nz)) (st : Store Key (Value (Cell nz))) (n : String) (u : Bool) (p q : Cell nz) : ℝ :=
  out u * face (fieldOf st n .density) p q * face (fieldOf st n .velocity) p q * targetArea m p q

/-- Particles of species `n` per time that reach all targets. -/
noncomputable def wallLoss (m : RMesh (Cell nz)) (st : Store Key (Value (Cell nz))) (n : String) : ℝ :=
  (m.lower.map fun p => wallFlow m st n false p (m.ym p)).sum + (m.upper.map fun p => wallFlow m st n true p (m.yp p)).sum

/-- Species `n` flows into the wall at all targets, not out of it. -/
def Outward (m : RMesh (Cell nz)) (st : Store Key (Value (Cell nz))) (n : String) : Prop :=
  ∀ u p q inn, Target m.toYMesh true true u p q inn →
    0 ≤ out u * face (fieldOf st n .density) p q * face (fieldOf st n .velocity) p q

/-- Species `n` does not flow through the targets. -/
def Blocked (m : RMesh (Cell nz)) (st : Store Key (Value (Cell nz))) (n : String) : Prop :=
  ∀ u p q inn, Target m.toYMesh true true u p q inn → face (fieldOf st n .velocity) p q = 0

/-- What is in the density source of species `n`. -/
noncomputable def sourceOf (g : Grid) (st : Store Key (Value (Cell nz))) (n : String) : ℝ :=
  content g (asF3 (fieldOf st n .density_source))

/-! ## Sums over the ends -/

theorem sum_endCells (g : Grid) (ends : ℤ → Bool) (j : ℤ) (F : Cell nz → ℝ) :
    ((g.endCells nz ends j).map F).sum = ∑ i ∈ Icc g.xstart g.xend, if ends i = true then ∑ k, F (i, j, k) else 0 := by
  have h1 : ((g.endCells nz ends j).map F).sum = ∑ p ∈ (g.endCells nz ends j).toFinset, F p :=
    (List.sum_toFinset F (NeutralGas.nodup_endCells g ends j)).symm
  rw [h1, ← Finset.sum_filter]
  rw [← Finset.sum_product']
  refine Finset.sum_nbij' (fun p => (p.1, p.2.2)) (fun p => (p.1, j, p.2)) ?_ ?_ ?_ ?_ ?_
  · intro p hp
    obtain ⟨a, b, c⟩ := NeutralGas.mem_endCells.1 (List.mem_toFinset.1 hp)
    simp only [mem_product, Finset.mem_filter, mem_Icc, mem_univ, and_true]
    exact ⟨a, b⟩
  · rintro ⟨i, k⟩ hp
    simp only [mem_product, Finset.mem_filter, mem_Icc, mem_univ, and_true] at hp
    exact List.mem_toFinset.2 (NeutralGas.mem_endCells.2 ⟨hp.1, hp.2, rfl⟩)
  · rintro ⟨i, j', k⟩ hp
    obtain ⟨a, b, c⟩ := NeutralGas.mem_endCells.1 (List.mem_toFinset.1 hp)
    dsimp only at c ⊢
    rw [c]
  · intro p _
    rfl
  · rintro ⟨i, j', k⟩ hp
    obtain ⟨a, b, c⟩ := NeutralGas.mem_endCells.1 (List.mem_toFinset.1 hp)
    dsimp only at c ⊢
    rw [c]

/-- The integral of a source that lives in the last cells. -/
theorem content_ends {g : Grid} (hg : Regular g) (ends : ℤ → Bool) {j : ℤ} (hj : g.ystart ≤ j ∧ j ≤ g.yend) (F : Cell nz → ℝ) :
    content g (asF3 fun p : Cell nz => if p ∈ g.endCells nz ends j then F p / volume g p.1 p.2.1 else 0)
      = ((g.endCells nz ends j).map F).sum := by
  rw [sum_endCells]
  unfold content
  refine Finset.sum_congr rfl fun i hi => ?_
  have hi' := mem_Icc.1 hi
  have hv : volume g i j ≠ 0 := mul_ne_zero (mul_ne_zero (mul_ne_zero (hg.J_ne i j) (hg.dx_ne i j)) (hg.dy_ne i j)) (hg.dz_ne i j)
  have e : ∀ j' : ℤ, (∑ k, asF3 (fun p : Cell nz => if p ∈ g.endCells nz ends j then F p / volume g p.1 p.2.1 else 0) i j' k * volume g i j')
      = if j' = j then (if ends i = true then ∑ k, F (i, j, k) else 0) else 0 := by
    intro j'
    by_cases hjj : j' = j
    · subst hjj
      rw [if_pos rfl]
      by_cases he : ends i = true
      · rw [if_pos he]
        refine Finset.sum_congr rfl fun k _ => ?_
        have hm : ((i, j', k) : Cell nz) ∈ g.endCells nz ends j' := NeutralGas.mem_endCells.2 ⟨hi', he, rfl⟩
        show (if ((i, j', k) : Cell nz) ∈ g.endCells nz ends j' then F (i, j', k) / volume g i j' else 0) * volume g i j' = _
        rw [if_pos hm]
        field_simp
      · rw [if_neg he]
        refine Finset.sum_eq_zero fun k _ => ?_
        have hm : ((i, j', k) : Cell nz) ∉ g.endCells nz ends j' := fun h => he (NeutralGas.mem_endCells.1 h).2.1
        show (if ((i, j', k) : Cell nz) ∈ g.endCells nz ends j' then F (i, j', k) / volume g i j' else 0) * volume g i j' = _
        rw [if_neg hm, zero_mul]
    · rw [if_neg hjj]
      refine Finset.sum_eq_zero fun k _ => ?_
      have hm : ((i, j', k) : Cell nz) ∉ g.endCells nz ends j := fun h => hjj (NeutralGas.mem_endCells.1 h).2.2
      show (if ((i, j', k) : Cell nz) ∈ g.endCells nz ends j then F (i, j', k) / volume g i j' else 0) * volume g i j' = _
      rw [if_neg hm, zero_mul]
  rw [Finset.sum_congr rfl fun j' _ => e j', Finset.sum_ite_eq' (Icc g.ystart g.yend) j, if_pos (mem_Icc.2 hj)]

/-! ## The mesh -/

section
variable {g : Grid} {B : RhsOps nz} {pump g33 : Fld (Cell nz)}

theorem mesh_ok (hy : g.ystart < g.yend) : MeshOk (g.targetMesh B pump g33).toYMesh where
  nodup := by
    refine List.nodup_append.2 ⟨(NeutralGas.nodup_endCells g _ _).map ?_, (NeutralGas.nodup_endCells g _ _).map ?_, ?_⟩
    · rintro ⟨x, y, z⟩ ⟨x', y', z'⟩ h
      have h' : (x, y - 1, z) = (x', y' - 1, z') := h
      simp only [Prod.mk.injEq, sub_left_inj] at h' ⊢
      exact h'
    · rintro ⟨x, y, z⟩ ⟨x', y', z'⟩ h
      have h' : (x, y + 1, z) = (x', y' + 1, z') := h
      simp only [Prod.mk.injEq, add_left_inj] at h' ⊢
      exact h'
    · intro p hp q hq e
      obtain ⟨p', hp', rfl⟩ := List.mem_map.1 hp
      obtain ⟨q', hq', rfl⟩ := List.mem_map.1 hq
      have h1 := (NeutralGas.mem_endCells.1 hp').2.2
      have h2 := (NeutralGas.mem_endCells.1 hq').2.2
      have h3 : p'.2.1 - 1 = q'.2.1 + 1 := congrArg (fun p : Cell nz => p.2.1) e
      omega
  sep := by
    intro p hp
    have key : p.2.1 = g.ystart - 1 ∨ p.2.1 = g.yend + 1 := by
      rcases List.mem_append.1 hp with h | h
      · obtain ⟨p', hp', rfl⟩ := List.mem_map.1 h
        left
        have := (NeutralGas.mem_endCells.1 hp').2.2
        show p'.2.1 - 1 = _
        omega
      · obtain ⟨p', hp', rfl⟩ := List.mem_map.1 h
        right
        have := (NeutralGas.mem_endCells.1 hp').2.2
        show p'.2.1 + 1 = _
        omega
    refine ⟨fun h => ?_, fun h => ?_, fun h => ?_, fun h => ?_⟩
    · have := (NeutralGas.mem_endCells.1 h).2.2; omega
    · have := (NeutralGas.mem_endCells.1 h).2.2; omega
    · obtain ⟨p', hp', e⟩ := List.mem_map.1 h
      have h1 := (NeutralGas.mem_endCells.1 hp').2.2
      have h2 : p'.2.1 + 1 = p.2.1 := congrArg (fun p : Cell nz => p.2.1) e
      omega
    · obtain ⟨p', hp', e⟩ := List.mem_map.1 h
      have h1 := (NeutralGas.mem_endCells.1 hp').2.2
      have h2 : p'.2.1 - 1 = p.2.1 := congrArg (fun p : Cell nz => p.2.1) e
      omega

theorem edge_nodup (x : ℤ) : ((forRange g.ystart g.yend ×ˢ List.finRange nz).map fun p => ((x, p.1, p.2) : Cell nz)).Nodup := by
  refine List.Nodup.map ?_ ((nodup_forRange _ _).product (List.nodup_finRange nz))
  rintro ⟨a, b⟩ ⟨a', b'⟩ h
  simp only [Prod.mk.injEq, true_and] at h
  exact Prod.ext h.1 h.2

theorem sol_nodup : (g.targetMesh B pump g33).sol.Nodup := by
  show (if g.lastX then _ else []).Nodup
  split
  · exact edge_nodup _
  · exact List.nodup_nil

theorem pfr_nodup : (g.targetMesh B pump g33).pfr.Nodup := by
  show (if g.firstX && !B.periodicY g.xstart then _ else []).Nodup
  split
  · exact edge_nodup _
  · exact List.nodup_nil

theorem wallLoss_blocked {st : Store Key (Value (Cell nz))} {n : String} (h : Blocked (g.targetMesh B pump g33) st n) :
    wallLoss (g.targetMesh B pump g33) st n = 0 := by
  have z : ∀ l : List (Cell nz), ∀ F : Cell nz → ℝ, (∀ p ∈ l, F p = 0) → (l.map F).sum = 0 := by
    intro l F hF
    refine List.sum_eq_zero fun x hx => ?_
    obtain ⟨p, hp, rfl⟩ := List.mem_map.1 hx
    exact hF p hp
  unfold wallLoss
  have z1 := z (g.targetMesh B pump g33).lower (fun p => wallFlow (g.targetMesh B pump g33) st n false p ((g.targetMesh B pump g33).ym p))
    fun p hp => by unfold wallFlow; rw [h _ _ _ _ (Target.lower rfl hp)]; ring
  have z2 := z (g.targetMesh B pump g33).upper (fun p => wallFlow (g.targetMesh B pump g33) st n true p ((g.targetMesh B pump g33).yp p))
    fun p hp => by unfold wallFlow; rw [h _ _ _ _ (Target.upper rfl hp)]; ring
  rw [z1, z2, add_zero]

/-! ## What recycling returns -/

/-- The integral of what one channel adds is the fraction `target_multiplier` of the particles that reach the wall. -/
theorem content_gainD (hg : Regular g) {fl : RecycleFlags} (ht : fl.target_recycle = true) (h1 : fl.sol_recycle = false)
    (h2 : fl.pfr_recycle = false) {st : Store Key (Value (Cell nz))} {ch : RecycleChannel}
    (ho : Outward (g.targetMesh B pump g33) st ch.source) :
    content g (asF3 (gainD (g.targetMesh B pump g33) fl st ch))
      = ch.target_multiplier * wallLoss (g.targetMesh B pump g33) st ch.source := by
  set m := g.targetMesh B pump g33 with hm
  have e : asF3 (gainD m fl st ch) =
      asF3 (fun p : Cell nz => if p ∈ g.endCells nz (fun i => g.firstY i && !B.periodicY i) g.ystart then
        (ch.target_multiplier * wallFlow m st ch.source false p (m.ym p)) / volume g p.1 p.2.1 else 0)
      + asF3 (fun p : Cell nz => if p ∈ g.endCells nz (fun i => g.lastY i && !B.periodicY i) g.yend then
        (ch.target_multiplier * wallFlow m st ch.source true p (m.yp p)) / volume g p.1 p.2.1 else 0) := by
    funext i j k
    show gainD m fl st ch (i, j, k) = (if _ then _ else _) + (if _ then _ else _)
    unfold gainD
    simp only [ht, h1, h2, true_and, false_and, if_false, add_zero, Bool.false_eq_true]
    congr 1
    · by_cases hp : ((i, j, k) : Cell nz) ∈ m.lower
      · have := ho false _ _ _ (Target.lower rfl hp)
        rw [if_pos hp, if_pos (show _ ∈ g.endCells nz _ _ from hp)]
        unfold targetD fromTarget wallFlow
        rw [max_eq_left this]
        rfl
      · rw [if_neg hp, if_neg (show ¬ _ ∈ g.endCells nz _ _ from hp)]
    · by_cases hp : ((i, j, k) : Cell nz) ∈ m.upper
      · have := ho true _ _ _ (Target.upper rfl hp)
        rw [if_pos hp, if_pos (show _ ∈ g.endCells nz _ _ from hp)]
        unfold targetD fromTarget wallFlow
        rw [max_eq_left this]
        rfl
      · rw [if_neg hp, if_neg (show ¬ _ ∈ g.endCells nz _ _ from hp)]
  rw [e, content_add, content_ends hg _ ⟨le_rfl, hg.y_nonempty⟩, content_ends hg _ ⟨hg.y_nonempty, le_rfl⟩]
  unfold wallLoss
  rw [mul_add, ← List.sum_map_mul_left, ← List.sum_map_mul_left]
  rfl

/-! ## What the density equation loses -/

/-- What is assumed of `setBoundaryTo`: the value on the faces of the targets is the one of the given field. -/
def KeepsFaces (g : Grid) (B : RhsOps nz) : Prop :=
  ∀ N₀ d : F3 nz, ∀ i k, g.xstart ≤ i ∧ i ≤ g.xend → B.periodicY i = false →
    B.setBoundaryTo N₀ d i g.ystart k + B.setBoundaryTo N₀ d i (g.ystart - 1) k = d i g.ystart k + d i (g.ystart - 1) k ∧
    B.setBoundaryTo N₀ d i g.yend k + B.setBoundaryTo N₀ d i (g.yend + 1) k = d i g.yend k + d i (g.yend + 1) k

/-- The lines of column `i` end on two targets; the shift to field-aligned coordinates is the same in the last cell and in the
guard cell. -/
structure OpenLines (g : Grid) (B : RhsOps nz) (σ : ℤ → ℤ → Equiv.Perm (Fin nz)) (i : ℤ) : Prop where
  open_line : B.periodicY i = false
  first : g.firstY i = true
  last : g.lastY i = true
  shift_lower : σ i (g.ystart - 1) = σ i g.ystart
  shift_upper : σ i (g.yend + 1) = σ i g.yend

/-- The lines of column `i` are closed, and the fields are periodic along them. -/
def LoopedLines (g : Grid) (B : RhsOps nz) (s : SpeciesIn nz) (f : FieldsIn nz) (N : F3 nz) (i : ℤ) : Prop :=
  GeometryWraps g B i ∧ ∃ τ, FieldWraps g (B.toFA N) i τ ∧ (∀ V, s.velocity = some V → FieldWraps g (B.toFA V) i τ) ∧
    (∀ w, waveSpeed s f = .ok w → FieldWraps g (B.toFA w) i τ) ∧
    ∀ phi, f.phi = some phi → ExB.Wraps g (B.toFA N) (B.toFA (B.ddx phi)) i τ

/-- The flow that the advection operator computes at the two ends is the flow to the wall. -/
theorem column_loss (hg : Regular g) (hs : Separable g) {σ : ℤ → ℤ → Equiv.Perm (Fin nz)} (hσ : Relabels B σ) (hk : KeepsFaces g B)
    (lim : Limiter) (N₀ : F3 nz) (N V w : F3 nz) {st : Store Key (Value (Cell nz))} {n : String}
    (hN : asF3 (fieldOf st n .density) = N) (hV : asF3 (fieldOf st n .velocity) = V) {i : ℤ} (hi : g.xstart ≤ i ∧ i ≤ g.xend)
    (h : OpenLines g B σ i) :
    let m := g.targetMesh B pump g33
    ∑ k, (parFlow g B lim (B.setBoundaryTo N₀ N) V w i (g.yend + 1) k - parFlow g B lim (B.setBoundaryTo N₀ N) V w i g.ystart k)
      = ∑ k, wallFlow m st n false (i, g.ystart, k) (m.ym (i, g.ystart, k)) + ∑ k, wallFlow m st n true (i, g.yend, k) (m.yp (i, g.yend, k)) := by
  intro m
  have hc : ParOps.Closed (g.line B i) := ⟨h.first, h.last, h.open_line⟩
  set M := B.setBoundaryTo N₀ N with hM
  have hN' : ∀ j k, fieldOf st n .density (i, j, k) = N i j k := fun j k => congrFun (congrFun (congrFun hN i) j) k
  have hV' : ∀ j k, fieldOf st n .velocity (i, j, k) = V i j k := fun j k => congrFun (congrFun (congrFun hV i) j) k
  have eu : ∀ k, parFlow g B lim M V w i (g.yend + 1) k =
      wallFlow m st n true (i, g.yend, σ i g.yend k) (m.yp (i, g.yend, σ i g.yend k)) := by
    intro k
    have hu := ParOps.upper_end_flow_is_midpoint hc hg.y_nonempty lim (alongY (B.toFA M) i k) (alongY (B.toFA V) i k) (alongY (B.toFA w) i k)
    unfold parFlow Grid.parMod
    refine hu.trans ?_
    have a1 : alongY (B.toFA M) i k (g.line B i).yend + alongY (B.toFA M) i k ((g.line B i).yend + 1)
        = N i g.yend (σ i g.yend k) + N i (g.yend + 1) (σ i g.yend k) := by
      show B.toFA M i g.yend k + B.toFA M i (g.yend + 1) k = _
      rw [hσ.toFA, hσ.toFA, h.shift_upper]
      exact (hk N₀ N i _ hi h.open_line).2
    have a2 : alongY (B.toFA V) i k (g.line B i).yend + alongY (B.toFA V) i k ((g.line B i).yend + 1)
        = V i g.yend (σ i g.yend k) + V i (g.yend + 1) (σ i g.yend k) := by
      show B.toFA V i g.yend k + B.toFA V i (g.yend + 1) k = _
      rw [hσ.toFA, hσ.toFA, h.shift_upper]
    rw [a1, a2]
    unfold wallFlow targetArea face
    show _ = out true * ((fieldOf st n .density (i, g.yend, σ i g.yend k) + fieldOf st n .density (i, g.yend + 1, σ i g.yend k)) / 2)
      * ((fieldOf st n .velocity (i, g.yend, σ i g.yend k) + fieldOf st n .velocity (i, g.yend + 1, σ i g.yend k)) / 2)
      * ((g.J i g.yend + g.J i (g.yend + 1)) / (√(B.g_22 i g.yend) + √(B.g_22 i (g.yend + 1)))
        * ((g.dx i g.yend + g.dx i (g.yend + 1)) / 2) * ((g.dz i g.yend + g.dz i (g.yend + 1)) / 2))
    rw [hN', hN', hV', hV', hs.dx i (g.yend + 1) g.yend, hs.dz i i (g.yend + 1) g.yend]
    show (_ : ℝ) * _ * ((g.J i g.yend + g.J i (g.yend + 1)) / (√(B.g_22 i g.yend) + √(B.g_22 i (g.yend + 1)))) * g.dx i (g.yend + 1) * g.dz i (g.yend + 1) = _
    rw [hs.dx i (g.yend + 1) g.yend, hs.dz i i (g.yend + 1) g.yend]
    simp only [out, if_true]
    ring
  have el : ∀ k, -parFlow g B lim M V w i g.ystart k =
      wallFlow m st n false (i, g.ystart, σ i g.ystart k) (m.ym (i, g.ystart, σ i g.ystart k)) := by
    intro k
    have hu := ParOps.lower_end_flow_is_midpoint hc hg.y_nonempty lim (alongY (B.toFA M) i k) (alongY (B.toFA V) i k) (alongY (B.toFA w) i k)
    unfold parFlow Grid.parMod
    refine (congrArg Neg.neg hu).trans ?_
    have a1 : alongY (B.toFA M) i k (g.line B i).ystart + alongY (B.toFA M) i k ((g.line B i).ystart - 1)
        = N i g.ystart (σ i g.ystart k) + N i (g.ystart - 1) (σ i g.ystart k) := by
      show B.toFA M i g.ystart k + B.toFA M i (g.ystart - 1) k = _
      rw [hσ.toFA, hσ.toFA, h.shift_lower]
      exact (hk N₀ N i _ hi h.open_line).1
    have a2 : alongY (B.toFA V) i k (g.line B i).ystart + alongY (B.toFA V) i k ((g.line B i).ystart - 1)
        = V i g.ystart (σ i g.ystart k) + V i (g.ystart - 1) (σ i g.ystart k) := by
      show B.toFA V i g.ystart k + B.toFA V i (g.ystart - 1) k = _
      rw [hσ.toFA, hσ.toFA, h.shift_lower]
    rw [a1, a2]
    unfold wallFlow targetArea face
    show _ = out false * ((fieldOf st n .density (i, g.ystart, σ i g.ystart k) + fieldOf st n .density (i, g.ystart - 1, σ i g.ystart k)) / 2)
      * ((fieldOf st n .velocity (i, g.ystart, σ i g.ystart k) + fieldOf st n .velocity (i, g.ystart - 1, σ i g.ystart k)) / 2)
      * ((g.J i g.ystart + g.J i (g.ystart - 1)) / (√(B.g_22 i g.ystart) + √(B.g_22 i (g.ystart - 1)))
        * ((g.dx i g.ystart + g.dx i (g.ystart - 1)) / 2) * ((g.dz i g.ystart + g.dz i (g.ystart - 1)) / 2))
    rw [hN', hN', hV', hV', hs.dx i (g.ystart - 1) g.ystart, hs.dz i i (g.ystart - 1) g.ystart]
    show -((_ : ℝ) * _ * ((g.J i (g.ystart - 1) + g.J i g.ystart) / (√(B.g_22 i (g.ystart - 1)) + √(B.g_22 i g.ystart))) * g.dx i g.ystart * g.dz i g.ystart) = _
    rw [add_comm (g.J i (g.ystart - 1)), add_comm (√(B.g_22 i (g.ystart - 1)))]
    simp only [out, Bool.false_eq_true, if_false]
    ring
  have e : ∀ k, parFlow g B lim M V w i (g.yend + 1) k - parFlow g B lim M V w i g.ystart k =
      wallFlow m st n true (i, g.yend, σ i g.yend k) (m.yp (i, g.yend, σ i g.yend k))
      + wallFlow m st n false (i, g.ystart, σ i g.ystart k) (m.ym (i, g.ystart, σ i g.ystart k)) := by
    intro k
    rw [← eu, ← el]
    ring
  rw [Finset.sum_congr rfl fun k _ => e k, Finset.sum_add_distrib,
    Equiv.sum_comp (σ i g.yend) fun k => wallFlow m st n true (i, g.yend, k) (m.yp (i, g.yend, k)),
    Equiv.sum_comp (σ i g.ystart) fun k => wallFlow m st n false (i, g.ystart, k) (m.ym (i, g.ystart, k)), add_comm]

/-- The total loss as a sum over the columns. -/
theorem wallLoss_columns (st : Store Key (Value (Cell nz))) (n : String) :
    let m := g.targetMesh B pump g33
    wallLoss m st n = ∑ i ∈ Icc g.xstart g.xend,
      ((if (g.firstY i && !B.periodicY i) = true then ∑ k, wallFlow m st n false (i, g.ystart, k) (m.ym (i, g.ystart, k)) else 0)
      + if (g.lastY i && !B.periodicY i) = true then ∑ k, wallFlow m st n true (i, g.yend, k) (m.yp (i, g.yend, k)) else 0) := by
  intro m
  rw [Finset.sum_add_distrib, ← sum_endCells g (fun i => g.firstY i && !B.periodicY i) g.ystart (fun p => wallFlow m st n false p (m.ym p)),
    ← sum_endCells g (fun i => g.lastY i && !B.periodicY i) g.yend (fun p => wallFlow m st n true p (m.yp p))]
  rfl

theorem readF3_some {st : Store Key (Value (Cell nz))} {n : String} {v : Var} {f : F3 nz} (h : readF3 st (.sp n v) = some f) :
    asF3 (fieldOf st n v) = f := by
  unfold readF3 at h
  unfold fieldOf vals
  cases hb : (st.ent (.sp n v)).val.bind asField with
  | none => rw [hb] at h; cases h
  | some x => rw [hb] at h; exact Option.some.inj h

theorem readF3_none {st : Store Key (Value (Cell nz))} {n : String} {v : Var} (h : readF3 st (.sp n v) = none) :
    fieldOf st n v = 0 := by
  unfold readF3 at h
  unfold fieldOf vals
  cases hb : (st.ent (.sp n v)).val.bind asField with
  | none => rfl
  | some x => rw [hb] at h; cases h

/-- No way out for species `n` but the targets: no flux through the radial boundaries, every line ends on two targets or is closed. -/
structure OnlyTargets (o : DensityOpts) (g : Grid) (B : RhsOps nz) (σ : ℤ → ℤ → Equiv.Perm (Fin nz)) (s : SpeciesIn nz) (f : FieldsIn nz)
    (N : F3 nz) : Prop where
  radial : o.bndry_flux = false
  lines : ∀ i, g.xstart ≤ i ∧ i ≤ g.xend → OpenLines g B σ i ∨ LoopedLines g B s f N i
  gradient : o.low_n_diffuse_perp = true ∨ o.low_p_diffuse_perp = true → ZeroGradientX g N
  lowN : content g (DensityEquation.lowNPart o B s N) = 0
  flutter : f.Apar_flutter = none
  unscaled : f.scale_timederivs = none

/-- The number of particles of a species changes by its source and by what reaches the targets. -/
theorem density_loss (hg : Regular g) (hs : Separable g) {σ : ℤ → ℤ → Equiv.Perm (Fin nz)} (hσ : Relabels B σ) (hB : Assumed g B)
    (hk : KeepsFaces g B) {o : DensityOpts} {lim : Limiter} {N₀ : F3 nz} {st : Store Key (Value (Cell nz))} {n : String} {r : F3 nz}
    (hc : OnlyTargets o g B σ (speciesIn st n) (fieldsIn st) (B.setBoundaryTo N₀ (asF3 (fieldOf st n .density))))
    (h : densityRhs o g B lim N₀ (speciesIn st n) (fieldsIn st) = .ok r) :
    content g r = sourceOf g st n - wallLoss (g.targetMesh B pump g33) st n := by
  obtain ⟨d, S, hd, hS, e⟩ := DensityEquation.density_balance hg hs hB hc.unscaled h
  have hd' := readF3_some hd
  have hS' := readF3_some hS
  rw [← hd'] at e
  unfold sourceOf
  rw [hS']
  set N := B.setBoundaryTo N₀ (asF3 (fieldOf st n .density)) with hN
  have f1 : DensityEquation.flutterOutflow g (speciesIn st n) (fieldsIn st) N = 0 := by
    unfold DensityEquation.flutterOutflow
    rw [hc.flutter]
    cases (speciesIn st n).velocity <;> rfl
  have f2 : DensityEquation.perpNInflow o g N = 0 := by
    unfold DensityEquation.perpNInflow
    split_ifs with hh
    · exact DensityEquation.lapInflow_zero (hc.gradient (Or.inl hh))
    · rfl
  have f3 : DensityEquation.perpPInflow o g (speciesIn st n) N = 0 := by
    unfold DensityEquation.perpPInflow
    cases hh : o.low_p_diffuse_perp with
    | false => rfl
    | true =>
      cases (speciesIn st n).pressure with
      | none => rfl
      | some P => exact DensityEquation.lapInflow_zero (hc.gradient (Or.inr hh))
  have f4 : DensityEquation.exbOutflow o g B (fieldsIn st) N = 0 := by
    unfold DensityEquation.exbOutflow
    cases hphi : (fieldsIn st).phi with
    | none => rfl
    | some phi =>
      simp only [hc.radial]
      split_ifs
      swap
      · rfl
      have h1 : ∀ j (k : Fin nz), ExB.flowX g B.toBoutOps N phi false o.poloidal_flows true g.xend j k
          - ExB.flowX g B.toBoutOps N phi false o.poloidal_flows true (g.xstart - 1) j k = 0 := by
        intro j k
        rw [(ExB.xppm_no_radial_leak hg _ N phi _ _ j k).1 hB.one.lastX, (ExB.xppm_no_radial_leak hg _ N phi _ _ j k).2 hB.one.firstX,
          sub_zero]
      simp only [h1, Finset.sum_const_zero, zero_add]
      refine Finset.sum_eq_zero fun i hi => ?_
      rcases hc.lines i (mem_Icc.1 hi) with ho | ⟨hgw, τ, -, -, -, hw⟩
      · refine Finset.sum_eq_zero fun k _ => ?_
        rw [(ExB.xppm_no_poloidal_leak g _ N phi _ _ k ho.open_line).1 ho.last,
          (ExB.xppm_no_poloidal_leak g _ N phi _ _ k ho.open_line).2 ho.first, sub_zero]
      · rw [Finset.sum_sub_distrib, ExB.xppm_periodic g _ N phi false _ _ τ hgw.periodic (hw phi hphi), sub_self]
  have f5 : DensityEquation.parOutflow g B lim (speciesIn st n) (fieldsIn st) N = wallLoss (g.targetMesh B pump g33) st n := by
    unfold DensityEquation.parOutflow
    cases hV : (speciesIn st n).velocity with
    | none =>
      have hv : fieldOf st n .velocity = 0 := readF3_none hV
      refine (wallLoss_blocked fun u p q inn _ => ?_).symm
      rw [hv]
      simp [face]
    | some V =>
      have hV' := readF3_some hV
      obtain ⟨-, -, -, -, hw, -⟩ := DensityEquation.densityRhs_ok h
      obtain ⟨w, hw⟩ := hw V hV
      rw [hw]
      simp only
      rw [wallLoss_columns]
      refine Finset.sum_congr rfl fun i hi => ?_
      have hi' := mem_Icc.1 hi
      rcases hc.lines i hi' with ho | ⟨hgw, τ, hwN, hwV, hww, -⟩
      · rw [ho.open_line, ho.first, ho.last]
        simp only [Bool.not_false, Bool.and_true, if_true]
        exact column_loss hg hs hσ hk lim N₀ _ V w rfl hV' hi' ho
      · have hp : B.periodicY i = true := hgw.periodic
        rw [hp]
        simp only [Bool.not_true, Bool.and_false, Bool.false_eq_true, if_false, add_zero]
        rw [Finset.sum_sub_distrib, periodic_flow hg hs hgw lim τ hwN (hwV V hV) (hww w hw), sub_self]
  rw [f1, f2, f3, f4, f5, hc.lowN] at e
  rw [e]
  ring

/-- A gas described by `neutral_mixed` in a closed chamber loses nothing. -/
theorem gas_loss (hg : Regular g) (hs : Separable g) {σ : ℤ → ℤ → Equiv.Perm (Fin nz)} {b : NMBoundaries nz} {o : NMOpts (Cell nz)}
    {N P NV : Fld (Cell nz)} (hc : NeutralGas.Chamber g B b o σ N P NV) {s : NMSources (Cell nz)} (hsc : s.scale = none)
    (hne : NeutralGas.NotEmpty g o N P) {st : Store Key (Value (Cell nz))} {n : String} (hd : orZero s.density = fieldOf st n .density_source) :
    content g (NeutralGas.rates g B b o N P NV s).1 = sourceOf g st n + content g (asF3 o.density_source) := by
  rw [NeutralGas.particles_only_from_sources hg hs hc hsc hne, hd, add_comm]
  rfl

/-! ## The balance of nuclei -/

/-- Flow to the wall does not depend on sources. -/
theorem wallLoss_congr {m : RMesh (Cell nz)} {st st' : Store Key (Value (Cell nz))} {n : String}
    (h : ∀ v ∈ [Var.density, .velocity], vals st' (.sp n v) = vals st (.sp n v)) : wallLoss m st' n = wallLoss m st n := by
  unfold wallLoss wallFlow
  rw [fieldOf_congr (h .density (by simp)), fieldOf_congr (h .velocity (by simp))]

theorem sum_if_dest {S : List String} (hS : S.Nodup) {d : String} (hd : d ∈ S) (w : String → ℝ) (x : ℝ) :
    (S.map fun n => w n * if d = n then x else 0).sum = w d * x := by
  rw [← List.sum_toFinset _ hS]
  rw [Finset.sum_eq_single d]
  · rw [if_pos rfl]
  · intro b _ hb
    rw [if_neg hb.symm, mul_zero]
  · intro h
    exact absurd (List.mem_toFinset.2 hd) h

theorem content_list (g : Grid) (l : List (Fld (Cell nz))) :
    content g (asF3 fun p => (l.map fun f => f p).sum) = (l.map fun f => content g (asF3 f)).sum := by
  induction l with
  | nil => exact content_zero g
  | cons f l ih =>
    rw [List.map_cons, List.sum_cons, ← ih, ← content_add]
    rfl

/-- What recycling adds to the sources of species `n`, integrated. -/
theorem sourceOf_recycling (hg : Regular g) (hy : g.ystart < g.yend) {fl : RecycleFlags} (ht : fl.target_recycle = true)
    (h1 : fl.sol_recycle = false) (h2 : fl.pfr_recycle = false) {channels : List RecycleChannel} {mem mem' : RecycleMem (Cell nz)}
    {st st' : Store Key (Value (Cell nz))} (hrun : recycling (g.targetMesh B pump g33) fl channels mem st = (.ok mem', st'))
    (hout : ∀ ch ∈ channels, Outward (g.targetMesh B pump g33) st ch.source) (n : String) :
    sourceOf g st' n = sourceOf g st n
      + (channels.map fun ch => if ch.dest = n then ch.target_multiplier * wallLoss (g.targetMesh B pump g33) st ch.source else 0).sum := by
  set m := g.targetMesh B pump g33 with hm
  obtain ⟨a, -, -⟩ := recycling_sources (mesh_ok hy) sol_nodup pfr_nodup
    (fun ch _ hh => by rw [h1, h2] at hh; rcases hh with hh | hh <;> cases hh) hrun
  unfold sourceOf
  have e : asF3 (fieldOf st' n .density_source) = asF3 (fieldOf st n .density_source)
      + asF3 (fun p => ((channels.map fun ch => (fun p => if ch.dest = n then gainD m fl st ch p else 0 : Fld (Cell nz))).map fun f => f p).sum) := by
    funext i j k
    show fieldOf st' n .density_source (i, j, k) = fieldOf st n .density_source (i, j, k) + _
    rw [a]
    simp only [asF3, List.map_map]
    rfl
  rw [e, content_add, content_list, List.map_map]
  congr 2
  refine List.map_congr_left fun ch hch => ?_
  show content g (asF3 fun p => if ch.dest = n then gainD m fl st ch p else 0) = _
  split_ifs with hd
  · exact content_gainD hg ht h1 h2 (hout ch hch)
  · exact content_zero g

/-- **C77.**  Balance of nuclei.  Let particles of species `n` contain `w n` nuclei of some kind.  For every state in which the recycled
species flow into the targets: the number of nuclei in the domain changes by the sources before recycling, and at the targets each
particle of a recycled species that arrives takes `w source` nuclei away and gives `target_multiplier * w dest` of them back. -/
theorem nuclei_balance (hg : Regular g) (hy : g.ystart < g.yend) {fl : RecycleFlags} (ht : fl.target_recycle = true)
    (h1 : fl.sol_recycle = false) (h2 : fl.pfr_recycle = false) {channels : List RecycleChannel} {mem mem' : RecycleMem (Cell nz)}
    {st st' : Store Key (Value (Cell nz))} (hrun : recycling (g.targetMesh B pump g33) fl channels mem st = (.ok mem', st'))
    (hout : ∀ ch ∈ channels, Outward (g.targetMesh B pump g33) st ch.source)
    {S : List String} (hS : S.Nodup) (hin : ∀ ch ∈ channels, ch.source ∈ S ∧ ch.dest ∈ S) (hone : (channels.map fun ch => ch.source).Nodup)
    {rate input loss : String → ℝ} (hr : ∀ n ∈ S, rate n = sourceOf g st' n + input n - loss n)
    (hl : ∀ ch ∈ channels, loss ch.source = wallLoss (g.targetMesh B pump g33) st' ch.source)
    (hz : ∀ n ∈ S, (∀ ch ∈ channels, ch.source ≠ n) → loss n = 0) (w : String → ℝ) :
    (S.map fun n => w n * rate n).sum = (S.map fun n => w n * (sourceOf g st n + input n)).sum
      - (channels.map fun ch => (w ch.source - ch.target_multiplier * w ch.dest) * wallLoss (g.targetMesh B pump g33) st ch.source).sum := by
  set m := g.targetMesh B pump g33 with hm
  obtain ⟨-, -, keep⟩ := recycling_sources (mesh_ok hy) sol_nodup pfr_nodup
    (fun ch _ hh => by rw [h1, h2] at hh; rcases hh with hh | hh <;> cases hh) hrun
  have hw : ∀ n, wallLoss m st' n = wallLoss m st n := fun n => wallLoss_congr fun v hv => keep _ fun ch _ => by
    simp only [List.mem_cons, List.not_mem_nil, or_false] at hv
    constructor <;> (intro e; have := (Key.sp.inj e).2; rcases hv with rfl | rfl <;> cases this)
  -- the losses, species by species and channel by channel
  have losses : (S.map fun n => w n * loss n).sum = (channels.map fun ch => w ch.source * wallLoss m st ch.source).sum := by
    have e1 : (channels.map fun ch => w ch.source * wallLoss m st ch.source) = (channels.map fun ch => ch.source).map fun n => w n * loss n := by
      rw [List.map_map]
      refine List.map_congr_left fun ch hch => ?_
      show _ = w ch.source * loss ch.source
      rw [hl ch hch, hw]
    rw [e1, ← List.sum_toFinset _ hS, ← List.sum_toFinset _ hone]
    refine (Finset.sum_subset ?_ ?_).symm
    · intro n hn
      obtain ⟨ch, hch, rfl⟩ := List.mem_map.1 (List.mem_toFinset.1 hn)
      exact List.mem_toFinset.2 (hin ch hch).1
    · intro n hn hn'
      rw [hz n (List.mem_toFinset.1 hn) fun ch hch e => hn' (List.mem_toFinset.2 (List.mem_map.2 ⟨ch, hch, e⟩)), mul_zero]
  have gains : (S.map fun n => w n * (channels.map fun ch => if ch.dest = n then ch.target_multiplier * wallLoss m st ch.source else 0).sum).sum
      = (channels.map fun ch => w ch.dest * (ch.target_multiplier * wallLoss m st ch.source)).sum := by
    have comm : ∀ l : List RecycleChannel, (∀ ch ∈ l, ch.dest ∈ S) →
        (S.map fun n => w n * (l.map fun ch => if ch.dest = n then ch.target_multiplier * wallLoss m st ch.source else 0).sum).sum
          = (l.map fun ch => w ch.dest * (ch.target_multiplier * wallLoss m st ch.source)).sum := by
      intro l hd
      induction l with
      | nil => simp
      | cons c l ih =>
        simp only [List.map_cons, List.sum_cons, mul_add]
        rw [List.sum_map_add, ih fun ch hch => hd ch (List.mem_cons_of_mem _ hch), sum_if_dest hS (hd c List.mem_cons_self)]
    exact comm channels fun ch hch => (hin ch hch).2
  have e : (S.map fun n => w n * rate n) = S.map fun n => w n * (sourceOf g st n + input n)
      + w n * (channels.map fun ch => if ch.dest = n then ch.target_multiplier * wallLoss m st ch.source else 0).sum + -(w n * loss n) := by
    refine List.map_congr_left fun n hn => ?_
    rw [hr n hn, sourceOf_recycling hg hy ht h1 h2 hrun hout n]
    ring
  have neg : ∀ {α : Type} (l : List α) (f : α → ℝ), (l.map fun x => -f x).sum = -(l.map f).sum := by
    intro α l f
    induction l with
    | nil => simp
    | cons x l ih => simp only [List.map_cons, List.sum_cons, ih]; ring
  rw [e, List.sum_map_add, List.sum_map_add, neg, losses, gains]
  have e2 : (channels.map fun ch => (w ch.source - ch.target_multiplier * w ch.dest) * wallLoss m st ch.source)
      = channels.map fun ch => w ch.source * wallLoss m st ch.source + -(w ch.dest * (ch.target_multiplier * wallLoss m st ch.source)) := by
    refine List.map_congr_left fun ch _ => ?_
    ring
  rw [e2, List.sum_map_add, neg]
  ring

/-! ## The whole simulation -/

/-- How species `n` evolves: `r` is its `ddt(N)`, `input` the source in the input file that is not part of the state, `loss` what reaches the
targets.  Either it has the equation of `evolve_density` and there is no way out but the targets, or it is a gas described by `neutral_mixed` in
a closed chamber. -/
inductive Evolved (g : Grid) (B : RhsOps nz) (m : RMesh (Cell nz)) (σ : ℤ → ℤ → Equiv.Perm (Fin nz)) (st : Store Key (Value (Cell nz))) (n : String) :
    F3 nz → ℝ → ℝ → Prop
  | density (o : DensityOpts) (lim : Limiter) (N₀ r : F3 nz)
      (hc : OnlyTargets o g B σ (speciesIn st n) (fieldsIn st) (B.setBoundaryTo N₀ (asF3 (fieldOf st n .density))))
      (h : densityRhs o g B lim N₀ (speciesIn st n) (fieldsIn st) = .ok r) : Evolved g B m σ st n r 0 (wallLoss m st n)
  | gas (b : NMBoundaries nz) (o : NMOpts (Cell nz)) (N P NV : Fld (Cell nz)) (s : NMSources (Cell nz))
      (hc : NeutralGas.Chamber g B b o σ N P NV) (hsc : s.scale = none) (hne : NeutralGas.NotEmpty g o N P)
      (hd : orZero s.density = fieldOf st n .density_source) :
      Evolved g B m σ st n (NeutralGas.rates g B b o N P NV s).1 (content g (asF3 o.density_source)) 0

theorem Evolved.balance (hg : Regular g) (hs : Separable g) {σ : ℤ → ℤ → Equiv.Perm (Fin nz)} (hσ : Relabels B σ) (hB : Assumed g B)
    (hk : KeepsFaces g B) {st : Store Key (Value (Cell nz))} {n : String} {r : F3 nz} {input loss : ℝ}
    (h : Evolved g B (g.targetMesh B pump g33) σ st n r input loss) : content g r = sourceOf g st n + input - loss := by
  cases h with
  | density o lim N₀ r hc h => rw [density_loss hg hs hσ hB hk hc h (pump := pump) (g33 := g33), add_zero]
  | gas b o N P NV s hc hsc hne hd => rw [gas_loss hg hs hc hsc hne hd, sub_zero]

/-- After `sheath_boundary` every ion species flows into the targets, in every state. -/
theorem sheath_outward (hy : g.ystart < g.yend) {o : SheathOpts (Cell nz)} (hlo : o.lower_y = true) (hup : o.upper_y = true) {garbage : Fld (Cell nz)}
    {names : List String} (hn : names.Nodup) {st st' : Store Key (Value (Cell nz))}
    (h : sheathBoundary o (g.targetMesh B pump g33).toYMesh garbage names st = (.ok (), st')) {n : String} (hmem : n ∈ names) (hi : IsIon st n)
    (hv : (vals st (.sp n .velocity)).isSome) : Outward (g.targetMesh B pump g33) st' n := by
  intro u p q inn ht
  have ht' : Target (g.targetMesh B pump g33).toYMesh o.lower_y o.upper_y u p q inn := by rw [hlo, hup]; exact ht
  have hm : MeshOk (g.targetMesh B pump g33).toYMesh := mesh_ok hy
  have hs : HasSheath st names n := Or.inr ⟨hmem, hi⟩
  have hp : 0 ≤ fieldOf st' n .density p := by
    rw [(sheath_interior hm hn h hs fun u' i' inn' h' => (h'.ne hm ht').1 rfl).1]
    exact le_max_right _ _
  have hq := (sheath_guard_values hm hn h hs (v := .density) (by simp) ht' hp).1
  have hV := (sheath_ions_inward hm hn h hmem hi hv ht').1
  have hN : 0 ≤ face (fieldOf st' n .density) p q := by unfold face; linarith
  have : out u * face (fieldOf st' n .density) p q * face (fieldOf st' n .velocity) p q
      = face (fieldOf st' n .density) p q * (out u * face (fieldOf st' n .velocity) p q) := by ring
  rw [this]
  exact mul_nonneg hN hV

/-- Flow into the targets is the same in field-aligned coordinates, if the shift does not change at the targets. -/
theorem outward_aligned {m : RMesh (Cell nz)} (hm : m = g.targetMesh B pump g33) {σ : ℤ → ℤ → Equiv.Perm (Fin nz)} (hσ : Relabels B σ)
    (hlo : ∀ p ∈ m.lower, σ p.1 (p.2.1 - 1) = σ p.1 p.2.1) (hup : ∀ p ∈ m.upper, σ p.1 (p.2.1 + 1) = σ p.1 p.2.1)
    {st st' : Store Key (Value (Cell nz))} {n : String}
    (h : ∀ v ∈ [Var.density, .velocity], vals st' (.sp n v) = some (.field (fromAligned B (fieldOf st n v)))) (ho : Outward m st n) : Outward m st' n := by
  have e : ∀ v ∈ [Var.density, .velocity], ∀ p : Cell nz, fieldOf st' n v p = fieldOf st n v (p.1, p.2.1, (σ p.1 p.2.1).symm p.2.2) := by
    intro v hv p
    unfold fieldOf
    rw [h v hv]
    exact hσ.fromFA _ _ _ _
  subst hm
  intro u p q inn ht
  cases ht with
  | lower _ hp =>
    obtain ⟨i, j, k⟩ := p
    have hs := hlo _ hp
    have hp' : ((i, j, (σ i j).symm k) : Cell nz) ∈ (g.targetMesh B pump g33).lower := by
      obtain ⟨a, b, c⟩ := NeutralGas.mem_endCells.1 hp
      exact NeutralGas.mem_endCells.2 ⟨a, b, c⟩
    have := ho _ _ _ _ (Target.lower (m := (g.targetMesh B pump g33).toYMesh) rfl hp')
    unfold face at this ⊢
    rw [e _ (by simp), e _ (by simp), e _ (by simp), e _ (by simp)]
    dsimp only [Grid.targetMesh] at this hs ⊢
    rw [hs]
    exact this
  | upper _ hp =>
    obtain ⟨i, j, k⟩ := p
    have hs := hup _ hp
    have hp' : ((i, j, (σ i j).symm k) : Cell nz) ∈ (g.targetMesh B pump g33).upper := by
      obtain ⟨a, b, c⟩ := NeutralGas.mem_endCells.1 hp
      exact NeutralGas.mem_endCells.2 ⟨a, b, c⟩
    have := ho _ _ _ _ (Target.upper (m := (g.targetMesh B pump g33).toYMesh) rfl hp')
    unfold face at this ⊢
    rw [e _ (by simp), e _ (by simp), e _ (by simp), e _ (by simp)]
    dsimp only [Grid.targetMesh] at this hs ⊢
    rw [hs]
    exact this

theorem wallLoss_nonneg (hp : Positive g) {st : Store Key (Value (Cell nz))} {n : String} (h : Outward (g.targetMesh B pump g33) st n) :
    0 ≤ wallLoss (g.targetMesh B pump g33) st n := by
  have area : ∀ p q, 0 ≤ targetArea (g.targetMesh B pump g33) p q := by
    intro p q
    refine mul_nonneg (mul_nonneg (div_nonneg ?_ (add_nonneg (Real.sqrt_nonneg _) (Real.sqrt_nonneg _))) ?_) ?_
    · exact add_nonneg (hp.J p.1 p.2.1).le (hp.J q.1 q.2.1).le
    · exact div_nonneg (add_nonneg (hp.dx p.1 p.2.1).le (hp.dx q.1 q.2.1).le) (by norm_num)
    · exact div_nonneg (add_nonneg (hp.dz p.1 p.2.1).le (hp.dz q.1 q.2.1).le) (by norm_num)
  refine add_nonneg (List.sum_nonneg fun x hx => ?_) (List.sum_nonneg fun x hx => ?_)
  · obtain ⟨p, hpm, rfl⟩ := List.mem_map.1 hx
    exact mul_nonneg (h _ _ _ _ (Target.lower rfl hpm)) (area _ _)
  · obtain ⟨p, hpm, rfl⟩ := List.mem_map.1 hx
    exact mul_nonneg (h _ _ _ _ (Target.upper rfl hpm)) (area _ _)

/-- One evaluation of the right-hand side, as far as the nuclei are concerned: sheath, then anything that leaves density and velocity of the recycled
ions alone, then recycling at the targets, then the equations of all species `S`. -/
structure Evaluation (g : Grid) (B : RhsOps nz) (m : RMesh (Cell nz)) (σ : ℤ → ℤ → Equiv.Perm (Fin nz)) (channels : List RecycleChannel) (S : List String)
    (st st' : Store Key (Value (Cell nz))) (rate : String → F3 nz) (input : String → ℝ) : Prop where
  /-- the sheath, in field-aligned coordinates -/
  sheath : ∃ (o : SheathOpts (Cell nz)) (garbage : Fld (Cell nz)) (names : List String) (st0 st1 : Store Key (Value (Cell nz))),
    o.lower_y = true ∧ o.upper_y = true ∧ names.Nodup ∧ sheathBoundary o m.toYMesh garbage names st0 = (.ok (), st1) ∧
    ∀ ch ∈ channels, (ch.source ∈ names ∧ IsIon st0 ch.source ∧ (vals st0 (.sp ch.source .velocity)).isSome) ∧
      ∀ v ∈ [Var.density, .velocity], vals st (.sp ch.source v) = some (.field (fromAligned B (fieldOf st1 ch.source v)))
  /-- the shift to field-aligned coordinates is the same in the last cells and in the guard cells behind the targets -/
  lower : ∀ p ∈ m.lower, σ p.1 (p.2.1 - 1) = σ p.1 p.2.1
  upper : ∀ p ∈ m.upper, σ p.1 (p.2.1 + 1) = σ p.1 p.2.1
  /-- recycling at the targets only -/
  recycling : ∃ fl mem mem', fl.target_recycle = true ∧ fl.sol_recycle = false ∧ fl.pfr_recycle = false ∧
    Hermes.recycling m fl channels mem st = (.ok mem', st')
  /-- every species is recycled once at most, and what is recycled is followed -/
  species : S.Nodup
  followed : ∀ ch ∈ channels, ch.source ∈ S ∧ ch.dest ∈ S
  once : (channels.map fun ch => ch.source).Nodup
  /-- the equations; species that are not recycled do not flow through the targets -/
  equations : ∀ n ∈ S, ∃ loss, Evolved g B m σ st' n (rate n) (input n) loss ∧
    ((∃ ch ∈ channels, ch.source = n) → loss = wallLoss m st' n) ∧ ((∀ ch ∈ channels, ch.source ≠ n) → loss = 0)

section
variable {σ : ℤ → ℤ → Equiv.Perm (Fin nz)} {channels : List RecycleChannel} {S : List String} {st st' : Store Key (Value (Cell nz))}
  {rate : String → F3 nz} {input : String → ℝ}

theorem Evaluation.outward (hy : g.ystart < g.yend) (hσ : Relabels B σ) (h : Evaluation g B (g.targetMesh B pump g33) σ channels S st st' rate input) :
    ∀ ch ∈ channels, Outward (g.targetMesh B pump g33) st ch.source := by
  obtain ⟨o, gb, names, st0, st1, hlo, hup, hn, hrun, hch⟩ := h.sheath
  intro ch hc
  obtain ⟨⟨a, b, c⟩, d⟩ := hch ch hc
  exact outward_aligned rfl hσ h.lower h.upper d (sheath_outward hy hlo hup hn hrun a b c)

/-- **C77.**  Balance of nuclei over one evaluation of the right-hand side: for every state, geometry, limiter and settings, and every way `w` of counting
nuclei, the number of nuclei changes by the sources that were there before recycling, and by the difference of what arrives at the targets and what is
returned. -/
theorem Evaluation.balance (hg : Regular g) (hs : Separable g) (hy : g.ystart < g.yend) (hσ : Relabels B σ) (hB : Assumed g B) (hk : KeepsFaces g B)
    (h : Evaluation g B (g.targetMesh B pump g33) σ channels S st st' rate input) (w : String → ℝ) :
    (S.map fun n => w n * content g (rate n)).sum = (S.map fun n => w n * (sourceOf g st n + input n)).sum
      - (channels.map fun ch => (w ch.source - ch.target_multiplier * w ch.dest) * wallLoss (g.targetMesh B pump g33) st ch.source).sum := by
  obtain ⟨fl, mem, mem', h0, h1, h2, hrun⟩ := h.recycling
  have hloss : ∀ n, ∃ loss, n ∈ S → Evolved g B (g.targetMesh B pump g33) σ st' n (rate n) (input n) loss ∧
      ((∃ ch ∈ channels, ch.source = n) → loss = wallLoss (g.targetMesh B pump g33) st' n) ∧ ((∀ ch ∈ channels, ch.source ≠ n) → loss = 0) := by
    intro n
    by_cases hn : n ∈ S
    · obtain ⟨l, hl⟩ := h.equations n hn
      exact ⟨l, fun _ => hl⟩
    · exact ⟨0, fun hh => absurd hh hn⟩
  choose loss hl using hloss
  exact nuclei_balance hg hy h0 h1 h2 hrun (h.outward hy hσ) h.species h.followed h.once (rate := fun n => content g (rate n)) (input := input) (loss := loss)
    (fun n hn => (hl n hn).1.balance hg hs hσ hB hk) (fun ch hch => (hl _ (h.followed ch hch).1).2.1 ⟨ch, hch, rfl⟩)
    (fun n hn hz => (hl n hn).2.2 hz) w

/-- The density sources before recycling are `ext`, what `evolve_density` puts there from the input file, and those of reactions chosen by their
equations, on any states; all species in these equations that contain nuclei of `E` are followed. -/
structure FromReactions (S : List String) (st : Store Key (Value (Cell nz))) (ext : String → Fld (Cell nz)) (E : String) : Prop where
  ran : ∃ reactions : List (Registry.Params × String × Registry.Entry × World (Cell nz)),
    (∀ x ∈ reactions, Registry.create x.2.1 = some x.2.2.1 ∧ SourcesUnread x.2.2.2.st ∧
      (∀ s ∈ Registry.speciesOf x.2.1, s ≠ "e" → x.2.2.2.chargeOr0 s = Registry.nameCharge s) ∧
      ((x.2.2.1.component x.1).transform x.2.2.2).1 = .ok () ∧
      ∀ s ∈ Registry.speciesOf x.2.1, Registry.nucleus s = some E → s ∈ S) ∧
    ∀ n ∈ S, ∀ p, fieldOf st n .density_source p = ext n p +
      (reactions.map fun x => gain x.2.2.2.st ((x.2.2.1.component x.1).transform x.2.2.2).2 n .density_source p).sum

end

open Registry in
/-- Counting the nuclei of kind `E` in a list of terms species by species. -/
theorem count_total {S : List String} (hS : S.Nodup) {E : String} (l : List (ℕ × String)) (h : ∀ t ∈ l, nucleus t.2 = some E → t.2 ∈ S) :
    (S.map fun n => (one (nucleus n = some E) : ℤ) * count l n).sum = total l fun s => one (nucleus s = some E) := by
  induction l with
  | nil => simp [count, total]
  | cons t l ih =>
    have e : (S.map fun n => (one (nucleus n = some E) : ℤ) * count (t :: l) n)
        = S.map fun n => (one (nucleus n = some E) : ℤ) * (if t.2 = n then (t.1 : ℤ) else 0) + one (nucleus n = some E) * count l n := by
      refine List.map_congr_left fun n _ => ?_
      show _ * ((t :: l).map _).sum = _
      rw [List.map_cons, List.sum_cons, mul_add]
      rfl
    rw [e, List.sum_map_add, ih fun t' ht' => h t' (List.mem_cons_of_mem _ ht')]
    show _ = ((t :: l).map _).sum
    rw [List.map_cons, List.sum_cons]
    unfold total
    congr 1
    dsimp only
    by_cases ht : nucleus t.2 = some E
    · rw [← List.sum_toFinset _ hS, Finset.sum_eq_single t.2]
      · rw [if_pos rfl, mul_comm]
      · intro b _ hb
        rw [if_neg hb.symm, mul_zero]
      · intro hh
        exact absurd (List.mem_toFinset.2 (h t List.mem_cons_self ht)) hh
    · have z : (one (nucleus t.2 = some E) : ℤ) = 0 := if_neg ht
      rw [z, mul_zero, ← List.sum_toFinset _ hS]
      refine Finset.sum_eq_zero fun b _ => ?_
      by_cases hb : t.2 = b
      · rw [← hb, z, zero_mul]
      · rw [if_neg hb, mul_zero]

open Registry in
/-- A reaction chosen by its equation makes as many nuclei of each kind as it destroys. -/
theorem made_nuclei {S : List String} (hS : S.Nodup) {E text : String} {en : Registry.Entry} (h : create text = some en)
    (hall : ∀ s ∈ speciesOf text, nucleus s = some E → s ∈ S) : (S.map fun n => (one (nucleus n = some E) : ℤ) * made text n).sum = 0 := by
  have neg : ∀ (l : List String) (f : String → ℤ), (l.map fun x => -f x).sum = -(l.map f).sum := by
    intro l f
    induction l with
    | nil => simp
    | cons x l ih => simp only [List.map_cons, List.sum_cons, ih]; ring
  have mem : ∀ t, t ∈ (sides text).1 ∨ t ∈ (sides text).2 → t.2 ∈ speciesOf text := by
    intro t ht
    exact List.mem_map.2 ⟨t, List.mem_append.2 ht, rfl⟩
  have e : (S.map fun n => (one (nucleus n = some E) : ℤ) * made text n)
      = S.map fun n => (one (nucleus n = some E) : ℤ) * count (sides text).2 n + -(one (nucleus n = some E) * count (sides text).1 n) := by
    refine List.map_congr_left fun n _ => ?_
    unfold made
    ring
  rw [e, List.sum_map_add, neg, count_total hS _ fun t ht hn => hall _ (mem t (Or.inr ht)) hn,
    count_total hS _ fun t ht hn => hall _ (mem t (Or.inl ht)) hn]
  by_cases hy : ∃ y ∈ speciesOf text, nucleus y = some E
  · obtain ⟨y, hy, hyE⟩ := hy
    have := (equations_balance _ (mem_of_lookup h)).2 y hy (by rw [hyE]; exact Option.some_ne_none _)
    dsimp only at this
    rw [hyE] at this
    rw [this]
    ring
  · have z : ∀ l : List (ℕ × String), (∀ t ∈ l, t.2 ∈ speciesOf text) → total l (fun s => one (nucleus s = some E)) = 0 := by
      intro l hl
      refine List.sum_eq_zero fun x hx => ?_
      obtain ⟨t, ht, rfl⟩ := List.mem_map.1 hx
      beta_reduce
      rw [show (one (nucleus t.2 = some E) : ℤ) = 0 from if_neg fun hh => hy ⟨_, hl t ht, hh⟩, mul_zero]
    rw [z _ fun t ht => mem t (Or.inr ht), z _ fun t ht => mem t (Or.inl ht)]
    rfl

section
variable {σ : ℤ → ℤ → Equiv.Perm (Fin nz)} {channels : List RecycleChannel} {S : List String} {st st' : Store Key (Value (Cell nz))}
  {rate : String → F3 nz} {input : String → ℝ}

/-- One nucleus of kind `E` in each particle of a species whose name says so. -/
def weight (E n : String) : ℝ := if Registry.nucleus n = some E then 1 else 0

theorem sourceOf_reactions (hS : S.Nodup) {ext : String → Fld (Cell nz)} {E : String} (h : FromReactions S st ext E) :
    (S.map fun n => weight E n * sourceOf g st n).sum = (S.map fun n => weight E n * content g (asF3 (ext n))).sum := by
  obtain ⟨rs, hrs, hsum⟩ := h.ran
  -- cell by cell
  have cell : ∀ p : Cell nz, (S.map fun n => weight E n * fieldOf st n .density_source p).sum = (S.map fun n => weight E n * ext n p).sum := by
    intro p
    have e : (S.map fun n => weight E n * fieldOf st n .density_source p) = S.map fun n => weight E n * ext n p + weight E n *
        (rs.map fun x => gain x.2.2.2.st ((x.2.2.1.component x.1).transform x.2.2.2).2 n .density_source p).sum :=
      List.map_congr_left fun n hn => by rw [hsum n hn, mul_add]
    rw [e, List.sum_map_add]
    refine add_eq_left.2 ?_
    clear e hsum
    induction rs with
    | nil => simp
    | cons x rs ih =>
      simp only [List.map_cons, List.sum_cons, mul_add]
      rw [List.sum_map_add, ih fun y hy => hrs y (List.mem_cons_of_mem _ hy), add_zero]
      obtain ⟨hc, hu, hq, ht, hall⟩ := hrs x List.mem_cons_self
      obtain ⟨-, R, hR, -⟩ := Registry.reaction_follows_equation x.1 hc hu hq ht
      have e : (S.map fun n => weight E n * gain x.2.2.2.st ((x.2.2.1.component x.1).transform x.2.2.2).2 n .density_source p)
          = S.map fun n => (((Registry.one (Registry.nucleus n = some E) : ℤ) * Registry.made x.2.1 n : ℤ) : ℝ) * R p := by
        refine List.map_congr_left fun n _ => ?_
        rw [hR]
        unfold weight Registry.one
        split_ifs <;> push_cast <;> ring
      rw [e, List.sum_map_mul_right]
      have hz := made_nuclei hS hc hall
      have : ((S.map fun n => (Registry.one (Registry.nucleus n = some E) : ℤ) * Registry.made x.2.1 n).sum : ℝ)
          = (S.map fun n => (((Registry.one (Registry.nucleus n = some E) : ℤ) * Registry.made x.2.1 n : ℤ) : ℝ)).sum := by
        rw [Int.cast_list_sum, List.map_map]
        rfl
      rw [← this, hz, Int.cast_zero, zero_mul]
  have lin : ∀ a : String → Fld (Cell nz), (S.map fun n => weight E n * content g (asF3 (a n))).sum
      = content g (asF3 fun p => (S.map fun n => weight E n * a n p).sum) := by
    intro a
    have := content_list g (S.map fun n => (fun p => weight E n * a n p : Fld (Cell nz)))
    simp only [List.map_map] at this
    refine Eq.trans ?_ this.symm
    congr 1
    refine List.map_congr_left fun n _ => ?_
    exact (content_smul g _ _).symm
  unfold sourceOf
  rw [lin fun n => fieldOf st n .density_source, lin ext]
  congr 2
  exact funext cell

/-- **C77.**  A simulation with complete recycling keeps its nuclei.  For every geometry, state, limiter, transport setting and set of reactions: if the
sources before recycling are those of the input file and of reactions, all ions that reach a target come back as particles of the same element, and nothing
leaves elsewhere, then the number of nuclei of `E` changes by what the input file puts in, and by nothing else. -/
theorem complete_recycling_keeps_nuclei_partial (hg : Regular g) (hs : Separable g) (hy : g.ystart < g.yend) (hσ : Relabels B σ) (hB : Assumed g B)
    (hk : KeepsFaces g B) (h : Evaluation g B (g.targetMesh B pump g33) σ channels S st st' rate input) {ext : String → Fld (Cell nz)} {E : String}
    (hr : FromReactions S st ext E)
    (hfull : ∀ ch ∈ channels, Registry.nucleus ch.dest = Registry.nucleus ch.source ∧ ch.target_multiplier = 1) :
    (S.map fun n => if Registry.nucleus n = some E then content g (rate n) else 0).sum
      = (S.map fun n => if Registry.nucleus n = some E then content g (asF3 (ext n)) + input n else 0).sum := by
  have hb := h.balance hg hs hy hσ hB hk (weight E)
  have z : (channels.map fun ch => (weight E ch.source - ch.target_multiplier * weight E ch.dest) *
      wallLoss (g.targetMesh B pump g33) st ch.source).sum = 0 := by
    refine List.sum_eq_zero fun x hx => ?_
    obtain ⟨ch, hch, rfl⟩ := List.mem_map.1 hx
    obtain ⟨a, b⟩ := hfull ch hch
    unfold weight
    rw [a, b, one_mul, sub_self, zero_mul]
  have e : ∀ f : String → ℝ, (S.map fun n => weight E n * f n) = S.map fun n => if Registry.nucleus n = some E then f n else 0 := by
    intro f
    refine List.map_congr_left fun n _ => ?_
    unfold weight
    split_ifs <;> ring
  have e2 : (S.map fun n => weight E n * (sourceOf g st n + input n)) = S.map fun n => weight E n * sourceOf g st n + weight E n * input n :=
    List.map_congr_left fun n _ => mul_add _ _ _
  have e3 : (S.map fun n => weight E n * content g (asF3 (ext n)) + weight E n * input n) = S.map fun n => weight E n * (content g (asF3 (ext n)) + input n) :=
    List.map_congr_left fun n _ => (mul_add _ _ _).symm
  rw [z, sub_zero, e2, List.sum_map_add, sourceOf_reactions h.species hr, ← List.sum_map_add, e3, e, e] at hb
  exact hb

/-- **C77.**  Incomplete recycling never makes nuclei: with multipliers between 0 and 1 the number of nuclei of `E` grows by what the input file puts in
at most. -/
theorem recycling_makes_no_nuclei_partial (hg : Regular g) (hs : Separable g) (hp : Positive g) (hy : g.ystart < g.yend) (hσ : Relabels B σ) (hB : Assumed g B)
    (hk : KeepsFaces g B) (h : Evaluation g B (g.targetMesh B pump g33) σ channels S st st' rate input) {ext : String → Fld (Cell nz)} {E : String}
    (hr : FromReactions S st ext E)
    (hfull : ∀ ch ∈ channels, Registry.nucleus ch.dest = Registry.nucleus ch.source ∧ ch.target_multiplier ≤ 1) :
    (S.map fun n => if Registry.nucleus n = some E then content g (rate n) else 0).sum
      ≤ (S.map fun n => if Registry.nucleus n = some E then content g (asF3 (ext n)) + input n else 0).sum := by
  have hb := h.balance hg hs hy hσ hB hk (weight E)
  have z : 0 ≤ (channels.map fun ch => (weight E ch.source - ch.target_multiplier * weight E ch.dest) *
      wallLoss (g.targetMesh B pump g33) st ch.source).sum := by
    refine List.sum_nonneg fun x hx => ?_
    obtain ⟨ch, hch, rfl⟩ := List.mem_map.1 hx
    obtain ⟨a, b⟩ := hfull ch hch
    refine mul_nonneg ?_ (wallLoss_nonneg hp (h.outward hy hσ ch hch))
    unfold weight
    rw [a]
    split_ifs <;> linarith
  have e : ∀ f : String → ℝ, (S.map fun n => weight E n * f n) = S.map fun n => if Registry.nucleus n = some E then f n else 0 := by
    intro f
    refine List.map_congr_left fun n _ => ?_
    unfold weight
    split_ifs <;> ring
  have e2 : (S.map fun n => weight E n * (sourceOf g st n + input n)) = S.map fun n => weight E n * sourceOf g st n + weight E n * input n :=
    List.map_congr_left fun n _ => mul_add _ _ _
  have e3 : (S.map fun n => weight E n * content g (asF3 (ext n)) + weight E n * input n) = S.map fun n => weight E n * (content g (asF3 (ext n)) + input n) :=
    List.map_congr_left fun n _ => (mul_add _ _ _).symm
  rw [e2, List.sum_map_add, sourceOf_reactions h.species hr, ← List.sum_map_add, e3, e, e] at hb
  linarith

end
end
end Hermes.Nuclei
