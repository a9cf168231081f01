import Verif.Lemmas.Rhs
import Verif.Props.ParConduction

/-!
# Terms whose integral over a closed domain is zero
-/

namespace Hermes.Rhs
open Finset Hermes Hermes.Limiters Hermes.PerpOps

variable {nz : ℕ}

theorem content_smul' (g : Grid) (c : ℝ) (a : F3 nz) : content g (c • a) = c * content g a := content_smul g c a

/-- The lines of column `i` are closed: either they end in the domain and the velocity vanishes halfway between the last cell and
the guard cell, or they are periodic and all the fields involved repeat.  `adv`: advected field, `others`: other fields. -/
def ColumnClosed [NeZero nz] (g : Grid) (B : RhsOps nz) (velocity phi : Option (F3 nz)) (adv : F3 nz) (others : F3 nz → Prop) (i : ℤ) : Prop :=
  (B.periodicY i = false ∧ g.firstY i = true ∧ g.lastY i = true ∧ ∀ V, velocity = some V → ClosedEnds g B V i) ∨
  (GeometryWraps g B i ∧ ∃ σ, FieldWraps g (B.toFA adv) i σ ∧ (∀ V, velocity = some V → FieldWraps g (B.toFA V) i σ) ∧
    (∀ q, others q → FieldWraps g (B.toFA q) i σ) ∧
    ∀ p, phi = some p → ExB.Wraps g (B.toFA adv) (B.toFA (B.ddx p)) i σ)

theorem content_xppm_closed [NeZero nz] {g : Grid} (hg : Regular g) (hs : Separable g) {B : RhsOps nz} (hB : ExB.Shifts B.toBoutOps)
    (h1 : ExB.OneProcessorX g B.toBoutOps) {velocity : Option (F3 nz)} {adv p : F3 nz} {others : F3 nz → Prop}
    (hc : ∀ i, g.xstart ≤ i ∧ i ≤ g.xend → ColumnClosed g B velocity (some p) adv others i) (pol pos : Bool) :
    content g (g.exbXPPM B.toBoutOps adv p false pol pos) = 0 := by
  rw [ExB.xppm_balance hg hs hB h1]
  have e1 : ∀ j (k : Fin nz), ExB.flowX g B.toBoutOps adv p false pol pos g.xend j k
      - ExB.flowX g B.toBoutOps adv p false pol pos (g.xstart - 1) j k = 0 := by
    intro j k
    rw [(ExB.xppm_no_radial_leak hg _ adv p _ _ j k).1 h1.lastX, (ExB.xppm_no_radial_leak hg _ adv p _ _ j k).2 h1.firstX, sub_zero]
  simp only [e1, Finset.sum_const_zero, zero_add]
  refine Finset.sum_eq_zero fun i hi => ?_
  rcases hc i (mem_Icc.1 hi) with ⟨hp, hf, hla, -⟩ | ⟨hgw, σ, -, -, -, hw⟩
  · refine Finset.sum_eq_zero fun k _ => ?_
    rw [(ExB.xppm_no_poloidal_leak g _ adv p _ _ k hp).1 hla, (ExB.xppm_no_poloidal_leak g _ adv p _ _ k hp).2 hf, sub_zero]
  · rw [Finset.sum_sub_distrib, ExB.xppm_periodic g _ adv p false _ _ σ hgw.periodic (hw p rfl), sub_self]

theorem content_exbOf_closed [NeZero nz] {g : Grid} (hg : Regular g) (hs : Separable g) {B : RhsOps nz} (hB : ExB.Shifts B.toBoutOps)
    (h1 : ExB.OneProcessorX g B.toBoutOps) {charged : Prop} {f : FieldsIn nz} {velocity : Option (F3 nz)} {adv : F3 nz}
    {others : F3 nz → Prop} (hc : ∀ i, g.xstart ≤ i ∧ i ≤ g.xend → ColumnClosed g B velocity f.phi adv others i) (pol : Bool) :
    content g (exbOf g B charged f adv false pol) = 0 := by
  unfold exbOf
  cases hp : f.phi with
  | none => exact content_zero g
  | some p =>
    rw [hp] at hc
    simp only
    split_ifs
    · exact content_xppm_closed hg hs hB h1 hc pol true
    · exact content_zero g

theorem content_parMod_closed [NeZero nz] {g : Grid} (hg : Regular g) (hs : Separable g) {B : RhsOps nz} (hB : ExB.Shifts B.toBoutOps)
    (lim : Limiter) {phi : Option (F3 nz)} {adv V w : F3 nz} {others : F3 nz → Prop} (hw : others w)
    (hc : ∀ i, g.xstart ≤ i ∧ i ≤ g.xend → ColumnClosed g B (some V) phi adv others i) :
    content g (g.divParMod3 B lim adv V w true) = 0 := by
  rw [content_parMod hg hs hB]
  refine Finset.sum_eq_zero fun i hi => ?_
  rcases hc i (mem_Icc.1 hi) with ⟨-, -, -, h⟩ | ⟨hgw, σ, hN, hv, ho, -⟩
  · refine Finset.sum_eq_zero fun k _ => ?_
    rw [(closed_no_flow hg (h V rfl) lim adv w k).1, (closed_no_flow hg (h V rfl) lim adv w k).2, sub_zero]
  · rw [Finset.sum_sub_distrib, periodic_flow hg hs hgw lim σ hN (hv V rfl) (ho w hw), sub_self]

/-- Heat conduction moves heat along closed lines only. -/
theorem content_conduction_closed [NeZero nz] {g : Grid} (hg : Regular g) (hs : Separable g) {B : RhsOps nz} (hB : ExB.Shifts B.toBoutOps)
    {velocity phi : Option (F3 nz)} {adv K T : F3 nz} {others : F3 nz → Prop} (hK : others K) (hT : others T)
    (hc : ∀ i, g.xstart ≤ i ∧ i ≤ g.xend → ColumnClosed g B velocity phi adv others i) :
    content g (g.conduction3 B K T false) = 0 := by
  unfold Grid.conduction3
  rw [content_fromFA g hB, content_lines g B]
  refine Finset.sum_eq_zero fun i hi => ?_
  have hl : ∀ k, ParOps.content (g.line B i) (fun j => (g.line B i).divParKGradPar (alongY (B.toFA K) i k) (alongY (B.toFA T) i k) false j) =
      (ParOps.openUp (g.line B i) (alongY (B.toFA K) i k) (alongY (B.toFA T) i k) false g.yend
        - ParOps.openDown (g.line B i) (alongY (B.toFA K) i k) (alongY (B.toFA T) i k) false g.ystart) * (g.dx i g.ystart * g.dz i g.ystart) := by
    intro k
    have h := ParOps.conduction_weighted (line_regular hg B i) (line_uniform hs B i) (alongY (B.toFA K) i k) (alongY (B.toFA T) i k)
      (fun _ => 1) false
    simp only [one_mul, sub_self, zero_mul, Finset.sum_const_zero, sub_zero] at h
    exact h
  rw [Finset.sum_congr rfl fun k _ => hl k, ← Finset.sum_mul]
  rcases hc i (mem_Icc.1 hi) with ⟨hp, hf, hla, -⟩ | ⟨hgw, σ, -, -, ho, -⟩
  · have u : ∀ k, ParOps.openUp (g.line B i) (alongY (B.toFA K) i k) (alongY (B.toFA T) i k) false g.yend = 0 := by
      intro k
      unfold ParOps.openUp Line.condUp
      simp [Grid.line, hp, hla]
    have d : ∀ k, ParOps.openDown (g.line B i) (alongY (B.toFA K) i k) (alongY (B.toFA T) i k) false g.ystart = 0 := by
      intro k
      unfold ParOps.openDown Line.condDown
      simp [Grid.line, hp, hf]
    simp only [u, d, sub_self, Finset.sum_const_zero, zero_mul]
  · have key : ∀ k, ParOps.openUp (g.line B i) (alongY (B.toFA K) i k) (alongY (B.toFA T) i k) false g.yend =
        ParOps.openDown (g.line B i) (alongY (B.toFA K) i (k + σ)) (alongY (B.toFA T) i (k + σ)) false g.ystart := by
      intro k
      have hp : (g.line B i).periodicY = true := hgw.periodic
      have e0 : g.yend = g.ystart - 1 + (g.yend + 1 - g.ystart) := by ring
      have e1 : g.yend + 1 = g.ystart + (g.yend + 1 - g.ystart) := by ring
      unfold ParOps.openUp ParOps.openDown Line.condUp Line.condDown Line.condFluxUp Line.condFluxDown
      have J0 := hgw.J (g.ystart - 1)
      have J1 := hgw.J g.ystart
      have a0 := hgw.g_22 (g.ystart - 1)
      have a1 := hgw.g_22 g.ystart
      have d0 := hgw.dy (g.ystart - 1)
      have d1 := hgw.dy g.ystart
      rw [← e0] at J0 a0 d0
      rw [← e1] at J1 a1 d1
      simp only [hp, Bool.or_true, Bool.true_or, if_true, alongY, (ho K hK).at e0, (ho K hK).at e1, (ho T hT).at e0, (ho T hT).at e1,
        show (g.line B i).J = g.J i from rfl, show (g.line B i).g22 = B.g_22 i from rfl, show (g.line B i).dy = g.dy i from rfl, J0, J1, a0, a1,
        d0, d1]
      ring
    have sh := Equiv.sum_comp (Equiv.addRight σ)
      (fun k => ParOps.openDown (g.line B i) (alongY (B.toFA K) i k) (alongY (B.toFA T) i k) false g.ystart)
    simp only [Equiv.coe_addRight] at sh
    rw [Finset.sum_sub_distrib, Finset.sum_congr rfl fun k _ => key k, sh, sub_self, zero_mul]

end Hermes.Rhs
