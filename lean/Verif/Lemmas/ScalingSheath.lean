import Verif.Props.SheathMirror
import Mathlib.Tactic.FieldSimp
import Mathlib.Tactic.Positivity

/-!
# The sheath loops with densities, speeds and lengths multiplied by constants

`a` is the factor of the densities, `w` of the speeds, `w²` of temperatures and potentials, `L` of lengths.
-/

namespace Hermes.Sheath
open Hermes

variable {ι : Type}

/-! ## Small functions -/

theorem limitFree_by {k fm fc : ℝ} (hk : 0 < k) (h : 1e-10 ≤ fm) (h' : 1e-10 ≤ k * fm) : limitFree (k * fm) (k * fc) = k * limitFree fm fc := by
  unfold limitFree
  have e : (k * fm < k * fc) ↔ fm < fc := mul_lt_mul_iff_right₀ hk
  simp only [e]
  have h0 : fm ≠ 0 := by intro e; rw [e] at h; norm_num at h
  rw [if_neg (not_lt.2 h), if_neg (not_lt.2 h')]
  split
  · rfl
  · field_simp

theorem max_by {k x y : ℝ} (hk : 0 < k) : max (k * x) (k * y) = k * max x y := (mul_max_of_nonneg x y hk.le).symm

theorem max_floor_by {k x lo : ℝ} (h : lo ≤ x) (h' : lo ≤ k * x) : max (k * x) lo = k * max x lo := by
  rw [max_eq_left h, max_eq_left h']

theorem facePotentialOf_by {b : ℝ} (hb : 0 < b) (fp : Bool) (wall φ φ' : ℝ) :
    facePotentialOf fp (b * wall) (b * φ) (b * φ') = b * facePotentialOf fp wall φ φ' := by
  unfold facePotentialOf
  dsimp only
  have e : b * φ + (b * φ - b * φ') / 2 = b * (φ + (φ - φ') / 2) := by ring
  rw [e]
  cases fp
  · rfl
  · exact max_by hb

theorem sqrt_by {w : ℝ} (hw : 0 < w) (x : ℝ) : Real.sqrt (w ^ 2 * x) = w * Real.sqrt x := by
  rw [Real.sqrt_mul (sq_nonneg w), Real.sqrt_sq hw.le]

theorem electronSpeed_by {w : ℝ} (hw : 0 < w) (Me Ge : ℝ) {te drop : ℝ} (h : 1e-10 ≤ te) (h' : 1e-10 ≤ w ^ 2 * te) :
    electronSpeed Me Ge (w ^ 2 * te) (w ^ 2 * drop) = w * electronSpeed Me Ge te drop := by
  unfold electronSpeed
  rw [if_neg (not_lt.2 h), if_neg (not_lt.2 h'), mul_div_assoc, sqrt_by hw, ← mul_neg, mul_div_mul_left _ _ (pow_pos hw 2).ne']
  ring

theorem bohmSq_by {a b : ℝ} (ha : 0 < a) (Z M γ : ℝ) {ne te ni ti dne dni : ℝ}
    (hne : 1e-10 ≤ ne) (hne' : 1e-10 ≤ a * ne) (hte : 1e-5 ≤ te) (hte' : 1e-5 ≤ b * te) (hti : 1e-5 ≤ ti) (hti' : 1e-5 ≤ b * ti)
    (hd : dni = 0 ∨ (1e-3 ≤ |dni| ∧ 1e-3 ≤ |a * dni|)) :
    bohmSq Z M γ (a * ne) (b * te) (a * ni) (b * ti) (a * dne) (a * dni) = b * bohmSq Z M γ ne te ni ti dne dni := by
  unfold bohmSq
  rw [max_floor_by hti hti', max_floor_by hte hte', max_floor_by hne hne', mul_div_mul_left _ _ ha.ne']
  have e : (if |a * dni| < 1e-3 then (1 : ℝ) else a * dne / (a * dni)) = if |dni| < 1e-3 then 1 else dne / dni := by
    rcases hd with rfl | ⟨h1, h2⟩
    · simp
    · rw [if_neg (not_lt.2 h1), if_neg (not_lt.2 h2), mul_div_mul_left _ _ ha.ne']
  rw [e]
  ring

theorem cap_by {b x : ℝ} (hb : 0 < b) (h : x ≤ 100) (h' : b * x ≤ 100) : min 100 (max 0 (b * x)) = b * min 100 (max 0 x) := by
  rw [min_eq_right (max_le (by norm_num) h'), min_eq_right (max_le (by norm_num) h)]
  have := max_by (x := 0) (y := x) hb
  rwa [mul_zero] at this

theorem concentration_by {a : ℝ} (ha : 0 < a) (ni ne ni' ne' : ℝ) : concentration (a * ni) (a * ne) (a * ni') (a * ne') = concentration ni ne ni' ne' := by
  unfold concentration
  have h : ∀ x, a * x = 0 ↔ x = 0 := fun x => by simp [ha.ne']
  simp only [h]
  have e1 : 3 * (a * ni) / (a * ne) = 3 * ni / ne := by rw [mul_left_comm, mul_div_mul_left _ _ ha.ne']
  rw [e1, mul_div_mul_left _ _ ha.ne']

/-- The squared speed in a term of the sum over the ions, before it is limited. -/
noncomputable def sumSpeedSq (Z M γ ne te ni ti ne' ni' : ℝ) : ℝ :=
  (γ * ti + Z * concentration ni ne ni' ne' * te * (if |ni' - ni| < 2e-3 then 1 else (ne' - ne) / (ni' - ni))) / M

theorem sumTermOf_eq (sn Z M γ ne te ni ti ne' ni' : ℝ) : sumTermOf sn Z M γ ne te ni ti ne' ni' =
    concentration ni ne ni' ne' * Z * sn * Real.sqrt (min 100 (max 0 (sumSpeedSq Z M γ ne te ni ti ne' ni'))) := by
  unfold sumTermOf sumSpeedSq
  dsimp only
  rw [clipTo_eq _ (by norm_num)]

theorem sumSpeedSq_by {a b : ℝ} (ha : 0 < a) (Z M γ : ℝ) {ne te ni ti ne' ni' : ℝ}
    (hd : ni' - ni = 0 ∨ (2e-3 ≤ |ni' - ni| ∧ 2e-3 ≤ a * |ni' - ni|)) :
    sumSpeedSq Z M γ (a * ne) (b * te) (a * ni) (b * ti) (a * ne') (a * ni') = b * sumSpeedSq Z M γ ne te ni ti ne' ni' := by
  unfold sumSpeedSq
  rw [concentration_by ha, ← mul_sub, ← mul_sub]
  have e : (if |a * (ni' - ni)| < 2e-3 then (1 : ℝ) else a * (ne' - ne) / (a * (ni' - ni))) =
      if |ni' - ni| < 2e-3 then 1 else (ne' - ne) / (ni' - ni) := by
    rcases hd with h | ⟨h1, h2⟩
    · rw [h]; simp
    · rw [abs_mul, abs_of_pos ha, if_neg (not_lt.2 h1), if_neg (not_lt.2 h2), mul_div_mul_left _ _ ha.ne']
  rw [e]
  ring

theorem sumTermOf_by {a w : ℝ} (ha : 0 < a) (hw : 0 < w) (sn Z M γ : ℝ) {ne te ni ti ne' ni' : ℝ}
    (hd : ni' - ni = 0 ∨ (2e-3 ≤ |ni' - ni| ∧ 2e-3 ≤ a * |ni' - ni|))
    (hC : sumSpeedSq Z M γ ne te ni ti ne' ni' ≤ 100) (hC' : w ^ 2 * sumSpeedSq Z M γ ne te ni ti ne' ni' ≤ 100) :
    sumTermOf sn Z M γ (a * ne) (w ^ 2 * te) (a * ni) (w ^ 2 * ti) (a * ne') (a * ni') = w * sumTermOf sn Z M γ ne te ni ti ne' ni' := by
  rw [sumTermOf_eq, sumTermOf_eq, concentration_by ha, sumSpeedSq_by ha _ _ _ hd, cap_by (pow_pos hw 2) hC hC', sqrt_by hw]
  ring

theorem zeroCurrentPotential_by {w : ℝ} (hw : 0 < w) (o o' : SheathOpts ι) (hG : o'.Ge = o.Ge) (Me : ℝ) {Te S Te' S' : Fld ι} {i : ι}
    (hwall : o'.wall i = w ^ 2 * o.wall i) (hT : Te' i = w ^ 2 * Te i) (hS : S' i = w * S i) :
    zeroCurrentPotential o' Me Te' S' i = w ^ 2 * zeroCurrentPotential o Me Te S i := by
  unfold zeroCurrentPotential
  rw [hwall, hT, hS, hG]
  have e : (w ^ 2 * Te i ≤ 0) ↔ Te i ≤ 0 := by
    constructor
    · intro h
      by_contra hn
      exact absurd h (not_le.2 (mul_pos (pow_pos hw 2) (not_le.1 hn)))
    · intro h
      exact mul_nonpos_of_nonneg_of_nonpos (sq_nonneg _) h
  simp only [e]
  split
  · ring
  · rw [mul_div_assoc (w ^ 2), sqrt_by hw, mul_assoc w, mul_div_mul_left _ _ hw.ne']
    ring

/-! ## Mesh, cells and loops -/

/-- `m'` is `m` with lengths along the field multiplied by `L`. -/
structure MeshBy (L : ℝ) (m m' : YMesh ι) : Prop where
  ym : m'.ym = m.ym
  yp : m'.yp = m.yp
  lower : m'.lower = m.lower
  upper : m'.upper = m.upper
  J : ∃ k ≠ 0, ∀ i, m'.J i = k * m.J i
  g22 : ∀ i, m'.g22 i = L ^ 2 * m.g22 i
  dy : m'.dy = m.dy

theorem areaPerVolume_by {L : ℝ} (hL : 0 < L) {m m' : YMesh ι} (h : MeshBy L m m') (i g : ι) : areaPerVolume m' i g = L⁻¹ * areaPerVolume m i g := by
  obtain ⟨k, hk, hJ⟩ := h.J
  unfold areaPerVolume
  rw [hJ, hJ, h.g22, h.g22, h.dy, sqrt_by hL, sqrt_by hL, ← mul_add, ← mul_add, mul_div_mul_comm, mul_left_comm (m.dy i), div_eq_mul_inv k L, mul_assoc k,
    mul_div_mul_left _ _ hk, mul_div_assoc]

def _root_.Hermes.ECell.by (a w : ℝ) (c : ECell) : ECell := ⟨a * c.n, w ^ 2 * c.t, a * w ^ 2 * c.p, w ^ 2 * c.phi, w * c.v, a * w * c.nv⟩
def _root_.Hermes.ICell.by (a w : ℝ) (c : ICell) : ICell := ⟨a * c.n, w ^ 2 * c.t, a * w ^ 2 * c.p, w * c.v, a * w * c.nv⟩

theorem Target.of_by {L : ℝ} {m m' : YMesh ι} (hm : MeshBy L m m') {lo up u : Bool} {i g inn : ι} : Target m' lo up u i g inn ↔ Target m lo up u i g inn := by
  obtain ⟨h1, h2, h3, h4, -⟩ := hm
  constructor
  · intro h
    cases h with
    | lower e hi => rw [h1, h2]; exact .lower e (h3 ▸ hi)
    | upper e hi => rw [h1, h2]; exact .upper e (h4 ▸ hi)
  · intro h
    cases h with
    | lower e hi => rw [← h1, ← h2]; exact .lower e (h3 ▸ hi)
    | upper e hi => rw [← h1, ← h2]; exact .upper e (h4 ▸ hi)

theorem MeshOk.of_by {L : ℝ} {m m' : YMesh ι} (hm : MeshBy L m m') (h : MeshOk m) : MeshOk m' := by
  obtain ⟨h1, h2, h3, h4, -⟩ := hm
  refine ⟨?_, ?_⟩
  · rw [h1, h2, h3, h4]; exact h.nodup
  · rw [h1, h2, h3, h4]; exact h.sep

theorem MeshLong.of_by {L : ℝ} {m m' : YMesh ι} (hm : MeshBy L m m') (h : MeshLong m) : MeshLong m' := by
  intro u i g inn u' i' g' inn' h1 h2 hne
  exact h _ _ _ _ _ _ _ _ ((Target.of_by hm).1 h1) ((Target.of_by hm).1 h2) hne

variable [DecidableEq ι]

/-- Loops whose bodies give multiples have results that are multiples. -/
theorem bothEnds_by {κ : Type} {L : ℝ} {m m' : YMesh ι} (hmm : MeshBy L m m') (hm : MeshOk m) {lo up : Bool} {fl fu fl' fu' : ι → κ → κ → κ × ℝ}
    {R : κ → κ} {k : ℝ} {s s' : (ι → κ) × Fld ι} (h1 : ∀ j, s'.1 j = R (s.1 j)) (h2 : ∀ j, s'.2 j = k * s.2 j)
    (hb : ∀ u i g inn, Target m lo up u i g inn → (if u then fu' else fl') i (R (s.1 i)) (R (s.1 inn)) =
      (R ((if u then fu else fl) i (s.1 i) (s.1 inn)).1, k * ((if u then fu else fl) i (s.1 i) (s.1 inn)).2)) (j : ι) :
    (bothEnds m' lo up fl' fu' s').1 j = R ((bothEnds m lo up fl fu s).1 j) ∧
    (bothEnds m' lo up fl' fu' s').2 j = k * (bothEnds m lo up fl fu s).2 j := by
  constructor
  · by_cases h : ∀ u i inn, ¬ Target m lo up u i j inn
    · rw [bothEnds_other h, bothEnds_other fun u i inn ht => h _ _ _ ((Target.of_by hmm).1 ht), h1]
    · push Not at h
      obtain ⟨u, i, inn, ht⟩ := h
      rw [(bothEnds_target hm ht).1, (bothEnds_target (MeshOk.of_by hmm hm) ((Target.of_by hmm).2 ht)).1, h1, h1, hb _ _ _ _ ht]
  · by_cases h : ∀ u g inn, ¬ Target m lo up u j g inn
    · rw [bothEnds_src_other h, bothEnds_src_other fun u i inn ht => h _ _ _ ((Target.of_by hmm).1 ht), h2]
    · push Not at h
      obtain ⟨u, g, inn, ht⟩ := h
      rw [(bothEnds_target hm ht).2, (bothEnds_target (MeshOk.of_by hmm hm) ((Target.of_by hmm).2 ht)).2, h1, h1, h2, hb _ _ _ _ ht]
      ring

/-- The options of `SheathBoundary` with the wall potential multiplied. -/
structure OptsBy (w : ℝ) (o o' : SheathOpts ι) : Prop where
  Ge : o'.Ge = o.Ge
  sin_alpha : o'.sin_alpha = o.sin_alpha
  lower_y : o'.lower_y = o.lower_y
  upper_y : o'.upper_y = o.upper_y
  always_set_phi : o'.always_set_phi = o.always_set_phi
  floor_potential : o'.floor_potential = o.floor_potential
  electronMass : o'.electronMass = o.electronMass
  wall : ∀ i, o'.wall i = w ^ 2 * o.wall i

/-- The electrons next to a target are above the limits used by the loop. -/
structure EClear (c inn : ECell) : Prop where
  n : 1e-10 ≤ inn.n
  t : 1e-10 ≤ inn.t
  p : 1e-10 ≤ inn.p
  face : 1e-5 ≤ (c.t + limitFree inn.t c.t) / 2

theorem electronBody_by {a w L : ℝ} (ha : 0 < a) (hw : 0 < w) (hL : 0 < L) {o o' : SheathOpts ι} (ho : OptsBy w o o') {m m' : YMesh ι} (hm : MeshBy L m m')
    (Me γ : ℝ) (u : Bool) (i : ι) {c inn : ECell} (h : EClear c inn) (h' : EClear (c.by a w) (inn.by a w)) :
    (if u then electronUpper o' m' Me γ else electronLower o' m' Me γ) i (c.by a w) (inn.by a w) =
    (((if u then electronUpper o m Me γ else electronLower o m Me γ) i c inn).1.by a w,
      a * w ^ 2 * (w * L⁻¹) * ((if u then electronUpper o m Me γ else electronLower o m Me γ) i c inn).2) := by
  have hb := pow_pos hw 2
  have hab := mul_pos ha hb
  have h1 := electronBody_eq o m Me γ u i _ c inn rfl
  have h2 := electronBody_eq o' m' Me γ u i (if u then m.yp i else m.ym i) (c.by a w) (inn.by a w) (by rw [hm.yp, hm.ym])
  dsimp only at h1 h2
  rw [h1]
  refine h2.trans ?_
  obtain ⟨n1, t1, p1, f1⟩ := h
  obtain ⟨n2, t2, p2, f2⟩ := h'
  simp only [ECell.by] at n2 t2 p2 f2 ⊢
  rw [limitFree_by hb t1 t2] at f2
  rw [limitFree_by ha n1 n2, limitFree_by hb t1 t2, limitFree_by hab p1 p2, ho.wall, ho.Ge, ho.floor_potential, facePotentialOf_by hb,
    areaPerVolume_by hL hm]
  have eN : (a * c.n + a * limitFree inn.n c.n) / 2 = a * ((c.n + limitFree inn.n c.n) / 2) := by ring
  have eT : (w ^ 2 * c.t + w ^ 2 * limitFree inn.t c.t) / 2 = w ^ 2 * ((c.t + limitFree inn.t c.t) / 2) := by ring
  rw [eT] at f2
  rw [eN, eT, ← mul_sub]
  generalize (c.n + limitFree inn.n c.n) / 2 = N
  generalize facePotentialOf o.floor_potential (o.wall i) c.phi inn.phi - o.wall i = D
  generalize (c.t + limitFree inn.t c.t) / 2 = T at f1 f2
  rw [max_floor_by f1 f2, mul_div_mul_left _ _ hb.ne', electronSpeed_by hw Me o.Ge (le_trans (by norm_num) f1) (le_trans (by norm_num) f2)]
  generalize max (2 / (1 - o.Ge) + D / max T 1e-5) 0 = G
  generalize electronSpeed Me o.Ge T D = S
  have eq : ((G - 1 - 1 / (γ - 1)) * (w ^ 2 * T) - 0.5 * Me * (w * S) ^ 2) * (a * N) * (w * S) =
      a * w ^ 2 * w * (((G - 1 - 1 / (γ - 1)) * T - 0.5 * Me * S ^ 2) * N * S) := by ring
  rw [eq]
  have em := max_by (k := a * w ^ 2 * w) (x := 0) (y := ((G - 1 - 1 / (γ - 1)) * T - 0.5 * Me * S ^ 2) * N * S) (by positivity)
  rw [mul_zero] at em
  rw [em]
  refine Prod.ext ?_ ?_
  · dsimp only
    congr 1 <;> ring
  · dsimp only
    ring

/-- The ions and electrons next to a target are away from the limits used by the loop. -/
structure IClear (Z M γ : ℝ) (e eg : ECell) (c inn : ICell) : Prop where
  n : 1e-10 ≤ inn.n
  t : 1e-10 ≤ inn.t
  p : 1e-10 ≤ inn.p
  face : 1e-5 ≤ (c.t + limitFree inn.t c.t) / 2
  ne : 1e-10 ≤ (e.n + eg.n) / 2
  te : 1e-5 ≤ (e.t + eg.t) / 2
  gradient : c.n - (c.n + limitFree inn.n c.n) / 2 = 0 ∨ 1e-3 ≤ |c.n - (c.n + limitFree inn.n c.n) / 2|
  speed : bohmSq Z M γ ((e.n + eg.n) / 2) ((e.t + eg.t) / 2) ((c.n + limitFree inn.n c.n) / 2) ((c.t + limitFree inn.t c.t) / 2)
    (e.n - (e.n + eg.n) / 2) (c.n - (c.n + limitFree inn.n c.n) / 2) ≤ 100

theorem ionBody_by {a w L : ℝ} (ha : 0 < a) (hw : 0 < w) (hL : 0 < L) {m m' : YMesh ι} (hm : MeshBy L m m')
    (Z M γ : ℝ) {e e' : ι → ECell} (he : ∀ j, e' j = (e j).by a w) (u : Bool) (i g : ι) (hg : g = if u then m.yp i else m.ym i) {c inn : ICell}
    (h : IClear Z M γ (e i) (e g) c inn) (h' : IClear Z M γ (e' i) (e' g) (c.by a w) (inn.by a w)) :
    (if u then ionUpper m' Z M γ e' else ionLower m' Z M γ e') i (c.by a w) (inn.by a w) =
    (((if u then ionUpper m Z M γ e else ionLower m Z M γ e) i c inn).1.by a w,
      a * w ^ 2 * (w * L⁻¹) * ((if u then ionUpper m Z M γ e else ionLower m Z M γ e) i c inn).2) := by
  have hb := pow_pos hw 2
  have hab := mul_pos ha hb
  have h1 := ionBody_eq m Z M γ e u i g c inn hg
  have h2 := ionBody_eq m' Z M γ e' u i g (c.by a w) (inn.by a w) (by rw [hm.yp, hm.ym]; exact hg)
  dsimp only at h1 h2
  rw [h1]
  refine h2.trans ?_
  obtain ⟨n1, t1, p1, f1, ne1, te1, d1, C1⟩ := h
  obtain ⟨n2, t2, p2, f2, ne2, te2, d2, C2⟩ := h'
  simp only [he, ECell.by, ICell.by] at n2 t2 p2 f2 ne2 te2 d2 C2 ⊢
  rw [limitFree_by ha n1 n2] at d2 C2
  rw [limitFree_by hb t1 t2] at f2 C2
  rw [limitFree_by ha n1 n2, limitFree_by hb t1 t2, limitFree_by hab p1 p2, areaPerVolume_by hL hm]
  have eN : (a * c.n + a * limitFree inn.n c.n) / 2 = a * ((c.n + limitFree inn.n c.n) / 2) := by ring
  have eT : (w ^ 2 * c.t + w ^ 2 * limitFree inn.t c.t) / 2 = w ^ 2 * ((c.t + limitFree inn.t c.t) / 2) := by ring
  have ene : (a * (e i).n + a * (e g).n) / 2 = a * (((e i).n + (e g).n) / 2) := by ring
  have ete : (w ^ 2 * (e i).t + w ^ 2 * (e g).t) / 2 = w ^ 2 * (((e i).t + (e g).t) / 2) := by ring
  rw [eN, ← mul_sub] at d2
  rw [eN, eT, ene, ete, ← mul_sub, ← mul_sub] at C2
  rw [eT] at f2
  rw [ene] at ne2
  rw [ete] at te2
  rw [eN, eT, ene, ete, ← mul_sub, ← mul_sub]
  generalize (c.n + limitFree inn.n c.n) / 2 = N at d1 d2 C1 C2 ⊢
  generalize (c.t + limitFree inn.t c.t) / 2 = T at f1 f2 C1 C2 ⊢
  generalize ((e i).n + (e g).n) / 2 = ne at ne1 ne2 C1 C2 ⊢
  generalize ((e i).t + (e g).t) / 2 = te at te1 te2 C1 C2 ⊢
  have hB := bohmSq_by (dne := (e i).n - ne) (dni := c.n - N) (ni := N) ha Z M γ ne1 ne2 te1 te2 f1 f2
    (d1.elim Or.inl fun k1 => d2.elim (fun k => Or.inl ((mul_eq_zero.1 k).resolve_left ha.ne')) fun k2 => Or.inr ⟨k1, k2⟩)
  rw [hB] at C2
  rw [hB, cap_by hb C1 C2, sqrt_by hw, max_floor_by f1 f2]
  generalize min 100 (max 0 (bohmSq Z M γ ne te N T ((e i).n - ne) (c.n - N))) = B
  generalize max T 1e-5 = T'
  have eq : ((2.5 + 0.5 * M * (w ^ 2 * B) / (w ^ 2 * T') - 1 - 1 / (γ - 1)) * (w ^ 2 * T') - 0.5 * M * (w ^ 2 * B)) * (a * N) * (w * Real.sqrt B) =
      a * w ^ 2 * w * (((2.5 + 0.5 * M * B / T' - 1 - 1 / (γ - 1)) * T' - 0.5 * M * B) * N * Real.sqrt B) := by
    rw [show 0.5 * M * (w ^ 2 * B) / (w ^ 2 * T') = 0.5 * M * B / T' by rw [mul_left_comm, mul_div_mul_left _ _ hb.ne']]
    ring
  rw [eq]
  have em := max_by (k := a * w ^ 2 * w) (x := 0) (y := (((2.5 + 0.5 * M * B / T' - 1 - 1 / (γ - 1)) * T' - 0.5 * M * B) * N * Real.sqrt B)) (by positivity)
  rw [mul_zero] at em
  rw [em]
  refine Prod.ext ?_ ?_
  · dsimp only
    congr 1 <;> ring
  · dsimp only
    ring

end Hermes.Sheath
