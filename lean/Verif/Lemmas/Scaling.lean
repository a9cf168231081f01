import Verif.Lemmas.Units
import Verif.Model.RhsMomentum

/-!
# Change of the units of length, field strength and density in the transport operators

`L` and `b` are the factors of lengths and field strengths.  The frequency of gyration is proportional to the field, so rates
get `b`, velocities `L b`, temperatures and potentials `(L b)²`.
-/

namespace Hermes.Units
open Hermes

/-! ## Lines -/

/-- The metric of a field line in other units, `hermes-3.cxx:250-267`. -/
noncomputable def lineBy (L b : ℝ) (g : Line) : Line :=
  { g with J := fun j => g.J j * (L / b), g22 := fun j => g.g22 j * L ^ 2, dx := fun j => g.dx j * (L ^ 2 * b) }

section
variable {L b : ℝ} (hL : 0 < L) (hb : 0 < b) (g : Line)
include hL hb

theorem faceR_by (j : ℤ) : (lineBy L b g).faceR j = b⁻¹ * g.faceR j := by
  unfold Line.faceR lineBy
  dsimp only
  rw [Real.sqrt_mul' _ (sq_nonneg L), Real.sqrt_mul' _ (sq_nonneg L), Real.sqrt_sq hL.le, ← add_mul, ← add_mul, mul_div_mul_comm, mul_comm]
  congr 1
  field_simp

theorem faceL_by (j : ℤ) : (lineBy L b g).faceL j = b⁻¹ * g.faceL j := by
  unfold Line.faceL lineBy
  dsimp only
  rw [Real.sqrt_mul' _ (sq_nonneg L), Real.sqrt_mul' _ (sq_nonneg L), Real.sqrt_sq hL.le, ← add_mul, ← add_mul, mul_div_mul_comm, mul_comm]
  congr 1
  field_simp

/-- A flux divided by the volume of a cell. -/
theorem factor_by (c x y : ℝ) : b⁻¹ * c / (x * (y * (L / b))) = L⁻¹ * (c / (x * y)) := by
  rw [← mul_assoc, mul_comm (x * y), mul_div_mul_comm]
  congr 1
  field_simp
end

theorem addAt_smul (a : ℝ) (r : ℤ → ℝ) (j : ℤ) (x : ℝ) : addAt (a • r) j (a * x) = a • addAt r j x := by
  funext i
  simp only [addAt, Pi.smul_apply, smul_eq_mul]
  split_ifs <;> ring

theorem addAt_smul' {a : ℝ} {r r' : ℤ → ℝ} (h : r' = a • r) (j : ℤ) {x x' : ℝ} (hx : x' = a * x) : addAt r' j x' = a • addAt r j x := by
  rw [h, hx, addAt_smul]

theorem foldl_by {α β : Type} {R : β → β → Prop} {step step' : β → α → β} : ∀ (l : List α) (_ : ∀ r r', R r r' → ∀ p ∈ l, R (step r p) (step' r' p))
    {r r' : β} (_ : R r r'), R (l.foldl step r) (l.foldl step' r')
  | [], _, _, _, h => h
  | p :: l, hs, r, r', h =>
    foldl_by l (fun r r' h q hq => hs r r' h q (List.mem_cons_of_mem _ hq)) (hs r r' h p List.mem_cons_self)

theorem fluxLoop_by {L b : ℝ} (hL : 0 < L) (hb : 0 < b) (g : Line) {a : ℝ} {R R' F F' : ℤ → ℝ} (hR : ∀ j, R' j = a * R j)
    (hF : ∀ j, F' j = a * F j) : ((lineBy L b g).fluxLoop R' F').result = (a * L⁻¹) • (g.fluxLoop R F).result := by
  unfold Line.fluxLoop
  have h := foldl_by (R := fun r r' : Acc => r'.result = (a * L⁻¹) • r.result) (step := g.scatter R F) (step' := (lineBy L b g).scatter R' F')
    (forRange g.ys g.ye) ?_ (r := ⟨fun _ => 0, fun _ => 0⟩) (r' := ⟨fun _ => 0, fun _ => 0⟩) (by funext i; simp)
  · exact h
  intro r r' h j _
  unfold Line.scatter
  simp only [faceR_by hL hb, faceL_by hL hb, hR, hF]
  have e : ∀ c x y, b⁻¹ * c / (x * (y * (L / b))) = L⁻¹ * (c / (x * y)) := factor_by hL hb
  refine addAt_smul' (addAt_smul' (addAt_smul' (addAt_smul' h _ ?_) _ ?_) _ ?_) _ ?_ <;>
  · show _ = _
    simp only [lineBy, e]
    ring

section
variable {lim : Limiter} (hl : Homogeneous lim)
include hl

theorem edges_by {a : ℝ} (ha : 0 < a) (f : ℤ → ℝ) (j : ℤ) : edges lim (a • f) j = (a * (edges lim f j).1, a * (edges lim f j).2) := by
  unfold edges
  simp only [Pi.smul_apply, smul_eq_mul, mul_comm a]
  rw [hl a ha]

end

theorem max3_by {a : ℝ} (ha : 0 < a) (x y z : ℝ) : max3 (a * x) (a * y) (a * z) = a * max3 x y z := by
  unfold max3
  rw [← mul_max_of_nonneg _ _ ha.le, ← mul_max_of_nonneg _ _ ha.le]

theorem max4_by {a : ℝ} (ha : 0 < a) (x y z t : ℝ) : max4 (a * x) (a * y) (a * z) (a * t) = a * max4 x y z t := by
  unfold max4
  rw [← mul_max_of_nonneg _ _ ha.le, ← mul_max_of_nonneg _ _ ha.le, ← mul_max_of_nonneg _ _ ha.le]

theorem abs_by {a : ℝ} (ha : 0 < a) (x : ℝ) : |a * x| = a * |x| := by rw [abs_mul, abs_of_pos ha]

section
variable {L b : ℝ} (hL : 0 < L) (hb : 0 < b) (g : Line) {lim : Limiter} (hl : Homogeneous lim) {a v : ℝ} (ha : 0 < a) (hv : 0 < v)
include hL hb hl ha hv

theorem divParMod_by (f V w : ℤ → ℝ) (fix : Bool) :
    ((lineBy L b g).divParMod lim (a • f) (v • V) (v • w) fix).result = (a * v * L⁻¹) • (g.divParMod lim f V w fix).result := by
  unfold Line.divParMod
  refine fluxLoop_by hL hb g ?_ ?_ <;> intro j
  · unfold Line.modFluxR
    simp only [edges_by hl ha, edges_by hl hv, Pi.smul_apply, smul_eq_mul, abs_by hv, max4_by hv]
    show (if g.isLast j then _ else _) = _
    split_ifs <;> ring
  · unfold Line.modFluxL
    simp only [edges_by hl ha, edges_by hl hv, Pi.smul_apply, smul_eq_mul, abs_by hv, max4_by hv]
    show (if g.isFirst j then _ else _) = _
    split_ifs <;> ring

theorem divParFvv_by (f V w : ℤ → ℝ) (fix : Bool) :
    (lineBy L b g).divParFvv lim (a • f) (v • V) (v • w) fix = (a * v ^ 2 * L⁻¹) • g.divParFvv lim f V w fix := by
  unfold Line.divParFvv
  refine fluxLoop_by hL hb g ?_ ?_ <;> intro j
  · unfold Line.fvvFluxR
    simp only [edges_by hl ha, edges_by hl hv, Pi.smul_apply, smul_eq_mul, abs_by hv, max4_by hv, max3_by hv]
    show (if g.isLast j then _ else _) = _
    split_ifs <;> ring
  · unfold Line.fvvFluxL
    simp only [edges_by hl ha, edges_by hl hv, Pi.smul_apply, smul_eq_mul, abs_by hv, max4_by hv, max3_by hv]
    show (if g.isFirst j then _ else _) = _
    split_ifs <;> ring

theorem fvvHeating_by (f V w : ℤ → ℝ) (fix : Bool) :
    ((lineBy L b g).fvvHeating lim (a • f) (v • V) (v • w) fix).result = (a * v ^ 3 * L⁻¹) • (g.fvvHeating lim f V w fix).result := by
  unfold Line.fvvHeating
  have h := foldl_by (R := fun r r' : Acc => r'.result = (a * v ^ 3 * L⁻¹) • r.result) (step := g.heatStep lim f V w fix)
    (step' := (lineBy L b g).heatStep lim (a • f) (v • V) (v • w) fix)
    (forRange g.ys g.ye) ?_ (r := ⟨fun _ => 0, fun _ => 0⟩) (r' := ⟨fun _ => 0, fun _ => 0⟩) (by funext i; simp)
  · exact h
  intro r r' h j _
  have e : ∀ c x y, b⁻¹ * c / (x * (y * (L / b))) = L⁻¹ * (c / (x * y)) := factor_by hL hb
  have eR : b⁻¹ * g.faceR j / ((lineBy L b g).dy j * (lineBy L b g).J j) = L⁻¹ * (g.faceR j / (g.dy j * g.J j)) := e _ _ _
  have eL : b⁻¹ * g.faceL j / ((lineBy L b g).dy j * (lineBy L b g).J j) = L⁻¹ * (g.faceL j / (g.dy j * g.J j)) := e _ _ _
  have hlast : (lineBy L b g).isLast j = g.isLast j := rfl
  have hfirst : (lineBy L b g).isFirst j = g.isFirst j := rfl
  unfold Line.heatStep heatMomR heatMomL
  simp only [edges_by hl ha, edges_by hl hv, Pi.smul_apply, smul_eq_mul, abs_by hv, max4_by hv, max3_by hv, faceR_by hL hb, faceL_by hL hb, eR, eL, hlast, hfirst]
  split_ifs <;>
  · refine addAt_smul' (addAt_smul' h _ ?_) _ ?_ <;> ring

omit hl hv in
theorem divParK_by {c : ℝ} (K f : ℤ → ℝ) (flux : Bool) (j : ℤ) :
    (lineBy L b g).divParKGradPar (c • K) (a • f) flux j = c * a * (L ^ 2)⁻¹ * g.divParKGradPar K f flux j := by
  have up : (lineBy L b g).condFluxUp (c • K) (a • f) j = c * a * (L * b)⁻¹ * g.condFluxUp K f j := by
    unfold Line.condFluxUp lineBy
    simp only [Pi.smul_apply, smul_eq_mul, ← mul_add, ← mul_sub, ← add_mul]
    field_simp
  have down : (lineBy L b g).condFluxDown (c • K) (a • f) j = c * a * (L * b)⁻¹ * g.condFluxDown K f j := by
    unfold Line.condFluxDown lineBy
    simp only [Pi.smul_apply, smul_eq_mul, ← mul_add, ← mul_sub, ← add_mul]
    field_simp
  have vol : ∀ x, c * a * (L * b)⁻¹ * x / ((lineBy L b g).dy j * (lineBy L b g).J j) = c * a * (L ^ 2)⁻¹ * (x / (g.dy j * g.J j)) := by
    intro x
    show c * a * (L * b)⁻¹ * x / (g.dy j * (g.J j * (L / b))) = _
    rw [← mul_assoc, mul_comm (g.dy j * g.J j), mul_div_mul_comm]
    congr 1
    field_simp
  have c1 : (lineBy L b g).condUp flux j = g.condUp flux j := rfl
  have c2 : (lineBy L b g).condDown flux j = g.condDown flux j := rfl
  unfold Line.divParKGradPar
  rw [up, down, vol, vol, c1, c2]
  split_ifs <;> ring
end

/-! ## Grids -/

/-- The metric of the grid in other units, `hermes-3.cxx:250-267`. -/
noncomputable def gridBy (L b : ℝ) (g : Grid) : Grid :=
  { g with
    J := fun i j => g.J i j * (L / b)
    dx := fun i j => g.dx i j * (L ^ 2 * b)
    g11 := fun i j => g.g11 i j * (L * b) ^ 2
    g22 := fun i j => g.g22 i j * (L ^ 2)⁻¹
    g33 := fun i j => g.g33 i j * (L ^ 2)⁻¹
    g23 := fun i j => g.g23 i j * (L ^ 2)⁻¹
    g_23 := fun i j => g.g_23 i j * L ^ 2
    Bxy := fun i j => g.Bxy i j * b }

section
variable {nz : ℕ}

theorem addAt3_smul' {a : ℝ} {r r' : F3 nz} (h : r' = a • r) (i j : ℤ) (k : Fin nz) {x x' : ℝ} (hx : x' = a * x) :
    addAt3 r' i j k x' = a • addAt3 r i j k x := by
  subst h hx
  funext i' j' k'
  simp only [addAt3, Pi.smul_apply, smul_eq_mul]
  split_ifs <;> ring

theorem moveFlux_by {a : ℝ} {r r' : F3 nz} (h : r' = a • r) {x x' : Option ℝ} {A : ℝ} (hx : x' = x.map (A * ·)) {w w' t t' : ℝ}
    (hw : ∀ y, A * y / w' = a * (y / w)) (ht : ∀ y, A * y / t' = a * (y / t)) (i j : ℤ) (k : Fin nz) (i' j' : ℤ) (k' : Fin nz) :
    moveFlux r' x' i j k w' i' j' k' t' = a • moveFlux r x i j k w i' j' k' t := by
  subst hx
  cases x with
  | none => exact h
  | some y =>
    refine addAt3_smul' (addAt3_smul' h _ _ _ (hw y)) _ _ _ ?_
    rw [ht, mul_neg]

theorem foldl_F3 {α : Type} {a : ℝ} {step step' : F3 nz → α → F3 nz} (l : List α)
    (hs : ∀ r r', r' = a • r → ∀ p ∈ l, step' r' p = a • step r p) {r r' : F3 nz} (h : r' = a • r) : l.foldl step' r' = a • l.foldl step r :=
  foldl_by (R := fun r r' : F3 nz => r' = a • r) l hs h

theorem zero_by (a : ℝ) : (fun _ _ _ => 0 : F3 nz) = a • fun _ _ _ => 0 := by funext i j k; simp

theorem pos_by {a : ℝ} (ha : 0 < a) (x : ℝ) : a * x > 0 ↔ x > 0 := mul_pos_iff_of_pos_left ha
theorem neg_by {a : ℝ} (ha : 0 < a) (x : ℝ) : a * x < 0 ↔ x < 0 := by
  constructor
  · intro h; by_contra hh; exact absurd h (not_lt.2 (mul_nonneg ha.le (not_lt.1 hh)))
  · intro h; exact mul_neg_of_pos_of_neg ha h

theorem mc_by {a : ℝ} (ha : 0 < a) (m c p : ℝ) : mc (a * m) (a * c) (a * p) = (a * (mc m c p).1, a * (mc m c p).2) := by
  rw [mul_comm a, mul_comm a, mul_comm a, mc_homogeneous a ha, mul_comm a, mul_comm a]

section
variable [NeZero nz] {L b : ℝ} (hL : 0 < L) (hb : 0 < b) (g : Grid) {a c e : ℝ} (ha : 0 < a) (hc : 0 < c) (he : 0 < e)

theorem corners_by (e : ℝ) (f : F3 nz) (i j : ℤ) (k : Fin nz) : cornerMM (e • f) i j k = e * cornerMM f i j k ∧ cornerMP (e • f) i j k = e * cornerMP f i j k
    ∧ cornerPM (e • f) i j k = e * cornerPM f i j k ∧ cornerPP (e • f) i j k = e * cornerPP f i j k := by
  unfold cornerMM cornerMP cornerPM cornerPP
  simp only [Pi.smul_apply, smul_eq_mul]
  refine ⟨?_, ?_, ?_, ?_⟩ <;> ring

include hL hb

theorem vU_by (f : F3 nz) (i j : ℤ) (k : Fin nz) : (gridBy L b g).vU (e • f) i j k = e / (L * b ^ 2) * g.vU f i j k := by
  obtain ⟨h1, h2, h3, h4⟩ := corners_by e f i j k
  unfold Grid.vU gridBy
  rw [h2, h4, ← mul_sub]
  dsimp only
  rw [show g.J i j * (L / b) * (e * (cornerMP f i j k - cornerPP f i j k)) = e * (L / b) * (g.J i j * (cornerMP f i j k - cornerPP f i j k)) by ring,
    mul_comm (g.dx i j), mul_div_mul_comm]
  congr 1
  field_simp

theorem vD_by (f : F3 nz) (i j : ℤ) (k : Fin nz) : (gridBy L b g).vD (e • f) i j k = e / (L * b ^ 2) * g.vD f i j k := by
  obtain ⟨h1, h2, h3, h4⟩ := corners_by e f i j k
  unfold Grid.vD gridBy
  rw [h1, h3, ← mul_sub]
  dsimp only
  rw [show g.J i j * (L / b) * (e * (cornerMM f i j k - cornerPM f i j k)) = e * (L / b) * (g.J i j * (cornerMM f i j k - cornerPM f i j k)) by ring,
    mul_comm (g.dx i j), mul_div_mul_comm]
  congr 1
  field_simp

omit hL hb in
theorem vR_by (f : F3 nz) (i j : ℤ) (k : Fin nz) : (gridBy L b g).vR (e • f) i j k = e * (L / b) * g.vR f i j k := by
  obtain ⟨h1, h2, h3, h4⟩ := corners_by e f i j k
  unfold Grid.vR gridBy
  rw [h3, h4]
  dsimp only
  ring

omit hL hb in
theorem vL_by (f : F3 nz) (i j : ℤ) (k : Fin nz) : (gridBy L b g).vL (e • f) i j k = e * (L / b) * g.vL f i j k := by
  obtain ⟨h1, h2, h3, h4⟩ := corners_by e f i j k
  unfold Grid.vL gridBy
  rw [h1, h2]
  dsimp only
  ring

include ha hc he

omit hc in
theorem exbRight_by (n q f : F3 nz) (bf : Bool) (i j : ℤ) (k : Fin nz) :
    (gridBy L b g).exbRight (a • n) (c • q) (e • f) bf i j k = (g.exbRight n q f bf i j k).map (a * c * e * (L / b) * ·) := by
  have hp : 0 < e * (L / b) := mul_pos he (div_pos hL hb)
  unfold Grid.exbRight
  simp only [vR_by, Pi.smul_apply, smul_eq_mul, mc_by ha, pos_by hp]
  show (if (i == g.xend) && g.lastX then _ else _) = _
  split_ifs <;> simp only [Option.map_some, Option.map_none, Option.some.injEq] <;> ring

omit hc in
theorem exbLeft_by (n q f : F3 nz) (bf : Bool) (i j : ℤ) (k : Fin nz) :
    (gridBy L b g).exbLeft (a • n) (c • q) (e • f) bf i j k = (g.exbLeft n q f bf i j k).map (a * c * e * (L / b) * ·) := by
  have hp : 0 < e * (L / b) := mul_pos he (div_pos hL hb)
  unfold Grid.exbLeft
  simp only [vL_by, Pi.smul_apply, smul_eq_mul, mc_by ha, neg_by hp]
  show (if (i == g.xstart) && g.firstX then _ else _) = _
  split_ifs <;> simp only [Option.map_some, Option.map_none, Option.some.injEq] <;> ring

omit hc in
theorem exbUp_by (n q f : F3 nz) (i j : ℤ) (k : Fin nz) :
    (gridBy L b g).exbUp (a • n) (c • q) (e • f) i j k = (g.exbUp n q f i j k).map (a * c * e * (L ^ 2 * b)⁻¹ * ·) := by
  have hp : 0 < e / (L * b ^ 2) := by positivity
  unfold Grid.exbUp
  simp only [vU_by hL hb, Pi.smul_apply, smul_eq_mul, mc_by ha, pos_by hp]
  split_ifs
  · simp only [Option.map_some, Option.some.injEq, gridBy]
    generalize g.vU f i j k = x
    generalize (mc (n i j (k - 1)) (n i j k) (n i j (k + 1))).2 = y
    rw [show e / (L * b ^ 2) * x * (a * y) * (0.5 * (c * q i j (k + 1) + c * q i j k)) = (a * c * e / (L * b ^ 2)) * (x * y * (0.5 * (q i j (k + 1) + q i j k))) by ring,
      show g.J i j * (L / b) * g.dz i j = (L / b) * (g.J i j * g.dz i j) by ring, mul_div_mul_comm]
    congr 1
    field_simp
  · rfl

omit hc in
theorem exbDown_by (n q f : F3 nz) (i j : ℤ) (k : Fin nz) :
    (gridBy L b g).exbDown (a • n) (c • q) (e • f) i j k = (g.exbDown n q f i j k).map (a * c * e * (L ^ 2 * b)⁻¹ * ·) := by
  have hp : 0 < e / (L * b ^ 2) := by positivity
  unfold Grid.exbDown
  simp only [vD_by hL hb, Pi.smul_apply, smul_eq_mul, mc_by ha, neg_by hp]
  split_ifs
  · simp only [Option.map_some, Option.some.injEq, gridBy]
    generalize g.vD f i j k = x
    generalize (mc (n i j (k - 1)) (n i j k) (n i j (k + 1))).1 = y
    rw [show e / (L * b ^ 2) * x * (a * y) * (0.5 * (c * q i j (k - 1) + c * q i j k)) = (a * c * e / (L * b ^ 2)) * (x * y * (0.5 * (q i j (k - 1) + q i j k))) by ring,
      show g.J i j * (L / b) * g.dz i j = (L / b) * (g.J i j * g.dz i j) by ring, mul_div_mul_comm]
    congr 1
    field_simp
  · rfl

omit hc in
theorem exbXZ_by (n q f : F3 nz) (bf : Bool) :
    (gridBy L b g).exbXZ (a • n) (c • q) (e • f) bf = (a * c * e * (L ^ 2 * b)⁻¹) • g.exbXZ n q f bf := by
  unfold Grid.exbXZ
  refine foldl_F3 _ ?_ (zero_by _)
  rintro r r' h ⟨i, j, k⟩ -
  have hw : ∀ i j y, a * c * e * (L / b) * y / (g.dx i j * (L ^ 2 * b) * (g.J i j * (L / b))) = a * c * e * (L ^ 2 * b)⁻¹ * (y / (g.dx i j * g.J i j)) := by
    intro i j y
    rw [show g.dx i j * (L ^ 2 * b) * (g.J i j * (L / b)) = (L ^ 2 * b * (L / b)) * (g.dx i j * g.J i j) by ring, mul_div_mul_comm]
    congr 1
    field_simp
  have h1 : ∀ y : ℝ, a * c * e * (L ^ 2 * b)⁻¹ * y / 1 = a * c * e * (L ^ 2 * b)⁻¹ * (y / 1) := by intro y; ring
  have hn : ∀ (A : ℝ) (x : Option ℝ), (x.map (A * ·)).map (-·) = (x.map (-·)).map (A * ·) := by
    intro A x
    cases x <;> simp
  unfold Grid.exbStep
  simp only [exbRight_by hL hb g ha he, exbLeft_by hL hb g ha he, exbUp_by hL hb g ha he, exbDown_by hL hb g ha he, hn]
  exact moveFlux_by (moveFlux_by (moveFlux_by (moveFlux_by h rfl (hw i j) (hw (i + 1) j) _ _ _ _ _ _) rfl (hw i j) (hw (i - 1) j) _ _ _ _ _ _)
    rfl h1 h1 _ _ _ _ _ _) rfl h1 h1 _ _ _ _ _ _

end

theorem limitPositive_by {a : ℝ} (ha : 0 < a) (p : Bool) (x : ℝ) : limitPositive p (a * x) = a * limitPositive p x := by
  unfold limitPositive
  simp only [neg_by ha]
  split_ifs <;> ring

section
variable {L b : ℝ} (hL : 0 < L) (hb : 0 < b) (g : Grid) {a e : ℝ} (ha : 0 < a) (he : 0 < e)
include hL hb ha he

theorem drift_by (i j : ℤ) : (gridBy L b g).g11 i j * (gridBy L b g).g23 i j / (gridBy L b g).Bxy i j ^ 2 = g.g11 i j * g.g23 i j / g.Bxy i j ^ 2 := by
  unfold gridBy
  dsimp only
  rw [show g.g11 i j * (L * b) ^ 2 * (g.g23 i j * (L ^ 2)⁻¹) = ((L * b) ^ 2 * (L ^ 2)⁻¹) * (g.g11 i j * g.g23 i j) by ring,
    show (g.Bxy i j * b) ^ 2 = b ^ 2 * g.Bxy i j ^ 2 by ring, mul_div_mul_comm]
  have : (L * b) ^ 2 * (L ^ 2)⁻¹ / b ^ 2 = 1 := by field_simp
  rw [this, one_mul]

theorem polX_by (n d : F3 nz) (p : Bool) (i j : ℤ) (k : Fin nz) : (gridBy L b g).polX (a • n) (e • d) p i j k = a * e * (L / b) * g.polX n d p i j k := by
  have hp : 0 < e * (L / b) := mul_pos he (div_pos hL hb)
  unfold Grid.polX
  simp only [drift_by hL hb g ha he, Pi.smul_apply, smul_eq_mul]
  set x := 0.5 * (g.J (i + 1) j + g.J i j) * (0.5 * (g.g11 (i + 1) j * g.g23 (i + 1) j / g.Bxy (i + 1) j ^ 2 * d (i + 1) j k
    + g.g11 i j * g.g23 i j / g.Bxy i j ^ 2 * d i j k)) with hx
  have ex : 0.5 * ((gridBy L b g).J (i + 1) j + (gridBy L b g).J i j) * (0.5 * (g.g11 (i + 1) j * g.g23 (i + 1) j / g.Bxy (i + 1) j ^ 2 * (e * d (i + 1) j k)
      + g.g11 i j * g.g23 i j / g.Bxy i j ^ 2 * (e * d i j k))) = e * (L / b) * x := by
    rw [hx]
    unfold gridBy
    dsimp only
    ring
  rw [ex]
  simp only [pos_by hp]
  rw [show a * n i j k + 0.25 * (a * n (i + 1) j k - a * n (i - 1) j k) = a * (n i j k + 0.25 * (n (i + 1) j k - n (i - 1) j k)) by ring,
    show a * n (i + 1) j k - 0.25 * (a * n (i + 2) j k - a * n i j k) = a * (n (i + 1) j k - 0.25 * (n (i + 2) j k - n i j k)) by ring, limitPositive_by ha, limitPositive_by ha]
  split_ifs <;> ring

theorem polXLoop_by (n d : F3 nz) (bf p : Bool) {r r' : F3 nz} (hr : r' = (a * e * (L ^ 2 * b)⁻¹) • r) :
    (gridBy L b g).polXLoop (a • n) (e • d) bf p r' = (a * e * (L ^ 2 * b)⁻¹) • g.polXLoop n d bf p r := by
  unfold Grid.polXLoop
  refine foldl_F3 _ ?_ hr
  rintro r r' h ⟨i, j, k⟩ -
  have hw : ∀ i j y, a * e * (L / b) * y / (g.dx i j * (L ^ 2 * b) * (g.J i j * (L / b))) = a * e * (L ^ 2 * b)⁻¹ * (y / (g.dx i j * g.J i j)) := by
    intro i j y
    rw [show g.dx i j * (L ^ 2 * b) * (g.J i j * (L / b)) = (L ^ 2 * b * (L / b)) * (g.dx i j * g.J i j) by ring, mul_div_mul_comm]
    congr 1
    field_simp
  unfold Grid.xStep
  simp only [polX_by hL hb g ha he]
  refine addAt3_smul' (addAt3_smul' h _ _ _ (hw i j _)) _ _ _ ?_
  rw [show a * e * (L / b) * g.polX n d p i j k / ((gridBy L b g).dx (i + 1) j * (gridBy L b g).J (i + 1) j) = _ from hw (i + 1) j _, mul_neg]

theorem polVy_by (per : ℤ → Bool) (d : F3 nz) (i j : ℤ) (k : Fin nz) : (gridBy L b g).polVy per (e • d) i j k = e * (L / b) * g.polVy per d i j k := by
  have hp : 0 < e * (L / b) := mul_pos he (div_pos hL hb)
  unfold Grid.polVy
  simp only [drift_by hL hb g ha he, Pi.smul_apply, smul_eq_mul]
  set x := -0.5 * (g.J i (j + 1) + g.J i j) * (0.5 * (g.g11 i (j + 1) * g.g23 i (j + 1) / g.Bxy i (j + 1) ^ 2 * d i (j + 1) k
    + g.g11 i j * g.g23 i j / g.Bxy i j ^ 2 * d i j k)) with hx
  have ex : -0.5 * ((gridBy L b g).J i (j + 1) + (gridBy L b g).J i j) * (0.5 * (g.g11 i (j + 1) * g.g23 i (j + 1) / g.Bxy i (j + 1) ^ 2 * (e * d i (j + 1) k)
      + g.g11 i j * g.g23 i j / g.Bxy i j ^ 2 * (e * d i j k))) = e * (L / b) * x := by
    rw [hx]
    unfold gridBy
    dsimp only
    ring
  rw [ex]
  have f1 : (gridBy L b g).firstY i = g.firstY i := rfl
  have f2 : (gridBy L b g).lastY i = g.lastY i := rfl
  have f3 : (gridBy L b g).ystart = g.ystart := rfl
  have f4 : (gridBy L b g).yend = g.yend := rfl
  rw [f1, f2, f3, f4]
  have e1 : (if (g.firstY i && !per i && j == g.ystart - 1) = true then (if e * (L / b) * x > 0 then 0 else e * (L / b) * x) else e * (L / b) * x)
      = e * (L / b) * (if (g.firstY i && !per i && j == g.ystart - 1) = true then (if x > 0 then 0 else x) else x) := by
    simp only [pos_by hp]
    split_ifs <;> ring
  rw [e1]
  simp only [neg_by hp]
  split_ifs <;> ring

theorem polY_by (per : ℤ → Bool) (n d : F3 nz) (p : Bool) (i j : ℤ) (k : Fin nz) :
    (gridBy L b g).polY per (a • n) (e • d) p i j k = a * e * (L / b) * g.polY per n d p i j k := by
  have hp : 0 < e * (L / b) := mul_pos he (div_pos hL hb)
  unfold Grid.polY
  simp only [polVy_by hL hb g ha he, pos_by hp, Pi.smul_apply, smul_eq_mul]
  rw [show a * n i j k + 0.25 * (a * n i (j + 1) k - a * n i (j - 1) k) = a * (n i j k + 0.25 * (n i (j + 1) k - n i (j - 1) k)) by ring,
    show a * n i (j + 1) k - 0.25 * (a * n i (j + 2) k - a * n i j k) = a * (n i (j + 1) k - 0.25 * (n i (j + 2) k - n i j k)) by ring, limitPositive_by ha, limitPositive_by ha]
  split_ifs <;> ring

theorem polYLoop_by (per : ℤ → Bool) (n d : F3 nz) (bf p : Bool) :
    (gridBy L b g).polYLoop per (a • n) (e • d) bf p = (a * e) • g.polYLoop per n d bf p := by
  unfold Grid.polYLoop
  refine foldl_F3 _ ?_ (zero_by _)
  rintro r r' h ⟨i, j, k⟩ -
  have hw : ∀ i j y, a * e * (L / b) * y / (g.dy i j * (g.J i j * (L / b))) = a * e * (y / (g.dy i j * g.J i j)) := by
    intro i j y
    rw [show g.dy i j * (g.J i j * (L / b)) = (L / b) * (g.dy i j * g.J i j) by ring, mul_div_mul_comm]
    congr 1
    field_simp
  unfold Grid.yStep
  simp only [polY_by hL hb g ha he]
  refine addAt3_smul' (addAt3_smul' h _ _ _ (hw i j _)) _ _ _ ?_
  rw [show a * e * (L / b) * g.polY per n d p i j k / ((gridBy L b g).dy i (j + 1) * (gridBy L b g).J i (j + 1)) = _ from hw i (j + 1) _, mul_neg]

end
end

end Hermes.Units
