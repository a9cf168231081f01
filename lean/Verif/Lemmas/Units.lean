import Verif.Model.Units
import Verif.Props.Reactions
import Mathlib.Tactic.FieldSimp
import Mathlib.Tactic.Positivity

/-!
# A state in SI units and the same state in the units of a simulation
-/

namespace Hermes.Units
open Hermes

variable {ι : Type}

/-- Constants and reference values are positive. -/
structure Physical (c : Consts) : Prop where
  qe : 0 < c.qe
  Mp : 0 < c.Mp
  Me : 0 < c.Me
  e0 : 0 < c.e0

structure Good (u : Normalisation) : Prop where
  T : 0 < u.Tnorm
  N : 0 < u.Nnorm
  B : 0 < u.Bnorm

section
variable {c : Consts} (hc : Physical c) {u : Normalisation} (hu : Good u)
include hc hu

theorem Cs0_pos : 0 < u.Cs0 c := Real.sqrt_pos.2 (div_pos (mul_pos hc.qe hu.T) hc.Mp)
theorem Omega_pos : 0 < u.Omega_ci c := div_pos (mul_pos hc.qe hu.B) hc.Mp
theorem rho_pos : 0 < u.rho_s0 c := div_pos (Cs0_pos hc hu) (Omega_pos hc hu)
theorem rho_Omega : u.rho_s0 c * u.Omega_ci c = u.Cs0 c := div_mul_cancel₀ _ (Omega_pos hc hu).ne'
/-- The reference energy is that of a proton with the reference speed. -/
theorem Cs0_sq : c.Mp * u.Cs0 c ^ 2 = c.qe * u.Tnorm := by
  unfold Normalisation.Cs0
  rw [Real.sq_sqrt (div_pos (mul_pos hc.qe hu.T) hc.Mp).le, mul_div_cancel₀ _ hc.Mp.ne']

theorem conversion_pos (v : Var) : 0 < u.conversion c v := by
  have h1 := Cs0_pos hc hu
  have h2 := Omega_pos hc hu
  have h3 := rho_pos hc hu
  have h4 := hc.qe
  have h5 := hc.Mp
  have h6 := hu.T
  have h7 := hu.N
  unfold Normalisation.conversion
  split <;> positivity

theorem keyConversion_pos (k : Key) : 0 < u.keyConversion c k := by
  unfold Normalisation.keyConversion
  split
  · exact conversion_pos hc hu _
  · exact hu.T
  · exact one_pos
end

/-! ## Converting states -/

/-- A state whose values are multiplied with factors. -/
def scaleStore (f : Key → ℝ) (st : Store Key (Fld ι)) : Store Key (Fld ι) :=
  { st with ent := fun k => { st.ent k with val := (st.ent k).val.map fun x i => x i * f k } }

/-- The values of a state in units `u`, converted to SI units with the factors saved in the output. -/
noncomputable def toSI (c : Consts) (u : Normalisation) (st : Store Key (Fld ι)) : Store Key (Fld ι) := scaleStore (u.keyConversion c) st

/-- The same for a list of contributions. -/
noncomputable def contribsSI (c : Consts) (u : Normalisation) (cs : List (Contrib Key ι)) : List (Contrib Key ι) :=
  cs.map fun x => (x.1, (fun i => x.2.1 i * u.keyConversion c x.1), x.2.2)

/-- A state and mesh given in SI units, in the units of a simulation.  The Jacobian is normalised as in `hermes-3.cxx:260`. -/
noncomputable def inUnits (c : Consts) (u : Normalisation) (W : World ι) : World ι :=
  { W with
    st := scaleStore (fun k => (u.keyConversion c k)⁻¹) W.st
    J := fun i => W.J i * (u.Bnorm / u.rho_s0 c) }

theorem scaleStore_scaleStore {f g : Key → ℝ} (h : ∀ k, f k * g k = 1) (st : Store Key (Fld ι)) : scaleStore g (scaleStore f st) = st := by
  unfold scaleStore
  cases st with
  | mk check ent =>
    simp only [Store.mk.injEq, true_and]
    funext k
    rcases hk : ent k with ⟨v, a, b⟩
    rcases v with _ | x
    · simp
    · simp only [Option.map_some]
      congr 2
      funext i
      rw [mul_assoc, h, mul_one]

theorem toSI_inUnits {c : Consts} (hc : Physical c) {u : Normalisation} (hu : Good u) (W : World ι) : toSI c u (inUnits c u W).st = W.st :=
  scaleStore_scaleStore (fun k => inv_mul_cancel₀ (keyConversion_pos hc hu k).ne') _

theorem contribute_scale (f : Key → ℝ) (x : Contrib Key ι) (st : Store Key (Fld ι)) :
    contribute (x.1, (fun i => x.2.1 i * f x.1), x.2.2) (scaleStore f st) = ((contribute x st).1, scaleStore f (contribute x st).2) := by
  obtain ⟨k, v, b⟩ := x
  have hset : ∀ y : Fld ι, set k (fun i => y i * f k) (scaleStore f st) = ((set k y st).1, scaleStore f (set k y st).2) := by
    intro y
    have e1 : (scaleStore f st).check = st.check := rfl
    have e2 : ((scaleStore f st).ent k).final = (st.ent k).final := rfl
    have e3 : ((scaleStore f st).ent k).finalDomain = (st.ent k).finalDomain := rfl
    unfold set
    rw [e1, e2, e3]
    by_cases h1 : (st.check && (st.ent k).final) = true
    · rw [if_pos h1, if_pos h1]
    · rw [if_neg h1, if_neg h1]
      by_cases h2 : (st.check && (st.ent k).finalDomain) = true
      · rw [if_pos h2, if_pos h2]
      · rw [if_neg h2, if_neg h2]
        have h3 : ∀ z : Fld ι, ¬(st.check && StoreVal.invalid z) = true := by
          intro z h
          rw [Bool.and_eq_true] at h
          exact Bool.false_ne_true h.2
        rw [if_neg (h3 _), if_neg (h3 _)]
        refine Prod.ext rfl ?_
        show (scaleStore f st).force k _ = scaleStore f (st.force k y)
        unfold scaleStore Store.force Store.update
        simp only [Store.mk.injEq, true_and]
        funext k'
        by_cases hk : k' = k
        · subst hk; simp
        · simp [hk]
  have hval : ((scaleStore f st).ent k).val = (st.ent k).val.map fun x i => x i * f k := rfl
  unfold contribute
  cases b with
  | true =>
    simp only [if_true]
    unfold add
    rw [hval]
    rcases h : (st.ent k).val with _ | old
    · exact hset v
    · simp only [Option.map_some]
      show set k _ _ = _
      have : (fun i => v i * f k) + (fun i => old i * f k) = fun i => (v + old) i * f k := by funext i; simp [add_mul]
      rw [this]
      exact hset (v + old)
  | false =>
    simp only [Bool.false_eq_true, if_false]
    unfold subtract
    rw [hval]
    rcases h : (st.ent k).val with _ | old
    · show set k _ _ = _
      have : (StoreVal.neg fun i => v i * f k) = fun i => (StoreVal.neg v : Fld ι) i * f k := by
        funext i
        show -(v i * f k) = -v i * f k
        ring
      rw [this]
      exact hset _
    · simp only [Option.map_some]
      show set k _ _ = _
      have : (fun i => old i * f k) - (fun i => v i * f k) = fun i => (old - v) i * f k := by funext i; simp [sub_mul]
      rw [this]
      exact hset (old - v)

theorem contributeAll_scale (f : Key → ℝ) : ∀ (cs : List (Contrib Key ι)) (st : Store Key (Fld ι)),
    contributeAll (cs.map fun x => (x.1, (fun i => x.2.1 i * f x.1), x.2.2)) (scaleStore f st)
      = ((contributeAll cs st).1, scaleStore f (contributeAll cs st).2)
  | [], st => rfl
  | x :: cs, st => by
    rw [List.map_cons]
    unfold contributeAll M.bind
    rw [contribute_scale]
    rcases h : contribute x st with ⟨r, st'⟩
    rcases r with e | a
    · rfl
    · exact contributeAll_scale f cs st'

/-! ## Components -/

/-- `x` in units `u` and `x'` in units `u'` are the same contributions, or the same exception. -/
def Same (c : Consts) (u u' : Normalisation) (x x' : Except Err (List (Contrib Key ι))) : Prop :=
  x.map (contribsSI c u) = x'.map (contribsSI c u')

section
variable {c : Consts} {u u' : Normalisation}

theorem Same.ok {cs cs' : List (Contrib Key ι)} (h : contribsSI c u cs = contribsSI c u' cs') : Same c u u' (.ok cs) (.ok cs') := by
  show Except.ok _ = Except.ok _
  rw [h]

theorem Same.error (e : Err) : Same c u u' (.error e : Except Err (List (Contrib Key ι))) (.error e) := rfl

theorem Same.nil : Same c u u' (.ok ([] : List (Contrib Key ι))) (.ok []) := rfl

theorem Same.field {W : World ι} {s : String} {v : Var} {k k' : Fld ι → Except Err (List (Contrib Key ι))}
    (h : ∀ f : Fld ι, (W.st.ent (.sp s v)).val = some f →
      Same c u u' (k fun i => f i * (u.conversion c v)⁻¹) (k' fun i => f i * (u'.conversion c v)⁻¹)) :
    Same c u u' ((inUnits c u W).field s v >>= k) ((inUnits c u' W).field s v >>= k') := by
  have e : ∀ u : Normalisation, (inUnits c u W).field s v = match (W.st.ent (.sp s v)).val with
      | none => .error .noValue
      | some f => .ok fun i => f i * (u.conversion c v)⁻¹ := by
    intro u
    unfold World.field
    have : ((inUnits c u W).st.ent (.sp s v)).val = (W.st.ent (.sp s v)).val.map fun x i => x i * (u.conversion c v)⁻¹ := rfl
    rw [this]
    cases (W.st.ent (.sp s v)).val <;> rfl
  rw [e, e]
  rcases hv : (W.st.ent (.sp s v)).val with _ | f
  · exact Same.error _
  · exact h f hv

theorem Same.real {W : World ι} {s : String} {v : Var} {k k' : ℝ → Except Err (List (Contrib Key ι))}
    (h : ∀ x, W.num s v = some x → Same c u u' (k x) (k' x)) : Same c u u' ((inUnits c u W).real s v >>= k) ((inUnits c u' W).real s v >>= k') := by
  unfold World.real
  have e : ∀ u : Normalisation, (inUnits c u W).num = W.num := fun _ => rfl
  rw [e, e]
  rcases hv : W.num s v with _ | x
  · exact Same.error _
  · exact h x hv

theorem Same.assert1 {p : Prop} [Decidable p] {k k' : Unit → Except Err (List (Contrib Key ι))} (h : p → Same c u u' (k ()) (k' ())) :
    Same c u u' (assert1 p >>= k) (assert1 p >>= k') := by
  unfold Hermes.assert1
  by_cases hp : p
  · rw [if_pos hp]; exact h hp
  · rw [if_neg hp]; exact Same.error _

theorem Same.valid {p p' : Prop} (hp : p ↔ p') {k k' : Unit → Except Err (List (Contrib Key ι))} (h : p → Same c u u' (k ()) (k' ())) :
    Same c u u' (Hermes.valid p >>= k) (Hermes.valid p' >>= k') := by
  unfold Hermes.valid
  by_cases h1 : p
  · rw [if_pos h1, if_pos (hp.1 h1)]; exact h h1
  · rw [if_neg h1, if_neg (fun x => h1 (hp.2 x))]; exact Same.error _

theorem contribsSI_append (a b : List (Contrib Key ι)) : contribsSI c u (a ++ b) = contribsSI c u a ++ contribsSI c u b := List.map_append

theorem Same.append {x x' y y' : Except Err (List (Contrib Key ι))} (hx : Same c u u' x x') (hy : Same c u u' y y') :
    Same c u u' (do let a ← x; let b ← y; return a ++ b) (do let a ← x'; let b ← y'; return a ++ b) := by
  unfold Same at *
  rcases x with e | a <;> rcases x' with e' | a' <;> rcases y with d | b <;> rcases y' with d' | b' <;>
    simp only [Except.map, Except.ok.injEq, Except.error.injEq, reduceCtorEq] at hx hy <;>
    simp [bind, Except.bind, pure, Except.pure, Except.map, contribsSI_append, hx, hy]

theorem Same.collectM {α : Type} {f f' : α → Except Err (List (Contrib Key ι))} : ∀ {l : List α}, (∀ a ∈ l, Same c u u' (f a) (f' a)) →
    Same c u u' (Hermes.collectM f l) (Hermes.collectM f' l)
  | [], _ => Same.nil
  | a :: l, h => Same.append (h a List.mem_cons_self) (Same.collectM fun b hb => h b (List.mem_cons_of_mem _ hb))

theorem inUnits_fieldOr0 (W : World ι) (s : String) (v : Var) (i : ι) :
    (inUnits c u W).fieldOr0 s v i = W.fieldOr0 s v i * (u.conversion c v)⁻¹ := by
  have : ((inUnits c u W).st.ent (.sp s v)).val = (W.st.ent (.sp s v)).val.map fun x i => x i * (u.conversion c v)⁻¹ := rfl
  unfold World.fieldOr0
  rw [this]
  cases (W.st.ent (.sp s v)).val <;> simp

theorem inUnits_isSetF (W : World ι) (s : String) (v : Var) : (inUnits c u W).isSetF s v = W.isSetF s v := by
  have : ((inUnits c u W).st.ent (.sp s v)).val = (W.st.ent (.sp s v)).val.map fun x i => x i * (u.conversion c v)⁻¹ := rfl
  unfold World.isSetF
  rw [this]
  cases (W.st.ent (.sp s v)).val <;> rfl

end

/-! ## Averages over cells -/

/-- A limiter that works in any units. -/
def Homogeneous (lim : Limiter) : Prop := ∀ k : ℝ, 0 < k → ∀ m c p, lim (m * k) (c * k) (p * k) = ((lim m c p).1 * k, (lim m c p).2 * k)

theorem upwind_homogeneous : Homogeneous upwind := fun _ _ _ _ _ => rfl

theorem fromm_homogeneous : Homogeneous fromm := by
  intro k _ m c p
  unfold fromm
  refine Prod.ext ?_ ?_ <;> ring

theorem minMod_homogeneous : Homogeneous minMod := by
  intro k hk m c p
  have key : ∀ a b : ℝ, minmod2 (a * k) (b * k) = minmod2 a b * k := by
    intro a b
    unfold minmod2
    have e1 : a * k * (b * k) ≤ 0 ↔ a * b ≤ 0 := by
      rw [show a * k * (b * k) = a * b * (k * k) by ring]
      constructor
      · intro h; by_contra hh; exact absurd h (not_le.2 (mul_pos (not_le.1 hh) (mul_pos hk hk)))
      · intro h; exact mul_nonpos_of_nonpos_of_nonneg h (mul_pos hk hk).le
    have e2 : |a * k| < |b * k| ↔ |a| < |b| := by
      rw [abs_mul, abs_mul, abs_of_pos hk]
      exact mul_lt_mul_iff_left₀ hk
    simp only [e1, e2]
    split_ifs <;> simp
  unfold minMod
  rw [show p * k - c * k = (p - c) * k by ring, show c * k - m * k = (c - m) * k by ring, key]
  refine Prod.ext ?_ ?_ <;> ring

theorem mc_homogeneous : Homogeneous mc := by
  intro k hk m c p
  have key : ∀ a b d : ℝ, minmod3 (a * k) (b * k) (d * k) = minmod3 a b d * k := by
    intro a b d
    unfold minmod3 SIGN
    have e1 : ∀ a b : ℝ, a * k * (b * k) ≤ 0 ↔ a * b ≤ 0 := by
      intro a b
      rw [show a * k * (b * k) = a * b * (k * k) by ring]
      constructor
      · intro h; by_contra hh; exact absurd h (not_le.2 (mul_pos (not_le.1 hh) (mul_pos hk hk)))
      · intro h; exact mul_nonpos_of_nonpos_of_nonneg h (mul_pos hk hk).le
    have e2 : 0 ≤ a * k ↔ 0 ≤ a := by
      constructor
      · intro h; exact le_of_mul_le_mul_right (by simpa using h) hk
      · intro h; exact mul_nonneg h hk.le
    simp only [e1, e2, abs_mul, abs_of_pos hk, ← min_mul_of_nonneg _ _ hk.le]
    split_ifs <;> ring
  unfold mc
  rw [show 2 * (p * k - c * k) = 2 * (p - c) * k by ring, show 0.5 * (p * k - m * k) = 0.5 * (p - m) * k by ring,
    show 2 * (c * k - m * k) = 2 * (c - m) * k by ring, key]
  refine Prod.ext ?_ ?_ <;> ring

theorem cellAverage_units {κ : Type} {lim : Limiter} (hl : Homogeneous lim) {func g : (κ → ℝ) → ℝ} {k : κ → ℝ} (hk : ∀ a, 0 < k a) {K : ℝ}
    (h : ∀ x : κ → ℝ, func (fun a => x a * k a) * K = g x) {j : ℝ} (hj : j ≠ 0) (a am ap : κ → ℝ) (Ji Jm Jp : ℝ) :
    cellAverage lim func (fun x => a x * k x) (fun x => am x * k x) (fun x => ap x * k x) (Ji * j) (Jm * j) (Jp * j) * K
      = cellAverage lim g a am ap Ji Jm Jp := by
  unfold cellAverage
  have e1 : ∀ J : ℝ, (Ji * j + J * j) / (12 * (Ji * j)) = (Ji + J) / (12 * Ji) := by
    intro J
    rw [← add_mul, ← mul_assoc, mul_div_mul_right _ _ hj]
  rw [e1, e1, ← h, ← h, ← h]
  simp only [hl _ (hk _)]
  ring

theorem avg3_units {c : Consts} (hc : Physical c) {u : Normalisation} (hu : Good u) {W : World ι} (hl : Homogeneous W.lim) {f g : ℝ → ℝ → ℝ → ℝ}
    {k1 k2 k3 K : ℝ} (h1 : 0 < k1) (h2 : 0 < k2) (h3 : 0 < k3) (h : ∀ x y z, f (x * k1) (y * k2) (z * k3) * K = g x y z) (a b d : Fld ι) (i : ι) :
    (inUnits c u W).avg3 f (fun i => a i * k1) (fun i => b i * k2) (fun i => d i * k3) i * K = W.avg3 g a b d i := by
  have hj : u.Bnorm / u.rho_s0 c ≠ 0 := (div_pos hu.B (rho_pos hc hu)).ne'
  have := cellAverage_units (κ := Fin 3) hl (func := fun x => f (x 0) (x 1) (x 2)) (g := fun x => g (x 0) (x 1) (x 2)) (k := ![k1, k2, k3])
    (fun a => by fin_cases a <;> assumption) (K := K) (fun x => h _ _ _) hj ![a i, b i, d i] ![a (W.ym i), b (W.ym i), d (W.ym i)]
    ![a (W.yp i), b (W.yp i), d (W.yp i)] (W.J i) (W.J (W.ym i)) (W.J (W.yp i))
  unfold World.avg3
  rw [← this]
  congr 2 <;> (funext x; fin_cases x <;> rfl)

theorem avg4_units {c : Consts} (hc : Physical c) {u : Normalisation} (hu : Good u) {W : World ι} (hl : Homogeneous W.lim) {f g : ℝ → ℝ → ℝ → ℝ → ℝ}
    {k1 k2 k3 k4 K : ℝ} (h1 : 0 < k1) (h2 : 0 < k2) (h3 : 0 < k3) (h4 : 0 < k4) (h : ∀ x y z w, f (x * k1) (y * k2) (z * k3) (w * k4) * K = g x y z w)
    (a b d e : Fld ι) (i : ι) :
    (inUnits c u W).avg4 f (fun i => a i * k1) (fun i => b i * k2) (fun i => d i * k3) (fun i => e i * k4) i * K = W.avg4 g a b d e i := by
  have hj : u.Bnorm / u.rho_s0 c ≠ 0 := (div_pos hu.B (rho_pos hc hu)).ne'
  have := cellAverage_units (κ := Fin 4) hl (func := fun x => f (x 0) (x 1) (x 2) (x 3)) (g := fun x => g (x 0) (x 1) (x 2) (x 3)) (k := ![k1, k2, k3, k4])
    (fun a => by fin_cases a <;> assumption) (K := K) (fun x => h _ _ _ _) hj ![a i, b i, d i, e i] ![a (W.ym i), b (W.ym i), d (W.ym i), e (W.ym i)]
    ![a (W.yp i), b (W.yp i), d (W.yp i), e (W.yp i)] (W.J i) (W.J (W.ym i)) (W.J (W.yp i))
  unfold World.avg4
  rw [← this]
  congr 2 <;> (funext x; fin_cases x <;> rfl)

end Hermes.Units
