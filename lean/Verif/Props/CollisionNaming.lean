import Verif.Props.Collisions
import Mathlib.Data.List.Perm.Basic

/-!
# Collisions: naming and switches (C34)

`collisions` iterates over pairs of species in alphabetical order.  The theorems say when the result does not
depend on that order, and which pairs the switches control.
-/

namespace Hermes.Collisions

variable {ι : Type}

/-! ## Specification -/

/-- `w'` is the state `w` with species renamed by `σ`. -/
structure Renamed (σ : String → String) (w w' : World ι) : Prop where
  inj : Function.Injective σ
  electron : ∀ s, σ s = "e" ↔ s = "e"
  beam : ∀ s, σ s = "ebeam" ↔ s = "ebeam"
  values : ∀ s v, (w'.st.ent (.sp (σ s) v)).val = (w.st.ent (.sp s v)).val
  numbers : ∀ s v, w'.num (σ s) v = w.num s v

/-- An ion: the charge is set and not zero.  A neutral: the charge is not set. -/
def IsIon (w : World ι) (s : String) : Prop := ∃ z, w.num s Var.charge = some z ∧ z ≠ 0
def IsNeutral (w : World ι) (s : String) : Prop := w.num s Var.charge = none

/-- What is needed for the order of the species not to matter. -/
structure OrderSafe (k : CollNorms) (o : CollOpts) (names : List String) (w : World ι) : Prop where
  Nnorm : 0 < k.Nnorm
  Mp : 0 < k.Mp
  e0 : 0 < k.e0
  noBeam : "ebeam" ∉ names
  /-- every species is an ion or a neutral (no charge is set to 0) -/
  kinds : ∀ s ∈ names, IsIon w s ∨ IsNeutral w s
  masses : ∀ s ∈ names, 0 < mass w s
  /-- densities are above the floors `1e-5` (normalised) and `1e10` per cubic metre -/
  densities : ∀ s ∈ names, ∀ i, 1e-5 ≤ density w s i ∧ 1e10 ≤ density w s i * k.Nnorm
  /-- pairs with a neutral have equal masses -/
  neutralMass : ∀ a ∈ names, ∀ b ∈ names, a ≠ "e" → b ≠ "e" → IsNeutral w a → mass w a = mass w b
  /-- ion–neutral collisions are on, or there are no ion–neutral pairs -/
  mixed : o.ion_neutral = true ∨ ∀ a ∈ names, ∀ b ∈ names, a ≠ "e" → b ≠ "e" → IsNeutral w a → ¬ IsIon w b

/-! ## Sums over pairs -/

/-- Contribution to `key` in cell `i`, zero if there is an exception. -/
def val (key : Key) (i : ι) (x : Except Err (List (Contrib Key ι))) : ℝ :=
  match x with
  | .ok cs => signedSum key i cs
  | .error _ => 0

/-- Sum over the pairs on and above the diagonal. -/
def pairSum (f : String → String → ℝ) : List String → ℝ
  | [] => 0
  | a :: l => ((a :: l).map (f a)).sum + pairSum f l

theorem pairSum_perm {f : String → String → ℝ} {l l' : List String} (h : l.Perm l')
    (hs : ∀ a ∈ l, ∀ b ∈ l, f a b = f b a) : pairSum f l = pairSum f l' := by
  induction h with
  | nil => rfl
  | @cons x l l' p ih =>
    have e := ih fun a ha b hb => hs a (by simp [ha]) b (by simp [hb])
    unfold pairSum
    rw [e]
    congr 1
    exact (List.Perm.map (f x) (List.Perm.cons x p)).sum_eq
  | swap x y l =>
    simp only [pairSum, List.map_cons, List.sum_cons]
    rw [hs x (by simp) y (by simp)]
    ring
  | trans p q ih1 ih2 =>
    rw [ih1 hs]
    exact ih2 fun a ha b hb => hs a (p.mem_iff.2 ha) b (p.mem_iff.2 hb)

theorem val_collectM {α : Type} {f : α → Except Err (List (Contrib Key ι))} (key : Key) (i : ι) :
    ∀ {l : List α} {cs : List (Contrib Key ι)}, collectM f l = .ok cs →
      signedSum key i cs = (l.map fun a => val key i (f a)).sum
  | [], cs, h => by cases h; rfl
  | a :: l, cs, h => by
    unfold collectM at h
    obtain ⟨x, hx, h⟩ := bind_ok h
    obtain ⟨y, hy, h⟩ := bind_ok h
    cases h
    rw [signedSum_append, val_collectM key i hy]
    simp [hx, val]

open Classical in
/-- The collision of two heavy species met in this order. -/
noncomputable def pairE (k : CollNorms) (o : CollOpts) (w : World ι) (n1 n2 : String) :
    Except Err (List (Contrib Key ι)) :=
  if n1 = "e" ∨ n1 = "ebeam" then .ok []
  else do
    let x1 ← readHeavy k w n1
    if w.charged n1 then chargedWith k o w n1 x1 n2 else neutralWith k o w n1 x1 n2

open Classical in
theorem val_heavyWith {k : CollNorms} {o : CollOpts} {w : World ι} {n1 : String} {rest : List String}
    {cs : List (Contrib Key ι)} (h : heavyWith k o w n1 rest = .ok cs) (key : Key) (i : ι) :
    signedSum key i cs = (rest.map fun n2 => val key i (pairE k o w n1 n2)).sum := by
  unfold heavyWith at h
  split at h
  · rename_i hs
    cases h
    have : ∀ n2, pairE k o w n1 n2 = .ok [] := fun n2 => by unfold pairE; rw [if_pos hs]
    simp [this, val]
  · rename_i hs
    obtain ⟨x1, hx1, h⟩ := bind_ok h
    have : ∀ n2, pairE k o w n1 n2 = if w.charged n1 then chargedWith k o w n1 x1 n2 else neutralWith k o w n1 x1 n2 := by
      intro n2; unfold pairE; rw [if_neg hs, hx1]; rfl
    simp only [this]
    split at h <;> rename_i hc
    · simp only [if_pos hc]; exact val_collectM key i h
    · simp only [if_neg hc]; exact val_collectM key i h

theorem val_heavyLoop {k : CollNorms} {o : CollOpts} {w : World ι} (key : Key) (i : ι) :
    ∀ {ns : List String} {cs : List (Contrib Key ι)}, heavyLoop k o w ns = .ok cs →
      signedSum key i cs = pairSum (fun a b => val key i (pairE k o w a b)) ns
  | [], cs, h => by cases h; rfl
  | n :: ns, cs, h => by
    unfold heavyLoop at h
    obtain ⟨x, hx, h⟩ := bind_ok h
    obtain ⟨y, hy, h⟩ := bind_ok h
    cases h
    rw [signedSum_append, val_heavyWith hx, val_heavyLoop key i hy]
    rfl

/-! ## Renaming -/

/-- Rename the species in a key, a contribution, a result. -/
def renKey (σ : String → String) : Key → Key
  | .top v => .top v
  | .sp s v => .sp (σ s) v

def ren (σ : String → String) (x : Except Err (List (Contrib Key ι))) : Except Err (List (Contrib Key ι)) :=
  x.map (List.map fun c => (renKey σ c.1, c.2))

theorem ren_bind {α : Type} (σ : String → String) (x : Except Err α) (f : α → Except Err (List (Contrib Key ι))) :
    ren σ (x >>= f) = x >>= fun a => ren σ (f a) := by
  cases x <;> rfl

theorem ren_ite (σ : String → String) (p : Prop) [Decidable p] (x y : Except Err (List (Contrib Key ι))) :
    ren σ (if p then x else y) = if p then ren σ x else ren σ y := by
  split <;> rfl

@[simp] theorem ren_nil (σ : String → String) : ren σ (.ok ([] : List (Contrib Key ι))) = .ok [] := rfl
@[simp] theorem ren_pure_nil (σ : String → String) : ren σ (pure ([] : List (Contrib Key ι))) = pure [] := rfl

theorem val_ren {σ : String → String} (hσ : Function.Injective σ) (s : String) (v : Var) (i : ι)
    (x : Except Err (List (Contrib Key ι))) : val (.sp (σ s) v) i (ren σ x) = val (.sp s v) i x := by
  cases x with
  | error e => rfl
  | ok cs =>
    show signedSum _ i (cs.map _) = signedSum _ i cs
    induction cs with
    | nil => rfl
    | cons c cs ih =>
      rw [List.map_cons, signedSum_cons, signedSum_cons, ih]
      have : (renKey σ c.1 = Key.sp (σ s) v) ↔ (c.1 = Key.sp s v) := by
        cases c.1 with
        | top t => simp [renKey]
        | sp t u => simp [renKey, hσ.eq_iff]
      simp only [this]

section
variable {σ : String → String} {w w' : World ι} (h : Renamed σ w w')
include h

theorem Renamed.field (s : String) (v : Var) : w'.field (σ s) v = w.field s v := by
  unfold World.field; rw [h.values]
theorem Renamed.real (s : String) (v : Var) : w'.real (σ s) v = w.real s v := by
  unfold World.real; rw [h.numbers]
theorem Renamed.isSetF (s : String) (v : Var) : w'.isSetF (σ s) v = w.isSetF s v := by
  unfold World.isSetF; rw [h.values]
theorem Renamed.fieldOr0 (s : String) (v : Var) : w'.fieldOr0 (σ s) v = w.fieldOr0 s v := by
  unfold World.fieldOr0; rw [h.values]
theorem Renamed.e_eq : σ "e" = "e" := (h.electron "e").2 rfl
theorem Renamed.charged (s : String) : w'.charged (σ s) ↔ w.charged s := by
  unfold World.charged; rw [h.numbers]
theorem Renamed.positive (s : String) : w'.positive (σ s) ↔ w.positive s := by
  unfold World.positive; rw [h.numbers]
theorem Renamed.negative (s : String) : w'.negative (σ s) ↔ w.negative s := by
  unfold World.negative; rw [h.numbers]
theorem Renamed.readHeavy (k : CollNorms) (s : String) : readHeavy k w' (σ s) = readHeavy k w s := by
  unfold Hermes.readHeavy; rw [h.field, h.real, h.fieldOr0]

theorem Renamed.heatExchange (s1 s2 : String) (nu : Fld ι) (A1 A2 : ℝ) (n1 : Fld ι) :
    ren σ (heatExchange s1 s2 nu A1 A2 n1 w) = heatExchange (σ s1) (σ s2) nu A1 A2 n1 w' := by
  unfold Hermes.heatExchange
  simp only [ren_ite, h.isSetF, h.field, ren_bind]
  rfl

theorem Renamed.collide (fh : Bool) (s1 s2 : String) (nu : Fld ι) (coef : ℝ) :
    ren σ (collide fh s1 s2 nu coef w) = collide fh (σ s1) (σ s2) nu coef w' := by
  unfold Hermes.collide
  simp only [ren_ite, h.inj.eq_iff, h.field, h.real, ren_bind, h.isSetF, h.fieldOr0]
  split
  · rfl
  · congr 1; funext A1; congr 1; funext A2; congr 1; funext n1; congr 1; funext n2
    rw [← h.heatExchange]
    cases Hermes.heatExchange s1 s2 nu A1 A2 n1 w with
    | error e => rfl
    | ok q =>
      show ren σ (.ok _) = .ok _
      unfold ren
      simp only [Except.map, List.map_append]
      congr 3
      split
      · cases fh <;> simp [frictionOf, renKey]
      · rfl

theorem Renamed.electronWith (k : CollNorms) (o : CollOpts) (Te Ne : Fld ι) (n : String) :
    ren σ (electronWith k o w Te Ne n) = electronWith k o w' Te Ne (σ n) := by
  unfold Hermes.electronWith
  have hc : ∀ fh (s2 : String) nu coef, ren σ (Hermes.collide fh "e" s2 nu coef w) = Hermes.collide fh "e" (σ s2) nu coef w' := by
    intro fh s2 nu coef
    rw [h.collide, h.e_eq]
  have he : ∀ fh nu coef, ren σ (Hermes.collide fh "e" "e" nu coef w) = Hermes.collide fh "e" "e" nu coef w' := by
    intro fh nu coef
    rw [hc, h.e_eq]
  have hp : w'.positive (σ n) = w.positive n := propext (h.positive n)
  have hn : w'.negative (σ n) = w.negative n := propext (h.negative n)
  rw [hp, hn]
  by_cases hne : n = "e"
  · have hne' := (h.electron n).2 hne
    rw [if_pos hne, if_pos hne', ren_ite, he]; rfl
  · have hne' := fun e => hne ((h.electron n).1 e)
    rw [if_neg hne, if_neg hne']
    simp only [ren_ite, h.field, h.real, ren_bind, hc, ren_pure_nil]

theorem Renamed.pairE (k : CollNorms) (o : CollOpts) (n1 n2 : String) :
    ren σ (pairE k o w n1 n2) = pairE k o w' (σ n1) (σ n2) := by
  have c1 : w'.charged (σ n1) = w.charged n1 := propext (h.charged n1)
  have c2 : w'.charged (σ n2) = w.charged n2 := propext (h.charged n2)
  have e1 : (σ n1 = "e" ∨ σ n1 = "ebeam") ↔ (n1 = "e" ∨ n1 = "ebeam") := by rw [h.electron, h.beam]
  have e2 : (σ n2 = "e" ∨ σ n2 = "ebeam") ↔ (n2 = "e" ∨ n2 = "ebeam") := by rw [h.electron, h.beam]
  have hC : ∀ x, ren σ (chargedWith k o w n1 x n2) = chargedWith k o w' (σ n1) x (σ n2) := by
    intro x
    unfold chargedWith ionIon hardSphere
    rw [c2]
    by_cases hs : n2 = "e" ∨ n2 = "ebeam"
    · rw [if_pos hs, if_pos (e2.2 hs)]; rfl
    · rw [if_neg hs, if_neg fun e => hs (e2.1 e)]
      simp only [ren_ite, h.real, ren_bind, ren_pure_nil, h.readHeavy, h.collide]
  have hN : ∀ x, ren σ (neutralWith k o w n1 x n2) = neutralWith k o w' (σ n1) x (σ n2) := by
    intro x
    unfold neutralWith hardSphere
    by_cases hs : n2 = "e"
    · rw [if_pos hs, if_pos ((h.electron _).2 hs)]; rfl
    · rw [if_neg hs, if_neg fun e => hs ((h.electron _).1 e)]
      simp only [ren_ite, ren_bind, ren_pure_nil, h.readHeavy, h.collide, h.numbers]
  unfold Collisions.pairE
  rw [c1]
  by_cases hs : n1 = "e" ∨ n1 = "ebeam"
  · rw [if_pos hs, if_pos (e1.2 hs)]; rfl
  · rw [if_neg hs, if_neg fun e => hs (e1.1 e)]
    simp only [ren_ite, ren_bind, h.readHeavy, hC, hN]

end

/-! ## Symmetry of a pair -/

theorem collide_swap {fh : Bool} {a b : String} {nu nu' : Fld ι} {coef coef' : ℝ} {w : World ι}
    {cs : List (Contrib Key ι)} (hab : a ≠ b) (h : collide fh a b nu coef w = .ok cs) :
    collide fh b a nu' coef' w = .ok (collideOf fh w ⟨b, a, nu', coef'⟩) := by
  unfold collide at h
  rw [if_neg hab] at h
  obtain ⟨A1, a1, h⟩ := bind_ok h
  obtain ⟨A2, a2, h⟩ := bind_ok h
  obtain ⟨n1, b1, h⟩ := bind_ok h
  obtain ⟨n2, b2, h⟩ := bind_ok h
  obtain ⟨q, hq, h⟩ := bind_ok h
  have : ∃ q', heatExchange b a nu' A2 A1 n2 w = .ok q' := by
    unfold heatExchange at hq ⊢
    rw [Bool.or_comm]
    split at hq
    · rename_i hs
      rw [if_pos hs]
      obtain ⟨T1, h1, hq⟩ := bind_ok hq
      obtain ⟨T2, h2, hq⟩ := bind_ok hq
      exact ⟨_, ok_bind h2 (ok_bind h1 rfl)⟩
    · rename_i hs
      rw [if_neg hs]; exact ⟨_, rfl⟩
  obtain ⟨q', hq'⟩ := this
  have : ∃ cs', collide fh b a nu' coef' w = .ok cs' := by
    unfold collide
    rw [if_neg (Ne.symm hab)]
    exact ⟨_, ok_bind a2 (ok_bind a1 (ok_bind b2 (ok_bind b1 (ok_bind hq' rfl))))⟩
  obtain ⟨cs', hcs'⟩ := this
  exact collide_ok hcs' fh

/-- Two events which describe the same collision from the two sides contribute the same. -/
theorem collideOf_symm (fh : Bool) (w : World ι) (a b : String) (hab : a ≠ b) (nu nu' : Fld ι) (i : ι)
    (ha : 0 < mass w a) (hb : 0 < mass w b) (na : 1e-5 ≤ density w a i) (nb : 1e-5 ≤ density w b i)
    (hbal : mass w a * density w a i * nu i = mass w b * density w b i * nu' i) (key : Key) :
    signedSum key i (collideOf fh w ⟨a, b, nu, 1⟩) = signedSum key i (collideOf fh w ⟨b, a, nu', 1⟩) := by
  have na0 : density w a i ≠ 0 := by intro h; rw [h] at na; norm_num at na
  have nb0 : density w b i ≠ 0 := by intro h; rw [h] at nb; norm_num at nb
  have hab0 : mass w a + mass w b ≠ 0 := by positivity
  have hba0 : mass w b + mass w a ≠ 0 := by positivity
  have hnu : nu i = mass w b * density w b i * nu' i / (mass w a * density w a i) := by
    field_simp; linarith
  unfold collideOf
  simp only [hab, Ne.symm hab, if_false, signedSum_append, fieldOr0_velocity, fieldOr0_temperature]
  have e1 : signedSum key i [(.sp a Var.collision_frequency, nu, true),
      (.sp b Var.collision_frequency, (fun i => nu i * (mass w a / mass w b) * w.fieldOr0 a Var.density i
        / floorTo (w.fieldOr0 b Var.density i) 1e-5), true)]
      = signedSum key i [(.sp b Var.collision_frequency, nu', true),
      (.sp a Var.collision_frequency, (fun i => nu' i * (mass w b / mass w a) * w.fieldOr0 b Var.density i
        / floorTo (w.fieldOr0 a Var.density i) 1e-5), true)] := by
    simp only [signedSum_cons, signedSum_nil, fieldOr0_density, floorTo_eq na, floorTo_eq nb]
    have p1 : nu i * (mass w a / mass w b) * density w a i / density w b i = nu' i := by
      rw [hnu]; field_simp
    have p2 : nu' i * (mass w b / mass w a) * density w b i / density w a i = nu i := by
      rw [hnu]; field_simp
    simp only [p1, p2, if_true]
    ring
  have e2 : signedSum key i (frictionOf fh a b nu 1 (mass w a) (mass w b) (w.fieldOr0 a Var.density)
        (w.fieldOr0 a Var.velocity) (w.fieldOr0 b Var.velocity))
      = signedSum key i (frictionOf fh b a nu' 1 (mass w b) (mass w a) (w.fieldOr0 b Var.density)
        (w.fieldOr0 b Var.velocity) (w.fieldOr0 a Var.velocity)) := by
    have p : ∀ va vb : ℝ, 1 * nu i * mass w a * density w a i * (vb - va)
        = -(1 * nu' i * mass w b * density w b i * (va - vb)) := by
      intro va vb; rw [hnu]; field_simp; ring
    cases fh
    · simp only [frictionOf, signedSum_cons, signedSum_nil, signedSum_append, fieldOr0_density, p]
      simp only [if_true, if_false, Bool.false_eq_true, neg_neg, signedSum_nil]
      ring
    · simp only [frictionOf, signedSum_cons, signedSum_nil, signedSum_append, fieldOr0_density, p]
      simp only [if_true, if_false, Bool.false_eq_true, neg_neg, signedSum_cons, signedSum_nil, fieldOr0_velocity, p]
      rw [add_comm (mass w a) (mass w b)]
      have q : ∀ (c va vb F : ℝ), c * (vb - va) * -F = c * (va - vb) * F := by intros; ring
      simp only [q]
      ring
  have e3 : signedSum key i (heatExchangeOf a b nu (mass w a) (mass w b) (w.fieldOr0 a Var.density)
        (w.fieldOr0 a Var.temperature) (w.fieldOr0 b Var.temperature))
      = signedSum key i (heatExchangeOf b a nu' (mass w b) (mass w a) (w.fieldOr0 b Var.density)
        (w.fieldOr0 b Var.temperature) (w.fieldOr0 a Var.temperature)) := by
    have p : ∀ Ta Tb : ℝ, nu i * 3 * density w a i * (mass w a / (mass w a + mass w b)) * (Tb - Ta)
        = -(nu' i * 3 * density w b i * (mass w b / (mass w b + mass w a)) * (Ta - Tb)) := by
      intro Ta Tb
      rw [hnu, add_comm (mass w b) (mass w a)]
      field_simp
      ring
    simp only [heatExchangeOf, signedSum_cons, signedSum_nil, fieldOr0_density, p]
    simp only [if_true, if_false, Bool.false_eq_true, neg_neg]
    ring
  rw [e1]
  congr 1
  · congr 1
    rw [Bool.or_comm (w.isSetF a Var.velocity)]
    split
    · exact e2
    · rfl
  · rw [Bool.or_comm (w.isSetF a Var.temperature)]
    split
    · exact e3
    · rfl

/-- The balance `m_a n_a ν_ab = m_b n_b ν_ba` of the ion–ion frequencies. -/
theorem nuII_balance {k : CollNorms} (hN : 0 < k.Nnorm) (hM : 0 < k.Mp) (he : 0 < k.e0) {A1 A2 n1 n2 : ℝ} (Z1 Z2 T1 T2 : ℝ)
    (h1 : 0 < A1) (h2 : 0 < A2) (d1 : 1e10 ≤ n1 * k.Nnorm) (d2 : 1e10 ≤ n2 * k.Nnorm) :
    A1 * n1 * nuII k Z1 Z2 A1 A2 T1 T2 (n1 * k.Nnorm) (n2 * k.Nnorm)
      = A2 * n2 * nuII k Z2 Z1 A2 A1 T2 T1 (n2 * k.Nnorm) (n1 * k.Nnorm) := by
  unfold nuII
  simp only [floorTo_eq d1, floorTo_eq d2]
  have c1 : Z2 * Z1 * (A2 + A1) / (A2 * floorTo T1 0.1 + A1 * floorTo T2 0.1)
      * Real.sqrt (n2 * k.Nnorm * Z2 ^ 2 / floorTo T2 0.1 + n1 * k.Nnorm * Z1 ^ 2 / floorTo T1 0.1)
      = Z1 * Z2 * (A1 + A2) / (A1 * floorTo T2 0.1 + A2 * floorTo T1 0.1)
      * Real.sqrt (n1 * k.Nnorm * Z1 ^ 2 / floorTo T1 0.1 + n2 * k.Nnorm * Z2 ^ 2 / floorTo T2 0.1) := by
    rw [add_comm (n2 * k.Nnorm * Z2 ^ 2 / floorTo T2 0.1), add_comm (A2 * floorTo T1 0.1), add_comm A2 A1, mul_comm Z2 Z1]
  rw [c1]
  generalize floorTo (29.91 - Real.log _) 1 = L
  have c2 : 2 * floorTo T2 0.1 * k.qe / (A2 * k.Mp) + 2 * floorTo T1 0.1 * k.qe / (A1 * k.Mp)
      = 2 * floorTo T1 0.1 * k.qe / (A1 * k.Mp) + 2 * floorTo T2 0.1 * k.qe / (A2 * k.Mp) := add_comm _ _
  rw [c2]
  generalize (Real.pi * _) ^ (3 / 2 : ℝ) = P
  by_cases hP : P = 0
  · simp [hP]
  · field_simp
    ring

theorem nuHard_balance (k : CollNorms) (a0 A n1 n2 T1 T2 : ℝ) :
    A * n1 * nuHard k a0 A A T1 T2 (n2 * k.Nnorm) = A * n2 * nuHard k a0 A A T2 T1 (n1 * k.Nnorm) := by
  unfold nuHard
  rw [add_comm (T1 / _)]
  ring

theorem valid_ok {p : Prop} {u : Unit} (h : valid p = .ok u) : p := by
  unfold valid at h
  split at h
  · assumption
  · cases h

theorem valid_of {p : Prop} (h : p) : valid p = .ok () := by
  unfold valid; rw [if_pos h]

theorem not_ion_of_neutral {w : World ι} {s : String} (h : IsNeutral w s) : ¬ w.charged s := by
  rintro ⟨z, hz, _⟩; rw [h] at hz; cases hz

theorem readHeavy_ok' {k : CollNorms} {w : World ι} {n : String} {x : HeavyInput ι}
    (h : readHeavy k w n = .ok x) :
    readHeavy k w n = .ok ⟨fun i => temperature w n i * k.Tnorm, fun i => density w n i * k.Nnorm, mass w n⟩ := by
  rw [h, readHeavy_ok h]

/-- Elastic scattering seen from either side. -/
theorem hardSphere_swap {k : CollNorms} {o : CollOpts} {w : World ι} {a0 : ℝ} {a b : String} (hab : a ≠ b)
    {x1 x2 : HeavyInput ι} {cs : List (Contrib Key ι)} (h1 : readHeavy k w a = .ok x1) (h2 : readHeavy k w b = .ok x2)
    (hm : mass w a = mass w b) (hp : 0 < mass w b) (na : ∀ i, 1e-5 ≤ density w a i) (nb : ∀ i, 1e-5 ≤ density w b i)
    (h : hardSphere k o w a0 a b x1 x2 = .ok cs) (key : Key) (i : ι) :
    val key i (hardSphere k o w a0 b a x2 x1) = val key i (.ok cs) := by
  rw [readHeavy_ok h1, readHeavy_ok h2] at *
  unfold hardSphere at h ⊢
  obtain ⟨_, hv, h⟩ := bind_ok h
  have hv := valid_ok hv
  have := collide_ok_eq h
  rw [ok_bind (valid_of fun i => by rw [add_comm]; exact hv i)
    (collide_swap (nu' := fun i => nuHard k a0 (mass w b) (mass w a) (temperature w b i * k.Tnorm)
      (temperature w a i * k.Tnorm) (density w a i * k.Nnorm)) (coef' := 1) hab h), this]
  simp only [val]
  refine (collideOf_symm _ w a b hab _ _ i (by rw [hm]; exact hp) hp (na i) (nb i) ?_ key).symm
  simp only [hm]
  exact nuHard_balance k a0 (mass w b) _ _ _ _

section
variable {k : CollNorms} {o : CollOpts} {w : World ι} {a b : String} {x1 x2 : HeavyInput ι}
  (ha : ¬ (a = "e" ∨ a = "ebeam")) (hb : ¬ (b = "e" ∨ b = "ebeam"))
  (h1 : readHeavy k w a = .ok x1) (h2 : readHeavy k w b = .ok x2)
include ha hb h1 h2

theorem pairE_ion_ion (ca : IsIon w a) (cb : IsIon w b) :
    pairE k o w a b = if o.ion_ion = false then .ok [] else ionIon k o w a b x1 x2 := by
  have ca : w.charged a := ca
  have cb : w.charged b := cb
  unfold pairE chargedWith
  rw [if_neg ha]
  refine Eq.trans (congrArg (· >>= _) h1) (Eq.trans (if_pos ca) (Eq.trans (if_neg hb) ?_))
  exact Eq.trans (congrArg (· >>= _) h2) (if_pos cb)

theorem pairE_ion_neutral (ca : IsIon w a) (cb : ¬ IsIon w b) :
    pairE k o w a b = hardSphere k o w a0Ion a b x1 x2 := by
  have ca : w.charged a := ca
  have cb : ¬ w.charged b := cb
  unfold pairE chargedWith
  rw [if_neg ha]
  refine Eq.trans (congrArg (· >>= _) h1) (Eq.trans (if_pos ca) (Eq.trans (if_neg hb) ?_))
  exact Eq.trans (congrArg (· >>= _) h2) (if_neg cb)

theorem pairE_neutral_ion (ca : ¬ IsIon w a) (cb : (w.num b Var.charge).isSome = true) :
    pairE k o w a b = if o.ion_neutral = false then .ok [] else hardSphere k o w a0Ion a b x1 x2 := by
  have ca : ¬ w.charged a := ca
  unfold pairE neutralWith
  rw [if_neg ha]
  refine Eq.trans (congrArg (· >>= _) h1) (Eq.trans (if_neg ca) (Eq.trans (if_neg fun e => hb (Or.inl e)) ?_))
  exact Eq.trans (congrArg (· >>= _) h2) (if_pos cb)

theorem pairE_neutral_neutral (ca : ¬ IsIon w a) (cb : IsNeutral w b) :
    pairE k o w a b = if o.neutral_neutral = false then .ok [] else hardSphere k o w a0Neutral a b x1 x2 := by
  have ca : ¬ w.charged a := ca
  have cb : ¬ (w.num b Var.charge).isSome = true := by unfold IsNeutral at cb; rw [cb]; simp
  unfold pairE neutralWith
  rw [if_neg ha]
  refine Eq.trans (congrArg (· >>= _) h1) (Eq.trans (if_neg ca) (Eq.trans (if_neg fun e => hb (Or.inl e)) ?_))
  exact Eq.trans (congrArg (· >>= _) h2) (if_neg cb)

end

/-- A successful pair of heavy species has read both. -/
theorem pairE_reads {k : CollNorms} {o : CollOpts} {w : World ι} {a b : String} {cs : List (Contrib Key ι)}
    (ha : ¬ (a = "e" ∨ a = "ebeam")) (hb : ¬ (b = "e" ∨ b = "ebeam")) (h : pairE k o w a b = .ok cs) :
    ∃ x1 x2, readHeavy k w a = .ok x1 ∧ readHeavy k w b = .ok x2 := by
  unfold pairE at h
  rw [if_neg ha] at h
  obtain ⟨x1, h1, h⟩ := bind_ok h
  split at h
  · unfold chargedWith at h
    rw [if_neg hb] at h
    obtain ⟨x2, h2, h⟩ := bind_ok h
    exact ⟨x1, x2, h1, h2⟩
  · unfold neutralWith at h
    rw [if_neg fun e => hb (Or.inl e)] at h
    obtain ⟨x2, h2, h⟩ := bind_ok h
    exact ⟨x1, x2, h1, h2⟩

theorem val_pairE_electron_left (k : CollNorms) (o : CollOpts) (w : World ι) (b : String) (key : Key) (i : ι) :
    val key i (pairE k o w "e" b) = 0 := by
  unfold pairE
  rw [if_pos (Or.inl rfl)]; rfl

open Classical in
theorem val_pairE_electron_right (k : CollNorms) (o : CollOpts) (w : World ι) (a : String) (key : Key) (i : ι) :
    val key i (pairE k o w a "e") = 0 := by
  unfold pairE
  split
  · rfl
  · cases readHeavy k w a with
    | error e => rfl
    | ok x =>
      show val key i (if w.charged a then chargedWith k o w a x "e" else neutralWith k o w a x "e") = 0
      split
      · unfold chargedWith; rw [if_pos (Or.inl rfl)]; rfl
      · unfold neutralWith; rw [if_pos rfl]; rfl

/-- Ion–ion collisions seen from either side. -/
theorem ionIon_swap {k : CollNorms} {o : CollOpts} {names : List String} {w : World ι} (hs : OrderSafe k o names w)
    {a b : String} (ha : a ∈ names) (hb : b ∈ names) (hab : a ≠ b)
    {x1 x2 : HeavyInput ι} {cs : List (Contrib Key ι)} (h1 : readHeavy k w a = .ok x1) (h2 : readHeavy k w b = .ok x2)
    (h : ionIon k o w a b x1 x2 = .ok cs) (key : Key) (i : ι) :
    val key i (ionIon k o w b a x2 x1) = val key i (.ok cs) := by
  have hma := hs.masses a ha
  have hmb := hs.masses b hb
  rw [readHeavy_ok h1, readHeavy_ok h2] at *
  unfold ionIon at h ⊢
  obtain ⟨Z1, hZ1, h⟩ := bind_ok h
  obtain ⟨Z2, hZ2, h⟩ := bind_ok h
  obtain ⟨_, hv, h⟩ := bind_ok h
  have hv := valid_ok hv
  have e := collide_ok_eq h
  rw [ok_bind hZ2 (ok_bind hZ1 (ok_bind (valid_of (by rw [mul_comm]; exact hv))
    (collide_swap (nu' := fun i => nuII k Z2 Z1 (mass w b) (mass w a) (temperature w b i * k.Tnorm)
      (temperature w a i * k.Tnorm) (density w b i * k.Nnorm) (density w a i * k.Nnorm) / k.Omega_ci)
      (coef' := 1) hab h))), e]
  simp only [val]
  refine (collideOf_symm _ w a b hab _ _ i hma hmb (hs.densities a ha i).1 (hs.densities b hb i).1 ?_ key).symm
  have := nuII_balance hs.Nnorm hs.Mp hs.e0 Z1 Z2 (temperature w a i * k.Tnorm) (temperature w b i * k.Tnorm) hma hmb
    (hs.densities a ha i).2 (hs.densities b hb i).2
  rw [mul_div_assoc', this, mul_div_assoc']

theorem pairE_swap {k : CollNorms} {o : CollOpts} {names : List String} {w : World ι} (hs : OrderSafe k o names w)
    {a b : String} (ha : a ∈ names) (hb : b ∈ names) (hab : a ≠ b) {cs : List (Contrib Key ι)}
    (h : pairE k o w a b = .ok cs) (key : Key) (i : ι) :
    val key i (pairE k o w b a) = val key i (.ok cs) := by
  rw [← h]
  by_cases hae : a = "e"
  · rw [hae, val_pairE_electron_left, val_pairE_electron_right]
  by_cases hbe : b = "e"
  · rw [hbe, val_pairE_electron_left, val_pairE_electron_right]
  have beam : ∀ {c}, c ∈ names → c ≠ "ebeam" := fun hc e => hs.noBeam (e ▸ hc)
  have hsa : ¬ (a = "e" ∨ a = "ebeam") := fun e => e.elim hae (beam ha)
  have hsb : ¬ (b = "e" ∨ b = "ebeam") := fun e => e.elim hbe (beam hb)
  obtain ⟨x1, x2, h1, h2⟩ := pairE_reads hsa hsb h
  have hmb := hs.masses b hb
  have hda := fun i => (hs.densities a ha i).1
  have hdb := fun i => (hs.densities b hb i).1
  have some_of : ∀ {c}, IsIon w c → (w.num c Var.charge).isSome = true := by
    rintro c ⟨z, hz, _⟩; rw [hz]; rfl
  rcases hs.kinds a ha with ka | ka <;> rcases hs.kinds b hb with kb | kb
  · rw [pairE_ion_ion hsa hsb h1 h2 ka kb] at h ⊢
    rw [pairE_ion_ion hsb hsa h2 h1 kb ka]
    split at h
    · rename_i ho; simp only [if_pos ho]
    · rename_i ho
      simp only [if_neg ho]
      rw [h]
      exact ionIon_swap hs ha hb hab h1 h2 h key i
  · have hin : o.ion_neutral = true := hs.mixed.resolve_right fun hno => hno b hb a ha hbe hae kb ka
    rw [pairE_ion_neutral hsa hsb h1 h2 ka (not_ion_of_neutral kb)] at h ⊢
    rw [pairE_neutral_ion hsb hsa h2 h1 (not_ion_of_neutral kb) (some_of ka), if_neg (by simp [hin]), h]
    exact hardSphere_swap hab h1 h2 (hs.neutralMass b hb a ha hbe hae kb).symm hmb hda hdb h key i
  · have hin : o.ion_neutral = true := hs.mixed.resolve_right fun hno => hno a ha b hb hae hbe ka kb
    rw [pairE_neutral_ion hsa hsb h1 h2 (not_ion_of_neutral ka) (some_of kb), if_neg (by simp [hin])] at h ⊢
    rw [pairE_ion_neutral hsb hsa h2 h1 kb (not_ion_of_neutral ka), h]
    exact hardSphere_swap hab h1 h2 (hs.neutralMass a ha b hb hae hbe ka) hmb hda hdb h key i
  · rw [pairE_neutral_neutral hsa hsb h1 h2 (not_ion_of_neutral ka) kb] at h ⊢
    rw [pairE_neutral_neutral hsb hsa h2 h1 (not_ion_of_neutral kb) ka]
    split at h
    · rename_i ho; simp only [if_pos ho]
    · rename_i ho
      simp only [if_neg ho]
      rw [h]
      exact hardSphere_swap hab h1 h2 (hs.neutralMass a ha b hb hae hbe ka) hmb hda hdb h key i

theorem pairE_symm {k : CollNorms} {o : CollOpts} {names : List String} {w : World ι} (hs : OrderSafe k o names w)
    {a b : String} (ha : a ∈ names) (hb : b ∈ names) (key : Key) (i : ι) :
    val key i (pairE k o w a b) = val key i (pairE k o w b a) := by
  by_cases hab : a = b
  · rw [hab]
  cases h : pairE k o w a b with
  | ok cs => exact (pairE_swap hs ha hb hab h key i).symm
  | error e =>
    cases h' : pairE k o w b a with
    | error e' => rfl
    | ok cs =>
      have := pairE_swap hs hb ha (Ne.symm hab) h' key i
      rw [h] at this
      exact this

/-! ## The whole component -/

/-- Contribution of the collisions of electrons with species `n`. -/
noncomputable def eVal (k : CollNorms) (o : CollOpts) (w : World ι) (key : Key) (i : ι) (n : String) : ℝ :=
  val key i (electronWith k o w (fun i => temperature w "e" i * k.Tnorm) (fun i => density w "e" i * k.Nnorm) n)

/-- The contributions of the component as sums over species and pairs. -/
theorem collisions_val {k : CollNorms} {o : CollOpts} {names : List String} {w : World ι} {cs : List (Contrib Key ι)}
    (h : collisions k o names w = .ok cs) (key : Key) (i : ι) :
    signedSum key i cs = (if "e" ∈ names then (names.map (eVal k o w key i)).sum else 0)
      + pairSum (fun a b => val key i (pairE k o w a b)) names := by
  unfold collisions at h
  obtain ⟨a, ha, h⟩ := bind_ok h
  obtain ⟨b, hb, h⟩ := bind_ok h
  cases h
  rw [signedSum_append, val_heavyLoop key i hb]
  congr 1
  unfold electronLoop at ha
  split at ha <;> rename_i he
  · rw [if_pos he]
    obtain ⟨Te, hT, ha⟩ := bind_ok ha
    obtain ⟨Ne, hN, ha⟩ := bind_ok ha
    have e1 : Te = temperature w "e" := by funext i; unfold temperature; rw [field_ok hT]; rfl
    have e2 : Ne = density w "e" := by funext i; unfold density; rw [field_ok hN]; rfl
    rw [e1, e2] at ha
    exact val_collectM key i ha
  · rw [if_neg he]; cases ha; rfl

theorem run_gain {k : CollNorms} {o : CollOpts} {names : List String} {w : World ι} {after : Store Key (Fld ι)}
    (hu : SourcesUnread w.st) (h : SourceComponent.transform (collisions k o names) w = (.ok (), after)) :
    ∃ cs, collisions k o names w = .ok cs ∧ ∀ s v i, gain w.st after s v i = signedSum (.sp s v) i cs := by
  obtain ⟨cs, hcs, hrun⟩ := transform_ok h
  refine ⟨cs, hcs, ?_⟩
  obtain ⟨l, hl, hF⟩ := collisions_events (k := k) (o := o) (names := names) (w := w) o.frictional_heating cs hcs
  have e := hF o.frictional_heating
  have : collisions k o names w = .ok (l.flatMap (collideOf o.frictional_heating w)) := e
  rw [hcs] at this
  have hk : KeysIn names [Var.momentum_source, Var.energy_source, Var.collision_frequency] cs := by
    cases this
    exact keysIn_flatMap _ _ _ _ fun e he => collideOf_keys _ w e names (hl e he).1 (hl e he).2.1
  obtain ⟨after', e1, -, e3⟩ := contributeAll_gain cs w.st names _ hk (by simp) hu
  have : after' = after := by have := hrun.symm.trans e1; cases this; rfl
  subst this; exact e3

/-- **C34, partial.**  Renaming species does not change what collisions do to any of them, provided the state is
`OrderSafe` (see `neutral_friction_depends_on_names` and `ion_neutral_switch_depends_on_names` for states which
are not). -/
theorem naming_independent_partial (k : CollNorms) (o : CollOpts) (σ : String → String) (names names' : List String)
    (w w' : World ι) (hr : Renamed σ w w') (hperm : (names.map σ).Perm names') (hs : OrderSafe k o names w)
    (hu : SourcesUnread w.st) (hu' : SourcesUnread w'.st) (after after' : Store Key (Fld ι))
    (h : SourceComponent.transform (collisions k o names) w = (.ok (), after))
    (h' : SourceComponent.transform (collisions k o names') w' = (.ok (), after')) (s : String) (v : Var) (i : ι) :
    gain w'.st after' (σ s) v i = gain w.st after s v i := by
  obtain ⟨cs, hcs, g⟩ := run_gain hu h
  obtain ⟨cs', hcs', g'⟩ := run_gain hu' h'
  rw [g, g', collisions_val hcs, collisions_val hcs']
  have he : "e" ∈ names' ↔ "e" ∈ names := by
    rw [← hperm.mem_iff, List.mem_map]
    constructor
    · rintro ⟨n, hn, e⟩; rw [(hr.electron n).1 e] at hn; exact hn
    · intro hn; exact ⟨"e", hn, hr.e_eq⟩
  congr 1
  · simp only [he]
    split
    · rw [← (hperm.map _).sum_eq, List.map_map]
      congr 1
      apply List.map_congr_left
      intro n _
      have e1 : temperature w' "e" = temperature w "e" := by
        funext i; unfold temperature; rw [← hr.values "e", hr.e_eq]
      have e2 : density w' "e" = density w "e" := by
        funext i; unfold density; rw [← hr.values "e", hr.e_eq]
      simp only [Function.comp, eVal]
      rw [e1, e2, ← hr.electronWith, val_ren hr.inj]
    · rfl
  · have key : ∀ a b, val (.sp (σ s) v) i (pairE k o w' (σ a) (σ b)) = val (.sp s v) i (pairE k o w a b) := by
      intro a b; rw [← hr.pairE, val_ren hr.inj]
    rw [← pairSum_perm hperm]
    · clear hperm hs h h' hcs hcs' he g g'
      induction names with
      | nil => rfl
      | cons n ns ih =>
        simp only [List.map_cons, pairSum, key, List.map_map]
        rw [ih]
        congr 2
        congr 1
        apply List.map_congr_left
        intro m _
        exact key n m
    · intro a ha b hb
      obtain ⟨a', ha', rfl⟩ := List.mem_map.1 ha
      obtain ⟨b', hb', rfl⟩ := List.mem_map.1 hb
      rw [key, key]
      exact pairE_symm hs ha' hb' _ i

/-! ## Switches -/

open Classical in
/-- The switch that is meant to control the pair `a`, `b` (`src/collisions.cxx:28-45` and the manual). -/
noncomputable def pairSwitch (o : CollOpts) (w : World ι) (a b : String) : Bool :=
  let withElectrons (s : String) : Bool :=
    if 0 < charge w s then o.electron_ion else if charge w s < 0 then false else o.electron_neutral
  if a = "e" ∧ b = "e" then o.electron_electron
  else if a = "e" then withElectrons b
  else if b = "e" then withElectrons a
  else if IsIon w a ∧ IsIon w b then o.ion_ion
  else if ¬ IsIon w a ∧ ¬ IsIon w b then o.neutral_neutral
  else o.ion_neutral

/-- Two option sets which differ only in switches. -/
def SamePhysics (o o' : CollOpts) : Prop :=
  o.frictional_heating = o'.frictional_heating ∧ o.ei_multiplier = o'.ei_multiplier

theorem collide_other {fh : Bool} {a b : String} {nu : Fld ι} {coef : ℝ} {w : World ι} (s : String) (v : Var) (i : ι)
    (ha : s ≠ a) (hb : s ≠ b) : val (.sp s v) i (collide fh a b nu coef w) = 0 := by
  cases h : collide fh a b nu coef w with
  | error e => rfl
  | ok cs =>
    have e := collide_ok_eq h
    have hk := collideOf_keys fh w ⟨a, b, nu, coef⟩ [a, b] (by simp) (by simp)
    rw [← e] at hk
    show signedSum _ i cs = 0
    clear h e
    induction cs with
    | nil => rfl
    | cons c cs ih =>
      have h1 := hk c (by simp)
      rw [signedSum_cons, ih fun d hd => hk d (by simp [hd]), if_neg, add_zero]
      intro e
      obtain ⟨t, ht, u, _, e'⟩ := h1
      rw [e] at e'
      simp only [Key.sp.injEq] at e'
      simp only [List.mem_cons, List.not_mem_nil, or_false] at ht
      rcases ht with ht | ht
      · exact ha (e'.1.trans ht)
      · exact hb (e'.1.trans ht)

theorem val_bind_zero {α : Type} {key : Key} {i : ι} {x : Except Err α} {f : α → Except Err (List (Contrib Key ι))}
    (h : ∀ a, val key i (f a) = 0) : val key i (x >>= f) = 0 := by
  cases x with
  | error e => rfl
  | ok a => exact h a

theorem val_ite_zero {key : Key} {i : ι} {p : Prop} {inst : Decidable p} {x y : Except Err (List (Contrib Key ι))}
    (hx : val key i x = 0) (hy : val key i y = 0) : val key i (@ite _ p inst x y) = 0 := by
  split <;> assumption

theorem pairE_other (k : CollNorms) (o : CollOpts) (w : World ι) {a b s : String} (ha : s ≠ a) (hb : s ≠ b) (v : Var)
    (i : ι) : val (.sp s v) i (pairE k o w a b) = 0 := by
  unfold pairE chargedWith neutralWith ionIon hardSphere
  have hc : ∀ fh nu coef, val (.sp s v) i (collide fh a b nu coef w) = 0 := fun fh nu coef => collide_other s v i ha hb
  refine val_ite_zero rfl (val_bind_zero fun x1 => val_ite_zero (val_ite_zero rfl (val_bind_zero fun x2 => val_ite_zero
    (val_ite_zero rfl (val_bind_zero fun _ => val_bind_zero fun _ => val_bind_zero fun _ => hc _ _ _))
    (val_bind_zero fun _ => hc _ _ _))) (val_ite_zero rfl (val_bind_zero fun x2 => val_ite_zero
    (val_ite_zero rfl (val_bind_zero fun _ => hc _ _ _)) (val_ite_zero rfl (val_bind_zero fun _ => hc _ _ _)))))

theorem electronWith_other (k : CollNorms) (o : CollOpts) (w : World ι) (Te Ne : Fld ι) {n s : String} (hs : s ≠ "e")
    (hn : s ≠ n) (v : Var) (i : ι) : val (.sp s v) i (electronWith k o w Te Ne n) = 0 := by
  unfold electronWith
  have hc : ∀ fh nu coef, val (.sp s v) i (collide fh "e" n nu coef w) = 0 := fun fh nu coef => collide_other s v i hs hn
  have hc' : ∀ fh nu coef, val (.sp s v) i (collide fh "e" "e" nu coef w) = 0 := fun fh nu coef => collide_other s v i hs hs
  exact val_ite_zero (val_ite_zero rfl (hc' _ _ _)) (val_ite_zero (val_ite_zero rfl
    (val_bind_zero fun _ => val_bind_zero fun _ => val_bind_zero fun _ => val_bind_zero fun _ => hc _ _ _))
    (val_ite_zero rfl (val_ite_zero rfl (val_bind_zero fun _ => val_bind_zero fun _ => hc _ _ _))))

/-- `charge` is what `IsIon` speaks about. -/
theorem charge_of_neutral {w : World ι} {s : String} (h : ¬ IsIon w s) : charge w s = 0 := by
  unfold charge
  cases e : w.num s Var.charge with
  | none => rfl
  | some z =>
    by_contra hz
    exact h ⟨z, e, hz⟩

theorem positive_iff {w : World ι} {s : String} : w.positive s ↔ 0 < charge w s := by
  unfold World.positive charge
  cases w.num s Var.charge <;> simp

theorem negative_iff {w : World ι} {s : String} : w.negative s ↔ charge w s < 0 := by
  unfold World.negative charge
  cases w.num s Var.charge <;> simp

/-- Electron collisions with `n` depend on the options only through the switch of the pair. -/
theorem electronWith_switch {k : CollNorms} {o o' : CollOpts} {w : World ι} {Te Ne : Fld ι} {n : String}
    (hp : SamePhysics o o') (h : pairSwitch o w "e" n = pairSwitch o' w "e" n) :
    electronWith k o w Te Ne n = electronWith k o' w Te Ne n := by
  obtain ⟨p1, p2⟩ := hp
  unfold pairSwitch at h
  unfold electronWith
  by_cases hn : n = "e"
  · simp only [hn, and_self, if_true] at h ⊢
    rw [h, p1]
  · simp only [hn, and_false, if_false, if_true] at h ⊢
    by_cases h1 : w.positive n
    · have h1' := positive_iff.1 h1
      simp only [h1', if_true] at h
      simp only [h1, if_true]
      rw [h, p1, p2]
    · have h1' : ¬ 0 < charge w n := fun e => h1 (positive_iff.2 e)
      by_cases h2 : w.negative n
      · simp only [h1, h2, if_true, if_false]
      · have h2' : ¬ charge w n < 0 := fun e => h2 (negative_iff.2 e)
        simp only [h1', h2', if_false] at h
        simp only [h1, h2, if_false]
        rw [h, p1]

/-- And it is zero if the switch is off. -/
theorem electronWith_off {k : CollNorms} {o : CollOpts} {w : World ι} {Te Ne : Fld ι} {n : String}
    (h : pairSwitch o w "e" n = false) : electronWith k o w Te Ne n = .ok [] := by
  unfold pairSwitch at h
  unfold electronWith
  by_cases hn : n = "e"
  · simp only [hn, and_self, if_true] at h ⊢
    rw [if_pos h]; rfl
  · simp only [hn, and_false, if_false, if_true] at h ⊢
    by_cases h1 : w.positive n
    · have h1' := positive_iff.1 h1
      simp only [h1', if_true] at h
      simp only [h1, if_true]
      rw [if_pos h]; rfl
    · have h1' : ¬ 0 < charge w n := fun e => h1 (positive_iff.2 e)
      by_cases h2 : w.negative n
      · simp only [h1, h2, if_true, if_false]; rfl
      · have h2' : ¬ charge w n < 0 := fun e => h2 (negative_iff.2 e)
        simp only [h1', h2', if_false] at h
        simp only [h1, h2, if_false]
        rw [if_pos h]; rfl

/-- No ion–neutral pair contains `s` (the pairs for which the switch does not work). -/
def Unmixed (names : List String) (w : World ι) (s : String) : Prop :=
  s ≠ "e" → ∀ b ∈ names, b ≠ "e" → (IsIon w s ∧ IsIon w b) ∨ (IsNeutral w s ∧ IsNeutral w b)

theorem val_pairE_switch {k : CollNorms} {o o' : CollOpts} {w : World ι} {a b : String} {key : Key} {i : ι}
    (hp : SamePhysics o o') (hk : (IsIon w a ∧ IsIon w b) ∨ (IsNeutral w a ∧ IsNeutral w b))
    (ha : a ≠ "e") (hb : b ≠ "e") (hab : a ≠ "ebeam") (hbb : b ≠ "ebeam")
    (h : pairSwitch o w a b = pairSwitch o' w a b) :
    val key i (pairE k o w a b) = val key i (pairE k o' w a b) := by
  have sa : ¬ (a = "e" ∨ a = "ebeam") := fun e => e.elim ha hab
  have sb : ¬ (b = "e" ∨ b = "ebeam") := fun e => e.elim hb hbb
  have hfail : ∀ (q : CollOpts), (¬ ∃ x1 x2, readHeavy k w a = .ok x1 ∧ readHeavy k w b = .ok x2) →
      val key i (pairE k q w a b) = 0 := by
    intro q hno
    cases e : pairE k q w a b with
    | error _ => rfl
    | ok cs => exact absurd (pairE_reads sa sb e) hno
  by_cases hx : ∃ x1 x2, readHeavy k w a = .ok x1 ∧ readHeavy k w b = .ok x2
  · obtain ⟨x1, x2, h1, h2⟩ := hx
    unfold pairSwitch at h
    obtain ⟨p1, p2⟩ := hp
    rcases hk with ⟨ka, kb⟩ | ⟨ka, kb⟩
    · rw [pairE_ion_ion sa sb h1 h2 ka kb, pairE_ion_ion sa sb h1 h2 ka kb]
      simp only [ha, hb, false_and, if_false, ka, kb, and_self, if_true] at h
      simp only [h]
      unfold ionIon
      rw [p1]
    · have na := not_ion_of_neutral ka
      have nb := not_ion_of_neutral kb
      have na' : ¬ IsIon w a := na
      have nb' : ¬ IsIon w b := nb
      rw [pairE_neutral_neutral sa sb h1 h2 na' kb, pairE_neutral_neutral sa sb h1 h2 na' kb]
      simp only [ha, hb, false_and, if_false, na', nb', and_self, not_false_eq_true, if_true] at h
      simp only [h]
      unfold hardSphere
      rw [p1]
  · rw [hfail o hx, hfail o' hx]

theorem val_pairE_off {k : CollNorms} {o : CollOpts} {w : World ι} {a b : String} {key : Key} {i : ι}
    (hk : (IsIon w a ∧ IsIon w b) ∨ (IsNeutral w a ∧ IsNeutral w b))
    (ha : a ≠ "e") (hb : b ≠ "e") (hab : a ≠ "ebeam") (hbb : b ≠ "ebeam")
    (h : pairSwitch o w a b = false) : val key i (pairE k o w a b) = 0 := by
  have sa : ¬ (a = "e" ∨ a = "ebeam") := fun e => e.elim ha hab
  have sb : ¬ (b = "e" ∨ b = "ebeam") := fun e => e.elim hb hbb
  cases e : pairE k o w a b with
  | error _ => rfl
  | ok cs =>
    obtain ⟨x1, x2, h1, h2⟩ := pairE_reads sa sb e
    unfold pairSwitch at h
    rw [← e]
    rcases hk with ⟨ka, kb⟩ | ⟨ka, kb⟩
    · rw [pairE_ion_ion sa sb h1 h2 ka kb]
      simp only [ha, hb, false_and, if_false, ka, kb, and_self, if_true] at h
      rw [if_pos h]; rfl
    · have na' : ¬ IsIon w a := not_ion_of_neutral ka
      have nb' : ¬ IsIon w b := not_ion_of_neutral kb
      rw [pairE_neutral_neutral sa sb h1 h2 na' kb]
      simp only [ha, hb, false_and, if_false, na', nb', and_self, not_false_eq_true, if_true] at h
      rw [if_pos h]; rfl

theorem pairSwitch_comm (o : CollOpts) (w : World ι) (a b : String) : pairSwitch o w a b = pairSwitch o w b a := by
  unfold pairSwitch
  by_cases ha : a = "e" <;> by_cases hb : b = "e" <;> simp [ha, hb]
  by_cases ia : IsIon w a <;> by_cases ib : IsIon w b <;> simp [ia, ib]

theorem pairSum_congr {f g : String → String → ℝ} : ∀ {l : List String}, (∀ a ∈ l, ∀ b ∈ l, f a b = g a b) →
    pairSum f l = pairSum g l
  | [], _ => rfl
  | a :: l, h => by
    unfold pairSum
    rw [pairSum_congr (f := f) (g := g) fun x hx y hy => h x (by simp [hx]) y (by simp [hy])]
    congr 2
    apply List.map_congr_left
    intro b hb
    exact h a (by simp) b hb

theorem pairSum_zero : ∀ {l : List String}, pairSum (fun _ _ => 0) l = 0
  | [] => rfl
  | a :: l => by unfold pairSum; rw [pairSum_zero]; simp

/-- **C34, partial.**  What collisions do to species `s` depends only on the switches of the pairs which contain
`s`, and it is nothing if these are all off.  (Missing: ion–neutral pairs, for which the claim is false, see
`ion_neutral_switch_depends_on_names`.) -/
theorem switches_partial (k : CollNorms) (o o' : CollOpts) (hp : SamePhysics o o') (names : List String) (w : World ι)
    (hu : SourcesUnread w.st) (hbeam : "ebeam" ∉ names) (s : String) (hsn : s ∈ names) (hmix : Unmixed names w s)
    (after after' : Store Key (Fld ι))
    (h : SourceComponent.transform (collisions k o names) w = (.ok (), after))
    (h' : SourceComponent.transform (collisions k o' names) w = (.ok (), after')) :
    ((∀ b ∈ names, pairSwitch o w s b = pairSwitch o' w s b) →
      ∀ v i, gain w.st after s v i = gain w.st after' s v i) ∧
    ((∀ b ∈ names, pairSwitch o w s b = false) → ∀ v i, gain w.st after s v i = 0) := by
  obtain ⟨cs, hcs, g⟩ := run_gain hu h
  obtain ⟨cs', hcs', g'⟩ := run_gain hu h'
  have nb : ∀ {c}, c ∈ names → c ≠ "ebeam" := fun hc e => hbeam (e ▸ hc)
  have hmix' : s ≠ "e" → ∀ b ∈ names, b ≠ "e" → (IsIon w b ∧ IsIon w s) ∨ (IsNeutral w b ∧ IsNeutral w s) := by
    intro hs b hb hbe
    rcases hmix hs b hb hbe with ⟨x, y⟩ | ⟨x, y⟩
    · exact Or.inl ⟨y, x⟩
    · exact Or.inr ⟨y, x⟩
  constructor
  · intro hsw v i
    rw [g, g', collisions_val hcs, collisions_val hcs']
    congr 1
    · split
      · rename_i he
        congr 1
        apply List.map_congr_left
        intro n hn
        unfold eVal
        by_cases hse : s = "e"
        · rw [electronWith_switch hp (by rw [← hse]; exact hsw n hn)]
        · by_cases hsn' : s = n
          · rw [electronWith_switch hp (by rw [pairSwitch_comm o, pairSwitch_comm o', ← hsn']; exact hsw "e" he)]
          · rw [electronWith_other k o w _ _ hse hsn', electronWith_other k o' w _ _ hse hsn']
      · rfl
    · apply pairSum_congr
      intro a ha b hb
      by_cases hae : a = "e"
      · rw [hae, val_pairE_electron_left, val_pairE_electron_left]
      by_cases hbe : b = "e"
      · rw [hbe, val_pairE_electron_right, val_pairE_electron_right]
      by_cases hsa : s = a
      · subst hsa
        exact val_pairE_switch hp (hmix hae b hb hbe) hae hbe (nb ha) (nb hb) (hsw b hb)
      by_cases hsb : s = b
      · subst hsb
        exact val_pairE_switch hp (hmix' hbe a ha hae) hae hbe (nb ha) (nb hb)
          (by rw [pairSwitch_comm o, pairSwitch_comm o']; exact hsw a ha)
      rw [pairE_other k o w hsa hsb, pairE_other k o' w hsa hsb]
  · intro hoff v i
    rw [g, collisions_val hcs]
    have e1 : (if "e" ∈ names then (names.map (eVal k o w (.sp s v) i)).sum else 0) = 0 := by
      split
      · rename_i he
        have : ∀ n ∈ names, eVal k o w (.sp s v) i n = 0 := by
          intro n hn
          unfold eVal
          by_cases hse : s = "e"
          · rw [electronWith_off (by rw [← hse]; exact hoff n hn)]; rfl
          · by_cases hsn' : s = n
            · rw [electronWith_off (by rw [pairSwitch_comm o, ← hsn']; exact hoff "e" he)]; rfl
            · rw [electronWith_other k o w _ _ hse hsn']
        rw [List.map_congr_left this]; simp
      · rfl
    rw [e1, zero_add]
    refine Eq.trans (pairSum_congr (g := fun _ _ => 0) ?_) pairSum_zero
    intro a ha b hb
    by_cases hae : a = "e"
    · rw [hae, val_pairE_electron_left]
    by_cases hbe : b = "e"
    · rw [hbe, val_pairE_electron_right]
    by_cases hsa : s = a
    · subst hsa
      exact val_pairE_off (hmix hae b hb hbe) hae hbe (nb ha) (nb hb) (hoff b hb)
    by_cases hsb : s = b
    · subst hsb
      exact val_pairE_off (hmix' hbe a ha hae) hae hbe (nb ha) (nb hb)
        (by rw [pairSwitch_comm o]; exact hoff a ha)
    exact pairE_other k o w hsa hsb v i

end Hermes.Collisions
