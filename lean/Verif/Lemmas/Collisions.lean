import Verif.Model.Collisions
import Verif.Props.Conservation

/-! # Helper lemmas: the collisions as a list of events -/

namespace Hermes

/-- One call of `collide`. -/
structure CollEvent (ι : Type) where
  s1 : String
  s2 : String
  nu : Fld ι
  coef : ℝ

section
variable {ι : Type}

/-- What `collide` contributes when nothing that it needs is missing. -/
noncomputable def collideOf (fh : Bool) (w : World ι) (e : CollEvent ι) : List (Contrib Key ι) :=
  if e.s1 = e.s2 then [(.sp e.s1 Var.collision_frequency, e.nu, true)]
  else
    let A1 := mass w e.s1
    let A2 := mass w e.s2
    let n1 := w.fieldOr0 e.s1 Var.density
    let n2 := w.fieldOr0 e.s2 Var.density
    [(.sp e.s1 Var.collision_frequency, e.nu, true),
     (.sp e.s2 Var.collision_frequency, (fun i => e.nu i * (A1 / A2) * n1 i / floorTo (n2 i) 1e-5), true)]
    ++ (if w.isSetF e.s1 Var.velocity || w.isSetF e.s2 Var.velocity then
        frictionOf fh e.s1 e.s2 e.nu e.coef A1 A2 n1 (w.fieldOr0 e.s1 Var.velocity) (w.fieldOr0 e.s2 Var.velocity)
        else [])
    ++ (if w.isSetF e.s1 Var.temperature || w.isSetF e.s2 Var.temperature then
        heatExchangeOf e.s1 e.s2 e.nu A1 A2 n1 (w.fieldOr0 e.s1 Var.temperature) (w.fieldOr0 e.s2 Var.temperature)
        else [])

theorem field_fieldOr0 {w : World ι} {s : String} {v : Var} {f : Fld ι} (h : w.field s v = .ok f) :
    w.fieldOr0 s v = f := by
  unfold World.fieldOr0; rw [field_ok h]; rfl

theorem field_isSet {w : World ι} {s : String} {v : Var} {f : Fld ι} (h : w.field s v = .ok f) :
    w.isSetF s v = true := by
  unfold World.isSetF; rw [field_ok h]; rfl

theorem real_mass {w : World ι} {s : String} {x : ℝ} (h : w.real s Var.AA = .ok x) : mass w s = x := by
  unfold mass; rw [real_ok h]; rfl

theorem heatExchange_ok {s1 s2 : String} {nu : Fld ι} {A1 A2 : ℝ} {n1 : Fld ι} {w : World ι}
    {q : List (Contrib Key ι)} (h : heatExchange s1 s2 nu A1 A2 n1 w = .ok q) :
    q = if w.isSetF s1 Var.temperature || w.isSetF s2 Var.temperature then
        heatExchangeOf s1 s2 nu A1 A2 n1 (w.fieldOr0 s1 Var.temperature) (w.fieldOr0 s2 Var.temperature)
        else [] := by
  unfold heatExchange at h
  split at h
  · rename_i hs
    obtain ⟨T1, h1, h⟩ := bind_ok h
    obtain ⟨T2, h2, h⟩ := bind_ok h
    rw [if_pos hs, field_fieldOr0 h1, field_fieldOr0 h2]
    cases h; rfl
  · rename_i hs
    rw [if_neg hs]; cases h; rfl

/-- A successful `collide` contributes `collideOf`; success does not depend on the heating switch; both
masses are known and both temperatures are set or both are not. -/
theorem collide_ok {fh : Bool} {s1 s2 : String} {nu : Fld ι} {coef : ℝ} {w : World ι} {cs : List (Contrib Key ι)}
    (h : collide fh s1 s2 nu coef w = .ok cs) :
    ∀ fh', collide fh' s1 s2 nu coef w = .ok (collideOf fh' w ⟨s1, s2, nu, coef⟩) := by
  intro fh'
  unfold collide at h ⊢
  unfold collideOf
  split at h
  · rename_i e; rw [if_pos e, if_pos e]; rfl
  · rename_i e
    rw [if_neg e, if_neg e]
    obtain ⟨A1, a1, h⟩ := bind_ok h
    obtain ⟨A2, a2, h⟩ := bind_ok h
    obtain ⟨n1, b1, h⟩ := bind_ok h
    obtain ⟨n2, b2, h⟩ := bind_ok h
    obtain ⟨q, hq, h⟩ := bind_ok h
    refine ok_bind a1 (ok_bind a2 (ok_bind b1 (ok_bind b2 (ok_bind hq ?_))))
    simp only [real_mass a1, real_mass a2, field_fieldOr0 b1, field_fieldOr0 b2, ← heatExchange_ok hq]
    rfl

theorem collide_ok_eq {fh : Bool} {s1 s2 : String} {nu : Fld ι} {coef : ℝ} {w : World ι} {cs : List (Contrib Key ι)}
    (h : collide fh s1 s2 nu coef w = .ok cs) : cs = collideOf fh w ⟨s1, s2, nu, coef⟩ := by
  have := collide_ok h fh
  rw [h] at this; cases this; rfl

/-! ## Collecting -/

theorem collectM_map {α β γ : Type} (f : α → Except Err (List β)) (g : List β → γ) (op : γ → γ → γ) (z : γ)
    (h0 : g [] = z) (happ : ∀ a b, g (a ++ b) = op (g a) (g b)) (F : α → γ)
    (hf : ∀ a x, f a = .ok x → g x = F a) :
    ∀ (l : List α) (cs : List β), collectM f l = .ok cs → g cs = l.foldr (fun a r => op (F a) r) z
  | [], cs, h => by cases h; exact h0
  | a :: l, cs, h => by
    unfold collectM at h
    obtain ⟨x, hx, h⟩ := bind_ok h
    obtain ⟨y, hy, h⟩ := bind_ok h
    cases h
    rw [happ, hf a x hx, collectM_map f g op z h0 happ F hf l y hy]
    rfl

/-- A family of computations, indexed by the heating switch, which succeed together and whose contributions
come from one list of events which satisfy `A`. -/
def HasEvents (w : World ι) (A : CollEvent ι → Prop) (F : Bool → Except Err (List (Contrib Key ι))) : Prop :=
  ∀ fh cs, F fh = .ok cs → ∃ l : List (CollEvent ι), (∀ e ∈ l, A e) ∧
    ∀ fh', F fh' = .ok (l.flatMap (collideOf fh' w))

theorem hasEvents_nil (w : World ι) (A : CollEvent ι → Prop) : HasEvents w A (fun _ => .ok []) := by
  intro fh cs _; exact ⟨[], by simp, by simp⟩

theorem hasEvents_bind {α : Type} {w : World ι} {A : CollEvent ι → Prop} {x : Except Err α}
    {F : Bool → α → Except Err (List (Contrib Key ι))}
    (h : ∀ a, x = .ok a → HasEvents w A (fun fh => F fh a)) : HasEvents w A (fun fh => x >>= F fh) := by
  intro fh cs e
  obtain ⟨a, ha, e⟩ := bind_ok e
  obtain ⟨l, hl, hF⟩ := h a ha fh cs e
  exact ⟨l, hl, fun fh' => ok_bind ha (hF fh')⟩

theorem hasEvents_append {w : World ι} {A : CollEvent ι → Prop} {F G : Bool → Except Err (List (Contrib Key ι))}
    (hF : HasEvents w A F) (hG : HasEvents w A G) :
    HasEvents w A (fun fh => do let a ← F fh; let b ← G fh; return a ++ b) := by
  intro fh cs e
  obtain ⟨a, ha, e⟩ := bind_ok e
  obtain ⟨b, hb, e⟩ := bind_ok e
  obtain ⟨l, hl, h1⟩ := hF fh a ha
  obtain ⟨l', hl', h2⟩ := hG fh b hb
  refine ⟨l ++ l', by intro e he; rcases List.mem_append.1 he with he | he <;> [exact hl e he; exact hl' e he], ?_⟩
  intro fh'
  rw [List.flatMap_append]
  exact ok_bind (h1 fh') (ok_bind (h2 fh') rfl)

theorem hasEvents_collectM {α : Type} {w : World ι} {A : CollEvent ι → Prop}
    {F : Bool → α → Except Err (List (Contrib Key ι))} (l : List α)
    (h : ∀ a ∈ l, HasEvents w A (fun fh => F fh a)) : HasEvents w A (fun fh => collectM (F fh) l) := by
  induction l with
  | nil => exact hasEvents_nil w A
  | cons a l ih =>
    exact hasEvents_append (h a (by simp)) (ih fun b hb => h b (by simp [hb]))

theorem hasEvents_collide {w : World ι} {A : CollEvent ι → Prop} (s1 s2 : String) (nu : Fld ι) (coef : ℝ)
    (h : A ⟨s1, s2, nu, coef⟩) : HasEvents w A (fun fh => collide fh s1 s2 nu coef w) := by
  intro fh cs e
  exact ⟨[⟨s1, s2, nu, coef⟩], by simpa using h, fun fh' => by simpa using collide_ok e fh'⟩

theorem hasEvents_ite {w : World ι} {A : CollEvent ι → Prop} {F G : Bool → Except Err (List (Contrib Key ι))}
    {p : Prop} {inst : Bool → Decidable p} (hF : p → HasEvents w A F) (hG : ¬p → HasEvents w A G) :
    HasEvents w A (fun fh => @ite _ p (inst fh) (F fh) (G fh)) := by
  by_cases hp : p
  · simpa [hp] using hF hp
  · simpa [hp] using hG hp

end
end Hermes
