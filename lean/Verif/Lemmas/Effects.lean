import Verif.Lemmas.Contrib
import Verif.Model.Drifts
import Mathlib.Algebra.BigOperators.Group.List.Basic

/-!
# Programs that read values and contribute to sources

A program has an `Effect` when, whenever it ends without an exception, its value depends only on the variables that are not sources, those are
unchanged, and every source has grown by an amount that depends only on them.
-/

namespace Hermes.Effects
open Hermes.Closures

noncomputable section

variable {ι : Type} {α β γ : Type}

/-- What a program sees: the values of the tree. -/
abbrev View (ι : Type) := Key → Option (Value ι)

/-- The three sources of a species. -/
def isSource : Var → Bool
  | .density_source => true
  | .momentum_source => true
  | .energy_source => true
  | _ => false

/-- Sources of some species. -/
def srcKey : Key → Bool
  | .sp _ v => isSource v
  | _ => false

/-- Everything but the sources. -/
def world (st : Store Key (Value ι)) : View ι := fun k => if srcKey k then none else vals st k

/-- Field `v` of species `n`; zero if it is not set. -/
def fAt (w : View ι) (n : String) (v : Var) : Fld ι := ((w (.sp n v)).bind asField).getD 0
/-- Number `v` of species `n`; zero if it is not set. -/
def rAt (w : View ι) (n : String) (v : Var) : ℝ := ((w (.sp n v)).bind asReal).getD 0
/-- Field at a key. -/
def topAt (w : View ι) (k : String) : Fld ι := ((w (.top k)).bind asField).getD 0

/-- Contributions to the sources. -/
abbrev Delta (ι : Type) := View ι → String → Var → Fld ι

/-- See the head of the file. -/
def Effect (m : Prog ι α) (val : View ι → α) (d : Delta ι) : Prop :=
  ∀ s a s', m s = (.ok a, s') → a = val (world s) ∧ world s' = world s ∧
    ∀ n v, isSource v = true → ∀ i, fieldOf s' n v i = fieldOf s n v i + d (world s) n v i

theorem world_congr {s s' : Store Key (Value ι)} (h : vals s' = vals s) : world s' = world s := by
  funext k; unfold world; rw [h]

theorem world_of {st : Store Key (Value ι)} {k : Key} (h : srcKey k = false) : world st k = vals st k := by
  unfold world; rw [h]; rfl

/-- A program that changes no value. -/
theorem Effect.reads {m : Prog ι α} {val : View ι → α} (h : ∀ s a s', m s = (.ok a, s') → a = val (world s) ∧ vals s' = vals s) :
    Effect m val (fun _ _ _ _ => 0) := by
  intro s a s' e
  obtain ⟨h1, h2⟩ := h s a s' e
  refine ⟨h1, world_congr h2, fun n v _ i => ?_⟩
  rw [add_zero, Closures.fieldOf_congr (congrFun h2 _)]

theorem Effect.pure (a : α) : Effect (pure a : Prog ι α) (fun _ => a) (fun _ _ _ _ => 0) :=
  Effect.reads fun s b s' h => by obtain ⟨h1, h2⟩ := pure_ok h; exact ⟨h1, by rw [h2]⟩

theorem Effect.bind {m : Prog ι α} {f : α → Prog ι β} {v : View ι → α} {d : Delta ι} {v' : α → View ι → β} {d' : α → Delta ι}
    (hm : Effect m v d) (hf : ∀ a, Effect (f a) (v' a) (d' a)) :
    Effect (m >>= f) (fun w => v' (v w) w) (fun w n x i => d w n x i + d' (v w) w n x i) := by
  intro s b s' h
  obtain ⟨a, s1, h1, h2⟩ := M_bind_ok h
  obtain ⟨a1, a2, a3⟩ := hm _ _ _ h1
  obtain ⟨b1, b2, b3⟩ := hf a _ _ _ h2
  subst a1
  rw [a2] at b1 b2 b3
  exact ⟨b1, b2, fun n x hx i => by rw [b3 n x hx i, a3 n x hx i, add_assoc]⟩

theorem Effect.congr {m : Prog ι α} {v v' : View ι → α} {d d' : Delta ι} (h : Effect m v d) (hv : ∀ w, v w = v' w)
    (hd : ∀ w n x i, d w n x i = d' w n x i) : Effect m v' d' := by
  intro s a s' e
  obtain ⟨a1, a2, a3⟩ := h s a s' e
  exact ⟨by rw [a1, hv], a2, fun n x hx i => by rw [a3 n x hx i, hd]⟩

/-- The first program changes nothing. -/
theorem Effect.bind0 {m : Prog ι α} {f : α → Prog ι β} {v : View ι → α} {v' : α → View ι → β} {d' : α → Delta ι}
    (hm : Effect m v (fun _ _ _ _ => 0)) (hf : ∀ a, Effect (f a) (v' a) (d' a)) :
    Effect (m >>= f) (fun w => v' (v w) w) (fun w => d' (v w) w) :=
  (hm.bind hf).congr (fun _ => rfl) fun w n x i => by simp

theorem Effect.ite {p : Prop} {dp : Decidable p} {m m' : Prog ι α} {v v' : View ι → α} {d d' : Delta ι} (h : Effect m v d) (h' : Effect m' v' d') :
    Effect (if p then m else m') (if p then v else v') (if p then d else d') := by
  split
  · exact h
  · exact h'

theorem isSome_world {s : Store Key (Value ι)} {k : Key} (h : srcKey k = false) : (vals s k).isSome = (world s k).isSome := by rw [world_of h]

theorem eff_isSet {k : Key} (hk : srcKey k = false) : Effect (isSet k) (fun w : View ι => (w k).isSome) (fun _ _ _ _ => 0) :=
  Effect.reads fun s a s' h => by
    unfold isSet at h
    cases h
    exact ⟨isSome_world hk, rfl⟩

theorem eff_isSetFinal {k : Key} (hk : srcKey k = false) : Effect (isSetFinal k) (fun w : View ι => (w k).isSome) (fun _ _ _ _ => 0) :=
  Effect.reads fun s a s' h => by
    have h' : (Except.ok (vals (s.markFinal k) k).isSome, s.markFinal k) = ((.ok a, s') : Except Err Bool × Store Key (Value ι)) := h
    cases h'
    exact ⟨by rw [markFinal_vals, isSome_world hk], markFinal_vals s k⟩

theorem eff_isSetNB {k : Key} (hk : srcKey k = false) : Effect (isSetFinalNoBoundary k) (fun w : View ι => (w k).isSome) (fun _ _ _ _ => 0) :=
  Effect.reads fun s a s' h => by
    have h' : (Except.ok (vals (s.markFinalDomain k) k).isSome, s.markFinalDomain k) = ((.ok a, s') : Except Err Bool × Store Key (Value ι)) := h
    cases h'
    exact ⟨by rw [markFinalDomain_vals, isSome_world hk], markFinalDomain_vals s k⟩

theorem fieldOf_world {s : Store Key (Value ι)} {n : String} {v : Var} (h : isSource v = false) : fAt (world s) n v = fieldOf s n v := by
  unfold fAt; rw [world_of (show srcKey (.sp n v) = false from h), ← fieldAt_sp]; rfl

theorem realOf_world {s : Store Key (Value ι)} {n : String} {v : Var} (h : isSource v = false) : rAt (world s) n v = realOf s n v := by
  unfold rAt; rw [world_of (show srcKey (.sp n v) = false from h)]; unfold realOf; cases vals s (.sp n v) <;> rfl

theorem topField_world {s : Store Key (Value ι)} {k : String} : topAt (world s) k = topField s k := by
  unfold topAt; rw [world_of (show srcKey (.top k) = false from rfl)]; unfold topField; cases vals s (.top k) <;> rfl

theorem eff_getF {n : String} {v : Var} (hv : isSource v = false) : Effect (getF n v) (fun w : View ι => fAt w n v) (fun _ _ _ _ => 0) :=
  Effect.reads fun s a s' h => by
    have h' : ((getF n v : Prog ι (Fld ι)) >>= fun x => (pure x : Prog ι (Fld ι))) s = (.ok a, s') := bind_intro h rfl
    obtain ⟨s1, e, h2⟩ := getF_bind h'
    obtain ⟨h3, h4⟩ := pure_ok h2
    exact ⟨by rw [h3, fieldOf_world hv], by rw [h4, e]⟩

theorem eff_getNB {n : String} {v : Var} (hv : isSource v = false) : Effect (getNoBndryF n v) (fun w : View ι => fAt w n v) (fun _ _ _ _ => 0) :=
  Effect.reads fun s a s' h => by
    have h' : ((getNoBndryF n v : Prog ι (Fld ι)) >>= fun x => (pure x : Prog ι (Fld ι))) s = (.ok a, s') := bind_intro h rfl
    obtain ⟨s1, e, h2⟩ := getNoBndryF_bind h'
    obtain ⟨h3, h4⟩ := pure_ok h2
    exact ⟨by rw [h3, fieldOf_world hv], by rw [h4, e]⟩

theorem eff_getR {n : String} {v : Var} (hv : isSource v = false) : Effect (getR n v) (fun w : View ι => rAt w n v) (fun _ _ _ _ => 0) :=
  Effect.reads fun s a s' h => by
    have h' : ((getR n v : Prog ι ℝ) >>= fun x => (pure x : Prog ι ℝ)) s = (.ok a, s') := bind_intro h rfl
    obtain ⟨s1, e, h2⟩ := getR_bind h'
    obtain ⟨h3, h4⟩ := pure_ok h2
    exact ⟨by rw [h3, realOf_world hv], by rw [h4, e]⟩

theorem eff_getTop {k : String} : Effect (get asField (.top k)) (fun w : View ι => topAt w k) (fun _ _ _ _ => 0) :=
  Effect.reads fun s a s' h => by
    have h' : ((get asField (.top k) : Prog ι (Fld ι)) >>= fun x => (pure x : Prog ι (Fld ι))) s = (.ok a, s') := bind_intro h rfl
    obtain ⟨a', s1, h1, h2, h3⟩ := (den_get asField _).bind_ok h'
    obtain ⟨h4, h5⟩ := pure_ok h3
    refine ⟨?_, by rw [h5, h2]⟩
    rw [h4, topField_world]
    unfold topField
    unfold readVal at h1
    cases e : vals s (.top k) with
    | none => rw [e] at h1; cases h1
    | some x =>
      rw [e] at h1
      dsimp only at h1
      cases e' : asField x with
      | none => rw [e'] at h1; cases h1
      | some y => rw [e'] at h1; cases h1; simp [e']

/-- A contribution `f` to source `v` of species `m`. -/
def one (m : String) (v : Var) (f : Fld ι) : String → Var → Fld ι := fun n x i => if n = m ∧ x = v then f i else 0

theorem contributes {m : String} {v : Var} (hv : isSource v = true) {f : Fld ι} {s s' : Store Key (Value ι)}
    (h1 : ∀ i, fieldOf s' m v i = fieldOf s m v i + f i) (h2 : ∀ k, k ≠ .sp m v → vals s' k = vals s k) :
    world s' = world s ∧ ∀ n x, isSource x = true → ∀ i, fieldOf s' n x i = fieldOf s n x i + one m v f n x i := by
  refine ⟨?_, fun n x _ i => ?_⟩
  · funext k
    unfold world
    by_cases hk : srcKey k = true
    · rw [if_pos hk, if_pos hk]
    · rw [if_neg hk, if_neg hk]
      refine h2 k ?_
      rintro rfl
      exact hk hv
  · unfold one
    by_cases e : n = m ∧ x = v
    · rw [if_pos e, e.1, e.2, h1]
    · rw [if_neg e, add_zero, Closures.fieldOf_congr (h2 _ _)]
      rintro h; cases h; exact e ⟨rfl, rfl⟩

theorem eff_add {m : String} {v : Var} (hv : isSource v = true) (f : Fld ι) : Effect (addF m v f) (fun _ => ()) (fun _ => one m v f) := by
  intro s a s' h
  obtain ⟨h1, h2⟩ := add_field_ok h
  exact ⟨rfl, contributes hv h1 h2⟩

theorem eff_sub {m : String} {v : Var} (hv : isSource v = true) (f : Fld ι) : Effect (subtractF m v f) (fun _ => ()) (fun _ => one m v fun i => -f i) := by
  intro s a s' h
  obtain ⟨h1, h2⟩ := sub_field_ok h
  exact ⟨rfl, contributes hv (fun i => by rw [h1]; ring) h2⟩

open Classical in
/-- `x` if `p` holds, otherwise zero. -/
def when (p : Prop) (x : ℝ) : ℝ := if p then x else 0

theorem when_pos {p : Prop} (h : p) (x : ℝ) : when p x = x := if_pos h
theorem when_neg {p : Prop} (h : ¬p) (x : ℝ) : when p x = 0 := if_neg h

open Classical in
theorem eff_if {k : Key} {t : Prog ι Bool} {m : Prog ι α} {skip : α} {v : View ι → α} {d : Delta ι}
    (ht : Effect t (fun w => (w k).isSome) (fun _ _ _ _ => 0)) (hm : Effect m v d) :
    Effect (t >>= fun b => if b then m else Pure.pure skip) (fun w => if (w k).isSome then v w else skip)
      (fun w n x i => if (w k).isSome then d w n x i else 0) := by
  refine (ht.bind0 fun b => Effect.ite hm (Effect.pure skip)).congr (fun w => ?_) fun w n x i => ?_
  · split <;> simp_all
  · split <;> simp_all

theorem eff_ifSet {k : Key} (hk : srcKey k = false) {m : Prog ι α} {skip : α} {v : View ι → α} {d : Delta ι} (hm : Effect m v d) :
    Effect (ifSet k skip m) (fun w => if (w k).isSome then v w else skip) (fun w n x i => if (w k).isSome then d w n x i else 0) :=
  (eff_if (eff_isSet hk) hm).congr (fun _ => by congr) fun _ _ _ _ => by congr

theorem eff_ifSetNB {k : Key} (hk : srcKey k = false) {m : Prog ι α} {skip : α} {v : View ι → α} {d : Delta ι} (hm : Effect m v d) :
    Effect (ifSetNB k skip m) (fun w => if (w k).isSome then v w else skip) (fun w n x i => if (w k).isSome then d w n x i else 0) :=
  (eff_if (eff_isSetNB hk) hm).congr (fun _ => by congr) fun _ _ _ _ => by congr

theorem eff_ifSetFinal {k : Key} (hk : srcKey k = false) {m : Prog ι α} {skip : α} {v : View ι → α} {d : Delta ι} (hm : Effect m v d) :
    Effect (ifSetFinal k skip m) (fun w => if (w k).isSome then v w else skip) (fun w n x i => if (w k).isSome then d w n x i else 0) :=
  (eff_if (eff_isSetFinal hk) hm).congr (fun _ => by congr) fun _ _ _ _ => by congr

/-- Species `n` has a value for `v`. -/
def Has (w : View ι) (n : String) (v : Var) : Prop := (w (.sp n v)).isSome = true

/-- The species has a charge, and it is not smaller than `1e-5`. -/
def Charged (w : View ι) (n : String) : Prop := Has w n .charge ∧ 1e-5 ≤ |rAt w n .charge|

open Classical in
theorem eff_ifCharged {n : String} {skip : α} {m : ℝ → Prog ι α} {v : ℝ → View ι → α} {d : ℝ → Delta ι} (hm : ∀ q, Effect (m q) (v q) (d q)) :
    Effect (ifCharged n skip m) (fun w => if Charged w n then v (rAt w n .charge) w else skip)
      (fun w x y i => if Charged w n then d (rAt w n .charge) w x y i else 0) := by
  have h := eff_if (skip := skip) (eff_isSet (ι := ι) (k := .sp n .charge) rfl) ((eff_getR (ι := ι) (n := n) (v := .charge) rfl).bind0 fun q =>
    Effect.ite (p := |q| < 1e-5) (dp := Classical.propDecidable _) (Effect.pure skip) (hm q))
  refine Effect.congr (m := ifCharged n skip m) h (fun w => ?_) fun w x y i => ?_
  · unfold Charged Has
    rw [← not_lt]
    by_cases h1 : (w (.sp n .charge)).isSome = true <;> by_cases h2 : |rAt w n .charge| < 1e-5 <;> simp [h1, h2]
  · unfold Charged Has
    rw [← not_lt]
    by_cases h1 : (w (.sp n .charge)).isSome = true <;> by_cases h2 : |rAt w n .charge| < 1e-5 <;> simp [h1, h2]

/-- Contributions of the turns of a loop that carries a value. -/
def foldDelta (v : α → γ → View ι → α) (d : α → γ → Delta ι) : List γ → α → Delta ι
  | [], _ => fun _ _ _ _ => 0
  | c :: l, a => fun w n x i => d a c w n x i + foldDelta v d l (v a c w) w n x i

theorem eff_foldlM {body : α → γ → Prog ι α} {v : α → γ → View ι → α} {d : α → γ → Delta ι} (hb : ∀ a c, Effect (body a c) (v a c) (d a c)) :
    ∀ (l : List γ) (a : α), Effect (l.foldlM body a) (fun w => l.foldl (fun a c => v a c w) a) (foldDelta v d l a)
  | [], a => Effect.pure a
  | c :: l, a => by
    rw [List.foldlM_cons]
    have h := (hb a c).bind fun b => eff_foldlM hb l b
    intro s b s' e
    obtain ⟨h1, h2, h3⟩ := h s b s' e
    exact ⟨h1, h2, h3⟩

/-- A loop whose turns only read. -/
theorem eff_foldlM0 {body : α → γ → Prog ι α} {v : α → γ → View ι → α} (hb : ∀ a c, Effect (body a c) (v a c) (fun _ _ _ _ => 0)) (l : List γ) (a : α) :
    Effect (l.foldlM body a) (fun w => l.foldl (fun a c => v a c w) a) (fun _ _ _ _ => 0) := by
  refine (eff_foldlM hb l a).congr (fun _ => rfl) ?_
  induction l generalizing a with
  | nil => intros; rfl
  | cons c l ih =>
    intro w n x i
    show 0 + foldDelta v _ l (v a c w) w n x i = 0
    rw [ih, add_zero]

theorem eff_forM {body : γ → Prog ι Unit} {d : γ → Delta ι} (hb : ∀ c, Effect (body c) (fun _ => ()) (d c)) :
    ∀ l : List γ, Effect (l.forM body) (fun _ => ()) (fun w n x i => (l.map fun c => d c w n x i).sum)
  | [] => (Effect.pure ()).congr (fun _ => rfl) fun _ _ _ _ => rfl
  | c :: l => by
    have h : Effect (body c >>= fun _ => l.forM body) _ _ := (hb c).bind fun _ => eff_forM hb l
    exact Effect.congr (m := (c :: l).forM body) h (fun _ => rfl) fun _ _ _ _ => by rw [List.map_cons, List.sum_cons]

/-- A turn that contributes to its own species only: what species `n` gets is the contribution of its own turn. -/
theorem sum_own {d : String → View ι → Var → ℝ} {names : List String} (hn : names.Nodup) {w : View ι} {n : String} {x : Var} (h : n ∈ names) :
    (names.map fun m => if n = m then d m w x else 0).sum = d n w x := by
  induction names with
  | nil => cases h
  | cons m l ih =>
    obtain ⟨h1, h2⟩ := List.nodup_cons.1 hn
    rw [List.map_cons, List.sum_cons]
    rcases List.mem_cons.1 h with rfl | h'
    · rw [if_pos rfl]
      have : (l.map fun m => if n = m then d m w x else 0).sum = 0 := by
        rw [List.map_congr_left (g := fun _ => (0 : ℝ))]
        · simp
        · intro m hm; rw [if_neg]; rintro rfl; exact h1 hm
      rw [this, add_zero]
    · rw [if_neg (by rintro rfl; exact h1 h'), ih h2 h', zero_add]

theorem sum_others {d : String → View ι → Var → ℝ} {names : List String} {w : View ι} {n : String} {x : Var} (h : n ∉ names) :
    (names.map fun m => if n = m then d m w x else 0).sum = 0 := by
  rw [List.map_congr_left (g := fun _ => (0 : ℝ))]
  · simp
  · intro m hm; rw [if_neg]; rintro rfl; exact h hm

theorem forM_own {body : String → Prog ι Unit} {g : String → View ι → Var → ι → ℝ}
    (hb : ∀ m, Effect (body m) (fun _ => ()) (fun w n x i => if n = m then g m w x i else 0)) {names : List String} (hn : names.Nodup)
    {s s' : Store Key (Value ι)} {u : Unit} (h : names.forM body s = (.ok u, s')) :
    world s' = world s ∧ (∀ n ∈ names, ∀ x, isSource x = true → ∀ i, fieldOf s' n x i - fieldOf s n x i = g n (world s) x i) ∧
    ∀ n, n ∉ names → ∀ x, isSource x = true → ∀ i, fieldOf s' n x i - fieldOf s n x i = 0 := by
  obtain ⟨-, hw, hg⟩ := eff_forM hb names _ _ _ h
  refine ⟨hw, fun n hm x hx i => ?_, fun n hm x hx i => ?_⟩
  · have e := hg n x hx i
    have e' := sum_own (d := fun m w x => g m w x i) hn (w := world s) (x := x) hm
    beta_reduce at e e'
    rw [e, e']; ring
  · have e := hg n x hx i
    have e' := sum_others (d := fun m w x => g m w x i) (w := world s) (x := x) hm
    beta_reduce at e e'
    rw [e, e']; ring

end
end Hermes.Effects
