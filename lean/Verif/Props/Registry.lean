import Verif.Model.Registry
import Verif.Props.Reactions
import Verif.Props.SimpleReactions
import Verif.Props.Scheduler
import Mathlib.Tactic.IntervalCases

/-!
# A reaction named in the input does what its equation says (C73)
-/

set_option linter.unusedSimpArgs false
set_option linter.unusedVariables false

namespace Hermes.Registry
open Hermes.Reactions Hermes.SimpleReactions

variable {ι : Type}

/-! ## Specification: reading a reaction equation -/

/-- The words of a text, which are separated by blanks. -/
def words : List Char → List (List Char)
  | [] => []
  | c :: cs => if c = ' ' then [] :: words cs else match words cs with
    | [] => [[c]]
    | w :: ws => (c :: w) :: ws

/-- A term `2e` or `c+3`: how many of which species. -/
def term : List Char → ℕ × String
  | [] => (0, "")
  | c :: cs => if c.isDigit then (c.toNat - '0'.toNat, String.ofList cs) else (1, String.ofList (c :: cs))

/-- The terms on the two sides of an equation `a + b -> c + d`, perhaps with the name of the model in front. -/
def sides (text : String) : List (ℕ × String) × List (ℕ × String) :=
  let ws := (words text.toList).filter fun w => w ≠ ['+'] ∧ w ≠ "solkit".toList
  ((ws.takeWhile (· ≠ "->".toList)).map term, ((ws.dropWhile (· ≠ "->".toList)).drop 1).map term)

/-- How many of species `s` there are in a list of terms. -/
def count (l : List (ℕ × String)) (s : String) : ℤ := (l.map fun t => if t.2 = s then (t.1 : ℤ) else 0).sum

/-- How many of species `s` one reaction makes. -/
def made (text s : String) : ℤ := count (sides text).2 s - count (sides text).1 s

/-- The species in an equation. -/
def speciesOf (text : String) : List String := ((sides text).1 ++ (sides text).2).map Prod.snd

/-- The number with decimal digits `cs`. -/
def number (cs : List Char) : ℤ := cs.foldl (fun n c => 10 * n + (c.toNat - '0'.toNat : ℕ)) 0

/-- The charge that the name of a species stands for: `e` is `-1`, `c` is `0`, `c+` is `1`, `c+2` is `2`. -/
def nameCharge (s : String) : ℤ :=
  if s = "e" then -1 else match s.toList.dropWhile (· ≠ '+') with
    | [] => 0
    | ['+'] => 1
    | _ :: cs => number cs

/-- The nucleus that the name of a species stands for; the electron has none. -/
def nucleus (s : String) : Option String := if s = "e" then none else some (String.ofList (s.toList.takeWhile (· ≠ '+')))

/-- Conditions under which a reaction goes forward: positive normalisations and volumes, rate coefficients, multipliers, densities and temperatures that
are not negative, and a slope limiter that makes no new extrema. -/
structure Forward (p : Params) (w : World ι) : Prop where
  N : 0 < p.nm.N
  Freq : 0 < p.nm.Freq
  rate : ∀ en T n, 0 ≤ p.rate en T n
  mult : ∀ en, 0 ≤ p.rate_multiplier en
  lim : Limiters.MonotoneLim w.lim
  J : ∀ i, 0 < w.J i
  pos : ∀ s f, ((w.st.ent (.sp s .density)).val = some f ∨ (w.st.ent (.sp s .temperature)).val = some f) → ∀ i, 0 ≤ f i

/-! ## What each class does to the densities -/

/-- One if it is so. -/
def one (P : Prop) [Decidable P] : ℤ := if P then 1 else 0

/-- The density sources of a component are multiples of one rate, and it touches nothing but sources of its species. -/
def Makes (C : SourceComponent ι) (w : World ι) (n : String → ℤ) (l : List String) (fwd : Prop) : Prop :=
  (C.transform w).1 = .ok () → OnlyTouches w.st (C.transform w).2 l [.density_source, .momentum_source, .energy_source, .collision_frequency] ∧
    ∃ R : Fld ι, (∀ s i, gain w.st (C.transform w).2 s .density_source i = n s * R i) ∧ (fwd → ∀ i, 0 ≤ R i)

theorem transform_ok {C : SourceComponent ι} {w : World ι} (h : (C.transform w).1 = .ok ()) : ∃ cs, C w = .ok cs := by
  unfold SourceComponent.transform at h
  cases hc : C w with
  | ok cs => exact ⟨cs, rfl⟩
  | error e => rw [hc] at h; cases h

theorem map_ok {α β : Type} {f : α → β} {x : Except Err α} {b : β} (h : x.map f = .ok b) : ∃ a, x = .ok a ∧ b = f a := by
  cases x with
  | ok a => exact ⟨a, rfl, (Except.ok.inj h).symm⟩
  | error e => cases h

theorem onlyTouches_mono {st st' : Store Key (Fld ι)} {l l' : List String} {v v' : List Var} (h : OnlyTouches st st' l v) (hl : ∀ s ∈ l, s ∈ l')
    (hv : ∀ x ∈ v, x ∈ v') : OnlyTouches st st' l' v' := fun k hk => h k fun s hs x hx => hk s (hl s hs) x (hv x hx)

theorem makes_of {C : SourceComponent ι} {w : World ι} {n : String → ℤ} {l : List String} {fwd : Prop} (hu : SourcesUnread w.st)
    (h : ∀ cs, C w = .ok cs → KeysIn l [.density_source, .momentum_source, .energy_source, .collision_frequency] cs ∧
      ∃ R : Fld ι, (∀ s i, signedSum (.sp s .density_source) i cs = n s * R i) ∧ (fwd → ∀ i, 0 ≤ R i)) : Makes C w n l fwd := by
  intro ht
  obtain ⟨cs, hc⟩ := transform_ok ht
  obtain ⟨hk, R, hR, hf⟩ := h cs hc
  obtain ⟨st', h1, h2, h3⟩ := contributeAll_gain cs w.st _ _ hk (by simp) hu
  have e : C.transform w = (.ok (), st') := by
    simp only [SourceComponent.transform, hc]; exact h1
  rw [e]
  exact ⟨h2, R, fun s i => by rw [h3, hR], hf⟩

theorem electron_makes {p : Params} {en : Entry} {heat : ℝ} {fr dst : String} {w : World ι} (hu : SourcesUnread w.st) {d : ℤ}
    (hd : w.chargeOr0 dst - w.chargeOr0 fr = d) :
    Makes (fun w => (electronReaction p.nm (p.rate en) (p.rad en) heat (p.rate_multiplier en) (p.radiation_multiplier en) "e" fr dst w).map (·.contribs)) w
      (fun s => one (s = dst) - one (s = fr) + d * one (s = "e")) ["e", fr, dst] (Forward p w) := by
  refine makes_of hu fun cs hc => ?_
  obtain ⟨r, hr, rfl⟩ := map_ok hc
  have hf : Forward p w → ∀ i, 0 ≤ r.reaction_rate i := fun h i =>
    amjuel_rate_nonneg p.nm h.N h.Freq _ _ (h.rate en) heat _ _ (h.mult en) "e" fr dst w h.lim h.J r hr (by
      rintro f (hf | hf | hf)
      · exact h.pos _ f (Or.inl hf)
      · exact h.pos _ f (Or.inr hf)
      · exact h.pos _ f (Or.inl hf)) i
  obtain ⟨Ne, Te, N1, T1, V1, V2, A, -, -, -, -, -, -, -, -, ev, -, rfl⟩ := electronReaction_ok hr
  refine ⟨?_, _, ?_, hf⟩
  · unfold electronReactionOf
    rcases ev with _ | ⟨Ve, Ae⟩ <;> by_cases hq : w.chargeOr0 fr ≠ w.chargeOr0 dst <;> simp [hq]
  · intro s i
    unfold electronReactionOf
    dsimp only
    generalize w.avg3 _ Ne N1 Te = R
    by_cases hq : w.chargeOr0 fr = w.chargeOr0 dst
    · have hd0 : d = 0 := by
        have : (d : ℝ) = 0 := by rw [← hd, hq, sub_self]
        exact_mod_cast this
      subst hd0
      simp only [hq, ne_eq, not_true_eq_false, if_false, List.append_nil, List.cons_append, List.nil_append, signedSum_cons, signedSum_nil, one,
        Key.sp.injEq, and_true, reduceCtorEq, and_false, eq_comm (a := s)]
      split_ifs <;> push_cast <;> ring
    · rcases ev with _ | ⟨Ve, Ae⟩ <;>
      · simp only [hq, ne_eq, not_false_eq_true, if_true, if_false, List.append_nil, List.cons_append, List.nil_append, signedSum_cons, signedSum_nil, one,
          Key.sp.injEq, and_true, reduceCtorEq, and_false, eq_comm (a := s), hd]
        split_ifs <;> push_cast <;> ring

theorem adas_makes {p : Params} {en : Entry} {heat : ℝ} {fr dst : String} {w : World ι} (hu : SourcesUnread w.st) {d : ℤ}
    (hd : w.chargeOr0 dst - w.chargeOr0 fr = d) :
    Makes (fun w => (adasReaction p.nm (p.rate en) (p.rad en) heat "e" fr dst w).map (·.contribs)) w
      (fun s => one (s = dst) - one (s = fr) + d * one (s = "e")) ["e", fr, dst] (Forward p w) := by
  refine makes_of hu fun cs hc => ?_
  obtain ⟨r, hr, rfl⟩ := map_ok hc
  have hf : Forward p w → ∀ i, 0 ≤ r.reaction_rate i := fun h i =>
    adas_rate_nonneg p.nm h.N h.Freq _ _ (h.rate en) heat "e" fr dst w h.J r hr i
  obtain ⟨Ne, Te, N1, T1, V1, A, -, -, -, -, -, -, -, rfl⟩ := adasReaction_ok hr
  refine ⟨?_, _, ?_, hf⟩
  · unfold adasReactionOf
    by_cases hq : w.chargeOr0 fr ≠ w.chargeOr0 dst <;> simp [hq]
  · intro s i
    unfold adasReactionOf
    dsimp only
    generalize w.avg3 _ Ne N1 Te = R
    by_cases hq : w.chargeOr0 fr = w.chargeOr0 dst
    · have hd0 : d = 0 := by
        have : (d : ℝ) = 0 := by rw [← hd, hq, sub_self]
        exact_mod_cast this
      subst hd0
      simp only [hq, ne_eq, not_true_eq_false, if_false, List.append_nil, List.cons_append, List.nil_append, signedSum_cons, signedSum_nil, one,
        Key.sp.injEq, and_true, reduceCtorEq, and_false, eq_comm (a := s)]
      split_ifs <;> push_cast <;> ring
    · simp only [hq, ne_eq, not_false_eq_true, if_true, if_false, List.append_nil, List.cons_append, List.nil_append, signedSum_cons, signedSum_nil, one,
          Key.sp.injEq, and_true, reduceCtorEq, and_false, eq_comm (a := s), hd]
      split_ifs <;> push_cast <;> ring

theorem adasCX_makes {p : Params} {en : Entry} {a b a' b' : String} {w : World ι} (hu : SourcesUnread w.st) :
    Makes (fun w => (adasChargeExchange p.nm (p.rate en) "e" a b a' b' w).map (·.2)) w
      (fun s => one (s = a') + one (s = b') - one (s = a) - one (s = b)) [a, b, a', b'] (Forward p w) := by
  refine makes_of hu fun cs hc => ?_
  obtain ⟨r, hr, rfl⟩ := map_ok hc
  obtain ⟨R, VA, TA, VB, TB, Na, Nb, Ne, Te, A, B, -, -, -, -, -, -, -, -, hR, rfl⟩ := adasCX_ok hr
  refine ⟨?_, R, ?_, fun h i => ?_⟩
  · unfold adasTransfer
    simp
  · intro s i
    simp only [adasTransfer, if_true, if_false, List.cons_append, List.nil_append, signedSum_cons, signedSum_nil, one,
      Key.sp.injEq, and_true, reduceCtorEq, and_false, eq_comm (a := s)]
    split_ifs <;> push_cast <;> ring
  · have f0 : ∀ x, 0 ≤ floor0 x := by intro x; unfold floor0; split <;> linarith
    have hN := h.N
    have hF := h.Freq
    have j1 := h.J i
    have j2 := h.J (w.ym i)
    have j3 := h.J (w.yp i)
    rw [hR]
    unfold World.avg4 cellAverage
    have aux : ∀ c na nb n t, 0 ≤ c → 0 ≤ c * (floor0 na * floor0 nb * p.rate en (t * p.nm.T) (n * p.nm.N) * p.nm.N / p.nm.Freq) := by
      intro c na nb n t hc
      have := h.rate en (t * p.nm.T) (n * p.nm.N)
      have := f0 na
      have := f0 nb
      positivity
    exact add_nonneg (add_nonneg (aux _ _ _ _ _ (by norm_num)) (aux _ _ _ _ _ (by positivity))) (aux _ _ _ _ _ (by positivity))

theorem cx_makes {p : Params} {en : Entry} {a i a' i' : String} {w : World ι} (hu : SourcesUnread w.st) :
    Makes (fun w => (chargeExchange p.nm (p.rate_multiplier en) p.no_neutral_cx_mom_gain a i a' i' w).map (·.contribs)) w
      (fun s => one (s = i') + one (s = a') - one (s = a) - one (s = i)) [a, i, i', a'] (Forward p w) := by
  refine makes_of hu fun cs hc => ?_
  obtain ⟨r, hr, rfl⟩ := map_ok hc
  have hf : Forward p w → ∀ i, 0 ≤ r.R i := fun h j => cx_rate_nonneg p.nm h.N h.Freq _ (h.mult en) _ a i a' i' w r hr j
  obtain ⟨Ta, Ti, na, ni, va1, vi1, va2, vi2, Aa, Ai, -, -, -, -, -, -, -, -, -, -, rfl, -⟩ := chargeExchange_ok hr
  refine ⟨?_, _, ?_, hf⟩
  · unfold chargeExchangeOf
    by_cases h1 : a ≠ a' ∨ i ≠ i' <;> by_cases h2 : p.no_neutral_cx_mom_gain = false <;> simp [h1, h2]
  · intro s j
    unfold chargeExchangeOf
    dsimp only
    by_cases h1 : a ≠ a' ∨ i ≠ i'
    · by_cases h2 : p.no_neutral_cx_mom_gain = false <;>
      · simp only [h1, h2, if_true, if_false, List.append_nil, List.cons_append, List.nil_append, signedSum_cons, signedSum_nil, one,
          Key.sp.injEq, and_true, reduceCtorEq, and_false, eq_comm (a := s)]
        split_ifs <;> push_cast <;> ring
    · have h3 := h1
      push Not at h3
      obtain ⟨rfl, rfl⟩ := h3
      by_cases h2 : p.no_neutral_cx_mom_gain = false <;>
      · simp only [h1, h2, if_true, if_false, List.append_nil, List.cons_append, List.nil_append, signedSum_cons, signedSum_nil, one,
          Key.sp.injEq, and_true, reduceCtorEq, and_false, eq_comm (a := s)]
        split_ifs <;> push_cast <;> ring

theorem solkit_makes {p : Params} {a i : String} {w : World ι} (hu : SourcesUnread w.st) {fwd : Prop} :
    Makes (fun w => solkitChargeExchange p.nm.N p.rho_s0 a i w) w
      (fun s => one (s = i) + one (s = a) - one (s = a) - one (s = i)) [a, i, i, a] fwd := by
  refine makes_of hu fun cs hc => ?_
  obtain ⟨na, ni, A, -, -, -, -, rfl⟩ := solkit_ok hc
  refine ⟨by simp, fun _ => 0, fun s j => ?_, fun _ _ => le_rfl⟩
  simp [signedSum_cons]

/-! ## The equations -/

/-- The two sides of the reaction of a class. -/
def Entry.sides : Entry → List (ℕ × String) × List (ℕ × String)
  | .hydIonisation c => ([(1, atomName c), (1, "e")], [(1, ionName c), (2, "e")])
  | .hydRecombination c => ([(1, ionName c), (1, "e")], [(1, atomName c)])
  | .heIonisation => ([(1, "he"), (1, "e")], [(1, "he+"), (2, "e")])
  | .heRecombination => ([(1, "he+"), (1, "e")], [(1, "he")])
  | .hydCX c d => ([(1, atomName c), (1, ionName d)], [(1, ionName c), (1, atomName d)])
  | .solkitCX c => ([(1, atomName c), (1, ionName c)], [(1, ionName c), (1, atomName c)])
  | .adasIonisation el k => ([(1, el.species k), (1, "e")], [(1, el.species (k + 1)), (2, "e")])
  | .adasRecombination el k => ([(1, el.species (k + 1)), (1, "e")], [(1, el.species k)])
  | .adasCX el k c => ([(1, el.species (k + 1)), (1, atomName c)], [(1, el.species k), (1, ionName c)])

/-- The lower and the higher charge state of a reaction with electrons. -/
def Entry.states : Entry → Option (String × String)
  | .hydIonisation c => some (atomName c, ionName c)
  | .hydRecombination c => some (atomName c, ionName c)
  | .heIonisation => some ("he", "he+")
  | .heRecombination => some ("he", "he+")
  | .adasIonisation el k => some (el.species k, el.species (k + 1))
  | .adasRecombination el k => some (el.species k, el.species (k + 1))
  | _ => none

/-- The names of the states are those of neighbouring charges. -/
def Entry.stateOk (en : Entry) : Bool := match en.states with
  | none => true
  | some (a, b) => decide (a ≠ "e" ∧ b ≠ "e" ∧ nameCharge b - nameCharge a = 1)

theorem registry_sides : ∀ x ∈ registry, Registry.sides x.1 = x.2.sides := by decide +kernel

theorem registry_states : ∀ x ∈ registry, x.2.stateOk = true := by decide +kernel

theorem makes_congr {C : SourceComponent ι} {w : World ι} {n n' : String → ℤ} {l l' : List String} {fwd : Prop} (h : Makes C w n l fwd)
    (hn : ∀ s, n s = n' s) (hl : ∀ s ∈ l, s ∈ l') : Makes C w n' l' fwd := by
  intro ht
  obtain ⟨h1, R, h2, h3⟩ := h ht
  exact ⟨onlyTouches_mono h1 hl fun _ h => h, R, fun s i => by rw [h2, hn], h3⟩

theorem one_comm (s t : String) : (if t = s then ((1 : ℕ) : ℤ) else 0) = one (s = t) := by
  unfold one
  by_cases h : t = s
  · rw [if_pos h, if_pos h.symm]; rfl
  · rw [if_neg h, if_neg (Ne.symm h)]

theorem two_comm (s t : String) : (if t = s then ((2 : ℕ) : ℤ) else 0) = 2 * one (s = t) := by
  unfold one
  by_cases h : t = s
  · rw [if_pos h, if_pos h.symm]; rfl
  · rw [if_neg h, if_neg (Ne.symm h)]; rfl

theorem entry_makes (p : Params) (en : Entry) (hok : en.stateOk = true) {w : World ι} (hu : SourcesUnread w.st)
    (hq : ∀ s ∈ (en.sides.1 ++ en.sides.2).map Prod.snd, s ≠ "e" → w.chargeOr0 s = nameCharge s) :
    Makes (en.component p) w (fun s => count en.sides.2 s - count en.sides.1 s) ((en.sides.1 ++ en.sides.2).map Prod.snd) (Forward p w) := by
  have up : ∀ a b : String, en.states = some (a, b) → a ∈ (en.sides.1 ++ en.sides.2).map Prod.snd → b ∈ (en.sides.1 ++ en.sides.2).map Prod.snd →
      w.chargeOr0 b - w.chargeOr0 a = (1 : ℤ) := by
    intro a b h ha hb
    unfold Entry.stateOk at hok
    rw [h] at hok
    obtain ⟨h1, h2, h3⟩ := of_decide_eq_true hok
    rw [hq a ha h1, hq b hb h2, ← h3]
    push_cast
    ring
  have down : ∀ a b : String, en.states = some (a, b) → a ∈ (en.sides.1 ++ en.sides.2).map Prod.snd → b ∈ (en.sides.1 ++ en.sides.2).map Prod.snd →
      w.chargeOr0 a - w.chargeOr0 b = (-1 : ℤ) := by
    intro a b h ha hb
    have := up a b h ha hb
    push_cast at this ⊢
    linarith
  cases en with
  | hydIonisation c =>
    refine makes_congr (electron_makes hu (up _ _ rfl (by simp [Entry.sides]) (by simp [Entry.sides]))) (fun s => ?_) (by simp [Entry.sides])
    simp only [Entry.sides, count, List.map_cons, List.map_nil, List.sum_cons, List.sum_nil, one_comm, two_comm]
    ring
  | hydRecombination c =>
    refine makes_congr (electron_makes hu (down _ _ rfl (by simp [Entry.sides]) (by simp [Entry.sides]))) (fun s => ?_) (by simp [Entry.sides])
    simp only [Entry.sides, count, List.map_cons, List.map_nil, List.sum_cons, List.sum_nil, one_comm, two_comm]
    ring
  | heIonisation =>
    refine makes_congr (electron_makes hu (up _ _ rfl (by simp [Entry.sides]) (by simp [Entry.sides]))) (fun s => ?_) (by simp [Entry.sides])
    simp only [Entry.sides, count, List.map_cons, List.map_nil, List.sum_cons, List.sum_nil, one_comm, two_comm]
    ring
  | heRecombination =>
    refine makes_congr (electron_makes hu (down _ _ rfl (by simp [Entry.sides]) (by simp [Entry.sides]))) (fun s => ?_) (by simp [Entry.sides])
    simp only [Entry.sides, count, List.map_cons, List.map_nil, List.sum_cons, List.sum_nil, one_comm, two_comm]
    ring
  | hydCX c d =>
    refine makes_congr (cx_makes (en := .hydCX c d) hu) (fun s => ?_) (by simp [Entry.sides])
    simp only [Entry.sides, count, List.map_cons, List.map_nil, List.sum_cons, List.sum_nil, one_comm, two_comm]
    ring
  | solkitCX c =>
    refine makes_congr (solkit_makes hu) (fun s => ?_) (by simp [Entry.sides])
    simp only [Entry.sides, count, List.map_cons, List.map_nil, List.sum_cons, List.sum_nil, one_comm, two_comm]
    ring
  | adasIonisation el k =>
    refine makes_congr (adas_makes hu (up _ _ rfl (by simp [Entry.sides]) (by simp [Entry.sides]))) (fun s => ?_) (by simp [Entry.sides])
    simp only [Entry.sides, count, List.map_cons, List.map_nil, List.sum_cons, List.sum_nil, one_comm, two_comm]
    ring
  | adasRecombination el k =>
    refine makes_congr (adas_makes hu (down _ _ rfl (by simp [Entry.sides]) (by simp [Entry.sides]))) (fun s => ?_) (by simp [Entry.sides])
    simp only [Entry.sides, count, List.map_cons, List.map_nil, List.sum_cons, List.sum_nil, one_comm, two_comm]
    ring
  | adasCX el k c =>
    refine makes_congr (adasCX_makes (en := .adasCX el k c) hu) (fun s => ?_) (by simp [Entry.sides])
    simp only [Entry.sides, count, List.map_cons, List.map_nil, List.sum_cons, List.sum_nil, one_comm, two_comm]
    ring

theorem mem_of_lookup {α : Type} {l : List (String × α)} {k : String} {v : α} (h : l.lookup k = some v) : (k, v) ∈ l := by
  induction l with
  | nil => cases h
  | cons x xs ih =>
    obtain ⟨k', v'⟩ := x
    rw [List.lookup_cons] at h
    by_cases hk : k == k'
    · rw [hk] at h
      rw [eq_of_beq hk, ← Option.some.inj h]
      exact List.mem_cons_self
    · rw [Bool.eq_false_of_not_eq_true hk] at h
      exact List.mem_cons_of_mem _ (ih h)

/-! ## The theorems -/

/-- **C73.**  A reaction chosen by its equation does what the equation says.  For every equation that names a component, every state, fit or table and
setting: if the transform succeeds, there is one rate `R` such that each species gains the number of particles on the right of the equation minus the
number on the left, times `R`; `R` is not negative when densities, temperatures and rate coefficients are not; and nothing changes but the sources of
species that stand in the equation.  The charges of the species are those that their names say. -/
theorem reaction_follows_equation (p : Params) {text : String} {en : Entry} (h : create text = some en) {w : World ι} (hu : SourcesUnread w.st)
    (hq : ∀ s ∈ speciesOf text, s ≠ "e" → w.chargeOr0 s = nameCharge s) (ht : ((en.component p).transform w).1 = .ok ()) :
    OnlyTouches w.st ((en.component p).transform w).2 (speciesOf text) [.density_source, .momentum_source, .energy_source, .collision_frequency] ∧
    ∃ R : Fld ι, (∀ s i, gain w.st ((en.component p).transform w).2 s .density_source i = made text s * R i) ∧ (Forward p w → ∀ i, 0 ≤ R i) := by
  have hm := mem_of_lookup h
  have hs := registry_sides _ hm
  have ho := registry_states _ hm
  unfold speciesOf at hq ⊢
  unfold made
  dsimp only at hs ho
  rw [hs] at hq ⊢
  exact entry_makes p en ho hu hq ht

/-- The sum over the terms of one side. -/
def total (l : List (ℕ × String)) (f : String → ℤ) : ℤ := (l.map fun t => t.1 * f t.2).sum

/-- **C73.**  Every equation that names a component balances: the same charge and the same nuclei on both sides. -/
theorem equations_balance : ∀ x ∈ registry, total (sides x.1).1 nameCharge = total (sides x.1).2 nameCharge ∧
    ∀ y ∈ speciesOf x.1, nucleus y ≠ none → total (sides x.1).1 (fun s => one (nucleus s = nucleus y)) = total (sides x.1).2 (fun s => one (nucleus s = nucleus y)) := by
  decide +kernel

/-- **C73.**  No equation names two components. -/
theorem names_distinct : (registry.map Prod.fst).Nodup := by decide +kernel

/-- The equations are names that can stand in the list of components: they have no comma, and do not start or end with a blank or a bracket. -/
theorem names_legal : ∀ x ∈ registry, ',' ∉ x.1.toList ∧ x.1.toList ≠ [] ∧ (∀ c ∈ x.1.toList.head?, ¬ Scheduler.Layout c) ∧ ∀ c ∈ x.1.toList.getLast?, ¬ Scheduler.Layout c := by
  decide +kernel

/-- Each equation names its component. -/
theorem create_registered : ∀ x ∈ registry, create x.1 = some x.2 := by decide +kernel

/-- Name of the charge state `k` of the element. -/
def stateName (el : String) (k : ℕ) : String := if k = 0 then el else if k = 1 then el ++ "+" else el ++ "+" ++ toString k

/-- The chain of reactions is complete: each charge state of carbon, lithium, neon and the hydrogen isotopes can be ionised, recombines with electrons, and
takes an electron from an atom of any hydrogen isotope. -/
theorem all_states_connected : ∀ x ∈ [("c", 6), ("li", 3), ("ne", 10), ("h", 1), ("d", 1), ("t", 1)], ∀ k < x.2,
    create (stateName x.1 k ++ " + e -> " ++ stateName x.1 (k + 1) ++ " + 2e") ≠ none ∧
    create (stateName x.1 (k + 1) ++ " + e -> " ++ stateName x.1 k) ≠ none ∧
    ∀ a ∈ ["h", "d", "t"], create (stateName x.1 (k + 1) ++ " + " ++ a ++ " -> " ++ stateName x.1 k ++ " + " ++ a ++ "+") ≠ none ∨
      create (a ++ " + " ++ stateName x.1 (k + 1) ++ " -> " ++ a ++ "+ + " ++ stateName x.1 k) ≠ none := by decide +kernel

open Hermes.Scheduler in
/-- **C73.**  The equations can be listed in the input: whatever blanks or brackets stand around them, the scheduler makes the component of each
equation in the list, in this order. -/
theorem listed_reactions_created (l : List (String × Entry)) (hl : ∀ x ∈ l, x ∈ registry) (items : List Item)
    (hn : items.map Item.name = l.map fun x => x.1.toList) (hp : ∀ i ∈ items, (∀ c ∈ i.before, Layout c) ∧ ∀ c ∈ i.after, Layout c) :
    (schedulerComponents (render items) fun _ => none).map (fun c => create (String.ofList c.type)) = l.map fun x => some x.2 := by
  have legal : ∀ x ∈ registry, ∀ b a : List Char, (∀ c ∈ b, Layout c) → (∀ c ∈ a, Layout c) → (⟨b, x.1.toList, a⟩ : Item).Legal := by
    intro x hx b a hb ha
    obtain ⟨h1, h2, h3, h4⟩ := names_legal x hx
    exact ⟨hb, ha, h1, fun c hc => h3 c hc, fun c hc => h4 c hc⟩
  have hlegal : ∀ i ∈ items, i.Legal := by
    intro i hi
    have : i.name ∈ l.map fun x => x.1.toList := by rw [← hn]; exact List.mem_map_of_mem hi
    obtain ⟨x, hx, he⟩ := List.mem_map.1 this
    have := legal x (hl x hx) i.before i.after (hp i hi).1 (hp i hi).2
    rw [he] at this
    exact this
  have htok : ∀ x ∈ registry, tokens x.1.toList = [x.1.toList] := by
    intro x hx
    have := layout_irrelevant [⟨[], x.1.toList, []⟩] (by
      intro i hi
      rw [List.mem_singleton.1 hi]
      exact legal x hx [] [] (by simp) (by simp))
    simpa [render, List.intercalate, (names_legal x hx).2.1] using this
  have he := components_are_expected (render items) fun _ => none
  have hcomp : (schedulerComponents (render items) fun _ => none).map (fun c => create (String.ofList c.type)) =
      ((schedulerComponents (render items) fun _ => none).map fun c => (c.type, c.name)).map fun t => create (String.ofList t.1) := by
    rw [List.map_map]; rfl
  rw [hcomp, he]
  unfold expected
  rw [layout_irrelevant items hlegal, hn]
  have : (l.map fun x => x.1.toList).filter (· ≠ []) = l.map fun x => x.1.toList := by
    rw [List.filter_eq_self]
    intro a ha
    obtain ⟨x, hx, rfl⟩ := List.mem_map.1 ha
    simpa using (names_legal x (hl x hx)).2.1
  rw [this]
  clear he hcomp this hlegal hp hn
  induction l with
  | nil => rfl
  | cons x xs ih =>
    have hx := hl x List.mem_cons_self
    rw [List.map_cons, List.flatMap_cons, List.map_append, ih fun y hy => hl y (List.mem_cons_of_mem _ hy)]
    simp only [Option.getD_none, htok x hx, List.map_cons, List.map_nil, String.ofList_toList, create_registered x hx, List.cons_append, List.nil_append]

/-! ## The energy of ionisation -/

/-- The nuclear charge of the elements in the tables. -/
def Element.Z : Element → ℕ
  | .carbon => 6
  | .lithium => 3
  | .neon => 10

theorem adas_runs {p : Params} {en : Entry} {heat : ℝ} {fr dst : String} (h1 : fr ≠ "e") (h2 : dst ≠ "e") (h3 : fr ≠ dst) {w : World ι} {C : SourceComponent ι}
    (hC : C = fun w => (adasReaction p.nm (p.rate en) (p.rad en) heat "e" fr dst w).map (·.contribs)) (hu : SourcesUnread w.st)
    (hr : ∀ T n, p.rad en T n = 0) (ht : (C.transform w).1 = .ok ()) (i : ι) :
    gain w.st (C.transform w).2 "e" .energy_source i = heat / p.nm.T * gain w.st (C.transform w).2 dst .density_source i := by
  obtain ⟨cs, hc⟩ := transform_ok ht
  subst hC
  obtain ⟨r, hr', rfl⟩ := map_ok hc
  obtain ⟨Ne, Te, N1, T1, V1, A, -, -, -, -, -, -, -, rfl⟩ := adasReaction_ok hr'
  have hk : KeysIn ["e", fr, dst] [.density_source, .momentum_source, .energy_source]
      (adasReactionOf p.nm (p.rate en) (p.rad en) heat "e" fr dst w Ne Te N1 T1 V1 A (w.chargeOr0 fr) (w.chargeOr0 dst)).contribs := by
    unfold adasReactionOf
    by_cases hq : w.chargeOr0 fr ≠ w.chargeOr0 dst <;> simp [hq]
  obtain ⟨st', g1, -, g3⟩ := contributeAll_gain _ w.st _ _ hk (by simp) hu
  have e : SourceComponent.transform (fun w => (adasReaction p.nm (p.rate en) (p.rad en) heat "e" fr dst w).map (·.contribs)) w = (.ok (), st') := by
    simp only [SourceComponent.transform, hc]; exact g1
  have hz : w.avg3 (fun ne n1 te => floor0 ne * floor0 n1 * p.rad en (te * p.nm.T) (ne * p.nm.N) * p.nm.N / (p.nm.T * p.nm.Freq)) Ne N1 Te i = 0 := by
    simp [World.avg3, cellAverage, hr]
  rw [e, g3, g3]
  unfold adasReactionOf
  by_cases hq : w.chargeOr0 fr ≠ w.chargeOr0 dst
  · simp [hq, h1, h2, h3, h1.symm, h2.symm, h3.symm, hz]
  · simp [hq, h1, h2, h3, h1.symm, h2.symm, h3.symm, hz]

theorem names_of_states : ∀ el : Element, ∀ k < el.Z, el.species k ≠ "e" ∧ el.species (k + 1) ≠ "e" ∧ el.species k ≠ el.species (k + 1) := by
  intro el
  cases el <;> decide +kernel

/-- **C73.**  Ionisation potentials.  For each charge state there is one energy `E > 0`: ionisation takes it from the electrons for each ion made, and
recombination gives the same `E` back for each recombined ion, besides what is radiated. -/
theorem ionisation_potential_returned (el : Element) (k : ℕ) (hk : k < el.Z) : ∃ E > 0, ∀ (p : Params) (w : World ι), SourcesUnread w.st →
    (∀ en T n, p.rad en T n = 0) →
    (let t := ((Entry.adasIonisation el k).component p).transform w
     t.1 = .ok () → ∀ i, gain w.st t.2 "e" .energy_source i = -(E / p.nm.T) * gain w.st t.2 (el.species (k + 1)) .density_source i) ∧
    let t := ((Entry.adasRecombination el k).component p).transform w
    t.1 = .ok () → ∀ i, gain w.st t.2 "e" .energy_source i = E / p.nm.T * gain w.st t.2 (el.species k) .density_source i := by
  obtain ⟨h1, h2, h3⟩ := names_of_states el k hk
  refine ⟨el.energy k, ?_, fun p w hu hr => ⟨fun ht i => ?_, fun ht i => ?_⟩⟩
  · cases el <;> (simp only [Element.Z] at hk; interval_cases k <;> norm_num [Element.energy, Element.energies])
  · have := adas_runs (p := p) h1 h2 h3 rfl hu (hr (.adasIonisation el k)) ht i
    rw [neg_div] at this
    exact this
  · exact adas_runs h2 h1 h3.symm rfl hu (hr _) ht i

/-- The potentials grow with the charge. -/
theorem potentials_increase (el : Element) (k : ℕ) (hk : k + 1 < el.Z) : el.energy k < el.energy (k + 1) := by
  have h : k ≤ 8 := by cases el <;> simp only [Element.Z] at hk <;> omega
  interval_cases k <;> cases el <;> simp only [Element.Z] at hk <;> first | omega | norm_num [Element.energy, Element.energies]

theorem electron_runs {p : Params} {en : Entry} {heat : ℝ} {fr dst : String} (h1 : fr ≠ "e") (h2 : dst ≠ "e") (h3 : fr ≠ dst) {w : World ι}
    {C : SourceComponent ι} (hC : C = fun w => (electronReaction p.nm (p.rate en) (p.rad en) heat (p.rate_multiplier en) (p.radiation_multiplier en) "e" fr dst
      w).map (·.contribs)) (hu : SourcesUnread w.st) (hr : ∀ T n, p.rad en T n = 0) (ht : (C.transform w).1 = .ok ()) (i : ι) (hv : velocity w "e" i = 0) :
    gain w.st (C.transform w).2 "e" .energy_source i
      = heat / p.nm.T * p.radiation_multiplier en * gain w.st (C.transform w).2 dst .density_source i := by
  obtain ⟨cs, hc⟩ := transform_ok ht
  subst hC
  obtain ⟨r, hr', rfl⟩ := map_ok hc
  obtain ⟨Ne, Te, N1, T1, V1, V2, A, -, -, -, -, -, -, -, -, ev, hev, rfl⟩ := electronReaction_ok hr'
  have hk : KeysIn ["e", fr, dst] [.density_source, .momentum_source, .energy_source] (electronReactionOf p.nm (p.rate en) (p.rad en) heat
      (p.rate_multiplier en) (p.radiation_multiplier en) "e" fr dst w Ne Te N1 T1 V1 V2 A (w.chargeOr0 fr) (w.chargeOr0 dst) ev).contribs := by
    unfold electronReactionOf
    rcases ev with _ | ⟨Ve, Ae⟩ <;> split_ifs <;> simp
  obtain ⟨st', g1, -, g3⟩ := contributeAll_gain _ w.st _ _ hk (by simp) hu
  have e : SourceComponent.transform (fun w => (electronReaction p.nm (p.rate en) (p.rad en) heat (p.rate_multiplier en) (p.radiation_multiplier en) "e" fr dst
      w).map (·.contribs)) w = (.ok (), st') := by
    simp only [SourceComponent.transform, hc]; exact g1
  have hVe : ∀ Ve Ae, ev = some (Ve, Ae) → Ve i = 0 := by
    intro Ve Ae h
    unfold readElectronVelocity at hev
    split_ifs at hev
    · obtain ⟨Ve', h5, hev⟩ := bind_ok hev
      obtain ⟨Ae', h6, hev⟩ := bind_ok hev
      rw [h] at hev
      have h7 := Option.some.inj (Except.ok.inj hev)
      rw [← (Prod.mk.inj h7).1]
      have h8 := field_ok h5
      simpa [velocity, h8] using hv
    · rw [h] at hev
      cases hev
  have hz : w.avg3 (fun ne n1 te => ne * n1 * p.rad en (te * p.nm.T) (ne * p.nm.N) * p.nm.N / (p.nm.T * p.nm.Freq) * p.radiation_multiplier en) Ne N1 Te i = 0 := by
    simp [World.avg3, cellAverage, hr]
  rw [e, g3, g3]
  unfold electronReactionOf
  rcases ev with _ | ⟨Ve, Ae⟩
  · split_ifs <;> simp [h1, h2, h3, h1.symm, h2.symm, h3.symm, hz] <;> ring
  · have := hVe Ve Ae rfl
    split_ifs <;> simp [h1, h2, h3, h1.symm, h2.symm, h3.symm, hz, this] <;> ring

theorem names_of_atoms : ∀ c ∈ ['h', 'd', 't'], atomName c ≠ "e" ∧ ionName c ≠ "e" ∧ atomName c ≠ ionName c := by decide +kernel

/-- **C73.**  Recombination of hydrogen, its isotopes and helium gives the electrons, besides what is radiated, the energy of the bound state for each ion that
recombines: 13.6 eV and 24.586 eV.  What ionisation costs is contained in the radiated energy.  Electrons at rest, and the multiplier of the radiation one
(see `radiation_off_stops_heating`). -/
theorem binding_energy_returned (p : Params) {w : World ι} (hu : SourcesUnread w.st) (hr : ∀ en T n, p.rad en T n = 0)
    (hm : ∀ en, p.radiation_multiplier en = 1) (i : ι) (hv : velocity w "e" i = 0) :
    (∀ c ∈ ['h', 'd', 't'],
      (let t := ((Entry.hydRecombination c).component p).transform w
       t.1 = .ok () → gain w.st t.2 "e" .energy_source i = 13.6 / p.nm.T * gain w.st t.2 (atomName c) .density_source i) ∧
      let t := ((Entry.hydIonisation c).component p).transform w
      t.1 = .ok () → gain w.st t.2 "e" .energy_source i = 0) ∧
    (let t := (Entry.heRecombination.component p).transform w
     t.1 = .ok () → gain w.st t.2 "e" .energy_source i = 24.586 / p.nm.T * gain w.st t.2 "he" .density_source i) ∧
    let t := (Entry.heIonisation.component p).transform w
    t.1 = .ok () → gain w.st t.2 "e" .energy_source i = 0 := by
  have c1 : ∀ c, (Entry.hydRecombination c).component (ι := ι) p = fun w => (electronReaction p.nm (p.rate (.hydRecombination c))
      (p.rad (.hydRecombination c)) 13.6 (p.rate_multiplier (.hydRecombination c)) (p.radiation_multiplier (.hydRecombination c)) "e" (ionName c) (atomName c)
      w).map (·.contribs) := fun c => rfl
  have c2 : ∀ c, (Entry.hydIonisation c).component (ι := ι) p = fun w => (electronReaction p.nm (p.rate (.hydIonisation c))
      (p.rad (.hydIonisation c)) 0 (p.rate_multiplier (.hydIonisation c)) (p.radiation_multiplier (.hydIonisation c)) "e" (atomName c) (ionName c)
      w).map (·.contribs) := fun c => rfl
  have c3 : Entry.heRecombination.component (ι := ι) p = fun w => (electronReaction p.nm (p.rate .heRecombination)
      (p.rad .heRecombination) 24.586 (p.rate_multiplier .heRecombination) (p.radiation_multiplier .heRecombination) "e" "he+" "he"
      w).map (·.contribs) := rfl
  have c4 : Entry.heIonisation.component (ι := ι) p = fun w => (electronReaction p.nm (p.rate .heIonisation)
      (p.rad .heIonisation) 0 (p.rate_multiplier .heIonisation) (p.radiation_multiplier .heIonisation) "e" "he" "he+"
      w).map (·.contribs) := rfl
  refine ⟨fun c hc => ?_, fun ht => ?_, fun ht => ?_⟩
  · obtain ⟨h1, h2, h3⟩ := names_of_atoms c hc
    refine ⟨fun ht => ?_, fun ht => ?_⟩
    · have := electron_runs h2 h1 h3.symm (c1 c) hu (hr _) ht i hv
      rwa [hm, mul_one] at this
    · have := electron_runs h1 h2 h3 (c2 c) hu (hr _) ht i hv
      rwa [zero_div, zero_mul, zero_mul] at this
  · have := electron_runs (by decide) (by decide) (by decide) c3 hu (hr _) ht i hv
    rwa [hm, mul_one] at this
  · have := electron_runs (by decide) (by decide) (by decide) c4 hu (hr _) ht i hv
    rwa [zero_div, zero_mul, zero_mul] at this

/-! ## The hypotheses can be met -/

/-- A uniform plasma with every species there is: masses by nucleus, charges by name. -/
noncomputable def plasma (A : Option String → ℝ) (N T V : String → ℝ) : World ι where
  st := {
    check := true
    ent := fun k => match k with
      | .sp s .density => { val := some fun _ => N s }
      | .sp s .temperature => { val := some fun _ => T s }
      | .sp s .velocity => { val := some fun _ => V s }
      | _ => { val := none } }
  num := fun s v => match v with
    | .AA => some (A (nucleus s))
    | .charge => some (nameCharge s)
    | _ => none
  ym := id
  yp := id
  J := fun _ => 1
  lim := upwind

theorem plasma_reads (A : Option String → ℝ) (N T V : String → ℝ) (s : String) :
    (plasma A N T V : World ι).field s .density = .ok (fun _ => N s) ∧ (plasma A N T V : World ι).field s .temperature = .ok (fun _ => T s) ∧
    (plasma A N T V : World ι).field s .velocity = .ok (fun _ => V s) ∧ (plasma A N T V : World ι).isSetF s .velocity = true ∧
    (plasma A N T V : World ι).real s .AA = .ok (A (nucleus s)) ∧ (plasma A N T V : World ι).chargeOr0 s = nameCharge s := ⟨rfl, rfl, rfl, rfl, rfl, rfl⟩

theorem plasma_unread (A : Option String → ℝ) (N T V : String → ℝ) : SourcesUnread (plasma A N T V : World ι).st := by
  intro s v hv
  simp only [List.mem_cons, List.not_mem_nil, or_false] at hv
  rcases hv with rfl | rfl | rfl | rfl <;> exact ⟨rfl, rfl⟩

/-- The species whose masses are compared. -/
def Entry.pairs : Entry → List (String × String)
  | .hydIonisation c => [(atomName c, ionName c)]
  | .hydRecombination c => [(ionName c, atomName c)]
  | .heIonisation => [("he", "he+")]
  | .heRecombination => [("he+", "he")]
  | .hydCX c d => [(ionName c, atomName c), (atomName d, ionName d)]
  | .solkitCX c => [(atomName c, ionName c)]
  | .adasIonisation el k => [(el.species k, el.species (k + 1))]
  | .adasRecombination el k => [(el.species (k + 1), el.species k)]
  | .adasCX el k c => [(el.species (k + 1), el.species k), (atomName c, ionName c)]

theorem registry_pairs : ∀ x ∈ registry, ∀ q ∈ x.2.pairs, nucleus q.1 = nucleus q.2 := by decide +kernel

theorem plasma_electron (p : Params) (en : Entry) (heat : ℝ) (A : Option String → ℝ) (N T V : String → ℝ) {fr dst : String} (h : nucleus fr = nucleus dst) :
    ∃ r, electronReaction p.nm (p.rate en) (p.rad en) heat (p.rate_multiplier en) (p.radiation_multiplier en) "e" fr dst (plasma A N T V : World ι) = .ok r := by
  have hd := plasma_reads (ι := ι) A N T V
  have hv : ∃ x, readElectronVelocity (plasma A N T V : World ι) "e" ((plasma A N T V : World ι).chargeOr0 fr) ((plasma A N T V : World ι).chargeOr0 dst) = .ok x := by
    unfold readElectronVelocity
    split_ifs
    · exact ⟨_, ok_bind (hd "e").2.2.1 (ok_bind (hd "e").2.2.2.2.1 rfl)⟩
    · exact ⟨_, rfl⟩
  obtain ⟨x, hx⟩ := hv
  exact ⟨_, ok_bind (hd "e").1 (ok_bind (hd "e").2.1 (ok_bind (hd fr).1 (ok_bind (hd fr).2.1 (ok_bind (hd fr).2.2.1 (ok_bind (hd fr).2.2.2.2.1
    (ok_bind (hd dst).2.2.2.2.1 (ok_bind (assert1_of (by rw [h])) (ok_bind (hd dst).2.2.1 (ok_bind hx rfl)))))))))⟩

theorem plasma_adas (p : Params) (en : Entry) (heat : ℝ) (A : Option String → ℝ) (N T V : String → ℝ) {fr dst : String} (h : nucleus fr = nucleus dst) :
    ∃ r, adasReaction p.nm (p.rate en) (p.rad en) heat "e" fr dst (plasma A N T V : World ι) = .ok r := by
  have hd := plasma_reads (ι := ι) A N T V
  exact ⟨_, ok_bind (hd "e").1 (ok_bind (hd "e").2.1 (ok_bind (hd fr).1 (ok_bind (hd fr).2.1 (ok_bind (hd fr).2.2.1 (ok_bind (hd fr).2.2.2.2.1
    (ok_bind (hd dst).2.2.2.2.1 (ok_bind (assert1_of (by rw [h])) rfl)))))))⟩

theorem plasma_cx (p : Params) (k : ℝ) (ng : Bool) (A : Option String → ℝ) (N T V : String → ℝ) {a i a' i' : String} (h : nucleus i' = nucleus a)
    (h' : nucleus a' = nucleus i) : ∃ r, chargeExchange p.nm k ng a i a' i' (plasma A N T V : World ι) = .ok r := by
  have hd := plasma_reads (ι := ι) A N T V
  exact ⟨_, ok_bind (hd a).2.1 (ok_bind (hd a).2.2.2.2.1 (ok_bind (hd i').2.2.2.2.1 (ok_bind (assert1_of (by rw [h])) (ok_bind (hd i).2.1
    (ok_bind (hd i).2.2.2.2.1 (ok_bind (hd a').2.2.2.2.1 (ok_bind (assert1_of (by rw [h'])) (ok_bind (hd a).1 (ok_bind (hd i).1
    (ok_bind (hd a).2.2.1 (ok_bind (hd i).2.2.1 (ok_bind (hd i').2.2.1 (ok_bind (hd a').2.2.1 rfl)))))))))))))⟩

theorem plasma_adasCX (p : Params) (en : Entry) (A : Option String → ℝ) (N T V : String → ℝ) {a b a' b' : String} (h : nucleus a = nucleus a')
    (h' : nucleus b = nucleus b') : ∃ r, adasChargeExchange p.nm (p.rate en) "e" a b a' b' (plasma A N T V : World ι) = .ok r := by
  have hd := plasma_reads (ι := ι) A N T V
  exact ⟨_, ok_bind (hd a).2.2.2.2.1 (ok_bind (hd a').2.2.2.2.1 (ok_bind (assert1_of (by rw [h])) (ok_bind (hd b).2.2.2.2.1 (ok_bind (hd b').2.2.2.2.1
    (ok_bind (assert1_of (by rw [h'])) (ok_bind (hd "e").2.1 (ok_bind (hd "e").1 (ok_bind (hd a).1 (ok_bind (hd b).1
    (ok_bind (hd a).2.2.1 (ok_bind (hd a).2.1 (ok_bind (hd b).2.2.1 (ok_bind (hd b).2.1 rfl)))))))))))))⟩

theorem plasma_solkit (N' rho : ℝ) (A : Option String → ℝ) (N T V : String → ℝ) {a i : String} (h : nucleus a = nucleus i) :
    ∃ r, solkitChargeExchange N' rho a i (plasma A N T V : World ι) = .ok r := by
  have hd := plasma_reads (ι := ι) A N T V
  exact ⟨_, ok_bind (hd i).2.2.2.2.1 (ok_bind (hd a).2.2.2.2.1 (ok_bind (assert1_of (by rw [h])) (ok_bind (hd a).1 (ok_bind (hd i).1 rfl))))⟩

theorem ran {C : SourceComponent ι} {w : World ι} {cs : List (Contrib Key ι)} (h : C w = .ok cs) (hu : SourcesUnread w.st)
    {l : List String} (hk : KeysIn l [.density_source, .momentum_source, .energy_source, .collision_frequency] cs) : (C.transform w).1 = .ok () := by
  obtain ⟨st', h1, -⟩ := contributeAll_gain cs w.st _ _ hk (by simp) hu
  simp only [SourceComponent.transform, h, h1]

/-- The hypotheses of `reaction_follows_equation` are met by every equation: in a plasma that has all species every reaction runs. -/
theorem every_reaction_runs (p : Params) (A : Option String → ℝ) (N T V : String → ℝ) : ∀ x ∈ registry, create x.1 = some x.2 ∧
    SourcesUnread (plasma A N T V : World ι).st ∧ (∀ s, (plasma A N T V : World ι).chargeOr0 s = nameCharge s) ∧
    ((x.2.component p).transform (plasma A N T V : World ι)).1 = .ok () := by
  rintro ⟨text, en⟩ hx
  have hp := registry_pairs _ hx
  refine ⟨create_registered _ hx, plasma_unread (ι := ι) A N T V, fun _ => rfl, ?_⟩
  dsimp only at hp ⊢
  have hu := plasma_unread (ι := ι) A N T V
  have el : ∀ (heat : ℝ) (fr dst : String), nucleus fr = nucleus dst → (SourceComponent.transform (fun w => (electronReaction p.nm (p.rate en) (p.rad en)
      heat (p.rate_multiplier en) (p.radiation_multiplier en) "e" fr dst w).map (·.contribs)) (plasma A N T V : World ι)).1 = .ok () := by
    intro heat fr dst h
    obtain ⟨r, hr⟩ := plasma_electron (ι := ι) p en heat A N T V h
    have hc : (electronReaction p.nm (p.rate en) (p.rad en) heat (p.rate_multiplier en) (p.radiation_multiplier en) "e" fr dst
        (plasma A N T V : World ι)).map (·.contribs) = .ok r.contribs := by rw [hr]; rfl
    obtain ⟨Ne, Te, N1, T1, V1, V2, A, -, -, -, -, -, -, -, -, ev, -, rfl⟩ := electronReaction_ok hr
    refine ran hc hu (l := ["e", fr, dst]) ?_
    unfold electronReactionOf
    rcases ev with _ | ⟨Ve, Ae⟩ <;> split_ifs <;> simp
  have ad : ∀ (heat : ℝ) (fr dst : String), nucleus fr = nucleus dst → (SourceComponent.transform (fun w => (adasReaction p.nm (p.rate en) (p.rad en)
      heat "e" fr dst w).map (·.contribs)) (plasma A N T V : World ι)).1 = .ok () := by
    intro heat fr dst h
    obtain ⟨r, hr⟩ := plasma_adas (ι := ι) p en heat A N T V h
    have hc : (adasReaction p.nm (p.rate en) (p.rad en) heat "e" fr dst (plasma A N T V : World ι)).map (·.contribs) = .ok r.contribs := by rw [hr]; rfl
    obtain ⟨Ne, Te, N1, T1, V1, A, -, -, -, -, -, -, -, rfl⟩ := adasReaction_ok hr
    refine ran hc hu (l := ["e", fr, dst]) ?_
    unfold adasReactionOf
    split_ifs <;> simp
  cases en with
  | hydIonisation c => exact el _ _ _ (hp _ List.mem_cons_self)
  | hydRecombination c => exact el _ _ _ (hp _ List.mem_cons_self)
  | heIonisation => exact el _ _ _ (hp _ List.mem_cons_self)
  | heRecombination => exact el _ _ _ (hp _ List.mem_cons_self)
  | adasIonisation e k => exact ad _ _ _ (hp _ List.mem_cons_self)
  | adasRecombination e k => exact ad _ _ _ (hp _ List.mem_cons_self)
  | hydCX c d =>
    obtain ⟨r, hr⟩ := plasma_cx (ι := ι) p (p.rate_multiplier (.hydCX c d)) p.no_neutral_cx_mom_gain A N T V (hp _ List.mem_cons_self)
      (hp _ (List.mem_cons_of_mem _ List.mem_cons_self))
    have hc : (Entry.hydCX c d).component p (plasma A N T V : World ι) = .ok r.contribs := by
      simp only [Entry.component]; rw [hr]; rfl
    obtain ⟨Ta, Ti, na, ni, va1, vi1, va2, vi2, Aa, Ai, -, -, -, -, -, -, -, -, -, -, rfl, -⟩ := chargeExchange_ok hr
    refine ran hc hu (l := [atomName c, ionName d, ionName c, atomName d]) ?_
    unfold chargeExchangeOf
    split_ifs <;> simp
  | solkitCX c =>
    obtain ⟨r, hr⟩ := plasma_solkit (ι := ι) p.nm.N p.rho_s0 A N T V (hp _ List.mem_cons_self)
    obtain ⟨na, ni, A, -, -, -, -, rfl⟩ := solkit_ok hr
    exact ran (l := [atomName c, ionName c]) (C := (Entry.solkitCX c).component p) hr hu (by simp)
  | adasCX e k c =>
    obtain ⟨r, hr⟩ := plasma_adasCX (ι := ι) p (.adasCX e k c) A N T V (hp _ List.mem_cons_self) (hp _ (List.mem_cons_of_mem _ List.mem_cons_self))
    have hc : (Entry.adasCX e k c).component p (plasma A N T V : World ι) = .ok r.2 := by
      simp only [Entry.component]; rw [hr]; rfl
    obtain ⟨R, VA, TA, VB, TB, Na, Nb, Ne, Te, A, B, -, -, -, -, -, -, -, -, hR, rfl⟩ := adasCX_ok hr
    refine ran hc hu (l := [e.species (k + 1), atomName c, e.species k, ionName c]) ?_
    unfold adasTransfer
    simp

/-! ## The multipliers -/

theorem plasma_avg3 (A : Option String → ℝ) (N T V : String → ℝ) (f : ℝ → ℝ → ℝ → ℝ) (a b c : Fld ι) (i : ι) :
    (plasma A N T V : World ι).avg3 f a b c i = f (a i) (b i) (c i) := by
  have e : ∀ x : ℝ, 4 / 6 * x + (1 + 1) / (12 * 1) * x + (1 + 1) / (12 * 1) * x = x := by intro x; ring
  simpa [World.avg3, cellAverage, plasma, upwind] using e (f (a i) (b i) (c i))

/-- What a reaction with electrons does to the ions made and to the energy of electrons at rest, in a uniform plasma of density one. -/
theorem plasma_electron_gains (p : Params) (en : Entry) (heat : ℝ) (A : Option String → ℝ) (T : String → ℝ) {fr dst : String} (h : nucleus fr = nucleus dst)
    (h1 : fr ≠ "e") (h2 : dst ≠ "e") (h3 : fr ≠ dst) {C : SourceComponent ι}
    (hC : C = fun w => (electronReaction p.nm (p.rate en) (p.rad en) heat (p.rate_multiplier en) (p.radiation_multiplier en) "e" fr dst w).map (·.contribs)) (i : ι) :
    let w : World ι := plasma A (fun _ => 1) T fun _ => 0
    let R := p.rate en (T "e" * p.nm.T) p.nm.N * p.nm.N / p.nm.Freq * p.rate_multiplier en
    (C.transform w).1 = .ok () ∧ gain w.st (C.transform w).2 dst .density_source i = R ∧
    gain w.st (C.transform w).2 "e" .energy_source i =
      -(p.rad en (T "e" * p.nm.T) p.nm.N * p.nm.N / (p.nm.T * p.nm.Freq) * p.radiation_multiplier en - heat / p.nm.T * R * p.radiation_multiplier en) := by
  intro w R
  obtain ⟨r, hr⟩ := plasma_electron (ι := ι) p en heat A (fun _ => 1) T (fun _ => 0) h
  have hc : C w = .ok r.contribs := by
    rw [hC]
    show (electronReaction _ _ _ _ _ _ _ _ _ (plasma A (fun _ => 1) T fun _ => 0 : World ι)).map _ = _
    rw [hr]; rfl
  obtain ⟨Ne, Te, N1, T1, V1, V2, A', a1, a2, a3, -, -, -, -, -, ev, hev, rfl⟩ := electronReaction_ok hr
  have hk : KeysIn ["e", fr, dst] [.density_source, .momentum_source, .energy_source] (electronReactionOf p.nm (p.rate en) (p.rad en) heat
      (p.rate_multiplier en) (p.radiation_multiplier en) "e" fr dst (plasma A (fun _ => 1) T fun _ => 0 : World ι) Ne Te N1 T1 V1 V2 A'
      ((plasma A (fun _ => 1) T fun _ => 0 : World ι).chargeOr0 fr) ((plasma A (fun _ => 1) T fun _ => 0 : World ι).chargeOr0 dst) ev).contribs := by
    unfold electronReactionOf
    rcases ev with _ | ⟨Ve, Ae⟩ <;> split_ifs <;> simp
  obtain ⟨st', g1, -, g3⟩ := contributeAll_gain _ w.st _ _ hk (by simp) (plasma_unread _ _ _ _)
  have e : C.transform w = (.ok (), st') := by
    simp only [SourceComponent.transform, hc]; exact g1
  obtain rfl := Option.some.inj a1
  obtain rfl := Option.some.inj a2
  obtain rfl := Option.some.inj a3
  have hVe : ∀ Ve Ae, ev = some (Ve, Ae) → Ve i = 0 := by
    intro Ve Ae h
    unfold readElectronVelocity at hev
    split_ifs at hev
    · obtain ⟨Ve', h5, hev⟩ := bind_ok hev
      obtain ⟨Ae', h6, hev⟩ := bind_ok hev
      rw [h] at hev
      have h7 := Option.some.inj (Except.ok.inj hev)
      rw [← (Prod.mk.inj h7).1]
      rw [(plasma_reads (ι := ι) A (fun _ => 1) T (fun _ => 0) "e").2.2.1] at h5
      rw [← Except.ok.inj h5]
    · rw [h] at hev
      cases hev
  rw [e, g3, g3]
  refine ⟨rfl, ?_, ?_⟩
  · unfold electronReactionOf
    rcases ev with _ | ⟨Ve, Ae⟩ <;> split_ifs <;> simp [h1, h2, h3, h1.symm, h2.symm, h3.symm, plasma_avg3, R]
  · unfold electronReactionOf
    rcases ev with _ | ⟨Ve, Ae⟩
    · split_ifs <;> simp [h1, h2, h3, h1.symm, h2.symm, h3.symm, plasma_avg3, R]
    · have := hVe Ve Ae rfl
      split_ifs <;> simp [h1, h2, h3, h1.symm, h2.symm, h3.symm, plasma_avg3, R, this]

/-- Negation: the multiplier of the ionisation rate, `K_iz_multiplier`, does not scale the energy that ionisation costs.  With multiplier `0` no atom is
ionised, but the electrons lose as much energy as with multiplier `1`. -/
theorem ionisation_off_still_cools : ∃ p : Params, p.rate_multiplier (.hydIonisation 'd') = 0 ∧ create "d + e -> d+ + 2e" = some (.hydIonisation 'd') ∧
    let w : World (Fin 1) := plasma (fun _ => 2) (fun _ => 1) (fun _ => 1) fun _ => 0
    let t := ((Entry.hydIonisation 'd').component p).transform w
    t.1 = .ok () ∧ gain w.st t.2 "d+" .density_source 0 = 0 ∧ gain w.st t.2 "e" .energy_source 0 = -1 := by
  refine ⟨⟨⟨1, 1, 1⟩, 1, fun _ _ _ => 1, fun _ _ _ => 1, fun _ => 0, fun _ => 1, false⟩, rfl, by decide +kernel, ?_⟩
  obtain ⟨h1, h2, h3⟩ := plasma_electron_gains ⟨⟨1, 1, 1⟩, 1, fun _ _ _ => 1, fun _ _ _ => 1, fun _ => 0, fun _ => 1, false⟩ (.hydIonisation 'd') 0
    (fun _ => 2) (fun _ => 1) (fr := atomName 'd') (dst := ionName 'd') (by decide +kernel) (by decide +kernel) (by decide +kernel) (by decide +kernel) rfl (0 : Fin 1)
  refine ⟨h1, h2.trans (by norm_num), h3.trans (by norm_num)⟩

/-- Negation: the multiplier of the recombination radiation, `R_rec_multiplier`, also scales the potential energy given back to the electrons.  With
multiplier `0` ions recombine without heating the electrons. -/
theorem radiation_off_stops_heating : ∃ p : Params, p.radiation_multiplier (.hydRecombination 'd') = 0 ∧
    create "d+ + e -> d" = some (.hydRecombination 'd') ∧
    let w : World (Fin 1) := plasma (fun _ => 2) (fun _ => 1) (fun _ => 1) fun _ => 0
    let t := ((Entry.hydRecombination 'd').component p).transform w
    t.1 = .ok () ∧ gain w.st t.2 "d" .density_source 0 = 1 ∧ gain w.st t.2 "e" .energy_source 0 = 0 := by
  refine ⟨⟨⟨1, 1, 1⟩, 1, fun _ _ _ => 1, fun _ _ _ => 1, fun _ => 1, fun _ => 0, false⟩, rfl, by decide +kernel, ?_⟩
  obtain ⟨h1, h2, h3⟩ := plasma_electron_gains ⟨⟨1, 1, 1⟩, 1, fun _ _ _ => 1, fun _ _ _ => 1, fun _ => 1, fun _ => 0, false⟩ (.hydRecombination 'd') 13.6
    (fun _ => 2) (fun _ => 1) (fr := ionName 'd') (dst := atomName 'd') (by decide +kernel) (by decide +kernel) (by decide +kernel) (by decide +kernel) rfl (0 : Fin 1)
  refine ⟨h1, h2.trans (by norm_num), h3.trans (by norm_num)⟩

/-- A plasma in which reactions go forward. -/
example : Forward ⟨⟨1, 1, 1⟩, 1, fun _ _ _ => 1, fun _ _ _ => 0, fun _ => 1, fun _ => 1, false⟩ (plasma (fun _ => 2) (fun _ => 1) (fun _ => 1) fun _ => 0 : World (Fin 1)) where
  N := one_pos
  Freq := one_pos
  rate _ _ _ := zero_le_one
  mult _ := zero_le_one
  lim := Limiters.upwind_monotone
  J _ := one_pos
  pos := by
    rintro s f (h | h) i <;> (rw [← Option.some.inj h]; exact zero_le_one)

end Hermes.Registry
