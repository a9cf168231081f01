import Verif.Lemmas.Transform
import Verif.Props.Scheduler

/-!
# C06 — the `transform` component
-/

set_option linter.unusedSimpArgs false

namespace Hermes.TransformComp

open Hermes.Scheduler (Item Layout)

/-- One `left = right` entry as a user may lay it out. -/
structure EntryText where
  left : Item
  right : Item

def Item.text (i : Item) : List Char := i.before ++ i.name ++ i.after

/-- Legal entry: padding made of blanks, tabs, CR, brackets; non-empty names without comma and `=`
that neither start nor end with padding characters. -/
structure EntryText.Legal (e : EntryText) : Prop where
  left : e.left.Legal
  right : e.right.Legal
  leftEq : '=' ∉ e.left.name
  rightEq : '=' ∉ e.right.name
  leftNe : e.left.name ≠ []
  rightNe : e.right.name ≠ []

def EntryText.text (e : EntryText) : List Char := Item.text e.left ++ '=' :: Item.text e.right

/-- The text of the `transforms` option. -/
def render (es : List EntryText) : List Char := [','].intercalate (es.map EntryText.text)

/-- The listed assignments. -/
def assignments (es : List EntryText) : List (Str × Str) := es.map fun e => (e.left.name, e.right.name)

/-! ## Helpers -/

private theorem layout_trim (c : Char) : isTrimChar c = true ↔ Layout c := by
  simp [isTrimChar, Layout, or_assoc]

private theorem trim_core (a m b : List Char) (ha : ∀ c ∈ a, Layout c) (hb : ∀ c ∈ b, Layout c)
    (hh : ∀ c, m.head? = some c → ¬ Layout c) (hl : ∀ c, m.getLast? = some c → ¬ Layout c) :
    trim (a ++ m ++ b) = m := by
  rw [trim_eq]
  have ha' : ∀ c ∈ a, isTrimChar c = true := fun c hc => (layout_trim c).2 (ha c hc)
  have hb' : ∀ c ∈ b, isTrimChar c = true := fun c hc => (layout_trim c).2 (hb c hc)
  have hrb : ∀ l : List Char, (l ++ b).rdropWhile isTrimChar = l.rdropWhile isTrimChar := by
    intro l
    unfold List.rdropWhile
    rw [List.reverse_append, List.dropWhile_append_of_pos (by simpa using hb')]
  rw [List.append_assoc, List.dropWhile_append_of_pos ha']
  cases m with
  | nil =>
    have : b.dropWhile isTrimChar = [] := List.dropWhile_eq_nil_iff.2 hb'
    simp [this]
  | cons c cs =>
    have hc : ¬ isTrimChar c = true := by rw [layout_trim]; exact hh c rfl
    rw [List.cons_append, List.dropWhile_cons_of_neg hc, ← List.cons_append, hrb]
    rw [List.rdropWhile_eq_self_iff]
    intro hne
    rw [layout_trim]
    exact hl _ (List.getLast?_eq_getLast_of_ne_nil hne)

private theorem trim_item {i : Item} (h : i.Legal) : trim (Item.text i) = i.name :=
  trim_core _ _ _ h.before h.after h.head h.last

private theorem not_mem_item {i : Item} (h : i.Legal) {c : Char} (hc : ¬ Layout c) (hn : c ∉ i.name) :
    c ∉ Item.text i := by
  unfold Item.text
  simp only [List.mem_append, not_or]
  exact ⟨⟨fun hb => hc (h.before _ hb), hn⟩, fun ha => hc (h.after _ ha)⟩

private theorem comma_not_layout : ¬ Layout ',' := by decide
private theorem eq_not_layout : ¬ Layout '=' := by decide

private theorem split_entry {e : EntryText} (h : e.Legal) :
    strsplit '=' e.text = [Item.text e.left, Item.text e.right] := by
  unfold EntryText.text
  rw [strsplit_append _ _ _ (not_mem_item h.left eq_not_layout h.leftEq),
    strsplit_no_delim _ _ (not_mem_item h.right eq_not_layout h.rightEq), if_neg]
  intro h0
  unfold Item.text at h0
  simp only [List.append_eq_nil_iff] at h0
  exact h.rightNe h0.1.2

private theorem comma_not_mem {e : EntryText} (h : e.Legal) : ',' ∉ e.text := by
  unfold EntryText.text
  simp only [List.mem_append, List.mem_cons, not_or]
  exact ⟨not_mem_item h.left comma_not_layout h.left.comma, by decide,
    not_mem_item h.right comma_not_layout h.right.comma⟩

private theorem text_ne_nil (e : EntryText) : e.text ≠ [] := by simp [EntryText.text]

private theorem strsplit_render (es : List EntryText) (h : ∀ e ∈ es, e.Legal) :
    strsplit ',' (render es) = es.map EntryText.text := by
  induction es with
  | nil => rfl
  | cons e es ih =>
    have he := h e (by simp)
    cases es with
    | nil =>
      simp only [render, List.map_cons, List.map_nil, List.intercalate, List.intersperse, List.flatten_cons,
        List.flatten_nil, List.append_nil]
      rw [strsplit_no_delim _ _ (comma_not_mem he), if_neg (text_ne_nil e)]
    | cons e' es =>
      have hr : render (e :: e' :: es) = e.text ++ ',' :: render (e' :: es) := by
        simp [render, List.intercalate, List.intersperse]
      rw [hr, strsplit_append _ _ _ (comma_not_mem he), ih (fun x hx => h x (by simp [hx]))]
      rfl

private theorem parseEntries_render (es : List EntryText) (h : ∀ e ∈ es, e.Legal) (m : List (Str × Str)) :
    parseEntries (es.map EntryText.text) m
      = some ((assignments es).foldl (fun m p => mapInsert p.1 p.2 m) m) := by
  induction es generalizing m with
  | nil => rfl
  | cons e es ih =>
    have he := h e (by simp)
    simp only [List.map_cons, parseEntries, split_entry he, trim_item he.left, trim_item he.right,
      assignments, List.foldl_cons]
    exact ih (fun x hx => h x (by simp [hx])) _

/-- Trimming the whole text only removes the padding before the first and after the last name. -/
private theorem trim_render (es : List EntryText) (h : ∀ e ∈ es, e.Legal) :
    ∃ es', trim (render es) = render es' ∧ (∀ e ∈ es', e.Legal) ∧ assignments es' = assignments es := by
  by_cases hne : es = []
  · subst hne; exact ⟨[], by rfl, by simp, rfl⟩
  -- remove padding at the end
  obtain ⟨e, es, rfl⟩ := List.exists_cons_of_ne_nil hne
  let e1 : EntryText := { e with left := { e.left with before := [] } }
  have he := h e (by simp)
  have he1 : e1.Legal := { he with left := { he.left with before := by simp [e1] } }
  have hall1 : ∀ x ∈ e1 :: es, x.Legal := by
    intro x hx
    rcases List.mem_cons.1 hx with rfl | hx
    · exact he1
    · exact h x (by simp [hx])
  have hr1 : render (e :: es) = e.left.before ++ render (e1 :: es) := by
    unfold render
    cases es with
    | nil => simp [List.intercalate, List.intersperse, EntryText.text, Item.text, e1]
    | cons a as => simp [List.intercalate, List.intersperse, EntryText.text, Item.text, e1]
  have hne1 : (e1 :: es) ≠ [] := by simp
  obtain ⟨f, x, hfx⟩ : ∃ f x, e1 :: es = f ++ [x] :=
    ⟨(e1 :: es).dropLast, (e1 :: es).getLast hne1, (List.dropLast_append_getLast hne1).symm⟩
  let x1 : EntryText := { x with right := { x.right with after := [] } }
  have hx : x.Legal := hall1 x (by rw [hfx]; simp)
  have hx1 : x1.Legal := { hx with right := { hx.right with after := by simp [x1] } }
  have hr2 : render (f ++ [x]) = render (f ++ [x1]) ++ x.right.after := by
    unfold render
    rw [List.map_append, List.map_append]
    generalize f.map EntryText.text = g
    induction g with
    | nil => simp [List.intercalate, List.intersperse, EntryText.text, Item.text, x1]
    | cons a as ih =>
      cases as with
      | nil =>
        simp [List.intercalate, List.intersperse, EntryText.text, Item.text, x1]
      | cons b bs =>
        simp only [List.intercalate, List.cons_append, List.intersperse, List.flatten_cons,
          List.append_assoc] at ih ⊢
        rw [ih]
  -- the remaining text
  have hlast : ∀ c, (render (f ++ [x1])).getLast? = some c → ¬ Layout c := by
    have : ∃ t, render (f ++ [x1]) = t ++ x.right.name := by
      unfold render
      rw [List.map_append]
      generalize f.map EntryText.text = g
      induction g with
      | nil =>
        exact ⟨Item.text x.left ++ '=' :: x.right.before, by
          simp [List.intercalate, List.intersperse, EntryText.text, Item.text, x1]⟩
      | cons a as ih =>
        obtain ⟨t, ht⟩ := ih
        cases as with
        | nil =>
          refine ⟨a ++ ',' :: (Item.text x.left ++ '=' :: x.right.before), ?_⟩
          simp [List.intercalate, List.intersperse, EntryText.text, Item.text, x1]
        | cons b bs =>
          refine ⟨a ++ ',' :: t, ?_⟩
          simp only [List.intercalate, List.cons_append, List.intersperse, List.flatten_cons,
            List.append_assoc] at ht ⊢
          rw [ht]; simp
    obtain ⟨t, ht⟩ := this
    intro c hc
    rw [ht, List.getLast?_append_of_ne_nil _ hx.rightNe] at hc
    exact hx.right.last c hc
  have hhead : ∀ c, (render (f ++ [x1])).head? = some c → ¬ Layout c := by
    -- the head comes from the left name of the first entry
    have hrest : ∃ t, render (f ++ [x1]) = e.left.name ++ t := by
      cases f with
      | nil =>
        simp only [List.nil_append, List.cons.injEq] at hfx
        refine ⟨e.left.after ++ '=' :: (x.right.before ++ x.right.name), ?_⟩
        have : x = e1 := hfx.1.symm
        simp [render, List.intercalate, List.intersperse, EntryText.text, Item.text, x1, this, e1]
      | cons a as =>
        simp only [List.cons_append, List.cons.injEq] at hfx
        have ha : a = e1 := hfx.1.symm
        cases as with
        | nil =>
          exact ⟨_, by
            simp only [List.cons_append, List.nil_append, render, List.map_cons, List.map_nil, List.intercalate,
              List.intersperse, List.flatten_cons, ha, EntryText.text, Item.text, e1, List.append_assoc]; rfl⟩
        | cons b bs =>
          exact ⟨_, by
            simp only [List.cons_append, render, List.map_cons, List.map_append, List.intercalate,
              List.intersperse, List.flatten_cons, ha, EntryText.text, Item.text, e1, List.nil_append,
              List.append_assoc]; rfl⟩
    obtain ⟨t, ht⟩ := hrest
    intro c hc
    rw [ht, List.head?_append_of_ne_nil _ he.leftNe] at hc
    exact he.left.head c hc
  refine ⟨f ++ [x1], ?_, ?_, ?_⟩
  · rw [hr1, hfx, hr2, ← List.append_assoc]
    exact trim_core _ _ _ he.left.before hx.right.after hhead hlast
  · intro y hy
    rcases List.mem_append.1 hy with hy | hy
    · exact hall1 y (by rw [hfx]; simp [hy])
    · have : y = x1 := by simpa using hy
      rw [this]; exact hx1
  · have h1 : assignments (f ++ [x1]) = assignments (f ++ [x]) := by simp [assignments, x1]
    rw [h1, ← hfx]; simp [assignments, e1]

private theorem parse_render (es : List EntryText) (h : ∀ e ∈ es, e.Legal) :
    parseTransforms (render es) = some ((assignments es).foldl (fun m p => mapInsert p.1 p.2 m) []) := by
  obtain ⟨es', h1, h2, h3⟩ := trim_render es h
  unfold parseTransforms
  rw [h1, strsplit_render es' h2, parseEntries_render es' h2, h3]

private theorem foldl_perm (as m : List (Str × Str)) (hnd : (keys (as ++ m)).Nodup) :
    (as.foldl (fun m p => mapInsert p.1 p.2 m) m).Perm (as ++ m) := by
  induction as generalizing m with
  | nil => simp
  | cons p as ih =>
    have hp : p.1 ∉ keys m := by
      simp only [keys, List.cons_append, List.map_cons, List.nodup_cons, List.map_append, List.mem_append,
        not_or] at hnd
      exact hnd.1.2
    have hperm := mapInsert_perm (r := p.2) hp
    have hnd' : (keys (as ++ mapInsert p.1 p.2 m)).Nodup := by
      have hp2 : (as ++ mapInsert p.1 p.2 m).Perm (p :: (as ++ m)) :=
        ((List.Perm.append_left as hperm).trans List.perm_middle)
      exact ((hp2.map Prod.fst).nodup_iff).2 (by simpa [keys] using hnd)
    refine (ih _ hnd').trans ?_
    exact (List.Perm.append_left as hperm).trans List.perm_middle

/-! ## C06 -/

/-- C06, partial: when the left-hand sides are distinct and no entry reads what another (or itself)
writes, then after the component has run every left-hand side holds what its right-hand side held, and
nothing else has changed.  (Missing: chained entries, for which the listed order is not respected, see
`listed_order_not_respected`.) -/
theorem copies_partial {V : Type} (es : List EntryText) (hl : ∀ e ∈ es, e.Legal)
    (hnd : (es.map fun e => e.left.name).Nodup)
    (hun : ∀ e ∈ es, ∀ e' ∈ es, e.right.name ≠ e'.left.name) (s : Store Str V) :
    ∃ m s', parseTransforms (render es) = some m ∧ runTransforms m s = (.ok (), s') ∧
      (∀ e ∈ es, (s'.ent e.left.name).val = (s.ent e.right.name).val) ∧
      (∀ k, (∀ e ∈ es, k ≠ e.left.name) → s'.ent k = s.ent k) := by
  refine ⟨(assignments es).foldl (fun m p => mapInsert p.1 p.2 m) [], ?_⟩
  have hperm := foldl_perm (assignments es) [] (by
    simpa [keys, assignments, Function.comp_def] using hnd)
  rw [List.append_nil] at hperm
  have hk : (keys ((assignments es).foldl (fun m p => mapInsert p.1 p.2 m) [])).Perm
      (es.map fun e => e.left.name) := by
    have := hperm.map Prod.fst
    simpa [keys, assignments, Function.comp_def] using this
  obtain ⟨s', h1, -, h3, h4⟩ := runTransforms_unchained _ s (hk.nodup_iff.2 hnd) (by
    intro p hp hmem
    obtain ⟨e, he, rfl⟩ := List.mem_map.1 (hperm.mem_iff.1 hp)
    obtain ⟨e', he', heq⟩ := List.mem_map.1 (hk.mem_iff.1 hmem)
    exact hun e he e' he' heq.symm)
  refine ⟨s', parse_render es hl, h1, ?_, ?_⟩
  · intro e he
    have := h3 (e.left.name, e.right.name) (hperm.mem_iff.2 (List.mem_map.2 ⟨e, he, rfl⟩))
    simp only at this
    rw [this]
  · intro k hk'
    apply h4
    intro hmem
    obtain ⟨e, he, heq⟩ := List.mem_map.1 (hk.mem_iff.1 hmem)
    exact hk' e he heq.symm

/-- Sequential meaning of a list of assignments in the order given. -/
def inOrder {V : Type} : List (Str × Str) → (Str → Option V) → Str → Option V
  | [], env => env
  | (l, r) :: as, env => inOrder as fun k => if k = l then env r else env k

/-- C06, partial: when the entries are listed in increasing order of their left-hand sides, the listed
order is followed, chains included. -/
theorem sorted_entries_in_order_partial {V : Type} (es : List EntryText) (hl : ∀ e ∈ es, e.Legal)
    (hsorted : (es.map fun e => e.left.name).Pairwise fun a b => strLt a b = true) (s : Store Str V) :
    ∃ m s', parseTransforms (render es) = some m ∧ runTransforms m s = (.ok (), s') ∧
      ∀ k, (s'.ent k).val = inOrder (assignments es) (fun k => (s.ent k).val) k := by
  have hfold : ∀ (as m : List (Str × Str)), (keys (m ++ as)).Pairwise (fun a b => strLt a b = true) →
      as.foldl (fun m p => mapInsert p.1 p.2 m) m = m ++ as := by
    intro as
    induction as with
    | nil => intro m _; simp
    | cons p as ih =>
      intro m h
      have h1 : ∀ k ∈ keys m, strLt k p.1 = true := by
        intro k hk
        simp only [keys, List.map_append, List.map_cons, List.pairwise_append] at h
        exact h.2.2 k hk p.1 (by simp)
      rw [List.foldl_cons, mapInsert_append h1, ih _ (by simpa using h)]
      simp
  have hrun : ∀ (as : List (Str × Str)) (s : Store Str V), ∃ s', runTransforms as s = (.ok (), s') ∧
      ∀ k, (s'.ent k).val = inOrder as (fun k => (s.ent k).val) k := by
    intro as
    induction as with
    | nil => intro s; exact ⟨s, rfl, fun _ => rfl⟩
    | cons p as ih =>
      intro s
      obtain ⟨l, r⟩ := p
      obtain ⟨s', h1, h2⟩ := ih (s.update l (s.ent r))
      refine ⟨s', by show M.bind _ _ s = _; simp only [M.bind, copyEntry]; exact h1, fun k => ?_⟩
      rw [h2 k]
      have : (fun k => ((s.update l (s.ent r)).ent k).val)
          = fun k => if k = l then (s.ent r).val else (s.ent k).val := by
        funext k'; rw [update_ent]; split <;> rfl
      rw [this]; rfl
  obtain ⟨s', h1, h2⟩ := hrun (assignments es) s
  refine ⟨assignments es, s', ?_, h1, h2⟩
  rw [parse_render es hl, hfold (assignments es) [] (by
    simpa [keys, assignments, Function.comp_def] using hsorted)]
  simp

/-- C06, negation: with the text `"b=a,a=c"` the entries are not carried out in the listed order: `b`
ends up with the old value of `c`, not of `a` (the `std::map` runs `a=c` first). -/
theorem listed_order_not_respected :
    ∃ (es : List EntryText) (s s' : Store Str ℕ) (m : List (Str × Str)), (∀ e ∈ es, e.Legal) ∧
      parseTransforms (render es) = some m ∧ runTransforms m s = (.ok (), s') ∧
      ∃ k, (s'.ent k).val ≠ inOrder (assignments es) (fun k => (s.ent k).val) k := by
  refine ⟨[⟨⟨[], ['b'], []⟩, ⟨[], ['a'], []⟩⟩, ⟨⟨[], ['a'], []⟩, ⟨[], ['c'], []⟩⟩],
    ⟨true, fun k => if k = ['a'] then { val := some 1 } else if k = ['c'] then { val := some 3 } else {}⟩,
    _, [(['a'], ['c']), (['b'], ['a'])], ?_, by decide, rfl, ['b'], ?_⟩
  · intro e he
    simp only [List.mem_cons, List.not_mem_nil, or_false] at he
    rcases he with rfl | rfl <;>
      refine ⟨⟨?_, ?_, ?_, ?_, ?_⟩, ⟨?_, ?_, ?_, ?_, ?_⟩, ?_, ?_, ?_, ?_⟩ <;> simp [Layout]
  · simp [inOrder, assignments, Store.update]

/-- C06.  An entry without `=`, or with three or more, makes the constructor throw, whatever the other
entries are. -/
theorem malformed_rejected (entries : List (List Char)) (e : List Char) (he : e ∈ entries)
    (hcount : e.count '=' = 0 ∨ 3 ≤ e.count '=') (m : List (Str × Str)) :
    parseEntries entries m = none := by
  induction entries generalizing m with
  | nil => simp at he
  | cons x xs ih =>
    rcases List.mem_cons.1 he with rfl | he
    · unfold parseEntries
      have hlen : (strsplit '=' e).length ≠ 2 := by
        rw [strsplit_length]; split <;> omega
      split
      · rename_i heq; rw [heq] at hlen; simp at hlen
      · rfl
    · unfold parseEntries
      split
      · exact ih he _
      · rfl

/-- C06, negation: an entry with two `=` is not always rejected: `"a=b="` is accepted (BOUT++'s
`strsplit` drops the empty last piece). -/
theorem two_equals_accepted : parseTransforms "a=b=".toList = some [(['a'], ['b'])] := by decide

/-- Non-vacuity: `"( a = x ,b=y)"` is a legal rendering of two unchained entries. -/
example : ∃ es : List EntryText, render es = "( a = x ,b=y)".toList ∧ (∀ e ∈ es, e.Legal) ∧
    (es.map fun e => e.left.name).Nodup ∧ (∀ e ∈ es, ∀ e' ∈ es, e.right.name ≠ e'.left.name) := by
  refine ⟨[⟨⟨['(', ' '], ['a'], [' ']⟩, ⟨[' '], ['x'], [' ']⟩⟩, ⟨⟨[], ['b'], []⟩, ⟨[], ['y'], [')']⟩⟩],
    by decide, ?_, by decide, by decide⟩
  intro e he
  simp only [List.mem_cons, List.not_mem_nil, or_false] at he
  rcases he with rfl | rfl <;>
    refine ⟨⟨?_, ?_, ?_, ?_, ?_⟩, ⟨?_, ?_, ?_, ?_, ?_⟩, ?_, ?_, ?_, ?_⟩ <;> simp [Layout]

end Hermes.TransformComp
