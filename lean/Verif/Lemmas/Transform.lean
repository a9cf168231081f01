import Verif.Model.Transform
import Verif.Lemmas.Text
import Verif.Lemmas.Store

/-! # Helper lemmas about the `transform` component -/

namespace Hermes

/-- In a sorted association list: does the list contain key `k`? -/
def keys (m : List (Str × Str)) : List Str := m.map Prod.fst

theorem mem_mapInsert {l r : Str} {m : List (Str × Str)} {p : Str × Str} (h : p ∈ mapInsert l r m) :
    p = (l, r) ∨ p ∈ m := by
  induction m with
  | nil => simpa [mapInsert] using h
  | cons kv m ih =>
    obtain ⟨k, v⟩ := kv
    unfold mapInsert at h
    split at h
    · rcases List.mem_cons.1 h with h | h
      · exact Or.inl h
      · exact Or.inr (by simp [h])
    · split at h
      · rcases List.mem_cons.1 h with h | h
        · exact Or.inl h
        · exact Or.inr h
      · rcases List.mem_cons.1 h with h | h
        · exact Or.inr (by simp [h])
        · rcases ih h with h | h
          · exact Or.inl h
          · exact Or.inr (by simp [h])

/-- Inserting a new key adds exactly that pair. -/
theorem mapInsert_perm {l r : Str} {m : List (Str × Str)} (h : l ∉ keys m) :
    (mapInsert l r m).Perm ((l, r) :: m) := by
  induction m with
  | nil => simp [mapInsert]
  | cons kv m ih =>
    obtain ⟨k, v⟩ := kv
    have hk : ¬ l = k := by simp [keys] at h; exact h.1
    have hm : l ∉ keys m := by simp [keys] at h ⊢; exact h.2
    unfold mapInsert
    rw [if_neg hk]
    split
    · exact List.Perm.refl _
    · exact ((ih hm).cons _).trans (List.Perm.swap _ _ _)

theorem strLt_irrefl (a : Str) : strLt a a = false := by
  induction a with
  | nil => rfl
  | cons c a ih => simp [strLt, ih]

theorem strLt_trans {a b c : Str} (h1 : strLt a b = true) (h2 : strLt b c = true) :
    strLt a c = true := by
  induction a generalizing b c with
  | nil =>
    cases b with
    | nil => simp [strLt] at h1
    | cons y b => cases c with
      | nil => simp [strLt] at h2
      | cons z c => rfl
  | cons x a ih =>
    cases b with
    | nil => simp [strLt] at h1
    | cons y b => cases c with
      | nil => simp [strLt] at h2
      | cons z c =>
        unfold strLt at h1 h2 ⊢
        by_cases hxy : x = y
        · subst hxy
          by_cases hyz : x = z
          · subst hyz
            simp only [↓reduceIte] at h1 h2 ⊢
            exact ih h1 h2
          · simp only [hyz, ↓reduceIte] at h2 ⊢; exact h2
        · by_cases hyz : y = z
          · subst hyz
            simp only [hxy, ↓reduceIte] at h1 ⊢; exact h1
          · simp only [hxy, hyz, ↓reduceIte, decide_eq_true_eq] at h1 h2
            have hxz : x ≠ z := by rintro rfl; omega
            simp only [hxz, ↓reduceIte, decide_eq_true_eq]; omega

/-- Inserting a key larger than all present appends the pair. -/
theorem mapInsert_append {l r : Str} {m : List (Str × Str)} (h : ∀ k ∈ keys m, strLt k l = true) :
    mapInsert l r m = m ++ [(l, r)] := by
  induction m with
  | nil => rfl
  | cons kv m ih =>
    obtain ⟨k, v⟩ := kv
    have hkl : strLt k l = true := h k (by simp [keys])
    have hne : ¬ l = k := by rintro rfl; rw [strLt_irrefl] at hkl; simp at hkl
    have hnot : ¬ strLt l k = true := by
      intro hlk
      have := strLt_trans hlk hkl
      rw [strLt_irrefl] at this; simp at this
    unfold mapInsert
    rw [if_neg hne, if_neg hnot, ih (fun k' hk' => h k' (by simp [keys] at hk' ⊢; exact Or.inr hk'))]
    rfl

/-- Assignments none of whose sources is a target: every target receives the old entry of its
source, everything else stays. -/
theorem runTransforms_unchained {V : Type} (m : List (Str × Str)) (s : Store Str V)
    (hnd : (keys m).Nodup) (hun : ∀ p ∈ m, p.2 ∉ keys m) :
    ∃ s', runTransforms m s = (.ok (), s') ∧ s'.check = s.check ∧
      (∀ p ∈ m, s'.ent p.1 = s.ent p.2) ∧ (∀ k, k ∉ keys m → s'.ent k = s.ent k) := by
  induction m generalizing s with
  | nil => exact ⟨s, rfl, rfl, by simp, by simp⟩
  | cons p m ih =>
    obtain ⟨l, r⟩ := p
    have hl : l ∉ keys m := by
      have := hnd; simp only [keys, List.map_cons, List.nodup_cons] at this; exact this.1
    obtain ⟨s', h1, h2, h3, h4⟩ := ih (s.update l (s.ent r))
      (by have := hnd; simp only [keys, List.map_cons, List.nodup_cons] at this; exact this.2)
      (fun p hp hmem => hun p (by simp [hp]) (by simp only [keys, List.map_cons, List.mem_cons]; exact Or.inr hmem))
    refine ⟨s', ?_, h2, ?_, ?_⟩
    · show M.bind _ _ s = _
      simp only [M.bind, copyEntry]; exact h1
    · intro p hp
      rcases List.mem_cons.1 hp with rfl | hp
      · rw [h4 l hl]; simp
      · rw [h3 p hp]
        have : p.2 ≠ l := fun e => hun p (by simp [hp]) (by simp [keys, e])
        simp [this]
    · intro k hk
      simp only [keys, List.map_cons, List.mem_cons, not_or] at hk
      rw [h4 k hk.2]; simp [hk.1]

end Hermes
