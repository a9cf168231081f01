import Verif.Model.Text
import Mathlib.Data.List.DropRight

/-! # Helper lemmas about splitting and trimming -/

namespace Hermes

theorem trimLeft_eq (s : Str) : trimLeft s = s.dropWhile isTrimChar := by
  induction s with
  | nil => rfl
  | cons c cs ih =>
    unfold trimLeft
    by_cases h : isTrimChar c = true <;> simp [h, ih]

theorem dropWhile_rdropWhile_comm (p : Char → Bool) (s : Str) :
    (s.rdropWhile p).dropWhile p = (s.dropWhile p).rdropWhile p := by
  by_cases h : ∀ c ∈ s, p c = true
  · have h1 : s.dropWhile p = [] := List.dropWhile_eq_nil_iff.2 h
    have h2 : s.rdropWhile p = [] := by
      rw [List.rdropWhile_eq_nil_iff]; exact h
    simp [h1, h2]
  · induction s with
    | nil => simp
    | cons a s ih =>
      by_cases ha : p a = true
      · have hs : ¬ ∀ c ∈ s, p c = true := by
          intro hs; apply h; intro c hc
          rcases List.mem_cons.1 hc with rfl | hc
          · exact ha
          · exact hs c hc
        have : (a :: s).rdropWhile p = a :: s.rdropWhile p := by
          have hne : ¬ (List.dropWhile p s.reverse = []) := by
            rw [List.dropWhile_eq_nil_iff]; simpa using hs
          unfold List.rdropWhile
          rw [List.reverse_cons, List.dropWhile_append]
          simp [hne]
        rw [this, List.dropWhile_cons_of_pos ha, List.dropWhile_cons_of_pos ha]
        exact ih hs
      · have : (a :: s).rdropWhile p = a :: s.rdropWhile p := by
          unfold List.rdropWhile
          rw [List.reverse_cons, List.dropWhile_append]
          split
          · rename_i he
            have he' : List.dropWhile p s.reverse = [] := by simpa using he
            simp [ha, he']
          · simp
        rw [this, List.dropWhile_cons_of_neg ha, List.dropWhile_cons_of_neg ha, this]

theorem trim_eq (s : Str) : trim s = (s.dropWhile isTrimChar).rdropWhile isTrimChar := by
  rw [← dropWhile_rdropWhile_comm]
  unfold trim List.rdropWhile
  simp only [trimLeft_eq]

theorem strsplit_cons_delim (d : Char) (s : Str) : strsplit d (d :: s) = [] :: strsplit d s := by
  simp [strsplit]

theorem strsplit_append (d : Char) (a s : Str) (h : d ∉ a) :
    strsplit d (a ++ d :: s) = a :: strsplit d s := by
  induction a with
  | nil => simp [strsplit]
  | cons c a ih =>
    have hc : ¬ c = d := fun e => h (by simp [e])
    have := ih (fun hm => h (by simp [hm]))
    simp [strsplit, hc, this]

theorem strsplit_no_delim (d : Char) (a : Str) (h : d ∉ a) :
    strsplit d a = if a = [] then [] else [a] := by
  induction a with
  | nil => simp [strsplit]
  | cons c a ih =>
    have hc : ¬ c = d := fun e => h (by simp [e])
    have := ih (fun hm => h (by simp [hm]))
    simp only [strsplit, hc, this]
    by_cases ha : a = []
    · simp [ha]
    · simp [ha]

/-- `strsplit` is `splitOn` without a trailing empty piece. -/
theorem strsplit_eq_splitOn (d : Char) (s : Str) :
    strsplit d s = if (s.splitOn d).getLast? = some [] then (s.splitOn d).dropLast else s.splitOn d := by
  induction s with
  | nil => simp [strsplit]
  | cons c cs ih =>
    by_cases hc : c = d
    · subst hc
      have hs : (c :: cs).splitOn c = [] :: cs.splitOn c := by
        rw [List.splitOn_cons_eq_if_modifyHead]; simp
      rw [strsplit_cons_delim, hs, ih]
      have hne : cs.splitOn c ≠ [] := List.splitOn_ne_nil c cs
      obtain ⟨p, ps, hp⟩ := List.exists_cons_of_ne_nil hne
      rw [hp]
      simp only [List.getLast?_cons_cons, List.dropLast_cons_cons]
      split <;> rfl
    · have hs : (c :: cs).splitOn d = (cs.splitOn d).modifyHead (c :: ·) := by
        rw [List.splitOn_cons_eq_if_modifyHead]; simp [hc]
      have hne : cs.splitOn d ≠ [] := List.splitOn_ne_nil d cs
      obtain ⟨p, ps, hp⟩ := List.exists_cons_of_ne_nil hne
      rw [hs]
      rw [hp] at ih ⊢
      simp only [strsplit, hc, if_false, ih, List.modifyHead_cons]
      cases ps with
      | nil => cases p <;> simp
      | cons q qs =>
        simp only [List.getLast?_cons_cons, List.dropLast_cons_cons]
        by_cases hl : (q :: qs).getLast? = some [] <;> simp [hl]

/-- Number of items produced by `strsplit`. -/
theorem strsplit_length (d : Char) (s : Str) :
    (strsplit d s).length = s.count d + if s = [] ∨ s.getLast? = some d then 0 else 1 := by
  induction s with
  | nil => simp [strsplit]
  | cons c cs ih =>
    by_cases hc : c = d
    · subst hc
      rw [strsplit_cons_delim, List.length_cons, ih, List.count_cons_self]
      cases cs with
      | nil => simp
      | cons a as => simp only [List.getLast?_cons_cons, reduceCtorEq, false_or]; omega
    · simp only [strsplit, hc, if_false]
      rw [List.count_cons_of_ne hc]
      cases hcs : cs with
      | nil => simp [strsplit, hc]
      | cons a as =>
        rw [← hcs]
        have hne : strsplit d cs ≠ [] := by
          rw [hcs]; unfold strsplit
          split
          · simp
          · split <;> simp
        obtain ⟨p, ps, hp⟩ := List.exists_cons_of_ne_nil hne
        rw [hp] at ih ⊢
        simp only [List.length_cons] at ih ⊢
        rw [ih, hcs]
        simp only [List.getLast?_cons_cons, reduceCtorEq, false_or]

end Hermes
