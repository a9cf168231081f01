import Verif.Props.SheathClosure
import Mathlib.Tactic.Positivity

/-!
# Scaling of time derivatives (C53)
-/

set_option linter.unusedSectionVars false
set_option linter.unusedVariables false

namespace Hermes.ScaleDerivs
open Hermes.Closures Hermes.SheathClosure

variable {ι : Type} [DecidableEq ι]

theorem foldl_max_ge (dt : ι → ℝ) (l : List ι) (a : ℝ) :
    a ≤ l.foldl (fun a j => max a (dt j)) a ∧ (∀ j ∈ l, dt j ≤ l.foldl (fun a j => max a (dt j)) a) ∧
    (l.foldl (fun a j => max a (dt j)) a = a ∨ ∃ j ∈ l, dt j = l.foldl (fun a j => max a (dt j)) a) := by
  induction l generalizing a with
  | nil => exact ⟨le_refl _, by simp, Or.inl rfl⟩
  | cons x l ih =>
    obtain ⟨h1, h2, h3⟩ := ih (max a (dt x))
    rw [List.foldl_cons]
    refine ⟨(le_max_left _ _).trans h1, ?_, ?_⟩
    · intro j hj
      rcases List.mem_cons.1 hj with rfl | hj
      · exact (le_max_right _ _).trans h1
      · exact h2 j hj
    · rcases h3 with h3 | ⟨j, hj, h3⟩
      · rcases le_total (dt x) (a) with hx | hx
        · left; rw [h3, max_eq_left hx]
        · right; exact ⟨x, List.mem_cons_self, by rw [h3, max_eq_right hx]⟩
      · right; exact ⟨j, List.mem_cons_of_mem _ hj, h3⟩

theorem floorTo_eq_max (x f : ℝ) : floorTo x f = max x f := by
  unfold floorTo
  split
  · rename_i h; rw [max_eq_right h.le]
  · rename_i h; rw [max_eq_left (not_lt.1 h)]

theorem parallelTime_pos {g_22 dy Te : Fld ι} {i : ι} (hg : 0 < g_22 i) (hd : dy i ≠ 0) : 0 < parallelTime g_22 dy Te i := by
  have h1 : (0 : ℝ) < floorTo (Te i) 1e-5 := lt_of_lt_of_le (by norm_num) (floorTo_ge (Te i) (1e-5 : ℝ))
  have h2 : 0 < dy i ^ 2 := by positivity
  unfold parallelTime
  have h3 := Real.rpow_pos_of_pos h1 (5 / 2)
  positivity

/-- What the component does. -/
theorem scale_ok {g_22 dy : Fld ι} {first : ι} {rest : List ι} {st st' : Store Key (Value ι)}
    (h : scaleTimeDerivs g_22 dy first rest st = (.ok (), st')) :
    vals st' (.top "scale_timederivs") = some (.field (scalingOf first rest (parallelTime g_22 dy (fieldOf st "e" .temperature)))) ∧
    ∀ k, k ≠ .top "scale_timederivs" → vals st' k = vals st k := by
  unfold scaleTimeDerivs at h
  obtain ⟨s1, e1, h⟩ := getF_bind h
  cases h
  refine ⟨by simp [vals, Store.force], fun k hk => ?_⟩
  rw [← e1]
  simp [vals, Store.force, hk]

/-- The scaling that the tree holds. -/
def scaling (st : Store Key (Value ι)) : Fld ι := topField st "scale_timederivs"

/-- **C53.**  On every mesh with `g_22 > 0`, for every temperature (also negative), the scaling is in `(0, 1]` in every cell of the
domain and is 1 in some cell. -/
theorem scaling_range {g_22 dy : Fld ι} {first : ι} {rest : List ι} {st st' : Store Key (Value ι)}
    (h : scaleTimeDerivs g_22 dy first rest st = (.ok (), st')) (hg : ∀ i ∈ first :: rest, 0 < g_22 i) (hd : ∀ i ∈ first :: rest, dy i ≠ 0) :
    (∀ i ∈ first :: rest, 0 < scaling st' i ∧ scaling st' i ≤ 1) ∧ ∃ i ∈ first :: rest, scaling st' i = 1 := by
  obtain ⟨h1, -⟩ := scale_ok h
  have hs : scaling st' = scalingOf first rest (parallelTime g_22 dy (fieldOf st "e" .temperature)) := by
    unfold scaling topField
    rw [h1]
    rfl
  rw [hs]
  have hpos : ∀ i ∈ first :: rest, 0 < parallelTime g_22 dy (fieldOf st "e" .temperature) i :=
    fun i hi => parallelTime_pos (hg i hi) (hd i hi)
  generalize parallelTime g_22 dy (fieldOf st "e" .temperature) = dt at hpos
  obtain ⟨m1, m2, m3⟩ := foldl_max_ge dt rest (dt first)
  unfold scalingOf
  have h0 := hpos first List.mem_cons_self
  generalize rest.foldl (fun a j => max a (dt j)) (dt first) = M at m1 m2 m3
  have hM : 0 < M := by linarith
  refine ⟨fun i hi => ?_, ?_⟩
  · refine ⟨div_pos (hpos i hi) hM, (div_le_one hM).2 ?_⟩
    rcases List.mem_cons.1 hi with rfl | hi
    · exact m1
    · exact m2 i hi
  · rcases m3 with m3 | ⟨j, hj, m3⟩
    · exact ⟨first, List.mem_cons_self, by rw [m3]; exact div_self h0.ne'⟩
    · exact ⟨j, List.mem_cons_of_mem _ hj, by rw [m3]; exact div_self hM.ne'⟩

/-- Cells with the same metric: the hottest has the smallest factor. -/
theorem hotter_is_slower {g_22 dy : Fld ι} {first : ι} {rest : List ι} {st st' : Store Key (Value ι)}
    (h : scaleTimeDerivs g_22 dy first rest st = (.ok (), st')) (hg : ∀ i ∈ first :: rest, 0 < g_22 i) (hd : ∀ i ∈ first :: rest, dy i ≠ 0)
    {i j : ι} (hi : i ∈ first :: rest) (hgij : g_22 i = g_22 j) (hdij : dy i = dy j)
    (hT : fieldOf st "e" .temperature i ≤ fieldOf st "e" .temperature j) : scaling st' j ≤ scaling st' i := by
  obtain ⟨h1, -⟩ := scale_ok h
  have hs : scaling st' = scalingOf first rest (parallelTime g_22 dy (fieldOf st "e" .temperature)) := by
    unfold scaling topField
    rw [h1]
    rfl
  rw [hs]
  have h0 := parallelTime_pos (Te := fieldOf st "e" .temperature) (hg first List.mem_cons_self) (hd first List.mem_cons_self)
  obtain ⟨m1, -, -⟩ := foldl_max_ge (parallelTime g_22 dy (fieldOf st "e" .temperature)) rest (parallelTime g_22 dy (fieldOf st "e" .temperature) first)
  unfold scalingOf
  refine div_le_div_of_nonneg_right ?_ (by linarith)
  unfold parallelTime
  rw [hgij, hdij]
  have hpos : (0 : ℝ) < floorTo (fieldOf st "e" .temperature i) 1e-5 := lt_of_lt_of_le (by norm_num) (floorTo_ge _ (1e-5 : ℝ))
  have hle : floorTo (fieldOf st "e" .temperature i) 1e-5 ≤ floorTo (fieldOf st "e" .temperature j) (1e-5 : ℝ) := by
    rw [floorTo_eq_max, floorTo_eq_max]; exact max_le_max_right _ hT
  refine div_le_div_of_nonneg_left ?_ (Real.rpow_pos_of_pos hpos _) (Real.rpow_le_rpow hpos.le hle (by norm_num))
  have := hg i hi
  rw [← hgij]
  positivity

/-- What `finally` does with the scaling. -/
theorem final_ok {e : Evolved} {rhs r : Fld ι} {st st' : Store Key (Value ι)} (h : finalDerivative e rhs st = (.ok r, st')) :
    vals st' = vals st ∧ r = if e.scaled = true ∧ (vals st (.top "scale_timederivs")).isSome = true then fun i => rhs i * scaling st i else rhs := by
  unfold finalDerivative at h
  split at h
  · rename_i he
    have h := isSet_bind h
    split at h
    · rename_i hs
      obtain ⟨s1, e1, h⟩ := getTop_bind h
      obtain ⟨rfl, rfl⟩ := pure_ok h
      refine ⟨e1, ?_⟩
      rw [if_pos ⟨he, hs⟩]
      rfl
    · rename_i hs
      obtain ⟨rfl, rfl⟩ := pure_ok h
      refine ⟨rfl, ?_⟩
      rw [if_neg (fun hh => hs hh.2)]
  · rename_i he
    obtain ⟨rfl, rfl⟩ := pure_ok h
    refine ⟨rfl, ?_⟩
    rw [if_neg (fun hh => he hh.1)]

/-- **C53.**  After the component has run, the time derivative of every quantity (whether its component applies the scaling or
not) is zero, positive or negative in a cell of the domain exactly if the unscaled one is: no steady state is created or removed
and no direction changes; and no derivative grows. -/
theorem steady_states_kept {g_22 dy : Fld ι} {first : ι} {rest : List ι} {st st1 st2 : Store Key (Value ι)}
    (h : scaleTimeDerivs g_22 dy first rest st = (.ok (), st1)) (hg : ∀ i ∈ first :: rest, 0 < g_22 i) (hd : ∀ i ∈ first :: rest, dy i ≠ 0)
    {e : Evolved} {rhs r : Fld ι} (hf : finalDerivative e rhs st1 = (.ok r, st2)) {i : ι} (hi : i ∈ first :: rest) :
    (r i = 0 ↔ rhs i = 0) ∧ (0 < r i ↔ 0 < rhs i) ∧ (r i < 0 ↔ rhs i < 0) ∧ |r i| ≤ |rhs i| := by
  obtain ⟨-, hr⟩ := final_ok hf
  obtain ⟨h0, h1⟩ := (scaling_range h hg hd).1 i hi
  split at hr
  · rw [hr]
    refine ⟨by rw [mul_eq_zero, or_iff_left h0.ne'], mul_pos_iff_of_pos_right h0, ?_, ?_⟩
    · constructor
      · intro h; by_contra hc
        have := mul_nonneg (not_lt.1 hc) h0.le
        linarith
      · intro h; exact mul_neg_of_neg_of_pos h h0
    · rw [abs_mul, abs_of_pos h0]
      exact mul_le_of_le_one_right (abs_nonneg _) h1
  · rw [hr]; exact ⟨Iff.rfl, Iff.rfl, Iff.rfl, le_refl _⟩

/-- **C53.**  The same for a quantity that is evolved as its logarithm. -/
theorem steady_states_kept_log {g_22 dy : Fld ι} {first : ι} {rest : List ι} {st st1 st2 : Store Key (Value ι)}
    (h : scaleTimeDerivs g_22 dy first rest st = (.ok (), st1)) (hg : ∀ i ∈ first :: rest, 0 < g_22 i) (hd : ∀ i ∈ first :: rest, dy i ≠ 0)
    {e : Evolved} {rhs r f : Fld ι} (hf : finalDerivative e rhs st1 = (.ok r, st2)) {i : ι} (hi : i ∈ first :: rest) (hpos : 0 < f i) :
    (logDerivative f r i = 0 ↔ rhs i = 0) ∧ (0 < logDerivative f r i ↔ 0 < rhs i) := by
  obtain ⟨h1, h2, -, -⟩ := steady_states_kept h hg hd hf hi
  unfold logDerivative
  refine ⟨by rw [div_eq_zero_iff, or_iff_left hpos.ne', h1], ?_⟩
  rw [div_pos_iff_of_pos_right hpos, h2]

/-- **C53.**  The derivatives that are scaled: density, pressure, energy, momentum and the neutral gas are multiplied by the
scaling.  *Missing for the full property*: the other evolved quantities, see `not_all_scaled`. -/
theorem scaled_derivatives_partial {g_22 dy : Fld ι} {first : ι} {rest : List ι} {st st1 st2 : Store Key (Value ι)}
    (h : scaleTimeDerivs g_22 dy first rest st = (.ok (), st1))
    {e : Evolved} (he : e ∈ [Evolved.N, .P, .E, .NV, .mixedN, .mixedP, .mixedNV]) {rhs r : Fld ι}
    (hf : finalDerivative e rhs st1 = (.ok r, st2)) (i : ι) : r i = rhs i * scaling st1 i := by
  obtain ⟨-, hr⟩ := final_ok hf
  have hset : (vals st1 (.top "scale_timederivs")).isSome = true := by rw [(scale_ok h).1]; rfl
  have hsc : e.scaled = true := by
    simp only [List.mem_cons, List.not_mem_nil, or_false] at he
    rcases he with rfl | rfl | rfl | rfl | rfl | rfl | rfl <;> rfl
  rw [hr, if_pos ⟨hsc, hset⟩]

/-- Without the component nothing is scaled. -/
theorem no_scaling {st st2 : Store Key (Value ι)} (h : vals st (.top "scale_timederivs") = none) {e : Evolved} {rhs r : Fld ι}
    (hf : finalDerivative e rhs st = (.ok r, st2)) : r = rhs := by
  obtain ⟨-, hr⟩ := final_ok hf
  rw [hr, if_neg]
  rintro ⟨-, hh⟩
  rw [h] at hh
  cases hh

/-! ## A concrete case -/

/-- Electrons with temperature 1 in the first and 4 in the second cell. -/
noncomputable def twoCells : Store Key (Value Bool) where
  ent
    | .sp "e" .temperature => { val := some (.field fun i => if i then 4 else 1), final := false, finalDomain := false }
    | _ => { val := none, final := false, finalDomain := false }
  check := true

theorem twoCells_run : ∃ st', scaleTimeDerivs (fun _ => 1) (fun _ => 1) false [true] twoCells = (.ok (), st') := ⟨_, rfl⟩

theorem final_runs (e : Evolved) (rhs : Fld Bool) {st : Store Key (Value Bool)}
    (h : scaleTimeDerivs (fun _ => 1) (fun _ => 1) false [true] twoCells = (.ok (), st)) : ∃ r st2, finalDerivative e rhs st = (.ok r, st2) := by
  cases h
  cases e <;> exact ⟨_, _, rfl⟩

/-- The factor is 1 in the cold cell and 1/32 in the hot one. -/
theorem twoCells_scaling {st : Store Key (Value Bool)}
    (h : scaleTimeDerivs (fun _ => 1) (fun _ => 1) false [true] twoCells = (.ok (), st)) : scaling st false = 1 ∧ scaling st true = 1 / 32 := by
  obtain ⟨h1, -⟩ := scale_ok h
  have hT : fieldOf twoCells "e" .temperature = fun i => if i then 4 else 1 := rfl
  have hs : scaling st = scalingOf false [true] (parallelTime (fun _ => 1) (fun _ => 1) (fun i : Bool => if i then 4 else 1)) := by
    unfold scaling topField
    rw [h1, hT]
    rfl
  have e4 : (4 : ℝ) ^ (5 / 2 : ℝ) = 32 := by
    rw [show (4 : ℝ) = 2 ^ (2 : ℝ) by norm_num, ← Real.rpow_mul (by norm_num)]
    norm_num
  have t1 : parallelTime (fun _ => 1) (fun _ => 1) (fun i : Bool => if i then 4 else 1) false = 1 := by
    unfold parallelTime; simp [floorTo_of_le]; norm_num [floorTo]
  have t4 : parallelTime (fun _ => 1) (fun _ => 1) (fun i : Bool => if i then 4 else 1) true = 1 / 32 := by
    unfold parallelTime; norm_num [floorTo, e4]
  rw [hs]
  unfold scalingOf
  simp only [List.foldl_cons, List.foldl_nil, t1, t4]
  norm_num

/-- **C53 fails for these quantities.**  The vorticity and the potential of `relax_potential` and the neutral gas of
`full_velocity` do not get the scaling, so that different equations of a run advance with different local time steps. -/
theorem not_all_scaled {e : Evolved} (he : e ∈ [Evolved.Vort, .relaxVort, .phi1, .fullN, .fullP, .fullV]) :
    ∃ (st st1 st2 : Store Key (Value Bool)) (rhs r : Fld Bool),
      scaleTimeDerivs (fun _ => 1) (fun _ => 1) false [true] st = (.ok (), st1) ∧ finalDerivative e rhs st1 = (.ok r, st2) ∧
      r true ≠ rhs true * scaling st1 true := by
  obtain ⟨st1, h⟩ := twoCells_run
  obtain ⟨r, st2, hf⟩ := final_runs e (fun _ => 1) h
  refine ⟨twoCells, st1, st2, fun _ => 1, r, h, hf, ?_⟩
  obtain ⟨-, hr⟩ := final_ok hf
  have hsc : e.scaled = false := by
    simp only [List.mem_cons, List.not_mem_nil, or_false] at he
    rcases he with rfl | rfl | rfl | rfl | rfl | rfl <;> rfl
  rw [hr, if_neg (by rw [hsc]; simp), (twoCells_scaling h).2]
  norm_num

end Hermes.ScaleDerivs
