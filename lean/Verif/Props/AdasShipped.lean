import Verif.Model.AdasData
import Verif.Props.RateFits
import Verif.Props.Registry
import Mathlib.Data.List.GetD

/-!
# C86 — the atomic data that come with the code

The reactions of carbon, lithium and neon read their rate coefficients from files in `json_database`.  Here the files are part of the
model: every reaction that can be named finds its tables, they can be used at every temperature and density, and ionisation and
recombination are the right way round.
-/

namespace Hermes.Shipped

open Hermes.AdasTable Hermes.RateFits Hermes.AdasData
open Hermes.Registry hiding number

/-! ## Specification -/

/-- The files that come with the code. -/
noncomputable def shipped (name : String) : Option AdasFile := (database.lookup name).map PackedFile.file

/-- A file and a level name a table. -/
def Finds (file : String) (level : ℕ) (t : AdasTable) : Prop := adasLoad shipped file level = .ok (some t)

/-- For a stage of ionisation of an element, the temperatures (eV) below which it recombines and above which it is ionised; the numbers of
these temperatures in the table. -/
structure Balance where
  element : Element
  level : ℕ
  coldNum : ℕ
  coldDen : ℕ
  coldIndex : ℕ
  hotNum : ℕ
  hotDen : ℕ
  hotIndex : ℕ

/-- Each stage of each element. -/
def balances : List Balance := [
  ⟨.carbon, 0, 7, 10, 3, 8, 5, 5⟩,
  ⟨.carbon, 1, 2, 1, 6, 51, 10, 8⟩,
  ⟨.carbon, 2, 3, 1, 7, 11, 1, 10⟩,
  ⟨.carbon, 3, 7, 1, 9, 11, 1, 10⟩,
  ⟨.carbon, 4, 50, 1, 14, 110, 1, 16⟩,
  ⟨.carbon, 5, 100, 1, 16, 160, 1, 17⟩,
  ⟨.lithium, 0, 3, 10, 1, 51, 100, 2⟩,
  ⟨.lithium, 1, 7, 1, 7, 11, 1, 8⟩,
  ⟨.lithium, 2, 10, 1, 8, 21, 1, 9⟩,
  ⟨.neon, 0, 3, 2, 5, 31, 10, 7⟩,
  ⟨.neon, 1, 3, 1, 7, 51, 10, 8⟩,
  ⟨.neon, 2, 7, 1, 9, 11, 1, 10⟩,
  ⟨.neon, 3, 10, 1, 10, 21, 1, 12⟩,
  ⟨.neon, 4, 20, 1, 12, 31, 1, 13⟩,
  ⟨.neon, 5, 30, 1, 13, 51, 1, 14⟩,
  ⟨.neon, 6, 30, 1, 13, 51, 1, 14⟩,
  ⟨.neon, 7, 30, 1, 13, 51, 1, 14⟩,
  ⟨.neon, 8, 300, 1, 19, 510, 1, 20⟩,
  ⟨.neon, 9, 300, 1, 19, 510, 1, 20⟩]

/-- The lower temperature in eV. -/
noncomputable def Balance.cold (b : Balance) : ℝ := (b.coldNum : ℝ) / b.coldDen

/-- The higher one. -/
noncomputable def Balance.hot (b : Balance) : ℝ := (b.hotNum : ℝ) / b.hotDen

/-! ## Comparing two tables -/

theorem exists_interval (v : ℕ → ℝ) {a b : ℕ} (hab : a < b) {x : ℝ} (h1 : v a ≤ x) (h2 : x ≤ v b) :
    ∃ i, a ≤ i ∧ i + 1 ≤ b ∧ v i ≤ x ∧ x ≤ v (i + 1) := by
  induction b with
  | zero => omega
  | succ b ih =>
    by_cases h : v b ≤ x
    · exact ⟨b, by omega, le_rfl, h, h2⟩
    · have hab' : a < b := by
        rcases Nat.lt_or_ge a b with h' | h'
        · exact h'
        · have : a = b := by omega
          subst this
          exact absurd h1 h
      obtain ⟨i, q1, q2, q3, q4⟩ := ih hab' (not_le.1 h).le
      exact ⟨i, q1, by omega, q3, q4⟩

/-- Every cell that contains the point gives the value. -/
theorem lookup_any {t : AdasTable} (ht : WellFormed t) {T n : ℝ} {i j : ℕ} (hi : i + 1 < t.log_temperature.length)
    (hj : j + 1 < t.log_density.length) (h1 : axisT t i ≤ logT t T) (h2 : logT t T ≤ axisT t (i + 1)) (h3 : axisN t j ≤ logN t n)
    (h4 : logN t n ≤ axisN t (j + 1)) : adasEvaluate t T n = some ((10 : ℝ) ^ cell t i j (logT t T) (logN t n)) := by
  obtain ⟨i', j', hi', hj', ⟨q1, q2, q3, q4⟩, e⟩ := lookup_cell t ht T n
  have inner : ∀ a, lin (axisN t) (value t a) j' (logN t n) = lin (axisN t) (value t a) j (logN t n) := fun a =>
    lin_agree (incN ht) hj' hj q3 q4 h3 h4
  have same : cell t i' j' (logT t T) (logN t n) = cell t i j (logT t T) (logN t n) := by
    unfold cell
    rw [lin_agree (incT ht) hi' hi q1 q2 h1 h2]
    simp only [inner]
  rw [e, same]

theorem lin_lt {v c d : ℕ → ℝ} {i : ℕ} {x : ℝ} (h0 : v i < v (i + 1)) (h1 : v i ≤ x) (h2 : x ≤ v (i + 1)) (e1 : c i < d i)
    (e2 : c (i + 1) < d (i + 1)) : lin v c i x < lin v d i x := by
  unfold lin
  obtain ⟨y, hy⟩ : ∃ y, y = (x - v i) / (v (i + 1) - v i) := ⟨_, rfl⟩
  rw [← hy]
  have y0 : 0 ≤ y := hy ▸ div_nonneg (by linarith) (by linarith)
  have y1 : y ≤ 1 := hy ▸ (div_le_one (by linarith)).2 (by linarith)
  rcases y0.eq_or_lt with h | h
  · rw [← h]; linarith
  · have := mul_lt_mul_of_pos_right e2 h
    have := mul_le_mul_of_nonneg_right e1.le (sub_nonneg.2 y1)
    linarith

theorem clamped_range {t : AdasTable} (ht : WellFormed t) (n : ℝ) :
    axisN t 0 ≤ logN t n ∧ logN t n ≤ axisN t (t.log_density.length - 1) := by
  have := ht.n2
  exact clampedLog_mem _ _ _ (incN ht 0 _ (by omega) (by omega)).le

/-- Two tables on the same axes.  If the entries of one are below those of the other for a range of temperatures, then so are the rates, for
every density and every temperature in the range. -/
theorem compare {t u : AdasTable} (ht : WellFormed t) (hu : WellFormed u) (eT : u.log_temperature = t.log_temperature)
    (eN : u.log_density = t.log_density) {a b : ℕ} (hab : a < b) (hb : b < t.log_temperature.length)
    (less : ∀ i, a ≤ i → i ≤ b → ∀ j < t.log_density.length, value t i j < value u i j) {T : ℝ} (n : ℝ) (h1 : axisT t a ≤ logT t T)
    (h2 : logT t T ≤ axisT t b) : ∃ r s, adasEvaluate t T n = some r ∧ adasEvaluate u T n = some s ∧ r < s := by
  have n2 := ht.n2
  obtain ⟨i, i1, i2, i3, i4⟩ := exists_interval (axisT t) hab h1 h2
  obtain ⟨j, -, j2, j3, j4⟩ := exists_interval (axisN t) (a := 0) (b := t.log_density.length - 1) (by omega) (clamped_range ht n).1
    (clamped_range ht n).2
  have aT : axisT u = axisT t := by funext i; unfold axisT; rw [eT]
  have aN : axisN u = axisN t := by funext i; unfold axisN; rw [eN]
  have lT : logT u = logT t := by unfold logT; rw [aT, eT]
  have lN : logN u = logN t := by unfold logN; rw [aN, eN]
  refine ⟨_, _, lookup_any ht (by omega) (by omega) i3 i4 j3 j4, lookup_any hu (i := i) (j := j) (by rw [eT]; omega) (by rw [eN]; omega)
    (by rw [aT, lT]; exact i3) (by rw [aT, lT]; exact i4) (by rw [aN, lN]; exact j3) (by rw [aN, lN]; exact j4), ?_⟩
  refine Real.rpow_lt_rpow_of_exponent_lt (by norm_num) ?_
  unfold cell
  rw [aT, aN, lT, lN]
  have inner : ∀ k, a ≤ k → k ≤ b → lin (axisN t) (value t k) j (logN t n) < lin (axisN t) (value u k) j (logN t n) := fun k q1 q2 =>
    lin_lt (incN ht _ _ (by omega) (by omega)) j3 j4 (less k q1 q2 _ (by omega)) (less k q1 q2 _ (by omega))
  exact lin_lt (incT ht _ _ (by omega) (by omega)) i3 i4 (inner i i1 (by omega)) (inner (i + 1) (by omega) i2)

/-! ## Unpacking -/

theorem unpack_length (k N : ℕ) (acc : List ℕ) : (unpack k N acc).length = k + acc.length := by
  induction k generalizing N acc with
  | zero => simp [unpack]
  | succ k ih => rw [unpack, ih]; simp; omega

theorem rows_length (m k N : ℕ) (acc : List (List ℕ)) : (rows m k N acc).length = k + acc.length := by
  induction k generalizing N acc with
  | zero => simp [rows]
  | succ k ih => rw [rows, ih]; simp; omega

theorem rows_cols (m k N : ℕ) (acc : List (List ℕ)) (h : ∀ r ∈ acc, r.length = m) : ∀ r ∈ rows m k N acc, r.length = m := by
  induction k generalizing N acc with
  | zero => exact h
  | succ k ih =>
    rw [rows]
    refine ih _ _ fun r hr => ?_
    rcases List.mem_cons.1 hr with rfl | hr
    · simp [unpack_length]
    · exact h r hr

theorem number_lt {a b : ℕ} (h : a < b) : number a < number b := by
  unfold number
  have : (a : ℝ) < b := by exact_mod_cast h
  have := div_lt_div_of_pos_right this (show (0 : ℝ) < 10 ^ 5 by norm_num)
  linarith

/-- The table of a level. -/
noncomputable def table (p : PackedFile) (N : ℕ) : AdasTable := ⟨(p.level N).map (·.map number), p.temperature.map number, p.density.map number⟩

/-- Two points on each axis, in increasing order. -/
def Axes (p : PackedFile) : Prop := 2 ≤ p.temperature.length ∧ 2 ≤ p.density.length ∧ p.temperature.Pairwise (· < ·) ∧ p.density.Pairwise (· < ·)

instance (p : PackedFile) : Decidable (Axes p) := inferInstanceAs (Decidable (_ ∧ _))

theorem table_wellFormed {p : PackedFile} (h : Axes p) (N : ℕ) : WellFormed (table p N) where
  T2 := by simpa [table] using h.1
  n2 := by simpa [table] using h.2.1
  Tinc := List.pairwise_map.2 (h.2.2.1.imp fun h => number_lt h)
  ninc := List.pairwise_map.2 (h.2.2.2.imp fun h => number_lt h)
  rows := by simp [table, PackedFile.level, rows_length]
  cols := by
    intro r hr
    obtain ⟨r', h', rfl⟩ := List.mem_map.1 hr
    have := rows_cols _ _ _ [] (fun _ h => absurd h (List.not_mem_nil)) r' h'
    simp [table, this]

theorem table_value {p : PackedFile} {N i j : ℕ} (hi : i < p.temperature.length) (hj : j < p.density.length) :
    value (table p N) i j = number (((p.level N).getD i []).getD j 0) := by
  have li : i < (p.level N).length := by simpa [PackedFile.level, rows_length] using hi
  have lj : j < ((p.level N)[i]).length := by
    rw [rows_cols _ _ _ [] (fun _ h => absurd h (List.not_mem_nil)) _ (List.getElem_mem li)]
    exact hj
  unfold value entry table
  simp [li, lj]

/-- Entry by entry. -/
def ltRow : List ℕ → List ℕ → Bool
  | x :: xs, y :: ys => Nat.blt x y && ltRow xs ys
  | _, _ => true

def ltRows : List (List ℕ) → List (List ℕ) → Bool
  | x :: xs, y :: ys => ltRow x y && ltRows xs ys
  | _, _ => true

theorem ltRow_spec {x y : List ℕ} (h : ltRow x y = true) {j : ℕ} (hx : j < x.length) (hy : j < y.length) : x.getD j 0 < y.getD j 0 := by
  induction x generalizing y j with
  | nil => simp at hx
  | cons a x ih =>
    cases y with
    | nil => simp at hy
    | cons b y =>
      rw [ltRow, Bool.and_eq_true] at h
      cases j with
      | zero => simpa using h.1
      | succ j => simpa using ih h.2 (by simpa using hx) (by simpa using hy)

theorem ltRows_spec {x y : List (List ℕ)} (h : ltRows x y = true) {i : ℕ} (hx : i < x.length) (hy : i < y.length) :
    ltRow (x.getD i []) (y.getD i []) = true := by
  induction x generalizing y i with
  | nil => simp at hx
  | cons a x ih =>
    cases y with
    | nil => simp at hy
    | cons b y =>
      rw [ltRows, Bool.and_eq_true] at h
      cases i with
      | zero => simpa using h.1
      | succ i => simpa using ih h.2 (by simpa using hx) (by simpa using hy)

/-- A range of rows of two packed tables. -/
def less (p q : PackedFile) (M N a b : ℕ) : Bool := ltRows (((p.level M).take (b + 1)).drop a) (((q.level N).take (b + 1)).drop a)

theorem less_spec {p q : PackedFile} {M N a b : ℕ} (eT : q.temperature = p.temperature) (eN : q.density = p.density)
    (hb : b < p.temperature.length) (h : less p q M N a b = true) :
    ∀ i, a ≤ i → i ≤ b → ∀ j < p.density.length, value (table p M) i j < value (table q N) i j := by
  intro i h1 h2 j hj
  rw [table_value (by omega) hj, table_value (by rw [eT]; omega) (by rw [eN]; exact hj)]
  refine number_lt ?_
  have lp : (p.level M).length = p.temperature.length := by simp [PackedFile.level, rows_length]
  have lq : (q.level N).length = p.temperature.length := by simp [PackedFile.level, rows_length, eT]
  have hp : i - a < (((p.level M).take (b + 1)).drop a).length := by simp [lp]; omega
  have hq : i - a < (((q.level N).take (b + 1)).drop a).length := by simp [lq]; omega
  have s := ltRows_spec h hp hq
  have e : ∀ l : List (List ℕ), i < l.length → ((l.take (b + 1)).drop a).getD (i - a) [] = l.getD i [] := by
    intro l hl
    have e1 : i - a < ((l.take (b + 1)).drop a).length := by simp; omega
    rw [List.getD_eq_getElem _ _ e1, List.getD_eq_getElem _ _ hl, List.getElem_drop, List.getElem_take]
    congr 1
    omega
  rw [e _ (by omega), e _ (by omega)] at s
  have row : ∀ (r : PackedFile) (K : ℕ), i < (r.level K).length → ((r.level K).getD i []).length = r.density.length := by
    intro r K hr
    rw [List.getD_eq_getElem _ _ hr]
    exact rows_cols _ _ _ [] (fun _ h => absurd h (List.not_mem_nil)) _ (List.getElem_mem hr)
  exact ltRow_spec s (by rw [row _ _ (by omega)]; exact hj) (by rw [row _ _ (by omega), eN]; exact hj)

theorem mem_of_lookup {α β : Type} [BEq α] [LawfulBEq α] {l : List (α × β)} {a : α} {b : β} (h : l.lookup a = some b) : (a, b) ∈ l := by
  obtain ⟨l₁, l₂, e, -⟩ := List.lookup_eq_some_iff.1 h
  rw [e]
  simp

/-! ## Every reaction has its tables -/

/-- The table of a file and level. -/
theorem finds {file : String} {level : ℕ} {p : PackedFile} {N : ℕ} (h : database.lookup file = some p) (hl : p.levels[level]? = some N) :
    Finds file level (table p N) := by
  unfold Finds adasLoad shipped
  rw [h]
  simp [PackedFile.file, hl, table]

theorem all_axes : ∀ x ∈ database, Axes x.2 := by decide +kernel

theorem all_files : ∀ x ∈ registry, ∀ f ∈ x.2.files, ((database.lookup f.1).any fun p => decide (f.2 < p.levels.length)) = true := by decide +kernel

/-- **C86.**  Every reaction that can be named finds the tables it reads, and the rates in them can be used at every temperature and
density. -/
theorem every_reaction_has_data {text : String} {en : Registry.Entry} (h : create text = some en) :
    ∀ f ∈ en.files, ∃ t, Finds f.1 f.2 t ∧ WellFormed t ∧ Usable (adasEvaluate t) := by
  intro f hf
  have hm : (text, en) ∈ registry := mem_of_lookup h
  have := all_files _ hm f hf
  rw [Option.any_eq_true] at this
  obtain ⟨p, hp, hl⟩ := this
  have hl' : f.2 < p.levels.length := of_decide_eq_true hl
  have w : WellFormed (table p (p.levels[f.2])) := table_wellFormed (all_axes _ (mem_of_lookup hp)) _
  exact ⟨_, finds hp (List.getElem?_eq_getElem hl'), w, adas_usable _ w⟩

/-! ## Ionisation and recombination -/

/-- The files with the rates of ionisation and recombination of an element. -/
def pair : Element → PackedFile × PackedFile
  | .carbon => (scd96_c, acd96_c)
  | .lithium => (scd96_li, acd96_li)
  | .neon => (scd96_ne, acd96_ne)

/-- `p/q ≤ 10 ^ number c`, in whole numbers. -/
def below (p q c : ℕ) : Bool := Nat.ble (p ^ 100000 * 10 ^ (10000000 - c)) (q ^ 100000 * 10 ^ (c - 10000000))

def above (p q c : ℕ) : Bool := Nat.ble (q ^ 100000 * 10 ^ (c - 10000000)) (p ^ 100000 * 10 ^ (10000000 - c))

theorem number_eq (c : ℕ) : number c * 100000 = ((c - 10000000 : ℕ) : ℝ) - ((10000000 - c : ℕ) : ℝ) := by
  unfold number
  rcases le_total c 10000000 with h | h
  · rw [Nat.sub_eq_zero_of_le h, Nat.cast_sub h]
    push_cast
    ring
  · rw [Nat.sub_eq_zero_of_le h, Nat.cast_sub h]
    push_cast
    ring

/-- Logarithms of both sides. -/
theorem log_sides {p q : ℕ} (hp : 0 < p) (hq : 0 < q) (a b : ℕ) :
    ((p ^ 100000 * 10 ^ a : ℕ) ≤ q ^ 100000 * 10 ^ b ↔ Real.logb 10 ((p : ℝ) / q) * 100000 ≤ (b : ℝ) - a) := by
  have p0 : (0 : ℝ) < p := by exact_mod_cast hp
  have q0 : (0 : ℝ) < q := by exact_mod_cast hq
  have lg : ∀ (x : ℝ), 0 < x → ∀ k m : ℕ, Real.logb 10 (x ^ k * 10 ^ m) = k * Real.logb 10 x + m := by
    intro x hx k m
    rw [Real.logb_mul (pow_pos hx k).ne' (by positivity), Real.logb_pow, Real.logb_pow, Real.logb_self_eq_one (by norm_num), mul_one]
  rw [← Nat.cast_le (α := ℝ)]
  have c1 : ((p ^ 100000 * 10 ^ a : ℕ) : ℝ) = (p : ℝ) ^ 100000 * 10 ^ a := by
    rw [Nat.cast_mul, Nat.cast_pow, Nat.cast_pow, Nat.cast_ofNat]
  have c2 : ((q ^ 100000 * 10 ^ b : ℕ) : ℝ) = (q : ℝ) ^ 100000 * 10 ^ b := by
    rw [Nat.cast_mul, Nat.cast_pow, Nat.cast_pow, Nat.cast_ofNat]
  rw [c1, c2, ← Real.logb_le_logb (b := 10) (by norm_num) (mul_pos (pow_pos p0 _) (by positivity)) (mul_pos (pow_pos q0 _) (by positivity)),
    lg _ p0, lg _ q0, Real.logb_div p0.ne' q0.ne']
  rw [Nat.cast_ofNat]
  constructor <;> intro h <;> linarith

theorem below_spec {p q c : ℕ} (hp : 0 < p) (hq : 0 < q) (h : below p q c = true) : Real.logb 10 ((p : ℝ) / q) ≤ number c := by
  have := (log_sides hp hq _ _).1 (Nat.le_of_ble_eq_true h)
  have := number_eq c
  linarith

theorem above_spec {p q c : ℕ} (hp : 0 < p) (hq : 0 < q) (h : above p q c = true) : number c ≤ Real.logb 10 ((p : ℝ) / q) := by
  have := (log_sides hq hp _ _).1 (Nat.le_of_ble_eq_true h)
  have e : Real.logb 10 ((q : ℝ) / p) = -Real.logb 10 ((p : ℝ) / q) := by rw [← Real.logb_inv, inv_div]
  rw [e] at this
  have := number_eq c
  linarith

/-- The rates of a level. -/
def ionise (b : Balance) : ℕ := (pair b.element).1.levels.getD b.level 0
def recombine (b : Balance) : ℕ := (pair b.element).2.levels.getD b.level 0

/-- What is checked of each stage. -/
def Balance.Ok (b : Balance) : Prop :=
  let p := (pair b.element).1
  let q := (pair b.element).2
  b.level < p.levels.length ∧ b.level < q.levels.length ∧ q.temperature = p.temperature ∧ q.density = p.density ∧ 0 < b.coldIndex ∧
    b.coldIndex < p.temperature.length ∧ b.hotIndex + 1 < p.temperature.length ∧ 0 < b.coldNum ∧ 0 < b.coldDen ∧ 0 < b.hotNum ∧
    0 < b.hotDen ∧ below b.coldNum b.coldDen (p.temperature.getD b.coldIndex 0) = true ∧
    above b.hotNum b.hotDen (p.temperature.getD b.hotIndex 0) = true ∧ less p q (ionise b) (recombine b) 0 b.coldIndex = true ∧
    less q p (recombine b) (ionise b) b.hotIndex (p.temperature.length - 1) = true

instance (b : Balance) : Decidable b.Ok := by unfold Balance.Ok; infer_instance

theorem balances_ok : ∀ b ∈ balances, b.Ok := by decide +kernel

/-- The files are those of the reactions. -/
theorem pair_files (el : Element) : ∃ f g, (∀ level, (f, level) ∈ (Registry.Entry.adasIonisation el level).files ∧
    (g, level) ∈ (Registry.Entry.adasRecombination el level).files) ∧ database.lookup f = some (pair el).1 ∧
      database.lookup g = some (pair el).2 := by
  cases el
  · exact ⟨"scd96_c.json", "acd96_c.json", fun _ => by simp [Registry.Entry.files], by simp [database, pair],
      by simp [database, pair, List.lookup]⟩
  · exact ⟨"scd96_li.json", "acd96_li.json", fun _ => by simp [Registry.Entry.files], by simp [database, pair, List.lookup],
      by simp [database, pair, List.lookup]⟩
  · exact ⟨"scd96_ne.json", "acd96_ne.json", fun _ => by simp [Registry.Entry.files], by simp [database, pair, List.lookup],
      by simp [database, pair, List.lookup]⟩

/-- Every ionisation reaction that can be named is in the list. -/
def listed : Registry.Entry → Bool
  | .adasIonisation el level => balances.any fun b => decide (b.element = el) && decide (b.level = level)
  | .adasRecombination el level => balances.any fun b => decide (b.element = el) && decide (b.level = level)
  | _ => true

theorem all_listed : ∀ x ∈ registry, listed x.2 = true := by decide +kernel

theorem logT_le {t : AdasTable} (ht : WellFormed t) {T c : ℝ} {k : ℕ} (hk : k < t.log_temperature.length)
    (h : Real.logb 10 c ≤ axisT t k) (hT : T ≤ c) : axisT t 0 ≤ logT t T ∧ logT t T ≤ axisT t k := by
  have T2 := ht.T2
  refine ⟨(clampedLog_mem _ _ _ (incT ht 0 _ (by omega) (by omega)).le).1, ?_⟩
  have first : axisT t 0 ≤ axisT t k := by
    rcases Nat.eq_zero_or_pos k with rfl | h0
    · exact le_rfl
    · exact (incT ht 0 k h0 hk).le
  unfold logT clampedLog
  split_ifs with h0
  · exact first
  · exact max_le first ((min_le_left _ _).trans ((Real.logb_le_logb_of_le (by norm_num) (not_le.1 h0) hT).trans h))

theorem le_logT {t : AdasTable} (ht : WellFormed t) {T c : ℝ} {k : ℕ} (hk : k < t.log_temperature.length) (hc : 0 < c)
    (h : axisT t k ≤ Real.logb 10 c) (hT : c ≤ T) : axisT t k ≤ logT t T ∧ logT t T ≤ axisT t (t.log_temperature.length - 1) := by
  have T2 := ht.T2
  refine ⟨?_, (clampedLog_mem _ _ _ (incT ht 0 _ (by omega) (by omega)).le).2⟩
  have last : axisT t k ≤ axisT t (t.log_temperature.length - 1) := by
    rcases Nat.lt_or_ge k (t.log_temperature.length - 1) with h0 | h0
    · exact (incT ht k _ h0 (by omega)).le
    · rw [show k = t.log_temperature.length - 1 by omega]
  unfold logT clampedLog
  rw [if_neg (by linarith)]
  exact le_max_of_le_right (le_min (h.trans (Real.logb_le_logb_of_le (by norm_num) hc hT)) last)

theorem table_axisT {p : PackedFile} {N k : ℕ} (hk : k < p.temperature.length) : axisT (table p N) k = number (p.temperature.getD k 0) := by
  unfold axisT table
  simp [hk]

/-- What is stated of the rates of ionisation and recombination of a stage. -/
def RightWayRound (b : Balance) (ion rec : AdasTable) : Prop :=
  (∀ T n, T ≤ b.cold → ∃ i r, adasEvaluate ion T n = some i ∧ adasEvaluate rec T n = some r ∧ i < r) ∧
  (∀ T n, b.hot ≤ T → ∃ i r, adasEvaluate ion T n = some i ∧ adasEvaluate rec T n = some r ∧ r < i)

theorem balance_tables {b : Balance} (hb : b ∈ balances) : ∃ f g, (∀ level, (f, level) ∈ (Registry.Entry.adasIonisation b.element level).files ∧
    (g, level) ∈ (Registry.Entry.adasRecombination b.element level).files) ∧
      ∃ ion rec, Finds f b.level ion ∧ Finds g b.level rec ∧ RightWayRound b ion rec := by
  obtain ⟨f, g, files, hf, hg⟩ := pair_files b.element
  obtain ⟨l1, l2, eT, eN, c0, cL, hL, p1, p2, p3, p4, lo, hi, less1, less2⟩ := balances_ok b hb
  have wp := all_axes _ (mem_of_lookup hf)
  have wq := all_axes _ (mem_of_lookup hg)
  have w1 : WellFormed (table (pair b.element).1 (ionise b)) := table_wellFormed wp _
  have w2 : WellFormed (table (pair b.element).2 (recombine b)) := table_wellFormed wq _
  have e1 : (pair b.element).1.levels[b.level]? = some (ionise b) := by simp [ionise, l1]
  have e2 : (pair b.element).2.levels[b.level]? = some (recombine b) := by simp [recombine, l2]
  have tT : ∀ (p : PackedFile) N, (table p N).log_temperature.length = p.temperature.length := by simp [table]
  have tN : ∀ (p : PackedFile) N, (table p N).log_density.length = p.density.length := by simp [table]
  refine ⟨f, g, files, _, _, finds hf e1, finds hg e2, fun T n hT => ?_, fun T n hT => ?_⟩
  · obtain ⟨q1, q2⟩ := logT_le w1 (k := b.coldIndex) (by rw [tT]; exact cL)
      (by rw [table_axisT cL]; exact below_spec p1 p2 lo) hT
    refine compare w1 w2 (by simp [table, eT]) (by simp [table, eN]) c0 (by rw [tT]; exact cL) ?_ n q1 q2
    rw [tN]
    exact less_spec eT eN cL less1
  · obtain ⟨q1, q2⟩ := le_logT w2 (k := b.hotIndex) (by rw [tT, eT]; omega) (by unfold Balance.hot; positivity)
      (by rw [table_axisT (by rw [eT]; omega), eT]; exact above_spec p3 p4 hi) hT
    rw [tT, eT] at q2
    obtain ⟨r, s, h1, h2, h3⟩ := compare w2 w1 (by simp [table, eT]) (by simp [table, eN]) (a := b.hotIndex) (by omega)
      (by rw [tT, eT]; omega) (by rw [tN]; exact less_spec eT.symm eN.symm (by rw [eT]; omega) less2) n q1 q2
    exact ⟨s, r, h2, h1, h3⟩

/-- **C86.**  For every stage of ionisation of carbon, lithium and neon that the code can ionise or recombine there are two temperatures (in
the list above).  At every density and every temperature below the first, recombination is faster than ionisation; above the second,
ionisation is faster. -/
theorem ionisation_balance {text : String} {el : Element} {level : ℕ} (h : create text = some (.adasIonisation el level)) :
    ∃ b ∈ balances, b.element = el ∧ b.level = level ∧ 0 < b.cold ∧ b.cold < b.hot ∧
      ∃ f g, (f, level) ∈ (Registry.Entry.adasIonisation el level).files ∧ (g, level) ∈ (Registry.Entry.adasRecombination el level).files ∧
        ∃ ion rec, Finds f level ion ∧ Finds g level rec ∧ RightWayRound b ion rec := by
  have := all_listed _ (mem_of_lookup h)
  simp only [listed, List.any_eq_true, Bool.and_eq_true, decide_eq_true_eq] at this
  obtain ⟨b, hb, rfl, rfl⟩ := this
  obtain ⟨f, g, files, ion, rec, h1, h2, h3⟩ := balance_tables hb
  obtain ⟨-, -, -, -, -, -, -, p1, p2, p3, p4, -⟩ := balances_ok b hb
  have c0 : 0 < b.cold := by unfold Balance.cold; positivity
  refine ⟨b, hb, rfl, rfl, c0, ?_, f, g, (files _).1, (files _).2, ion, rec, h1, h2, h3⟩
  by_contra hc
  obtain ⟨i, r, q1, q2, q3⟩ := h3.1 b.cold 0 le_rfl
  obtain ⟨i', r', q1', q2', q3'⟩ := h3.2 b.cold 0 (not_lt.1 hc)
  rw [q1] at q1'
  rw [q2] at q2'
  simp only [Option.some.injEq] at q1' q2'
  linarith

theorem usable_pos {rate : ℝ → ℝ → Option ℝ} (h : Usable rate) {T n x : ℝ} (e : rate T n = some x) : 0 < x := by
  obtain ⟨f, -, ef, lo, hi, l0, lb⟩ := h.smooth
  have := ef T n
  rw [e, Option.some.injEq] at this
  rw [this]
  exact l0.trans_le (lb _).1

/-- Two stages between which only ionisation and recombination go: where the plasma is cold there is less of the higher stage, where it is
hot more. -/
theorem stages_in_balance {b : Balance} {ion rec : AdasTable} (hr : RightWayRound b ion rec) (hi : Usable (adasEvaluate ion))
    (hrec : Usable (adasEvaluate rec)) {T n lower upper : ℝ} (hl : 0 < lower) (balanced : ∃ i r, adasEvaluate ion T n = some i ∧ adasEvaluate rec T n = some r ∧ lower * i = upper * r) :
    (T ≤ b.cold → upper < lower) ∧ (b.hot ≤ T → lower < upper) := by
  obtain ⟨i, r, e1, e2, eq⟩ := balanced
  have i0 : 0 < i := usable_pos hi e1
  have r0 : 0 < r := usable_pos hrec e2
  constructor
  · intro hT
    obtain ⟨i', r', e1', e2', h⟩ := hr.1 T n hT
    rw [e1, Option.some.injEq] at e1'
    rw [e2, Option.some.injEq] at e2'
    subst e1' e2'
    by_contra hc
    have := mul_lt_mul_of_pos_left h hl
    have := mul_le_mul_of_nonneg_right (not_lt.1 hc) (i0.trans h).le
    linarith
  · intro hT
    obtain ⟨i', r', e1', e2', h⟩ := hr.2 T n hT
    rw [e1, Option.some.injEq] at e1'
    rw [e2, Option.some.injEq] at e2'
    subst e1' e2'
    by_contra hc
    have := mul_lt_mul_of_pos_left h hl
    have := mul_le_mul_of_nonneg_right (not_lt.1 hc) r0.le
    linarith

/-! ## Not every table is smooth -/

/-- The rate at a temperature of the table is read from one row. -/
theorem lookup_row {t : AdasTable} (ht : WellFormed t) {i : ℕ} (hi : i + 1 < t.log_temperature.length) (n : ℝ) :
    ∃ j, j + 1 < t.log_density.length ∧ axisN t j ≤ logN t n ∧ logN t n ≤ axisN t (j + 1) ∧
      adasEvaluate t ((10 : ℝ) ^ axisT t i) n = some ((10 : ℝ) ^ lin (axisN t) (value t i) j (logN t n)) := by
  have n2 := ht.n2
  obtain ⟨j, -, j2, j3, j4⟩ := exists_interval (axisN t) (a := 0) (b := t.log_density.length - 1) (by omega) (clamped_range ht n).1
    (clamped_range ht n).2
  have step := incT ht i (i + 1) (by omega) hi
  have last : axisT t i ≤ axisT t (t.log_temperature.length - 1) := (incT ht i _ (by omega) (by omega)).le
  have first : axisT t 0 ≤ axisT t i := by
    rcases Nat.eq_zero_or_pos i with rfl | h0
    · exact le_rfl
    · exact (incT ht 0 i h0 (by omega)).le
  have e : logT t ((10 : ℝ) ^ axisT t i) = axisT t i := by
    unfold logT clampedLog
    rw [if_neg (not_le.2 (by positivity)), Real.logb_rpow (by norm_num) (by norm_num), min_eq_left last, max_eq_right first]
  refine ⟨j, by omega, j3, j4, ?_⟩
  rw [lookup_any ht hi (by omega) (by rw [e]) (by rw [e]; exact step.le) j3 j4, e]
  unfold cell
  congr 2
  unfold lin
  rw [sub_self, zero_div]
  ring

/-- A row that is above another by `d` everywhere. -/
def higher (d : ℕ) (x y : List ℕ) : Bool := ltRow (y.map (· + d)) x

theorem number_shift (a d : ℕ) : number (a + d) = number a + (d : ℝ) / 10 ^ 5 := by
  unfold number
  push_cast
  ring

theorem higher_rate {p : PackedFile} (h : Axes p) {N i k d : ℕ} (hi : i + 1 < p.temperature.length) (hk : k + 1 < p.temperature.length)
    (hd : higher (d * 100000) ((p.level N).getD i []) ((p.level N).getD k []) = true) (n : ℝ) :
    ∃ x y, adasEvaluate (table p N) ((10 : ℝ) ^ number (p.temperature.getD i 0)) n = some x ∧
      adasEvaluate (table p N) ((10 : ℝ) ^ number (p.temperature.getD k 0)) n = some y ∧ 10 ^ d * y < x := by
  have ht := table_wellFormed h N
  have tT : (table p N).log_temperature.length = p.temperature.length := by simp [table]
  have tN : (table p N).log_density.length = p.density.length := by simp [table]
  obtain ⟨j, j1, j2, j3, e⟩ := lookup_row ht (i := i) (by rw [tT]; exact hi) n
  obtain ⟨j', j1', j2', j3', e'⟩ := lookup_row ht (i := k) (by rw [tT]; exact hk) n
  rw [table_axisT (by omega)] at e e'
  refine ⟨_, _, e, e', ?_⟩
  rw [lin_agree (incN ht) j1' j1 j2' j3' j2 j3]
  have row : ∀ i, i < p.temperature.length → ((p.level N).getD i []).length = p.density.length := by
    intro i hi
    have hr : i < (p.level N).length := by simpa [PackedFile.level, rows_length] using hi
    rw [List.getD_eq_getElem _ _ hr]
    exact rows_cols _ _ _ [] (fun _ h => absurd h (List.not_mem_nil)) _ (List.getElem_mem hr)
  have each : ∀ j, j < p.density.length → value (table p N) k j + d < value (table p N) i j := by
    intro j hj
    rw [table_value (by omega) hj, table_value (by omega) hj]
    have := ltRow_spec hd (j := j) (by rw [List.length_map, row _ (by omega)]; exact hj) (by rw [row _ (by omega)]; exact hj)
    have e0 : (((p.level N).getD k []).map (· + d * 100000)).getD j 0 = ((p.level N).getD k []).getD j 0 + d * 100000 := by
      have hk' : j < ((p.level N).getD k []).length := by rw [row _ (by omega)]; exact hj
      rw [List.getD_eq_getElem _ _ (by rw [List.length_map]; exact hk'), List.getElem_map, List.getD_eq_getElem _ _ hk']
    rw [e0] at this
    have := number_lt this
    rw [number_shift] at this
    push_cast at this
    linarith
  have low := lin_lt (c := fun j => value (table p N) k j + d) (incN ht j (j + 1) (by omega) j1) j2 j3 (each j (by omega)) (each (j + 1) (by omega))
  have e1 : lin (axisN (table p N)) (fun j => value (table p N) k j + d) j (logN (table p N) n) =
      d + lin (axisN (table p N)) (value (table p N) k) j (logN (table p N) n) := by
    unfold lin
    ring
  rw [e1] at low
  have := Real.rpow_lt_rpow_of_exponent_lt (x := 10) (by norm_num) low
  rw [Real.rpow_add (by norm_num), Real.rpow_natCast] at this
  exact this

/-- The ionisation of Ne⁵⁺. -/
def neonFive : ℕ := scd96_ne.levels.getD 5 0

theorem neon_rows : higher 200000 ((scd96_ne.level neonFive).getD 24 []) ((scd96_ne.level neonFive).getD 23 []) = true ∧
    higher 200000 ((scd96_ne.level neonFive).getD 24 []) ((scd96_ne.level neonFive).getD 26 []) = true ∧ 28 ≤ scd96_ne.temperature.length ∧
      5 < scd96_ne.levels.length ∧ scd96_ne.temperature.getD 23 0 = 10317629 ∧ scd96_ne.temperature.getD 24 0 = 10330123 ∧
        scd96_ne.temperature.getD 26 0 = 10369917 := by decide +kernel

/-- **Finding.**  In the table of the ionisation of Ne⁵⁺ the rate at 2 keV is more than a hundred times that at 1.5 keV, and more than a
hundred times that at 5 keV, at every density. -/
theorem neon_hump : ∃ ion, Finds "scd96_ne.json" 5 ion ∧ ∀ n, ∃ low peak high,
    adasEvaluate ion ((10 : ℝ) ^ (3.17629 : ℝ)) n = some low ∧ adasEvaluate ion ((10 : ℝ) ^ (3.30123 : ℝ)) n = some peak ∧
      adasEvaluate ion ((10 : ℝ) ^ (3.69917 : ℝ)) n = some high ∧ 100 * low < peak ∧ 100 * high < peak := by
  obtain ⟨h1, h2, h3, h4, h5, h6, h7⟩ := neon_rows
  have hl : database.lookup "scd96_ne.json" = some scd96_ne := by simp [database, List.lookup]
  refine ⟨_, finds hl (N := neonFive) (by unfold neonFive; simp [h4]), fun n => ?_⟩
  have ax : Axes scd96_ne := all_axes _ (mem_of_lookup hl)
  obtain ⟨x, y, e1, e2, l1⟩ := higher_rate ax (N := neonFive) (i := 24) (k := 23) (d := 2) (by omega) (by omega) h1 n
  obtain ⟨x', z, e1', e3, l2⟩ := higher_rate ax (N := neonFive) (i := 24) (k := 26) (d := 2) (by omega) (by omega) h2 n
  rw [e1, Option.some.injEq] at e1'
  subst e1'
  rw [h5] at e2
  rw [h6] at e1
  rw [h7] at e3
  have n1 : number 10317629 = 3.17629 := by norm_num [number]
  have n2 : number 10330123 = 3.30123 := by norm_num [number]
  have n3 : number 10369917 = 3.69917 := by norm_num [number]
  rw [n1] at e2
  rw [n2] at e1
  rw [n3] at e3
  exact ⟨y, x, z, e2, e1, e3, by linarith, by linarith⟩

/-! ## Examples -/

/-- The first reaction of carbon: recombination wins at 0.5 eV, ionisation at 2 eV, at every density. -/
example : create "c + e -> c+ + 2e" = some (.adasIonisation .carbon 0) := by decide +kernel

example : ∃ b ∈ balances, b.element = .carbon ∧ b.level = 0 ∧ b.cold = 0.7 ∧ b.hot = 1.6 :=
  ⟨⟨.carbon, 0, 7, 10, 3, 8, 5, 5⟩, by simp [balances], rfl, rfl, by norm_num [Balance.cold], by norm_num [Balance.hot]⟩

end Hermes.Shipped
