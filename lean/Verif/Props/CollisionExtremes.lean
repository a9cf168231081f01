import Verif.Props.Entropy

/-!
# C102: collisions bring the species together

The fastest species is not accelerated, the coldest is not cooled.
-/

namespace Hermes.Entropy
open Hermes Hermes.Collisions Hermes.HeatConductivity Hermes.Friction

variable {ι : Type}

/-- `s` is slowest, fastest, coldest or hottest among `names` in cell `i`. -/
def Slowest (w : World ι) (names : List String) (s : String) (i : ι) : Prop := ∀ b ∈ names, velocity w s i ≤ velocity w b i
def Fastest (w : World ι) (names : List String) (s : String) (i : ι) : Prop := ∀ b ∈ names, velocity w b i ≤ velocity w s i
def Coldest (w : World ι) (names : List String) (s : String) (i : ι) : Prop := ∀ b ∈ names, temperature w s i ≤ temperature w b i
def Hottest (w : World ι) (names : List String) (s : String) (i : ι) : Prop := ∀ b ∈ names, temperature w b i ≤ temperature w s i

theorem total_nonneg {k : CollNorms} {o : CollOpts} {names : List String} {w : World ι} (hp : Collisions.Physical k o names w) {i : ι}
    {F : ℝ → String → String → ℝ → ℝ}
    (hF : ∀ c nu, 0 ≤ c → 0 ≤ nu → ∀ a ∈ names, ∀ b ∈ names, 0 ≤ F c a b nu) :
    0 ≤ (if "e" ∈ names then (names.map fun n => F (coefficient w n) "e" n (electronPart k o w n i)).sum else 0)
      + pairSum (fun a b => F 1 a b (heavyPart k o w a b i)) names := by
  refine add_nonneg ?_ (pairSum_nonneg fun a ha b hb => hF _ _ one_pos.le (heavyPart_nonneg hp ha hb i) a ha b hb)
  split
  · rename_i he
    refine List.sum_nonneg fun x hx => ?_
    obtain ⟨n, hn, rfl⟩ := List.mem_map.1 hx
    exact hF _ _ (coefficient_pos w n).le (electronPart_nonneg hp hn i) "e" he n hn
  · exact le_rfl

theorem total_neg {k : CollNorms} {o : CollOpts} {names : List String} {w : World ι} {i : ι} (F : ℝ → String → String → ℝ → ℝ) :
    (if "e" ∈ names then (names.map fun n => - F (coefficient w n) "e" n (electronPart k o w n i)).sum else 0)
      + pairSum (fun a b => - F 1 a b (heavyPart k o w a b i)) names =
    - ((if "e" ∈ names then (names.map fun n => F (coefficient w n) "e" n (electronPart k o w n i)).sum else 0)
      + pairSum (fun a b => F 1 a b (heavyPart k o w a b i)) names) := by
  have n1 : ∀ (l : List String) (f : String → ℝ), (l.map fun n => - f n).sum = - (l.map f).sum := fun l f => by
    induction l with
    | nil => simp
    | cons a l ih => rw [List.map_cons, List.sum_cons, ih, List.map_cons, List.sum_cons]; ring
  have n2 : ∀ (l : List String) (f : String → String → ℝ), pairSum (fun a b => - f a b) l = - pairSum f l := fun l f => by
    induction l with
    | nil => simp [pairSum]
    | cons a l ih =>
      have e : ∀ g : String → String → ℝ, pairSum g (a :: l) = ((a :: l).map (g a)).sum + pairSum g l := fun _ => rfl
      rw [e, e, ih, n1]
      ring
  rw [n2]
  split_ifs
  · rw [n1]
    ring
  · ring

section
variable {k : CollNorms} {o : CollOpts} {names : List String} {w : World ι} {i : ι} {s : String}

theorem factor_nonneg (hp : Collisions.Physical k o names w) {c nu : ℝ} (hc : 0 ≤ c) (hn : 0 ≤ nu) {a : String} (ha : a ∈ names) :
    0 ≤ c * nu * mass w a * density w a i := by
  have := hp.masses a ha
  have := hp.densities a ha i
  positivity

theorem heat_factor_nonneg (hp : Collisions.Physical k o names w) {nu : ℝ} (hn : 0 ≤ nu) {a b : String} (ha : a ∈ names) (hb : b ∈ names) :
    0 ≤ 3 * (mass w a / (mass w a + mass w b)) * density w a i * nu := by
  have := hp.masses a ha
  have := hp.masses b hb
  have := hp.densities a ha i
  positivity

/-- **C102.**  The slowest species is not slowed down: the force of collisions on it is not negative. -/
theorem slowest_not_slowed (hp : Collisions.Physical k o names w) (hu : SourcesUnread w.st) {after : Store Key (Fld ι)}
    (h : SourceComponent.transform (collisions k o names) w = (.ok (), after)) (hs : Slowest w names s i) :
    0 ≤ gain w.st after s Var.momentum_source i := by
  rw [species_friction k hp.Tnorm.ne' o names w hu after h s i]
  refine total_nonneg hp (F := fun c a b nu => push w c s a b nu i) fun c nu hc hn a ha b hb => ?_
  have f := factor_nonneg (i := i) hp hc hn ha
  unfold push force
  split_ifs with h1 h2 h2
  · simp
  · subst h1
    have := mul_nonneg f (sub_nonneg.2 (hs b hb))
    linarith
  · subst h2
    have := mul_nonneg f (sub_nonneg.2 (hs a ha))
    linarith
  · simp

/-- **C102.**  The fastest species is not accelerated. -/
theorem fastest_not_accelerated (hp : Collisions.Physical k o names w) (hu : SourcesUnread w.st) {after : Store Key (Fld ι)}
    (h : SourceComponent.transform (collisions k o names) w = (.ok (), after)) (hs : Fastest w names s i) :
    gain w.st after s Var.momentum_source i ≤ 0 := by
  rw [species_friction k hp.Tnorm.ne' o names w hu after h s i, ← neg_nonneg, ← total_neg fun c a b nu => push w c s a b nu i]
  refine total_nonneg hp (F := fun c a b nu => - push w c s a b nu i) fun c nu hc hn a ha b hb => ?_
  have f := factor_nonneg (i := i) hp hc hn ha
  unfold push force
  split_ifs with h1 h2 h2
  · simp
  · subst h1
    have := mul_nonneg f (sub_nonneg.2 (hs b hb))
    linarith
  · subst h2
    have := mul_nonneg f (sub_nonneg.2 (hs a ha))
    linarith
  · simp

theorem work_nonneg (hp : Collisions.Physical k o names w) (fh : Bool) {c nu : ℝ} (hc : 0 ≤ c) (hn : 0 ≤ nu) {a b : String} (ha : a ∈ names) (hb : b ∈ names) :
    0 ≤ work fh w c s a b nu i := by
  have f := factor_nonneg (i := i) hp hc hn ha
  have ma := hp.masses a ha
  have mb := hp.masses b hb
  unfold work force
  split
  · rw [show (velocity w b i - velocity w a i) * (c * nu * mass w a * density w a i * (velocity w b i - velocity w a i)) =
      c * nu * mass w a * density w a i * (velocity w b i - velocity w a i) ^ 2 by ring]
    refine mul_nonneg (mul_nonneg f (sq_nonneg _)) (add_nonneg ?_ ?_)
    · split
      · positivity
      · exact le_rfl
    · split
      · positivity
      · exact le_rfl
  · exact le_rfl

/-- **C102.**  The coldest species is not cooled, with or without frictional heating. -/
theorem coldest_not_cooled (hp : Collisions.Physical k o names w) (hu : SourcesUnread w.st) {after : Store Key (Fld ι)}
    (h : SourceComponent.transform (collisions k o names) w = (.ok (), after)) (hs : Coldest w names s i) :
    0 ≤ gain w.st after s Var.energy_source i := by
  rw [species_heating k hp.Tnorm.ne' o names w hu after h s i]
  refine total_nonneg hp (F := fun c a b nu => warm o.frictional_heating w c s a b nu i) fun c nu hc hn a ha b hb => ?_
  have f := heat_factor_nonneg (i := i) hp hn ha hb
  have g := work_nonneg (s := s) (i := i) hp o.frictional_heating hc hn ha hb
  unfold warm
  refine add_nonneg g ?_
  unfold heat
  split_ifs with h1 h2 h2
  · simp
  · subst h1
    have := mul_nonneg f (sub_nonneg.2 (hs b hb))
    linarith
  · subst h2
    have := mul_nonneg f (sub_nonneg.2 (hs a ha))
    linarith
  · simp

/-- **C102.**  The hottest species is heated by friction only: without frictional heating it is not heated. -/
theorem hottest_not_heated (hp : Collisions.Physical k o names w) (hu : SourcesUnread w.st) {after : Store Key (Fld ι)}
    (h : SourceComponent.transform (collisions k o names) w = (.ok (), after)) (hf : o.frictional_heating = false) (hs : Hottest w names s i) :
    gain w.st after s Var.energy_source i ≤ 0 := by
  rw [species_heating k hp.Tnorm.ne' o names w hu after h s i, ← neg_nonneg, ← total_neg fun c a b nu => warm o.frictional_heating w c s a b nu i]
  refine total_nonneg hp (F := fun c a b nu => - warm o.frictional_heating w c s a b nu i) fun c nu hc hn a ha b hb => ?_
  have f := heat_factor_nonneg (i := i) hp hn ha hb
  unfold warm work heat
  rw [hf, if_neg Bool.false_ne_true]
  split_ifs with h1 h2 h2
  · simp
  · subst h1
    have := mul_nonneg f (sub_nonneg.2 (hs b hb))
    linarith
  · subst h2
    have := mul_nonneg f (sub_nonneg.2 (hs a ha))
    linarith
  · simp

end

/-- Electrons of 300 eV that drift past carbon ions of 200 eV: the ions are coldest and slowest. -/
example : Coldest (drifting 1) ["e", "c"] "c" () ∧ Slowest (drifting 1) ["e", "c"] "c" () ∧ Hottest (drifting 1) ["e", "c"] "e" () ∧
    Fastest (drifting 1) ["e", "c"] "e" () ∧ ∀ o : CollOpts, 0 ≤ o.ei_multiplier → Collisions.Physical si o ["e", "c"] (drifting 1) := by
  have T1 : temperature (drifting 1) "e" () = 3 := by simp [temperature, drifting, Collisions.gas]
  have T2 : temperature (drifting 1) "c" () = 2 := by simp [temperature, drifting, Collisions.gas]
  have V1 : velocity (drifting 1) "e" () = 1 := by simp [velocity, drifting, Collisions.gas]
  have V2 : velocity (drifting 1) "c" () = 0 := by simp [velocity, drifting, Collisions.gas]
  refine ⟨?_, ?_, ?_, ?_, fun o ho => ?_⟩
  · intro b hb; simp at hb; rcases hb with rfl | rfl <;> norm_num [T1, T2]
  · intro b hb; simp at hb; rcases hb with rfl | rfl <;> norm_num [V1, V2]
  · intro b hb; simp at hb; rcases hb with rfl | rfl <;> norm_num [T1, T2]
  · intro b hb; simp at hb; rcases hb with rfl | rfl <;> norm_num [V1, V2]
  · refine ⟨by norm_num [si], by norm_num [si], by norm_num [si], by norm_num [si], by norm_num [si], by norm_num [si], by norm_num [si], by norm_num [si],
      ho, ?_, ?_⟩
    · intro s hs
      simp at hs
      rcases hs with rfl | rfl <;> simp [mass, drifting, Collisions.gas]
    · intro s _ i
      simp [density, drifting, Collisions.gas]

end Hermes.Entropy
