import Verif.Props.Friction

/-!
# C97: collisions never decrease the entropy

Heat `Q_s` that flows into a species at temperature `T_s` raises its entropy by `Q_s/T_s`.
-/

namespace Hermes.Entropy
open Hermes Hermes.Collisions Hermes.Friction

variable {ι : Type}

/-- Rate of change of the entropy of all species together, from the heat that collisions give them. -/
noncomputable def entropyRate (w : World ι) (after : Store Key (Fld ι)) (names : List String) (i : ι) : ℝ :=
  (names.map fun s => gain w.st after s Var.energy_source i / temperature w s i).sum

/-- One collision. -/
noncomputable def made (fh : Bool) (w : World ι) (c : ℝ) (a b : String) (nu : ℝ) (i : ι) : ℝ :=
  (if fh then c * nu * mass w a * density w a i * (velocity w b i - velocity w a i) ^ 2 *
    (mass w b / (mass w a + mass w b) / temperature w a i + mass w a / (mass w a + mass w b) / temperature w b i) else 0)
  + 3 * (mass w a / (mass w a + mass w b)) * density w a i * nu * (temperature w b i - temperature w a i) ^ 2 / (temperature w a i * temperature w b i)

theorem sum_pick (S : Finset String) (a : String) (ha : a ∈ S) (g : String → ℝ) (x : ℝ) : (∑ s ∈ S, (if a = s then x else 0) * g s) = x * g a := by
  simp [ha]

theorem warm_made (fh : Bool) (w : World ι) (c : ℝ) (S : Finset String) {a b : String} (ha : a ∈ S) (hb : b ∈ S) (nu : ℝ) (i : ι)
    (hT : ∀ s ∈ S, 0 < temperature w s i) :
    (∑ s ∈ S, warm fh w c s a b nu i / temperature w s i) = made fh w c a b nu i := by
  have Ta := hT a ha
  have Tb := hT b hb
  have split : ∀ s, warm fh w c s a b nu i / temperature w s i =
      (if a = s then (if fh then (velocity w b i - velocity w a i) * force w c a b nu i * (mass w b / (mass w a + mass w b)) else 0) + heat w a b nu i else 0)
        * (1 / temperature w s i) +
      (if b = s then (if fh then (velocity w b i - velocity w a i) * force w c a b nu i * (mass w a / (mass w a + mass w b)) else 0) - heat w a b nu i else 0)
        * (1 / temperature w s i) := fun s => by
    unfold warm work
    cases fh <;> by_cases h1 : a = s <;> by_cases h2 : b = s <;> simp only [h1, h2, if_true, if_false, Bool.false_eq_true] <;> ring
  rw [Finset.sum_congr rfl fun s _ => split s, Finset.sum_add_distrib, sum_pick S a ha, sum_pick S b hb]
  unfold made force heat
  cases fh
  · simp only [Bool.false_eq_true, if_false]
    field_simp
    ring
  · simp only [if_true]
    generalize mass w a / (mass w a + mass w b) = x
    generalize mass w b / (mass w a + mass w b) = y
    field_simp
    ring

theorem made_nonneg (fh : Bool) (w : World ι) {c : ℝ} (hc : 0 ≤ c) {a b : String} {nu : ℝ} (hn : 0 ≤ nu) (i : ι) (ma : 0 < mass w a) (mb : 0 < mass w b)
    (na : 0 ≤ density w a i) (Ta : 0 < temperature w a i) (Tb : 0 < temperature w b i) : 0 ≤ made fh w c a b nu i := by
  unfold made
  refine add_nonneg ?_ (by positivity)
  split
  · positivity
  · exact le_rfl

theorem sum_swap (S : Finset String) (l : List String) (f : String → String → ℝ) : (∑ s ∈ S, (l.map (f s)).sum) = (l.map fun n => ∑ s ∈ S, f s n).sum := by
  induction l with
  | nil => simp
  | cons n l ih => simp only [List.map_cons, List.sum_cons, Finset.sum_add_distrib, ih]

theorem pairSum_swap (S : Finset String) (l : List String) (f : String → String → String → ℝ) :
    (∑ s ∈ S, pairSum (f s) l) = pairSum (fun a b => ∑ s ∈ S, f s a b) l := by
  induction l with
  | nil => simp [pairSum]
  | cons n l ih =>
    have e : ∀ g : String → String → ℝ, pairSum g (n :: l) = ((n :: l).map (g n)).sum + pairSum g l := fun _ => rfl
    simp only [e, Finset.sum_add_distrib, ih, sum_swap]

theorem pairSum_congr {f g : String → String → ℝ} : ∀ {l : List String}, (∀ a ∈ l, ∀ b ∈ l, f a b = g a b) → pairSum f l = pairSum g l
  | [], _ => rfl
  | n :: l, h => by
    have e : ∀ g : String → String → ℝ, pairSum g (n :: l) = ((n :: l).map (g n)).sum + pairSum g l := fun _ => rfl
    rw [e, e, List.map_congr_left fun b hb => h n (by simp) b hb, pairSum_congr fun a ha b hb => h a (by simp [ha]) b (by simp [hb])]

theorem pairSum_div (f : String → String → ℝ) (x : ℝ) : ∀ l : List String, pairSum f l / x = pairSum (fun a b => f a b / x) l
  | [] => by simp [pairSum]
  | n :: l => by
    have e : ∀ g : String → String → ℝ, pairSum g (n :: l) = ((n :: l).map (g n)).sum + pairSum g l := fun _ => rfl
    have d : ∀ l : List String, (l.map (f n)).sum / x = (l.map fun b => f n b / x).sum := fun l => by
      induction l with
      | nil => simp
      | cons a l ih => rw [List.map_cons, List.sum_cons, add_div, ih, List.map_cons, List.sum_cons]
    rw [e, e, add_div, d, pairSum_div f x l]

theorem pairSum_nonneg {f : String → String → ℝ} : ∀ {l : List String}, (∀ a ∈ l, ∀ b ∈ l, 0 ≤ f a b) → 0 ≤ pairSum f l
  | [], _ => le_rfl
  | n :: l, h => by
    have e : pairSum f (n :: l) = ((n :: l).map (f n)).sum + pairSum f l := rfl
    rw [e]
    refine add_nonneg (List.sum_nonneg fun x hx => ?_) (pairSum_nonneg fun a ha b hb => h a (by simp [ha]) b (by simp [hb]))
    obtain ⟨b, hb, rfl⟩ := List.mem_map.1 hx
    exact h n (by simp) b hb

theorem le_sum {f : String → ℝ} {l : List String} (h : ∀ a ∈ l, 0 ≤ f a) {b : String} (hb : b ∈ l) : f b ≤ (l.map f).sum :=
  List.single_le_sum (fun x hx => by obtain ⟨a, ha, rfl⟩ := List.mem_map.1 hx; exact h a ha) _ (List.mem_map.2 ⟨b, hb, rfl⟩)

theorem le_pairSum {f : String → String → ℝ} {x y : String} : ∀ {l : List String}, (∀ a ∈ l, ∀ b ∈ l, 0 ≤ f a b) → [x, y].Sublist l → f x y ≤ pairSum f l
  | [], _, hs => by cases hs
  | n :: l, h, hs => by
    have e : pairSum f (n :: l) = ((n :: l).map (f n)).sum + pairSum f l := rfl
    have h' : ∀ a ∈ l, ∀ b ∈ l, 0 ≤ f a b := fun a ha b hb => h a (by simp [ha]) b (by simp [hb])
    have p := pairSum_nonneg h'
    have q : 0 ≤ ((n :: l).map (f n)).sum := List.sum_nonneg fun x hx => by
      obtain ⟨b, hb, rfl⟩ := List.mem_map.1 hx
      exact h n (by simp) b hb
    rw [e]
    cases hs with
    | cons _ hs => linarith [le_pairSum h' hs]
    | cons_cons _ hs =>
      have := le_sum (f := f x) (l := x :: l) (fun b hb => h x (by simp) b hb) (b := y) (by simp [List.singleton_sublist.1 hs])
      linarith

/-- **C97.**  The entropy made is the sum over the pairs of species. -/
theorem entropy_made (k : CollNorms) (hT0 : k.Tnorm ≠ 0) (o : CollOpts) (names : List String) (hn : names.Nodup) (w : World ι)
    (hu : SourcesUnread w.st) (after : Store Key (Fld ι)) (h : SourceComponent.transform (collisions k o names) w = (.ok (), after)) (i : ι)
    (hT : ∀ s ∈ names, 0 < temperature w s i) :
    entropyRate w after names i =
      (if "e" ∈ names then (names.map fun n => made o.frictional_heating w (coefficient w n) "e" n (electronPart k o w n i) i).sum else 0)
      + pairSum (fun a b => made o.frictional_heating w 1 a b (heavyPart k o w a b i) i) names := by
  have hT' : ∀ s ∈ names.toFinset, 0 < temperature w s i := fun s hs => hT s (by simpa using hs)
  unfold entropyRate
  rw [← List.sum_toFinset _ hn]
  have d : ∀ (g : String → ℝ) (x : ℝ) (l : List String), (l.map g).sum / x = (l.map fun b => g b / x).sum := fun g x l => by
    induction l with
    | nil => simp
    | cons a l ih => rw [List.map_cons, List.sum_cons, add_div, ih, List.map_cons, List.sum_cons]
  simp only [species_heating k hT0 o names w hu after h, add_div, Finset.sum_add_distrib, pairSum_div]
  congr 1
  · split
    · rename_i he
      simp only [d]
      rw [sum_swap]
      exact congrArg List.sum (List.map_congr_left fun n hx => warm_made _ w _ _ (by simpa using he) (by simpa using hx) _ i hT')
    · simp
  · rw [pairSum_swap]
    exact pairSum_congr fun a ha b hb => warm_made _ w _ _ (by simpa using ha) (by simpa using hb) _ i hT'

theorem electronPart_nonneg {k : CollNorms} {o : CollOpts} {names : List String} {w : World ι} (hp : Collisions.Physical k o names w) {n : String} (hn : n ∈ names)
    (i : ι) : 0 ≤ electronPart k o w n i := by
  have hA := hp.masses n hn
  have hd := hp.densities n hn i
  have hN := hp.Nnorm
  have hr := hp.rho_s0
  unfold electronPart
  dsimp only
  split_ifs
  · exact div_nonneg (nuEE_nonneg _ _ hp.qe hp.Me) hp.Omega_ci.le
  · exact le_rfl
  · exact div_nonneg (nuEI_nonneg _ _ _ _ _ _ hp.qe hp.Me hp.Mp hA hp.ei) hp.Omega_ci.le
  · exact le_rfl
  · exact le_rfl
  · positivity
  · exact le_rfl

theorem heavyPart_nonneg {k : CollNorms} {o : CollOpts} {names : List String} {w : World ι} (hp : Collisions.Physical k o names w) {a b : String} (ha : a ∈ names)
    (hb : b ∈ names) (i : ι) : 0 ≤ heavyPart k o w a b i := by
  have hA := hp.masses a ha
  have hB := hp.masses b hb
  have hd := hp.densities b hb i
  have hN := hp.Nnorm
  have hr := hp.rho_s0
  have hs : ∀ σ : ℝ, 0 ≤ σ → 0 ≤ hardRate k σ w a b i := fun σ h => by unfold hardRate; positivity
  have hpi : 0 ≤ Real.pi * (2.8e-10) ^ 2 := mul_nonneg Real.pi_pos.le (by norm_num)
  unfold heavyPart
  split_ifs
  · exact le_rfl
  · exact le_rfl
  · exact div_nonneg (nuII_nonneg _ _ _ _ _ _ _ _ hp.qe hp.Mp hA hB) hp.Omega_ci.le
  · exact le_rfl
  · exact hs _ (by norm_num)
  · exact hs _ (by norm_num)
  · exact le_rfl
  · exact hs _ hpi
  · exact le_rfl

theorem coefficient_pos (w : World ι) (n : String) : 0 < coefficient w n := by
  unfold coefficient documented
  split_ifs <;> norm_num

theorem parts_nonneg {k : CollNorms} {o : CollOpts} {names : List String} {w : World ι} (hp : Collisions.Physical k o names w) {i : ι}
    (hT : ∀ s ∈ names, 0 < temperature w s i) :
    ("e" ∈ names → ∀ n ∈ names, 0 ≤ made o.frictional_heating w (coefficient w n) "e" n (electronPart k o w n i) i) ∧
    (∀ a ∈ names, ∀ b ∈ names, 0 ≤ made o.frictional_heating w 1 a b (heavyPart k o w a b i) i) :=
  ⟨fun he n hn => made_nonneg _ w (coefficient_pos w n).le (electronPart_nonneg hp hn i) i (hp.masses _ he) (hp.masses _ hn) (hp.densities _ he i) (hT _ he) (hT _ hn),
    fun a ha b hb => made_nonneg _ w one_pos.le (heavyPart_nonneg hp ha hb i) i (hp.masses _ ha) (hp.masses _ hb) (hp.densities _ ha i) (hT _ ha) (hT _ hb)⟩

/-- **C97.**  In any mixture, with or without frictional heating, collisions do not decrease the entropy. -/
theorem second_law (k : CollNorms) (o : CollOpts) (names : List String) (hn : names.Nodup) (w : World ι) (hp : Collisions.Physical k o names w)
    (hu : SourcesUnread w.st) (after : Store Key (Fld ι)) (h : SourceComponent.transform (collisions k o names) w = (.ok (), after)) (i : ι)
    (hT : ∀ s ∈ names, 0 < temperature w s i) : 0 ≤ entropyRate w after names i := by
  rw [entropy_made k hp.Tnorm.ne' o names hn w hu after h i hT]
  obtain ⟨h1, h2⟩ := parts_nonneg hp hT
  refine add_nonneg ?_ (pairSum_nonneg h2)
  split
  · rename_i he
    refine List.sum_nonneg fun x hx => ?_
    obtain ⟨n, hn, rfl⟩ := List.mem_map.1 hx
    exact h1 he n hn
  · exact le_rfl

theorem made_zero {fh : Bool} {w : World ι} {c : ℝ} (hc : 0 < c) {a b : String} {nu : ℝ} (hn : 0 < nu) {i : ι} (ma : 0 < mass w a) (mb : 0 < mass w b)
    (na : 0 < density w a i) (Ta : 0 < temperature w a i) (Tb : 0 < temperature w b i) (h : made fh w c a b nu i ≤ 0) :
    temperature w a i = temperature w b i ∧ (fh = true → velocity w a i = velocity w b i) := by
  unfold made at h
  have p1 : 0 ≤ 3 * (mass w a / (mass w a + mass w b)) * density w a i * nu * (temperature w b i - temperature w a i) ^ 2 /
      (temperature w a i * temperature w b i) := by positivity
  have p2 : 0 ≤ c * nu * mass w a * density w a i * (velocity w b i - velocity w a i) ^ 2 *
    (mass w b / (mass w a + mass w b) / temperature w a i + mass w a / (mass w a + mass w b) / temperature w b i) := by positivity
  have p3 : 0 ≤ (if fh then c * nu * mass w a * density w a i * (velocity w b i - velocity w a i) ^ 2 *
    (mass w b / (mass w a + mass w b) / temperature w a i + mass w a / (mass w a + mass w b) / temperature w b i) else 0) := by
    split
    · exact p2
    · exact le_rfl
  constructor
  · by_contra hne
    have hd : temperature w b i - temperature w a i ≠ 0 := fun e => hne (by linarith)
    have : 0 < 3 * (mass w a / (mass w a + mass w b)) * density w a i * nu * (temperature w b i - temperature w a i) ^ 2 /
      (temperature w a i * temperature w b i) := by positivity
    linarith
  · rintro rfl
    by_contra hne
    have hd : velocity w b i - velocity w a i ≠ 0 := fun e => hne (by linarith)
    have : 0 < c * nu * mass w a * density w a i * (velocity w b i - velocity w a i) ^ 2 *
      (mass w b / (mass w a + mass w b) / temperature w a i + mass w a / (mass w a + mass w b) / temperature w b i) := by positivity
    rw [if_pos rfl] at h
    linarith

/-- **C97.**  And they leave it unchanged only if species that collide have the same temperature and, with frictional heating, the same velocity. -/
theorem constant_only_in_equilibrium (k : CollNorms) (o : CollOpts) (names : List String) (hn : names.Nodup) (w : World ι)
    (hp : Collisions.Physical k o names w) (hu : SourcesUnread w.st) (after : Store Key (Fld ι))
    (h : SourceComponent.transform (collisions k o names) w = (.ok (), after)) (i : ι) (hT : ∀ s ∈ names, 0 < temperature w s i)
    (hd : ∀ s ∈ names, 0 < density w s i) (hz : entropyRate w after names i = 0) :
    (∀ n ∈ names, "e" ∈ names → 0 < electronPart k o w n i →
      temperature w "e" i = temperature w n i ∧ (o.frictional_heating = true → velocity w "e" i = velocity w n i)) ∧
    (∀ a b, [a, b].Sublist names → 0 < heavyPart k o w a b i →
      temperature w a i = temperature w b i ∧ (o.frictional_heating = true → velocity w a i = velocity w b i)) := by
  rw [entropy_made k hp.Tnorm.ne' o names hn w hu after h i hT] at hz
  obtain ⟨h1, h2⟩ := parts_nonneg hp hT
  have q := pairSum_nonneg h2
  have p : 0 ≤ (if "e" ∈ names then (names.map fun n => made o.frictional_heating w (coefficient w n) "e" n (electronPart k o w n i) i).sum else 0) := by
    split
    · rename_i he
      refine List.sum_nonneg fun x hx => ?_
      obtain ⟨n, hn, rfl⟩ := List.mem_map.1 hx
      exact h1 he n hn
    · exact le_rfl
  constructor
  · intro n hx he hnu
    refine made_zero (coefficient_pos w n) hnu (hp.masses _ he) (hp.masses _ hx) (hd _ he) (hT _ he) (hT _ hx) ?_
    rw [if_pos he] at hz p
    have := le_sum (h1 he) hx
    linarith
  · intro a b hab hnu
    have ha : a ∈ names := hab.subset (by simp)
    have hb : b ∈ names := hab.subset (by simp)
    refine made_zero one_pos hnu (hp.masses _ ha) (hp.masses _ hb) (hd _ ha) (hT _ ha) (hT _ hb) ?_
    have := le_pairSum h2 hab
    linarith

/-- The electrons and ions of `drifting`. -/
example (z : ℝ) (hz : 0 < z) (o : CollOpts) (ho : 0 ≤ o.ei_multiplier) : Collisions.Physical HeatConductivity.si o ["e", "c"] (drifting z) ∧
    (∀ s ∈ ["e", "c"], 0 < temperature (drifting z) s () ∧ 0 < density (drifting z) s ()) ∧ SourcesUnread (drifting z).st ∧
    ∃ after, SourceComponent.transform (collisions HeatConductivity.si o ["e", "c"]) (drifting z) = (.ok (), after) := by
  have hr : Ready HeatConductivity.si ["e", "c"] (drifting z) := by
    refine gas_ready (by norm_num [HeatConductivity.si]) ?_ ?_ ?_
    · intro s _; split <;> norm_num
    · intro s _; split <;> norm_num
    · intro s _ hs y hy
      simp only [hs, if_false] at hy
      cases hy
      exact hz.le
  refine ⟨?_, ?_, gas_unread, collisions_succeed _ o _ _ hr gas_unread⟩
  · constructor
    · norm_num [HeatConductivity.si]
    · norm_num [HeatConductivity.si]
    · norm_num [HeatConductivity.si]
    · norm_num [HeatConductivity.si]
    · norm_num [HeatConductivity.si]
    · norm_num [HeatConductivity.si]
    · norm_num [HeatConductivity.si]
    · norm_num [HeatConductivity.si]
    · exact ho
    · intro s hs
      simp at hs
      rcases hs with rfl | rfl <;> simp [mass, drifting, Collisions.gas]
    · intro s hs i
      norm_num [density, drifting, Collisions.gas]
  · intro s hs
    simp at hs
    rcases hs with rfl | rfl <;> simp [temperature, density, drifting, Collisions.gas]

theorem pairSum_zero {f : String → String → ℝ} {l : List String} (h : ∀ a ∈ l, ∀ b ∈ l, f a b = 0) : pairSum f l = 0 := by
  rw [pairSum_congr (g := fun _ _ => 0) h]
  induction l with
  | nil => rfl
  | cons n l ih =>
    have e : ∀ g : String → String → ℝ, pairSum g (n :: l) = ((n :: l).map (g n)).sum + pairSum g l := fun _ => rfl
    rw [e, ih fun a ha b hb => h a (by simp [ha]) b (by simp [hb])]
    simp

/-- **C97.**  And equilibrium stays: where all species have the same temperature and velocity, collisions give no species any momentum or heat. -/
theorem equilibrium_stays (k : CollNorms) (hT0 : k.Tnorm ≠ 0) (o : CollOpts) (names : List String) (w : World ι) (hu : SourcesUnread w.st)
    (after : Store Key (Fld ι)) (h : SourceComponent.transform (collisions k o names) w = (.ok (), after)) (i : ι)
    (hT : ∀ a ∈ names, ∀ b ∈ names, temperature w a i = temperature w b i) (hV : ∀ a ∈ names, ∀ b ∈ names, velocity w a i = velocity w b i) (s : String) :
    gain w.st after s Var.momentum_source i = 0 ∧ gain w.st after s Var.energy_source i = 0 := by
  have f : ∀ c nu, ∀ a ∈ names, ∀ b ∈ names, push w c s a b nu i = 0 := fun c nu a ha b hb => by
    simp [push, force, hV a ha b hb]
  have g : ∀ c nu, ∀ a ∈ names, ∀ b ∈ names, warm o.frictional_heating w c s a b nu i = 0 := fun c nu a ha b hb => by
    simp [warm, work, force, heat, hV a ha b hb, hT a ha b hb]
  rw [species_friction k hT0 o names w hu after h s i, species_heating k hT0 o names w hu after h s i,
    pairSum_zero fun a ha b hb => f _ _ a ha b hb, pairSum_zero fun a ha b hb => g _ _ a ha b hb]
  constructor
  · split_ifs with he
    · rw [List.map_congr_left fun n hn => f _ _ "e" he n hn]
      simp
    · simp
  · split_ifs with he
    · rw [List.map_congr_left fun n hn => g _ _ "e" he n hn]
      simp
    · simp

end Hermes.Entropy
