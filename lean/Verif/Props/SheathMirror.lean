import Verif.Props.SheathCurrent

/-!
# `SheathBoundary` treats both ends of a field line alike (C39)
-/

set_option linter.unusedSectionVars false
set_option linter.unusedVariables false

namespace Hermes.Sheath
open Hermes.Closures

variable {ι : Type} [DecidableEq ι]

/-! ## Specification -/

/-- The mesh with the parallel direction reversed. -/
def _root_.Hermes.YMesh.mirror (m : YMesh ι) : YMesh ι := { m with ym := m.yp, yp := m.ym, lower := m.upper, upper := m.lower }

/-- The settings with the two ends exchanged. -/
def _root_.Hermes.SheathOpts.mirror (o : SheathOpts ι) : SheathOpts ι := { o with lower_y := o.upper_y, upper_y := o.lower_y }

/-- The variables that have a direction along the field. -/
def directed : Var → Bool
  | .velocity | .momentum | .momentum_source => true
  | _ => false

/-- A value with the direction reversed. -/
def _root_.Hermes.Value.rev : Value ι → Value ι
  | .real x => .real (-x)
  | .field f => .field (-f)

/-- `st2` is the state `st` seen with the parallel direction reversed.  (The flow through the lower face of a cell is not
compared: it becomes the flow through the upper face.) -/
def Mirrored (st st2 : Store Key (Value ι)) : Prop :=
  (∀ n, vals st2 (.top n) = vals st (.top n)) ∧
  ∀ s v, v ≠ .energy_flow_ylow → vals st2 (.sp s v) = if directed v then (vals st (.sp s v)).map Value.rev else vals st (.sp s v)

/-! ## The loops -/

theorem Target.mirror {m : YMesh ι} {lo up u : Bool} {i g inn : ι} (h : Target m lo up u i g inn) :
    Target m.mirror up lo (!u) i g inn := by
  cases h with
  | lower e hi => exact Target.upper (m := m.mirror) e hi
  | upper e hi => exact Target.lower (m := m.mirror) e hi

theorem _root_.Hermes.YMesh.mirror_mirror (m : YMesh ι) : m.mirror.mirror = m := rfl

theorem Target.of_mirror {m : YMesh ι} {lo up u : Bool} {i g inn : ι} (h : Target m.mirror up lo u i g inn) :
    Target m lo up (!u) i g inn := h.mirror

theorem MeshOk.mirror {m : YMesh ι} (h : MeshOk m) : MeshOk m.mirror where
  nodup := by
    have := h.nodup
    rw [List.nodup_append_comm] at this
    exact this
  sep g hg := by
    have hg' : g ∈ m.lower.map m.ym ++ m.upper.map m.yp := by
      rw [List.mem_append] at hg ⊢
      exact hg.symm
    obtain ⟨h1, h2, h3, h4⟩ := h.sep g hg'
    exact ⟨h2, h1, h4, h3⟩

theorem MeshLong.mirror {m : YMesh ι} (h : MeshLong m) : MeshLong m.mirror := by
  intro u i g inn u' i' g' inn' h1 h2 hne
  exact h _ _ _ _ _ _ _ _ h1.of_mirror h2.of_mirror hne

/-- Loops whose bodies are mirror images have results that are mirror images. -/
theorem bothEnds_mirror {κ : Type} {m : YMesh ι} {lo up : Bool} {fl fu fl' fu' : ι → κ → κ → κ × ℝ} {R : κ → κ}
    (hm : MeshOk m) {s s' : (ι → κ) × Fld ι} (h1 : ∀ j, s'.1 j = R (s.1 j)) (h2 : s'.2 = s.2)
    (hl : ∀ i c d, (fl' i (R c) (R d)) = (R (fu i c d).1, (fu i c d).2))
    (hu : ∀ i c d, (fu' i (R c) (R d)) = (R (fl i c d).1, (fl i c d).2)) (j : ι) :
    (bothEnds m.mirror up lo fl' fu' s').1 j = R ((bothEnds m lo up fl fu s).1 j) ∧
    (bothEnds m.mirror up lo fl' fu' s').2 j = (bothEnds m lo up fl fu s).2 j := by
  constructor
  · by_cases h : ∀ u i inn, ¬ Target m lo up u i j inn
    · rw [bothEnds_other h, bothEnds_other fun u i inn ht => h _ _ _ ht.of_mirror, h1]
    · push Not at h
      obtain ⟨u, i, inn, ht⟩ := h
      rw [(bothEnds_target hm ht).1, (bothEnds_target hm.mirror ht.mirror).1, h1, h1]
      cases u
      · show (fu' i _ _).1 = R (fl i _ _).1
        rw [hu]
      · show (fl' i _ _).1 = R (fu i _ _).1
        rw [hl]
  · by_cases h : ∀ u g inn, ¬ Target m lo up u j g inn
    · rw [bothEnds_src_other h, bothEnds_src_other fun u i inn ht => h _ _ _ ht.of_mirror, h2]
    · push Not at h
      obtain ⟨u, g, inn, ht⟩ := h
      rw [(bothEnds_target hm ht).2, (bothEnds_target hm.mirror ht.mirror).2, h1, h1, h2]
      cases u
      · show _ + (fu' j _ _).2 = _ + (fl j _ _).2
        rw [hu]
      · show _ + (fl' j _ _).2 = _ + (fu j _ _).2
        rw [hl]

/-- Reversing the direction of a cell's velocity and momentum. -/
def _root_.Hermes.ECell.rev (c : ECell) : ECell := { c with v := -c.v, nv := -c.nv }
def _root_.Hermes.ICell.rev (c : ICell) : ICell := { c with v := -c.v, nv := -c.nv }

theorem out_not (u : Bool) : out (!u) = -out u := by cases u <;> simp [out]

theorem electronBody_mirror (o : SheathOpts ι) (m : YMesh ι) (Me γ : ℝ) (u : Bool) (i : ι) (c d : ECell) :
    (if !u then electronUpper o.mirror m.mirror Me γ else electronLower o.mirror m.mirror Me γ) i c.rev d.rev =
    (((if u then electronUpper o m Me γ else electronLower o m Me γ) i c d).1.rev,
      ((if u then electronUpper o m Me γ else electronLower o m Me γ) i c d).2) := by
  have hg : (if u then m.yp i else m.ym i) = if (!u) then m.mirror.yp i else m.mirror.ym i := by cases u <;> rfl
  have h1 := electronBody_eq o m Me γ u i _ c d rfl
  have h2 := electronBody_eq o.mirror m.mirror Me γ (!u) i _ c.rev d.rev hg
  dsimp only at h1 h2
  rw [h1]
  refine h2.trans ?_
  refine Prod.ext ?_ rfl
  rw [out_not]
  simp only [ECell.rev, SheathOpts.mirror]
  congr 1 <;> ring

theorem ionBody_mirror (m : YMesh ι) (Z M γ : ℝ) (e e' : ι → ECell) (he : ∀ j, e' j = (e j).rev) (u : Bool) (i : ι) (c d : ICell) :
    (if !u then ionUpper m.mirror Z M γ e' else ionLower m.mirror Z M γ e') i c.rev d.rev =
    (((if u then ionUpper m Z M γ e else ionLower m Z M γ e) i c d).1.rev,
      ((if u then ionUpper m Z M γ e else ionLower m Z M γ e) i c d).2) := by
  have hg : (if u then m.yp i else m.ym i) = if (!u) then m.mirror.yp i else m.mirror.ym i := by cases u <;> rfl
  have h1 := ionBody_eq m Z M γ e u i _ c d rfl
  have h2 := ionBody_eq m.mirror Z M γ e' (!u) i _ c.rev d.rev hg
  dsimp only at h1 h2
  rw [h1]
  refine h2.trans ?_
  simp only [he]
  refine Prod.ext ?_ rfl
  rw [out_not]
  simp only [ICell.rev, ECell.rev]
  congr 1 <;> ring

/-! ## Inputs -/

theorem asField_rev (x : Value ι) : asField x.rev = (asField x).map (fun f => -f) := by cases x <;> rfl

variable {st st2 : Store Key (Value ι)}

theorem Mirrored.same (h : Mirrored st st2) (s : String) {v : Var} (hv : v ≠ .energy_flow_ylow) (hd : directed v = false) :
    species st2 s v = species st s v := by
  show vals st2 _ = vals st _
  rw [h.2 s v hv, hd]; rfl

theorem Mirrored.rev (h : Mirrored st st2) (s : String) {v : Var} (hv : v ≠ .energy_flow_ylow) (hd : directed v = true) :
    species st2 s v = (species st s v).map Value.rev := by
  show vals st2 _ = (vals st _).map _
  rw [h.2 s v hv, hd]; rfl

theorem Mirrored.fld_same (h : Mirrored st st2) (s : String) {v : Var} (hv : v ≠ .energy_flow_ylow) (hd : directed v = false)
    (d : Fld ι) : fld (species st2 s) v d = fld (species st s) v d := by unfold fld; rw [h.same s hv hd]

theorem Mirrored.num_same (h : Mirrored st st2) (s : String) {v : Var} (hv : v ≠ .energy_flow_ylow) (hd : directed v = false)
    (d : ℝ) : num (species st2 s) v d = num (species st s) v d := by unfold num; rw [h.same s hv hd]

theorem Mirrored.fld_rev (h : Mirrored st st2) (s : String) {v : Var} (hv : v ≠ .energy_flow_ylow) (hd : directed v = true)
    (d : Fld ι) : fld (species st2 s) v (-d) = -fld (species st s) v d := by
  unfold fld; rw [h.rev s hv hd]
  cases species st s v with
  | none => rfl
  | some x => cases x <;> rfl

theorem Mirrored.ionCells (h : Mirrored st st2) (s : String) (i : ι) :
    ionCells (species st2 s) i = (Sheath.ionCells (species st s) i).rev := by
  have hv := h.fld_rev s (v := .velocity) (by decide) rfl 0
  rw [neg_zero] at hv
  have hnv := h.fld_rev s (v := .momentum) (by decide) rfl
    (fun i => num (species st s) .AA 0 * floorTo (fld (species st s) .density 0 i) 0 * fld (species st s) .velocity 0 i)
  have e1 : -(fun i => num (species st s) .AA 0 * floorTo (fld (species st s) .density 0 i) 0 * fld (species st s) .velocity 0 i)
      = (fun i => num (species st s) .AA 0 * floorTo (fld (species st s) .density 0 i) 0 * (-fld (species st s) .velocity 0) i) := by
    funext i; simp
  rw [e1] at hnv
  unfold Sheath.ionCells ICell.rev
  dsimp only
  rw [h.fld_same s (v := .density) (by decide) rfl, h.fld_same s (v := .temperature) (by decide) rfl,
    h.fld_same s (v := .pressure) (by decide) rfl, h.num_same s (v := .AA) (by decide) rfl, hv, hnv]
  rfl

theorem Mirrored.electronCells (h : Mirrored st st2) {φ φ' : Fld ι} (hφ : φ' = φ) (i : ι) :
    electronCells (species st2 "e") φ' i = (Sheath.electronCells (species st "e") φ i).rev := by
  have hv := h.fld_rev "e" (v := .velocity) (by decide) rfl 0
  have hnv := h.fld_rev "e" (v := .momentum) (by decide) rfl 0
  rw [neg_zero] at hv hnv
  unfold Sheath.electronCells ECell.rev
  dsimp only
  rw [h.fld_same "e" (v := .density) (by decide) rfl, h.fld_same "e" (v := .temperature) (by decide) rfl,
    h.fld_same "e" (v := .pressure) (by decide) rfl, hv, hnv, hφ]
  rfl

theorem Mirrored.isIon (h : Mirrored st st2) (n : String) : IsIon st2 n ↔ IsIon st n := by
  unfold IsIon
  rw [h.num_same n (v := .charge) (by decide) rfl]

theorem Mirrored.stateTerm (h : Mirrored st st2) (o : SheathOpts ι) (i inn : ι) (n : String) :
    stateTerm o.mirror st2 i inn n = Sheath.stateTerm o st i inn n := by
  unfold Sheath.stateTerm
  by_cases hi : IsIon st n
  · rw [if_pos hi, if_pos ((h.isIon n).2 hi)]
    unfold charge mass adiabatic
    simp only [fieldOf_species]
    rw [h.fld_same "e" (v := .density) (by decide) rfl, h.fld_same "e" (v := .temperature) (by decide) rfl,
      h.fld_same n (v := .density) (by decide) rfl, h.fld_same n (v := .temperature) (by decide) rfl,
      h.num_same n (v := .charge) (by decide) rfl, h.num_same n (v := .AA) (by decide) rfl,
      h.num_same n (v := .adiabatic) (by decide) rfl]
    rfl
  · rw [if_neg hi, if_neg (fun hh => hi ((h.isIon n).1 hh))]

/-- The potential written next to a target, including the guard cell. -/
theorem potential_target' (o : SheathOpts ι) {m : YMesh ι} (hm : MeshOk m) (hlong : MeshLong m) (Me : ℝ) (Te S φ : Fld ι)
    {u : Bool} {i g inn : ι} (ht : Target m o.lower_y o.upper_y u i g inn) {j : ι} (hj : j = i ∨ j = inn ∨ j = g) :
    sheathPotentialBoth o m Me Te S φ j = zeroCurrentPotential o Me Te S i := by
  have ht' : Target m true true u i g inn := by
    cases ht with
    | lower _ hi => exact .lower rfl hi
    | upper _ hi => exact .upper rfl hi
  have hsep : ∀ u' i' g' inn', Target m true true u' i' g' inn' → i' ≠ i → j ≠ i' ∧ j ≠ g' ∧ j ≠ inn' := by
    intro u' i' g' inn' h' hne
    obtain ⟨h1, h2⟩ := hlong _ _ _ _ _ _ _ _ ht' h' (Ne.symm hne)
    obtain ⟨h3, h4⟩ := hlong _ _ _ _ _ _ _ _ h' ht' hne
    obtain ⟨h5, h6⟩ := h'.ne hm ht'
    obtain ⟨h7, h8⟩ := ht'.ne hm h'
    rcases hj with rfl | rfl | rfl
    · exact ⟨Ne.symm hne, Ne.symm h5, h2⟩
    · exact ⟨Ne.symm h4, Ne.symm h6, h1⟩
    · exact ⟨h7, ht'.guard_ne hm h' (Ne.symm hne), h8⟩
  unfold sheathPotentialBoth
  cases ht with
  | lower e hi =>
    rw [if_pos e]
    have hu : ∀ φ' : Fld ι, (if o.upper_y = true then m.upper.foldl (sheathPotential o m Me Te S) φ' else φ') j = φ' j := by
      intro φ'
      split
      · refine foldl_potential_other o m Me Te S _ _ fun i' hi' => ?_
        have := hsep _ _ _ _ (.upper rfl hi') (by rintro rfl; exact hm.disjoint hi hi')
        exact ⟨this.1, this.2.2, this.2.1⟩
      · rfl
    rw [hu]
    refine foldl_potential_hit o m Me Te S (by tauto) _ _ hi fun i' hi' hne => ?_
    have := hsep _ _ _ _ (.lower rfl hi') hne
    exact ⟨this.1, this.2.1, this.2.2⟩
  | upper e hi =>
    rw [if_pos e]
    refine foldl_potential_hit o m Me Te S (by tauto) _ _ hi fun i' hi' hne => ?_
    have := hsep _ _ _ _ (.upper rfl hi') hne
    exact ⟨this.1, this.2.2, this.2.1⟩

/-- The potential elsewhere is not written. -/
theorem potential_other (o : SheathOpts ι) {m : YMesh ι} (Me : ℝ) (Te S φ : Fld ι) {j : ι}
    (h : ∀ u i g inn, Target m o.lower_y o.upper_y u i g inn → ¬ (j = i ∨ j = inn ∨ j = g)) :
    sheathPotentialBoth o m Me Te S φ j = φ j := by
  unfold sheathPotentialBoth
  have hl : (if o.lower_y = true then m.lower.foldl (sheathPotential o m Me Te S) φ else φ) j = φ j := by
    split
    · rename_i e
      refine foldl_potential_other o m Me Te S _ _ fun i hi => ?_
      have := h _ _ _ _ (.lower e hi)
      tauto
    · rfl
  split
  · rename_i e
    rw [foldl_potential_other o m Me Te S _ _ fun i hi => by have := h _ _ _ _ (.upper e hi); tauto]
    exact hl
  · exact hl

theorem Mirrored.phiUsed (h : Mirrored st st2) (o : SheathOpts ι) {m : YMesh ι} (hm : MeshOk m) (hlong : MeshLong m)
    (garbage : Fld ι) (names : List String) :
    phiUsed o.mirror m.mirror garbage names st2 = Sheath.phiUsed o m garbage names st := by
  unfold Sheath.phiUsed
  dsimp only
  rw [h.fld_same "e" (v := .density) (by decide) rfl, h.fld_same "e" (v := .temperature) (by decide) rfl,
    h.num_same "e" (v := .AA) (by decide) rfl]
  unfold fieldOr
  rw [h.1]
  congr 1
  funext j
  by_cases hj : ∀ u i g inn, Target m o.lower_y o.upper_y u i g inn → ¬ (j = i ∨ j = inn ∨ j = g)
  · rw [potential_other o _ _ _ _ hj,
      potential_other o.mirror _ _ _ _ fun u i g inn ht => hj _ _ _ _ (Target.of_mirror (lo := o.lower_y) (up := o.upper_y) ht)]
  · push Not at hj
    obtain ⟨u, i, g, inn, ht, hj⟩ := hj
    rw [potential_target' o hm hlong _ _ _ _ ht hj,
      potential_target' o.mirror hm.mirror hlong.mirror _ _ _ _ (u := !u) (i := i) (g := g) (inn := inn) ht.mirror hj]
    unfold zeroCurrentPotential
    have e1 := ionSum_target o hm st names ht
    have e2 := ionSum_target o.mirror hm.mirror st2 names (u := !u) (i := i) (g := g) (inn := inn) ht.mirror
    simp only [fieldOf_species] at e1 e2
    rw [h.fld_same "e" (v := .density) (by decide) rfl, h.fld_same "e" (v := .temperature) (by decide) rfl] at e2
    rw [e1, e2]
    have : names.map (Sheath.stateTerm o.mirror st2 i inn) = names.map (Sheath.stateTerm o st i inn) :=
      List.map_congr_left fun n _ => h.stateTerm o i inn n
    rw [this]
    rfl

/-! ## C39 -/

theorem ifSet_rev (x : Option (Value ι)) (f : Fld ι) : ifSet (x.map Value.rev) (-f) = (ifSet x f).map Value.rev := by
  cases x <;> rfl

/-- **C39.**  Running the sheath component on the mirrored state, with the two ends of the mesh exchanged, gives the
mirrored result. -/
theorem sheath_mirror {o : SheathOpts ι} {m : YMesh ι} {garbage : Fld ι} {names : List String} (hm : MeshOk m)
    (hlong : MeshLong m) (hn : names.Nodup) {st' st2' : Store Key (Value ι)} (hmir : Mirrored st st2)
    (h : sheathBoundary o m garbage names st = (.ok (), st'))
    (h2 : sheathBoundary o.mirror m.mirror garbage names st2 = (.ok (), st2')) : Mirrored st' st2' := by
  obtain ⟨hp, hph, hi, hu⟩ := sheathBoundary_ok hn h
  obtain ⟨hp2, hph2, hi2, hu2⟩ := sheathBoundary_ok hn h2
  -- the electrons
  have hel : ∀ j, (electronResult o.mirror m.mirror garbage names st2).1 j = ((electronResult o m garbage names st).1 j).rev ∧
      (electronResult o.mirror m.mirror garbage names st2).2 j = (electronResult o m garbage names st).2 j := by
    intro j
    rw [electronResult_eq, electronResult_eq, hmir.num_same "e" (v := .AA) (by decide) rfl,
      hmir.num_same "e" (v := .adiabatic) (by decide) rfl]
    exact bothEnds_mirror hm (fun j => hmir.electronCells (hmir.phiUsed o hm hlong garbage names) j)
      (hmir.fld_same "e" (v := .energy_source) (by decide) rfl 0)
      (fun i c d => electronBody_mirror o m _ _ true i c d) (fun i c d => electronBody_mirror o m _ _ false i c d) j
  set E := electronResult o m garbage names st
  set E2 := electronResult o.mirror m.mirror garbage names st2
  have hE1 : ∀ j, E2.1 j = (E.1 j).rev := fun j => (hel j).1
  have hE2 : E2.2 = E.2 := funext fun j => (hel j).2
  refine ⟨fun n => ?_, fun s v hv => ?_⟩
  · by_cases hk : n = "fields:phi"
    · subst hk
      rw [hph, hph2, hmir.1]
      have : (fun i => (E2.1 i).phi) = fun i => (E.1 i).phi := by funext i; rw [hE1]; rfl
      rw [this]
      rfl
    · have hk' : Key.top n ∉ [Key.top "fields:phi", .sp "e" .density, .sp "e" .temperature, .sp "e" .pressure, .sp "e" .velocity,
          .sp "e" .momentum, .sp "e" .energy_source] := by simp [hk]
      rw [hu _ hk' (by intros; exact fun e => by cases e), hu2 _ hk' (by intros; exact fun e => by cases e), hmir.1]
  by_cases hs : s = "e"
  · subst hs
    have rest : v ∉ [Var.density, .temperature, .pressure, .velocity, .momentum, .energy_source] →
        vals st2' (.sp "e" v) = if directed v then (vals st' (.sp "e" v)).map Value.rev else vals st' (.sp "e" v) := by
      intro hv'
      have hk' : Key.sp "e" v ∉ [Key.top "fields:phi", .sp "e" .density, .sp "e" .temperature, .sp "e" .pressure, .sp "e" .velocity,
          .sp "e" .momentum, .sp "e" .energy_source] := by
        simp only [List.mem_cons, List.not_mem_nil, or_false, Key.sp.injEq, true_and, reduceCtorEq, false_or] at hv' ⊢
        exact hv'
      have hsp : ∀ n ∈ names, n ≠ "e" → ∀ w, Key.sp "e" v ≠ .sp n w := by
        intro n _ hne w e
        exact hne (Key.sp.inj e).1.symm
      rw [hu _ hk' hsp, hu2 _ hk' hsp, hmir.2 _ _ hv]
    cases v with
    | density => rw [hp.n, hp2.n]; simp only [hE1]; rfl
    | temperature => rw [hp.t, hp2.t]; simp only [hE1]; rfl
    | pressure => rw [hp.p, hp2.p]; simp only [hE1]; rfl
    | velocity =>
      rw [hp.v, hp2.v, hmir.2 _ _ hv]
      simp only [hE1]
      exact ifSet_rev _ _
    | momentum =>
      rw [hp.nv, hp2.nv, hmir.2 _ _ hv]
      simp only [hE1]
      exact ifSet_rev _ _
    | energy_source => rw [hp.src, hp2.src, hE2]; rfl
    | _ => exact rest (by simp)
  · by_cases hmem : s ∈ names
    · obtain ⟨a1, a2⟩ := hi s hmem hs
      obtain ⟨b1, b2⟩ := hi2 s hmem hs
      by_cases hz : num (species st s) .charge 0 = 0
      · have hz2 : num (species st2 s) .charge 0 = 0 := by rw [hmir.num_same s (v := .charge) (by decide) rfl, hz]
        have e1 := congrFun (a1 (Or.inr hz)) v
        have e2 := congrFun (b1 (Or.inr hz2)) v
        show species st2' s v = if directed v then (species st' s v).map Value.rev else species st' s v
        rw [e1, e2]
        exact hmir.2 _ _ hv
      · have hz2 : num (species st2 s) .charge 0 ≠ 0 := by rw [hmir.num_same s (v := .charge) (by decide) rfl]; exact hz
        have p1 := a2 hs hz
        have p2 := b2 hs hz2
        rw [hmir.num_same s (v := .charge) (by decide) rfl, hmir.num_same s (v := .AA) (by decide) rfl,
          hmir.num_same s (v := .adiabatic) (by decide) rfl] at p2
        have hr : ∀ j, (ionSheath o.mirror m.mirror (num (species st s) .charge 0) (num (species st s) .AA 0)
            (num (species st s) .adiabatic (5 / 3)) E2.1 (Sheath.ionCells (species st2 s), fld (species st2 s) .energy_source 0)).1 j =
            ((ionSheath o m (num (species st s) .charge 0) (num (species st s) .AA 0)
            (num (species st s) .adiabatic (5 / 3)) E.1 (Sheath.ionCells (species st s), fld (species st s) .energy_source 0)).1 j).rev ∧
            (ionSheath o.mirror m.mirror (num (species st s) .charge 0) (num (species st s) .AA 0)
            (num (species st s) .adiabatic (5 / 3)) E2.1 (Sheath.ionCells (species st2 s), fld (species st2 s) .energy_source 0)).2 j =
            (ionSheath o m (num (species st s) .charge 0) (num (species st s) .AA 0)
            (num (species st s) .adiabatic (5 / 3)) E.1 (Sheath.ionCells (species st s), fld (species st s) .energy_source 0)).2 j :=
          fun j => bothEnds_mirror hm (fun j => hmir.ionCells s j) (hmir.fld_same s (v := .energy_source) (by decide) rfl 0)
            (fun i c d => ionBody_mirror m _ _ _ E.1 E2.1 hE1 true i c d)
            (fun i c d => ionBody_mirror m _ _ _ E.1 E2.1 hE1 false i c d) j
        generalize ionSheath o.mirror m.mirror (num (species st s) .charge 0) (num (species st s) .AA 0)
            (num (species st s) .adiabatic (5 / 3)) E2.1 (Sheath.ionCells (species st2 s), fld (species st2 s) .energy_source 0) = r2 at p2 hr
        generalize ionSheath o m (num (species st s) .charge 0) (num (species st s) .AA 0)
            (num (species st s) .adiabatic (5 / 3)) E.1 (Sheath.ionCells (species st s), fld (species st s) .energy_source 0) = r1 at p1 hr
        have hr1 : ∀ j, r2.1 j = (r1.1 j).rev := fun j => (hr j).1
        have hr2 : r2.2 = r1.2 := funext fun j => (hr j).2
        show species st2' s v = if directed v then (species st' s v).map Value.rev else species st' s v
        have rest : v ∉ [Var.density, .temperature, .pressure, .velocity, .momentum, .energy_source, .energy_flow_ylow] →
            species st2' s v = if directed v then (species st' s v).map Value.rev else species st' s v := by
          intro hv'
          rw [p1.other v hv', p2.other v hv']
          exact hmir.2 _ _ hv
        cases v with
        | density => rw [p1.n, p2.n]; simp only [hr1]; rfl
        | temperature => rw [p1.t, p2.t]; simp only [hr1]; rfl
        | pressure => rw [p1.p, p2.p]; simp only [hr1]; rfl
        | velocity =>
          rw [p1.v, p2.v, hmir.rev s hv rfl]
          simp only [hr1]
          exact ifSet_rev _ _
        | momentum =>
          rw [p1.nv, p2.nv, hmir.rev s hv rfl]
          simp only [hr1]
          exact ifSet_rev _ _
        | energy_source => rw [p1.src, p2.src, hr2]; rfl
        | energy_flow_ylow => exact absurd rfl hv
        | _ => exact rest (by simp)
    · have hk' : Key.sp s v ∉ [Key.top "fields:phi", .sp "e" .density, .sp "e" .temperature, .sp "e" .pressure, .sp "e" .velocity,
          .sp "e" .momentum, .sp "e" .energy_source] := by
        simp [hs]
      have hsp : ∀ n ∈ names, n ≠ "e" → ∀ w, Key.sp s v ≠ .sp n w := by
        intro n hn' _ w e
        exact hmem ((Key.sp.inj e).1 ▸ hn')
      rw [hu _ hk' hsp, hu2 _ hk' hsp, hmir.2 _ _ hv]

end Hermes.Sheath
