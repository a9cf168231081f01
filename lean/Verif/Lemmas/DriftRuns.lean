import Verif.Lemmas.Effects
import Verif.Lemmas.Runs

/-!
# The drift components end without an exception
-/

set_option linter.unusedSectionVars false

namespace Hermes.Drifts
open Hermes.Closures Hermes.Effects Hermes.Runs

noncomputable section

variable {ι : Type} {α : Type}

/-- Mass, charge and density of every species are set, and the fields `K`; sources and the fields `T` may be set. -/
def driftAccess (K T : String → Prop) : Access where
  found
    | .sp _ .AA => True
    | .sp _ .charge => True
    | .sp _ .density => True
    | .top k => K k
    | _ => False
  own
    | .sp _ v => isSource v = true
    | .top k => T k
  edge _ := False
  num
    | .sp _ .AA => True
    | .sp _ .charge => True
    | _ => False

variable {K T : String → Prop}

theorem Fit.found_also {A : Access} {st : Store Key (Value ι)} {k : Key} (h : Fit A st) (hk : (vals st k).isSome = true) : Fit (A.knowing k) st :=
  ⟨h.typed, fun k' hk' => hk'.elim (h.found k') (by rintro rfl; exact hk), h.own, h.edge⟩

/-- `A` extended by variables known to be set. -/
inductive Grown (A : Access) : Access → Prop
  | refl : Grown A A
  | knowing {B : Access} (k : Key) : Grown A B → Grown A (B.knowing k)

theorem Grown.own {A B : Access} (h : Grown A B) : B.own = A.own := by induction h with | refl => rfl | knowing k _ ih => exact ih
theorem Grown.edge {A B : Access} (h : Grown A B) : B.edge = A.edge := by induction h with | refl => rfl | knowing k _ ih => exact ih
theorem Grown.num {A B : Access} (h : Grown A B) : B.num = A.num := by induction h with | refl => rfl | knowing k _ ih => exact ih
theorem Grown.found {A B : Access} (h : Grown A B) {k : Key} (hk : A.found k) : B.found k := by
  induction h with
  | refl => exact hk
  | knowing k' _ ih => exact Or.inl ih

section
variable {A : Access} (hA : Grown (driftAccess K T) A)
include hA

theorem not_own {n : String} {v : Var} (hv : isSource v = false) : ¬A.own (.sp n v) := by
  rw [hA.own]; show ¬(isSource v = true); rw [hv]; decide
theorem not_edge {k : Key} : ¬A.edge k := by rw [hA.edge]; exact fun h => h

theorem runs_charge (n : String) : Runs (ι := ι) A (getR n .charge) :=
  runs_getR (hA.found (show (driftAccess K T).found (.sp n .charge) from trivial)) (by rw [hA.num]; exact trivial) (not_own hA rfl) (not_edge hA)
theorem runs_AA (n : String) : Runs (ι := ι) A (getR n .AA) :=
  runs_getR (hA.found (show (driftAccess K T).found (.sp n .AA) from trivial)) (by rw [hA.num]; exact trivial) (not_own hA rfl) (not_edge hA)
theorem runs_density (n : String) : Runs (ι := ι) A (getF n .density) :=
  runs_getF (hA.found (show (driftAccess K T).found (.sp n .density) from trivial)) (not_own hA rfl) (not_edge hA)
theorem runs_densityNB (n : String) : Runs (ι := ι) A (getNoBndryF n .density) :=
  runs_getNB (hA.found (show (driftAccess K T).found (.sp n .density) from trivial)) (not_own hA rfl)
theorem runs_known {n : String} {v : Var} (hv : isSource v = false) (hk : A.found (.sp n v)) : Runs (ι := ι) A (getF n v) :=
  runs_getF hk (not_own hA hv) (not_edge hA)
theorem runs_knownNB {n : String} {v : Var} (hv : isSource v = false) (hk : A.found (.sp n v)) : Runs (ι := ι) A (getNoBndryF n v) :=
  runs_getNB hk (not_own hA hv)
theorem runs_addS {n : String} {v : Var} (hv : isSource v = true) (f : Fld ι) : Runs A (addF n v f) :=
  runs_add (by rw [hA.own]; exact hv) (by rw [hA.num]; cases v <;> first | (exact fun h => h) | (exact absurd hv (by decide)))
theorem runs_subS {n : String} {v : Var} (hv : isSource v = true) (f : Fld ι) : Runs A (subtractF n v f) :=
  runs_subtract (by rw [hA.own]; exact hv) (by rw [hA.num]; cases v <;> first | (exact fun h => h) | (exact absurd hv (by decide)))
theorem runs_setTop {k : String} (hk : T k) (f : Fld ι) : Runs A (set (.top k) (.field f)) :=
  runs_set (by rw [hA.own]; exact hk) (by rw [hA.num]; exact fun h => h)
theorem runs_getTop {k : String} (hT : ¬T k) (hk : A.found (.top k)) : Runs (ι := ι) A (get asField (.top k)) :=
  runs_get hk (by rw [hA.own]; exact hT) (not_edge hA)

theorem runs_ifSet {k : Key} {skip : α} {m : Prog ι α} (hm : Runs (A.knowing k) m) : Runs A (ifSet k skip m) := Runs.ifSet tests_isSet hm (Runs.pure _)
theorem runs_ifSetNB {n : String} {v : Var} (hv : isSource v = false) {skip : α} {m : Prog ι α} (hm : Runs (A.knowing (.sp n v)) m) : Runs A (ifSetNB (.sp n v) skip m) :=
  Runs.ifSet (tests_isSetNB (not_own hA hv)) hm (Runs.pure _)
theorem runs_ifSetFinal {n : String} {v : Var} (hv : isSource v = false) {skip : α} {m : Prog ι α} (hm : Runs (A.knowing (.sp n v)) m) :
    Runs A (ifSetFinal (.sp n v) skip m) := Runs.ifSet (tests_isSetFinal (not_own hA hv) (not_edge hA)) hm (Runs.pure _)
theorem runs_ifCharged {n : String} {skip : α} {m : ℝ → Prog ι α} (hm : ∀ q, Runs (A.knowing (.sp n .charge)) (m q)) : Runs A (ifCharged n skip m) :=
  Runs.ifSet tests_isSet (Runs.bind (runs_charge (.knowing _ hA) n) fun q => Runs.ite (fun _ => Runs.pure _) fun _ => hm q) (Runs.pure _)

theorem runs_driftOf (o : DriftOps ι) (form : Fld ι) (q : ℝ) (f : Fld ι) (c : ℝ) {v s : Var} (hv : isSource v = false) (hs : isSource s = true) (n : String) :
    Runs A (driftOf o form q f c v s n) :=
  Runs.ifSet (tests_isSetFinal (not_own hA hv) (not_edge hA)) (Runs.bind (runs_known (.knowing _ hA) hv (Or.inr rfl)) fun _ => runs_subS (.knowing _ hA) hs _) (Runs.pure _)

theorem diamagnetic_runs (o : DriftOps ι) (form : Fld ι) (names : List String) : Runs A (diamagneticDrift o form names) :=
  Runs.forM _ fun n _ => Runs.ifSet tests_isSet (Runs.ifSet tests_isSet (Runs.bind (runs_charge (.knowing _ (.knowing _ hA)) n) fun q =>
    Runs.ite (fun _ => Runs.pure _) fun _ => Runs.bind (runs_known (.knowing _ (.knowing _ hA)) rfl (Or.inr rfl)) fun _ =>
      Runs.bind (runs_driftOf (.knowing _ (.knowing _ hA)) _ _ _ _ _ rfl rfl n) fun _ =>
        Runs.bind (runs_driftOf (.knowing _ (.knowing _ hA)) _ _ _ _ _ rfl rfl n) fun _ => runs_driftOf (.knowing _ (.knowing _ hA)) _ _ _ _ _ rfl rfl n) (Runs.pure _)) (Runs.pure _)

theorem vorticity_runs (o : DriftOps ι) (p : VortOpts ι) (solve : Fld ι → Fld ι) (Vort : Fld ι) (names : List String)
    (h1 : T "fields:DivJdia") (h2 : T "fields:DivJcol") (h3 : T "fields:phi") (h4 : T "fields:vorticity") : Runs A (vorticityTransform o p solve Vort names) := by
  refine Runs.bind (Runs.bind (Runs.ite (fun _ => Runs.foldlM _ (fun n _ _ => ?_) _) fun _ => Runs.pure _) fun _ => Runs.pure _) fun _ => Runs.bind (Runs.ite (fun _ =>
    Runs.bind (Runs.foldlM _ (fun n _ _ => ?_) _) fun _ => Runs.bind (runs_setTop hA h1 _) fun _ => Runs.pure _) fun _ => Runs.pure _) fun _ =>
    Runs.bind (Runs.ite (fun _ => Runs.bind (Runs.bind (Runs.foldlM _ (fun n _ _ => ?_) _) fun _ => Runs.bind (runs_setTop hA h2 _) fun _ => Runs.pure _) fun _ => Runs.pure _)
      fun _ => Runs.pure _) fun _ => Runs.bind (runs_setTop hA h4 _) fun _ => Runs.bind (runs_setTop hA h3 _) fun _ => Runs.pure _
  · exact runs_ifSetNB hA rfl (runs_ifSet (.knowing _ hA) (runs_ifCharged (.knowing _ (.knowing _ hA)) fun q =>
      Runs.bind (runs_knownNB (.knowing _ (.knowing _ (.knowing _ hA))) rfl (Or.inl (Or.inl (Or.inr rfl)))) fun _ =>
        Runs.bind (runs_AA (.knowing _ (.knowing _ (.knowing _ hA))) n) fun _ => Runs.pure _))
  · exact runs_ifSetNB hA rfl (runs_ifSetFinal (.knowing _ hA) rfl (runs_ifCharged (.knowing _ (.knowing _ hA)) fun q =>
      Runs.bind (runs_knownNB (.knowing _ (.knowing _ (.knowing _ hA))) rfl (Or.inl (Or.inl (Or.inr rfl)))) fun _ =>
        Runs.bind (runs_subS (.knowing _ (.knowing _ (.knowing _ hA))) rfl _) fun _ => Runs.pure _))
  · exact runs_ifSet hA (runs_ifCharged (.knowing _ hA) fun q => Runs.bind (runs_AA (.knowing _ (.knowing _ hA)) n) fun _ =>
      Runs.bind (runs_densityNB (.knowing _ (.knowing _ hA)) n) fun _ =>
        Runs.ifSet (tests_isSetFinal (not_own (.knowing _ (.knowing _ hA)) rfl) (not_edge (.knowing _ (.knowing _ hA))))
          (Runs.bind (runs_known (.knowing _ (.knowing _ (.knowing _ hA))) rfl (Or.inr rfl)) fun _ => Runs.pure _) (Runs.pure _))

theorem runs_divJextra (h : ¬T "fields:DivJextra") : Runs (ι := ι) A divJextra := Runs.ifSet tests_isSet (runs_getTop (.knowing _ hA) h (Or.inr rfl)) (Runs.pure _)

theorem finally_runs (o : DriftOps ι) (w : VortOps ι) (p : VortOpts ι) (Vort : Fld ι) (a : VortState ι) (names : List String) (h0 : ∀ k, ¬T k)
    (h1 : A.found (.top "fields:phi")) (h2 : A.found (.top "sound_speed")) : Runs A (vorticityFinally o w p Vort a names) := by
  refine Runs.bind (runs_getTop hA (h0 _) h1) fun _ => Runs.bind (runs_divJextra hA (h0 _)) fun _ => Runs.bind (Runs.foldlM _ (fun n _ _ => ?_) _) fun _ =>
    Runs.bind (Runs.bind (Runs.ite (fun _ => Runs.bind (runs_getTop hA (h0 _) h2) fun _ => Runs.pure _) fun _ => Runs.pure _) fun _ =>
      Runs.ite (fun _ => Runs.bind (runs_getTop hA (h0 _) h2) fun _ => Runs.pure _) fun _ => Runs.pure _) fun _ => Runs.pure _
  exact runs_ifSet hA (runs_ifCharged (.knowing _ hA) fun q => Runs.bind (runs_density (.knowing _ (.knowing _ hA)) n) fun _ =>
    Runs.bind (runs_known (.knowing _ (.knowing _ hA)) rfl (Or.inl (Or.inr rfl))) fun _ => Runs.bind (runs_AA (.knowing _ (.knowing _ hA)) n) fun _ =>
      Runs.ifSet tests_isSet (Runs.bind (runs_getTop (.knowing _ (.knowing _ (.knowing _ hA))) (h0 _) (Or.inr rfl)) fun _ => Runs.pure _) (Runs.pure _))

theorem runs_fieldOrZero {k : String} (h : ¬T k) : Runs (ι := ι) A (fieldOrZero k) :=
  Runs.ifSet (tests_isSetFinal (by rw [hA.own]; exact h) (not_edge hA)) (runs_getTop (.knowing _ hA) h (Or.inr rfl)) (Runs.pure _)

theorem runs_polOf (o : DriftOps ι) (f g : Fld ι) (c : ℝ) {v s : Var} (hv : isSource v = false) (hs : isSource s = true) (n : String) :
    Runs A (polOf o f g c v s n) :=
  Runs.ifSet (tests_isSetFinal (not_own hA hv) (not_edge hA)) (Runs.bind (runs_known (.knowing _ hA) hv (Or.inr rfl)) fun _ => runs_addS (.knowing _ hA) hs _) (Runs.pure _)

theorem polarisation_runs (o : DriftOps ι) (p : PolOpts) (solve : Fld ι → Fld ι → Fld ι) (names : List String) (h0 : ∀ k, ¬T k)
    (hp : p.diamagnetic_polarisation = true → p.boussinesq = true) : Runs A (polarisationDrift o p solve names) := by
  refine Runs.bind (runs_fieldOrZero hA (h0 _)) fun _ => Runs.bind (Runs.foldlM _ (fun n _ _ => ?_) _) fun _ => Runs.bind (Runs.ite (fun h => ?_) fun _ => Runs.pure _)
    fun _ => Runs.ite (fun _ => ?_) fun _ => Runs.pure _
  · exact runs_ifSet hA (runs_ifCharged (.knowing _ hA) fun q => Runs.bind (runs_known (.knowing _ (.knowing _ hA)) rfl (Or.inl (Or.inr rfl))) fun _ =>
      Runs.bind (runs_AA (.knowing _ (.knowing _ hA)) n) fun _ => Runs.pure _)
  · refine Runs.bind ?_ fun _ => Runs.forM _ fun n _ => ?_
    · intro st hs
      exact ⟨(), st, throwIf_intro (show ¬(p.boussinesq = false) by rw [hp h]; decide) st, hs⟩
    · exact runs_ifSetNB hA rfl (runs_ifSet (.knowing _ hA) (runs_ifCharged (.knowing _ (.knowing _ hA)) fun q =>
        Runs.bind (runs_knownNB (.knowing _ (.knowing _ (.knowing _ hA))) rfl (Or.inl (Or.inl (Or.inr rfl)))) fun _ =>
          Runs.bind (runs_AA (.knowing _ (.knowing _ (.knowing _ hA))) n) fun _ => runs_addS (.knowing _ (.knowing _ (.knowing _ hA))) rfl _))
  · refine Runs.bind (Runs.ite (fun _ => Runs.pure _) fun _ => Runs.bind (Runs.foldlM _ (fun n _ _ => ?_) _) fun _ => Runs.pure _) fun _ =>
      Runs.bind (runs_fieldOrZero hA (h0 _)) fun _ => Runs.bind (runs_fieldOrZero hA (h0 _)) fun _ => Runs.forM _ fun n _ => ?_
    · exact runs_ifSet hA (runs_ifCharged (.knowing _ hA) fun q => Runs.bind (runs_AA (.knowing _ (.knowing _ hA)) n) fun _ =>
        Runs.bind (runs_densityNB (.knowing _ (.knowing _ hA)) n) fun _ => Runs.pure _)
    · exact runs_ifSet hA (runs_ifCharged (.knowing _ hA) fun q => Runs.bind (runs_AA (.knowing _ (.knowing _ hA)) n) fun _ =>
        Runs.bind (runs_polOf (.knowing _ (.knowing _ hA)) _ _ _ _ rfl rfl n) fun _ =>
          Runs.bind (runs_polOf (.knowing _ (.knowing _ hA)) _ _ _ _ rfl rfl n) fun _ => runs_polOf (.knowing _ (.knowing _ hA)) _ _ _ _ rfl rfl n)

theorem relax_runs (o : DriftOps ι) (p : RelaxOpts) (phi1 Vort : Fld ι) (names : List String)
    (h1 : T "fields:DivJdia") (h3 : T "fields:phi") (h4 : T "fields:vorticity") : Runs A (relaxTransform o p phi1 Vort names) := by
  refine Runs.bind (Runs.ite (fun _ => Runs.bind (Runs.foldlM _ (fun n _ _ => ?_) _) fun _ => Runs.bind (Runs.ite (fun _ => Runs.forM _ fun n _ => ?_) fun _ => Runs.pure _) fun _ =>
    Runs.bind (runs_setTop hA h1 _) fun _ => Runs.pure _) fun _ => Runs.pure _) fun _ => Runs.bind (runs_setTop hA h4 _) fun _ => Runs.bind (runs_setTop hA h3 _) fun _ => Runs.pure _
  · exact runs_ifSetNB hA rfl (runs_ifSetFinal (.knowing _ hA) rfl (Runs.bind (runs_charge (.knowing _ (.knowing _ hA)) n) fun _ => Runs.ite (fun _ =>
      Runs.bind (runs_knownNB (.knowing _ (.knowing _ hA)) rfl (Or.inl (Or.inr rfl))) fun _ => Runs.bind (runs_subS (.knowing _ (.knowing _ hA)) rfl _) fun _ => Runs.pure _)
      fun _ => Runs.pure _))
  · exact runs_ifSetNB hA rfl (runs_ifSetFinal (.knowing _ hA) rfl (runs_ifSetFinal (.knowing _ (.knowing _ hA)) rfl
      (Runs.bind (runs_knownNB (.knowing _ (.knowing _ (.knowing _ hA))) rfl (Or.inl (Or.inl (Or.inr rfl)))) fun _ => runs_addS (.knowing _ (.knowing _ (.knowing _ hA))) rfl _)))

theorem relaxFinally_runs (o : DriftOps ι) (p : RelaxOpts) (exb : Bool → Fld ι → Fld ι → Fld ι) (ddt : Fld ι) (names : List String) (h0 : ∀ k, ¬T k)
    (h1 : A.found (.top "fields:phi")) (h2 : A.found (.top "fields:vorticity")) : Runs A (relaxFinally o p exb ddt names) := by
  refine Runs.bind (runs_getTop hA (h0 _) h1) fun phi => Runs.bind (runs_getTop hA (h0 _) h2) fun V => ?_
  cases relaxExB p exb V phi with
  | none => exact Runs.pure _
  | some e =>
    refine Runs.bind (runs_divJextra hA (h0 _)) fun _ => Runs.bind (Runs.foldlM _ (fun n _ _ => ?_) _) fun _ => Runs.bind ?_ fun _ => Runs.pure _
    · exact runs_ifSet hA (runs_ifCharged (.knowing _ hA) fun q => Runs.bind (runs_density (.knowing _ (.knowing _ hA)) n) fun _ =>
        Runs.bind (runs_known (.knowing _ (.knowing _ hA)) rfl (Or.inl (Or.inr rfl))) fun _ => Runs.bind (runs_AA (.knowing _ (.knowing _ hA)) n) fun _ => Runs.pure _)
    · refine Runs.ite (fun _ => Runs.bind (Runs.ite (fun _ => Runs.foldlM _ (fun n _ _ => ?_) _) fun _ => Runs.pure _) fun _ => Runs.pure _) fun _ =>
        Runs.bind (Runs.foldlM _ (fun n _ _ => ?_) _) fun _ => Runs.pure _
      · exact runs_ifCharged hA fun q => runs_ifSet (.knowing _ hA) (Runs.bind (runs_AA (.knowing _ (.knowing _ hA)) n) fun _ =>
          Runs.bind (runs_known (.knowing _ (.knowing _ hA)) rfl (Or.inr rfl)) fun _ => Runs.pure _)
      · exact runs_ifCharged hA fun q => Runs.bind (runs_AA (.knowing _ hA) n) fun _ => Runs.bind (runs_density (.knowing _ hA) n) fun _ =>
          Runs.ite (fun _ => runs_ifSet (.knowing _ hA) (Runs.bind (runs_known (.knowing _ (.knowing _ hA)) rfl (Or.inr rfl)) fun _ => Runs.pure _)) fun _ => Runs.pure _

end

/-- A state with masses, charges and fields. -/
def plasma (A q : String → ℝ) (f : Var → String → Option (Fld ι)) (top : String → Option (Fld ι)) : Store Key (Value ι) where
  ent
    | .sp n .AA => { val := some (.real (A n)), final := false, finalDomain := false }
    | .sp n .charge => { val := some (.real (q n)), final := false, finalDomain := false }
    | .sp n v => { val := (f v n).map .field, final := false, finalDomain := false }
    | .top k => { val := (top k).map .field, final := false, finalDomain := false }
  check := true

theorem plasma_fits {A q : String → ℝ} {f : Var → String → Option (Fld ι)} {top : String → Option (Fld ι)} (hN : ∀ n, (f .density n).isSome = true)
    (hK : ∀ k, K k → (top k).isSome = true) : Fit (driftAccess K T) (plasma A q f top) := by
  refine ⟨?_, ?_, ?_, fun k hk => hk.elim⟩
  · intro k hk x hx
    cases k with
    | sp n v => cases v <;> first | exact ⟨_, (Option.some.inj hx).symm⟩ | exact hk.elim
    | _ => exact hk.elim
  · intro k hk
    cases k with
    | sp n v =>
      cases v <;> first | rfl | exact hk.elim | skip
      show ((f .density n).map Value.field).isSome = true
      rw [Option.isSome_map]; exact hN n
    | top k =>
      show ((top k).map Value.field).isSome = true
      rw [Option.isSome_map]; exact hK k hk
  · intro k hk
    cases k with
    | sp n v => cases v <;> exact ⟨rfl, rfl⟩
    | top k => exact ⟨rfl, rfl⟩

end
end Hermes.Drifts
