import Verif.Lemmas.Contrib

/-!
# Loops over species whose bodies change only their own species
-/

namespace Hermes.Sheath
open Hermes.Closures

variable {ι : Type} [DecidableEq ι]

/-- For every species of the loop there is a run of its body from a state that agrees with the initial one on this species, to a state that agrees
with the final one. -/
theorem forM_bodies {body : String → Prog ι Unit} (hb : ∀ n s u s', body n s = (.ok u, s') → ∀ k, (∀ v, k ≠ .sp n v) → vals s' k = vals s k)
    {names : List String} {s s' : Store Key (Value ι)} {u : Unit} (hn : names.Nodup) (h : names.forM body s = (.ok u, s')) :
    (∀ n ∈ names, ∃ t t' u, body n t = (.ok u, t') ∧ (∀ v, vals t (.sp n v) = vals s (.sp n v)) ∧ ∀ v, vals t' (.sp n v) = vals s' (.sp n v)) ∧
    ∀ k, (∀ n ∈ names, ∀ v, k ≠ .sp n v) → vals s' k = vals s k := by
  obtain ⟨h1, h2⟩ := forM_species (R := fun n b a => ∃ t t' u, body n t = (.ok u, t') ∧ (∀ v, vals t (.sp n v) = b v) ∧ ∀ v, vals t' (.sp n v) = a v)
    (fun n s u s' h => ⟨⟨s, s', u, h, fun _ => rfl, fun _ => rfl⟩, hb n s u s' h⟩) hn h
  exact ⟨h1, h2⟩

end Hermes.Sheath
