import Verif.Lemmas.Access

/-!
# A tactic for `Access`

It follows the syntax of the program; `key` decides whether a variable is in one of the lists.
-/

namespace Hermes.Order

macro "key" : tactic => `(tactic| first
  | assumption
  | (simp; done)
  | (simp_all; done)
  | (simp <;> (constructorm* _ ∧ _) <;> simp_all; done))

macro "access1" : tactic => `(tactic| first
  | with_reducible exact Access.pure _
  | with_reducible exact Access.throw _
  | with_reducible apply Access.throwIf
  | with_reducible exact Access.set _ (by key)
  | with_reducible exact Access.setBoundary _ (by key)
  | with_reducible exact Access.add _ (by key) (by key)
  | with_reducible exact Access.subtract _ (by key) (by key)
  | with_reducible exact Access.get _ (by key)
  | with_reducible exact Access.getNoBoundary _ (by key)
  | with_reducible exact Access.getNonFinal _ (by key)
  | with_reducible exact Access.isSetFinal (by key)
  | with_reducible exact Access.isSetFinalNoBoundary (by key)
  | with_reducible exact Access.isSet (by key)
  | with_reducible refine Access.bind ?_ fun _ => ?_
  | with_reducible refine Access.foldlM (fun _ n hn => ?_) _
  | with_reducible refine Access.forM (fun n hn => ?_)
  | with_reducible refine Access.ite (fun _ => ?_) (fun _ => ?_))

macro "access" : tactic => `(tactic| repeat' access1)

end Hermes.Order
