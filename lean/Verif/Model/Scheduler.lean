import Verif.Model.Text

/-!
# The component scheduler

Model of `src/component_scheduler.cxx`.
-/

namespace Hermes

/-- One created component: `Component::create(type, name, …)`
(`src/component_scheduler.cxx:35-38`). -/
structure Created where
  type : Str
  name : Str
deriving DecidableEq, Repr

/-- Inner loop `src/component_scheduler.cxx:29-39`: one pass over the type
tokens, appending to the vector `components`. -/
def addTypes (name : Str) : List Str → List Created → List Created
  | [], components => components
  | t :: ts, components =>
    let tt := trim t
    if tt = [] then addTypes name ts components            -- `continue`, line 31-33
    else addTypes name ts (components ++ [⟨tt, name⟩])      -- `push_back`, line 35

/-- Outer loop `src/component_scheduler.cxx:14-40`.  `typeOpt name` is the value of
`component_options[name]["type"]` when `isSet`, `none` otherwise (line 25-27). -/
def addNames (typeOpt : Str → Option Str) : List Str → List Created → List Created
  | [], components => components
  | n :: ns, components =>
    let nt := trim n
    if nt = [] then addNames typeOpt ns components          -- line 19-21
    else
      let types := match typeOpt nt with                    -- line 25-27
        | some t => t
        | none => nt
      addNames typeOpt ns (addTypes nt (strsplit ',' types) components)

/-- `ComponentScheduler::ComponentScheduler`, `src/component_scheduler.cxx:5-41`:
the vector of components after construction.  Not modelled: exceptions thrown by
the component constructors or by the factory for an unknown type. -/
def schedulerComponents (names : Str) (typeOpt : Str → Option Str) : List Created :=
  addNames typeOpt (strsplit ',' names) []

/-! ## Running the components -/

/-- Outcome of running an effectful C++ function on a world `σ`: the new world
together with either normal return or an exception. -/
inductive Outcome (σ : Type) where
  | ok (s : σ)
  | throw (s : σ)

/-- A component: `transform` and `finally` act on a world `σ` which contains the
state passed as argument and the internal data of all components
(`include/component.hxx:25-45`).  They are arbitrary functions. -/
structure Comp (σ : Type) where
  transform : σ → Outcome σ
  final : σ → Outcome σ
  outputVars : σ → Outcome σ
  restartVars : σ → Outcome σ
  precon : σ → Outcome σ

/-- `for (auto &component : components) component->f(state);`
An exception leaves the loop (`src/component_scheduler.cxx:53-55, 57-59, 64-66, 71-73, 77-79`). -/
def runLoop {σ : Type} (f : Comp σ → σ → Outcome σ) : List (Comp σ) → σ → Outcome σ
  | [], s => .ok s
  | c :: cs, s =>
    match f c s with
    | .ok s' => runLoop f cs s'
    | .throw s' => .throw s'

/-- `ComponentScheduler::transform`, `src/component_scheduler.cxx:51-60`. -/
def schedulerTransform {σ : Type} (cs : List (Comp σ)) (s : σ) : Outcome σ :=
  match runLoop Comp.transform cs s with
  | .ok s' => runLoop Comp.final cs s'
  | .throw s' => .throw s'

/-- `ComponentScheduler::outputVars`, `src/component_scheduler.cxx:62-67`. -/
def schedulerOutputVars {σ : Type} (cs : List (Comp σ)) : σ → Outcome σ := runLoop Comp.outputVars cs
/-- `ComponentScheduler::restartVars`, `src/component_scheduler.cxx:69-74`. -/
def schedulerRestartVars {σ : Type} (cs : List (Comp σ)) : σ → Outcome σ := runLoop Comp.restartVars cs
/-- `ComponentScheduler::precon`, `src/component_scheduler.cxx:76-80`. -/
def schedulerPrecon {σ : Type} (cs : List (Comp σ)) : σ → Outcome σ := runLoop Comp.precon cs

end Hermes
