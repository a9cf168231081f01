import Verif.Model.Species
import Verif.Model.Collisions

/-!
# State with numbers and fields

The components of `Model/Closures.lean` publish densities, temperatures, masses and so on.  They are modelled as
programs on the store of `Model/Store.lean`, with the access functions the C++ code calls, in the same order.
A leaf of the tree holds a number or a field.
-/

namespace Hermes

/-- A value of the tree. -/
inductive Value (ι : Type) where
  | real (x : ℝ)
  | field (f : Fld ι)

/-- `as<Field3D>`: a number is converted to a constant field (BOUT++ `Options::as<Field3D>`). -/
def asField {ι : Type} : Value ι → Option (Fld ι)
  | .real x => some fun _ => x
  | .field f => some f

/-- `as<BoutReal>`: a field cannot be converted. -/
def asReal {ι : Type} : Value ι → Option ℝ
  | .real x => some x
  | .field _ => none

/-- All numbers are finite.  `add(option, value)` converts the old value to the type of the new one. -/
instance (ι : Type) : StoreVal (Value ι) where
  invalid _ := false
  neg
    | .real x => .real (-x)
    | .field f => .field (-f)
  addTo
    | .real x, .real y => some (.real (x + y))
    | .real _, .field _ => none
    | .field f, old => (asField old).map fun g => .field (f + g)
  subFrom
    | .real x, .real y => some (.real (y - x))
    | .real _, .field _ => none
    | .field f, old => (asField old).map fun g => .field (g - f)

/-- A program on the state. -/
abbrev Prog (ι α : Type) := M Key (Value ι) α

/-- `get<Field3D>`, `getNoBoundary<Field3D>`, `get<BoutReal>` of variable `v` of species `s`. -/
abbrev getF {ι : Type} (s : String) (v : Var) : Prog ι (Fld ι) := get asField (.sp s v)
abbrev getNoBndryF {ι : Type} (s : String) (v : Var) : Prog ι (Fld ι) := getNoBoundary asField (.sp s v)
abbrev getR {ι : Type} (s : String) (v : Var) : Prog ι ℝ := get asReal (.sp s v)
/-- `set(species[v], field)` and `set(species[v], number)`. -/
abbrev setF {ι : Type} (s : String) (v : Var) (f : Fld ι) : Prog ι Unit := set (.sp s v) (.field f)
abbrev setR {ι : Type} (s : String) (v : Var) (x : ℝ) : Prog ι Unit := set (.sp s v) (.real x)
abbrev addF {ι : Type} (s : String) (v : Var) (f : Fld ι) : Prog ι Unit := add (.sp s v) (.field f)
abbrev subtractF {ι : Type} (s : String) (v : Var) (f : Fld ι) : Prog ι Unit := subtract (.sp s v) (.field f)

/-- `throw BoutException(…)` if `p`. -/
def throwIf {ι : Type} (p : Prop) [Decidable p] : Prog ι Unit := if p then M.throw .custom else M.pure ()

end Hermes
