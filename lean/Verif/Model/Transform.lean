import Verif.Model.Text
import Verif.Model.Store

/-!
# The `transform` component

Model of `src/transform.cxx`.  The member `transforms` is a `std::map<std::string, std::string>`
(`include/transform.hxx`): iteration is in increasing key order and assignment to an
existing key replaces the value.  It is modelled as a sorted association list.

Simplification: keys of the state are the whole path strings, values are leaves (copying a
whole subsection is not modelled).
-/

namespace Hermes

/-- `std::string` ordering (lexicographic by character code). -/
def strLt : Str → Str → Bool
  | [], [] => false
  | [], _ :: _ => true
  | _ :: _, [] => false
  | a :: as, b :: bs => if a = b then strLt as bs else a.toNat < b.toNat

/-- `transforms[left] = right` on a `std::map`. -/
def mapInsert (l r : Str) : List (Str × Str) → List (Str × Str)
  | [] => [(l, r)]
  | (k, v) :: m =>
    if l = k then (l, r) :: m
    else if strLt l k then (l, r) :: (k, v) :: m
    else (k, v) :: mapInsert l r m

/-- Loop of the constructor, `src/transform.cxx:15-25`.  `none` is the exception of line 18. -/
def parseEntries : List Str → List (Str × Str) → Option (List (Str × Str))
  | [], m => some m
  | e :: es, m =>
    match strsplit '=' e with
    | [left, right] => parseEntries es (mapInsert (trim left) (trim right) m)
    | _ => none

/-- `Transform::Transform`, `src/transform.cxx:6-26`. -/
def parseTransforms (text : Str) : Option (List (Str × Str)) :=
  parseEntries (strsplit ',' (trim text)) []

/-- `Transform::transform`, `src/transform.cxx:28-32`. -/
def runTransforms {V : Type} : List (Str × Str) → M Str V Unit
  | [] => M.pure ()
  | (l, r) :: m => M.bind (copyEntry l r) fun _ => runTransforms m

end Hermes
