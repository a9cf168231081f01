/-!
# Text handling used by the scheduler and the `transform` component

Strings are modelled as `List Char`.

BOUT++ functions assumed (BOUT-dev is an empty submodule of /repo):
* `strsplit(s, d)` : repeated `std::getline(stream, item, d)`.  The text after the
  last delimiter is produced only if it is not empty, and the empty string gives
  no items.
* `trim(s, chars)` : remove from both ends every character contained in `chars`.
-/

namespace Hermes

/-- A C++ `std::string`. -/
abbrev Str := List Char

/-- `strsplit(s, d)` of BOUT++ (`bout/utils.hxx`), used in
`src/component_scheduler.cxx:14,29` and `src/transform.cxx:15,16`. -/
def strsplit (d : Char) : Str → List Str
  | [] => []
  | c :: cs =>
    if c = d then [] :: strsplit d cs
    else match strsplit d cs with
      | [] => [[c]]
      | p :: ps => (c :: p) :: ps

/-- The characters `" \t\r()"` removed by `trim` in
`src/component_scheduler.cxx:18,30` and `src/transform.cxx:10`. -/
def isTrimChar (c : Char) : Bool :=
  c = ' ' || c = '\t' || c = '\r' || c = '(' || c = ')'

/-- `trimLeft` of BOUT++: drop leading trim characters. -/
def trimLeft : Str → Str
  | [] => []
  | c :: cs => if isTrimChar c then trimLeft cs else c :: cs

/-- `trim(s, " \t\r()")` = `trimLeft(trimRight(s))`. -/
def trim (s : Str) : Str := trimLeft (trimLeft s.reverse).reverse

end Hermes
