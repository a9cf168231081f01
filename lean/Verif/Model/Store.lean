/-!
# The simulation state: an `Options` tree with the access protocol of `component.hxx`

The tree is modelled as a map from keys (paths such as `species:d+:density`) to
entries.  Assumptions on BOUT++'s `Options` (not visible in /repo):
* `isSet()` is true exactly after a value was assigned;
* `force(v)` replaces the value and keeps the attributes `final`, `final-domain`;
* assignment of one `Options` to another (`a = b.copy()`) replaces value and attributes.
-/

namespace Hermes

/-- Exceptions thrown by the access functions of `include/component.hxx`. -/
inductive Err where
  | noValue        -- "Option {} has no value", line 89
  | badCast        -- "Could not convert {} to type {}", lines 95, 290, 310
  | used           -- "Setting value of {} but it has already been used", lines 234, 238, 265
  | invalid        -- "Setting invalid value for {}", line 244
  | custom         -- any other BoutException thrown by a component
deriving DecidableEq, Repr

/-- One leaf of the `Options` tree. -/
structure Entry (V : Type) where
  val : Option V := none
  final : Bool := false
  finalDomain : Bool := false

/-- The tree.  `check` says whether the program was compiled with `CHECKLEVEL >= 1`. -/
structure Store (K V : Type) where
  check : Bool
  ent : K → Entry V

/-- The operations on values that the access functions need.
`invalid` is `hermesDataInvalid` (`include/component.hxx:205-220`).
`addTo v old` is `value + cast(old)` and `subFrom v old` is `cast(old) - value`,
`none` when the cast throws `std::bad_cast`. -/
class StoreVal (V : Type) where
  invalid : V → Bool
  neg : V → V
  addTo : V → V → Option V
  subFrom : V → V → Option V

/-- A computation which reads and modifies the state and may throw. -/
def M (K V α : Type) : Type := Store K V → Except Err α × Store K V

namespace M
variable {K V α β : Type}

def pure (a : α) : M K V α := fun s => (.ok a, s)
def bind (m : M K V α) (f : α → M K V β) : M K V β := fun s =>
  match m s with
  | (.ok a, s') => f a s'
  | (.error e, s') => (.error e, s')
def throw (e : Err) : M K V α := fun s => (.error e, s)

instance : Monad (M K V) where
  pure := pure
  bind := bind

end M

section
variable {K V : Type} [DecidableEq K]

/-- Replace the entry at key `k`. -/
def Store.update (s : Store K V) (k : K) (e : Entry V) : Store K V :=
  { s with ent := fun k' => if k' = k then e else s.ent k' }

/-- `option.force(value)`: value replaced, attributes kept. -/
def Store.force (s : Store K V) (k : K) (v : V) : Store K V :=
  s.update k { s.ent k with val := some v }

/-- `attributes["final"] = …; attributes["final-domain"] = …` under `#if CHECKLEVEL >= 1`
(`include/component.hxx:116-120`, `src/component.cxx:19-23`). -/
def Store.markFinal (s : Store K V) (k : K) : Store K V :=
  if s.check then s.update k { s.ent k with final := true, finalDomain := true } else s

/-- `attributes["final-domain"] = …` (`include/component.hxx:184-187`, `src/component.cxx:28-31`). -/
def Store.markFinalDomain (s : Store K V) (k : K) : Store K V :=
  if s.check then s.update k { s.ent k with finalDomain := true } else s

/-- `getNonFinal<T>`, `include/component.hxx:86-98`.  The requested type `T` is modelled by
the partial conversion `cast`. -/
def getNonFinal {T : Type} (cast : V → Option T) (k : K) : M K V T := fun s =>
  match (s.ent k).val with
  | none => (.error .noValue, s)
  | some v => match cast v with
    | none => (.error .badCast, s)
    | some t => (.ok t, s)

/-- `get<T>`, `include/component.hxx:114-122`: marks first, then reads. -/
def get {T : Type} (cast : V → Option T) (k : K) : M K V T := fun s =>
  getNonFinal cast k (s.markFinal k)

/-- `getNoBoundary<T>`, `include/component.hxx:182-189`. -/
def getNoBoundary {T : Type} (cast : V → Option T) (k : K) : M K V T := fun s =>
  getNonFinal cast k (s.markFinalDomain k)

/-- `isSetFinal`, `src/component.cxx:18-25` (macro `IS_SET`). -/
def isSetFinal (k : K) : M K V Bool := fun s =>
  let s' := s.markFinal k
  (.ok (s'.ent k).val.isSome, s')

/-- `isSetFinalNoBoundary`, `src/component.cxx:27-33` (macro `IS_SET_NOBOUNDARY`). -/
def isSetFinalNoBoundary (k : K) : M K V Bool := fun s =>
  let s' := s.markFinalDomain k
  (.ok (s'.ent k).val.isSome, s')

/-- `option.isSet()` of BOUT++: no marking. -/
def isSet (k : K) : M K V Bool := fun s => (.ok (s.ent k).val.isSome, s)

variable [StoreVal V]

/-- `set`, `include/component.hxx:229-250`. -/
def set (k : K) (v : V) : M K V Unit := fun s =>
  if s.check && (s.ent k).final then (.error .used, s)
  else if s.check && (s.ent k).finalDomain then (.error .used, s)
  else if s.check && StoreVal.invalid v then (.error .invalid, s)
  else (.ok (), s.force k v)

/-- `setBoundary`, `include/component.hxx:260-271`. -/
def setBoundary (k : K) (v : V) : M K V Unit := fun s =>
  if s.check && (s.ent k).final then (.error .used, s)
  else (.ok (), s.force k v)

/-- `add`, `include/component.hxx:281-294`. -/
def add (k : K) (v : V) : M K V Unit := fun s =>
  match (s.ent k).val with
  | none => set k v s
  | some old => match StoreVal.addTo v old with
    | none => (.error .badCast, s)
    | some w => set k w s

/-- `subtract`, `include/component.hxx:301-314`. -/
def subtract (k : K) (v : V) : M K V Unit := fun s =>
  match (s.ent k).val with
  | none => set k (StoreVal.neg v) s
  | some old => match StoreVal.subFrom v old with
    | none => (.error .badCast, s)
    | some w => set k w s

/-- `state[l] = state[r].copy()`, `src/transform.cxx:30`: value and attributes are replaced,
no check of the `final` attributes is made. -/
def copyEntry (l r : K) : M K V Unit := fun s => (.ok (), s.update l (s.ent r))

/-- `set_with_attrs`, `include/component.hxx:316-331`: `force` without a check of `final`.
(The `isAllocated` test of the `Field3D` overload is not modelled: every modelled value is
allocated.) -/
def setWithAttrs (k : K) (v : V) : M K V Unit := fun s => (.ok (), s.force k v)

end
end Hermes
