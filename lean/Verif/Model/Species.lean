import Verif.Lemmas.Store
import Verif.Model.Limiters
import Mathlib.Data.Fin.VecNotation

/-!
# The state seen by the physics components

A component's `transform` reads variables of species and then makes contributions to sources with `add` and
`subtract`.  The components modelled here never read a variable which they modify themselves, so that
`transform` is: read everything, then make a list of contributions in program order.  (The marking of the
variables read as final is the subject of `Model/Store.lean`.)

* `World.st` holds the `Field3D` entries of the tree, `World.num` the `BoutReal` entries (`AA`, `charge`, …).
* Cells are an arbitrary type `ι`; `ym`, `yp` are the neighbours along the field line, `J` the Jacobian.
  Guard cells are cells too; loops over `RGN_NOBNDRY` are modelled in every cell, so that a statement
  about a result of such a loop is to be read for interior cells.
* `ASSERT1` is active (`CHECK >= 1`) unless said otherwise.
-/

namespace Hermes

/-- The names of the variables of a species, one constructor per name used by the modelled components (an
enumeration instead of strings, because the kernel compares constructors faster than strings); `other` for names that
are rarely used. -/
inductive Var where
  | AA | charge
  | density | temperature | pressure | velocity | momentum
  | density_source | momentum_source | energy_source | collision_frequency
  | adiabatic | energy_flow_ylow
  | other (name : String)
deriving DecidableEq, Repr

/-- A path in the tree: `state[v]` or `state["species"][s][v]`. -/
inductive Key where
  | top (v : String)
  | sp (s : String) (v : Var)
deriving DecidableEq, Repr

/-- One `add` (`true`) or `subtract` (`false`) of a field. -/
abbrev Contrib (K ι : Type) := K × Fld ι × Bool

/-- One contribution to a source: `(k, v, true)` is `add(k, v)`, `(k, v, false)` is `subtract(k, v)`. -/
def contribute {K ι : Type} [DecidableEq K] (c : Contrib K ι) : M K (Fld ι) Unit :=
  if c.2.2 then Hermes.add c.1 c.2.1 else Hermes.subtract c.1 c.2.1

/-- All contributions in order (stops at the first exception). -/
def contributeAll {K ι : Type} [DecidableEq K] : List (Contrib K ι) → M K (Fld ι) Unit
  | [] => M.pure ()
  | c :: cs => M.bind (contribute c) (fun _ => contributeAll cs)

/-- The state and the mesh. -/
structure World (ι : Type) where
  st : Store Key (Fld ι)
  num : String → Var → Option ℝ
  ym : ι → ι
  yp : ι → ι
  J : Fld ι
  lim : Limiter

/-- `ASSERT1(p)` with `CHECK >= 1`: an exception unless `p`. -/
def assert1 (p : Prop) [Decidable p] : Except Err Unit := if p then .ok () else .error .custom

namespace World
variable {ι : Type}

/-- `get<Field3D>(state["species"][s][v])`. -/
def field (w : World ι) (s : String) (v : Var) : Except Err (Fld ι) :=
  match (w.st.ent (.sp s v)).val with
  | none => .error .noValue
  | some f => .ok f

/-- `get<BoutReal>(state["species"][s][v])`. -/
def real (w : World ι) (s : String) (v : Var) : Except Err ℝ :=
  match w.num s v with
  | none => .error .noValue
  | some x => .ok x

/-- `species.isSet(v)` for a field. -/
def isSetF (w : World ι) (s : String) (v : Var) : Bool := (w.st.ent (.sp s v)).val.isSome

/-- `species.isSet("charge") ? get<BoutReal>(species["charge"]) : 0.0`. -/
def chargeOr0 (w : World ι) (s : String) : ℝ := (w.num s Var.charge).getD 0

/-- `cellAverage(f, region)(a, b, c)`, `include/integrate.hxx:59-85`, for three arguments. -/
noncomputable def avg3 (w : World ι) (f : ℝ → ℝ → ℝ → ℝ) (a b c : Fld ι) : Fld ι := fun i =>
  cellAverage w.lim (fun x : Fin 3 → ℝ => f (x 0) (x 1) (x 2)) ![a i, b i, c i]
    ![a (w.ym i), b (w.ym i), c (w.ym i)] ![a (w.yp i), b (w.yp i), c (w.yp i)]
    (w.J i) (w.J (w.ym i)) (w.J (w.yp i))

/-- The same for four arguments. -/
noncomputable def avg4 (w : World ι) (f : ℝ → ℝ → ℝ → ℝ → ℝ) (a b c d : Fld ι) : Fld ι := fun i =>
  cellAverage w.lim (fun x : Fin 4 → ℝ => f (x 0) (x 1) (x 2) (x 3)) ![a i, b i, c i, d i]
    ![a (w.ym i), b (w.ym i), c (w.ym i), d (w.ym i)] ![a (w.yp i), b (w.yp i), c (w.yp i), d (w.yp i)]
    (w.J i) (w.J (w.ym i)) (w.J (w.yp i))

end World

/-- A component that reads the state and contributes to sources. -/
abbrev SourceComponent (ι : Type) := World ι → Except Err (List (Contrib Key ι))

/-- Its `transform`: the exception, or the state after the contributions. -/
def SourceComponent.transform {ι : Type} (c : SourceComponent ι) (w : World ι) :
    Except Err Unit × Store Key (Fld ι) :=
  match c w with
  | .error e => (.error e, w.st)
  | .ok cs => contributeAll cs w.st

end Hermes
