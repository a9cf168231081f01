import Mathlib.Data.Real.Basic
import Mathlib.Logic.Function.Basic

/-!
# Fields that share storage

Elsewhere in the model a field is a value.  In the code a copy of a `Field3D` shares the storage of the original until one of the two calls `allocate()`
(`src/evolve_density.cxx:206`: "Ensure unique memory storage"); arithmetic makes new storage, assignment to single elements does not.  Here fields are
references to blocks of storage, for the one entry of the state that components change element by element: the `density_source` of a species
(the `energy_source` of the species into which ions recycle is handled in the same way).

Not in this file: the marks of use, and `hermesDataInvalid` (`include/component.hxx:160-215`), which are the subject of `Model/Store`.
-/

namespace Hermes.Sharing

/-- Blocks of storage, the number of blocks in use, and the entry `density_source` of one species in the state. -/
structure Mem (ι : Type) where
  block : ℕ → ι → ℝ
  next : ℕ
  slot : Option ℕ

namespace Mem
variable {ι : Type}

/-- New storage with the given contents: the result of an arithmetic expression, or of `allocate()` on a field that shares its storage. -/
def alloc (m : Mem ι) (f : ι → ℝ) : Mem ι × ℕ := (⟨Function.update m.block m.next f, m.next + 1, m.slot⟩, m.next)

/-- `option.force(value)`: the entry refers to the storage of `value`, `include/component.hxx:189`. -/
def put (m : Mem ι) (r : ℕ) : Mem ι := ⟨m.block, m.next, some r⟩

/-- `add`, `include/component.hxx:226-239`: the value itself if nothing is set, otherwise the sum, which is a new field. -/
def add (m : Mem ι) (r : ℕ) : Mem ι :=
  match m.slot with
  | none => m.put r
  | some s => let (m', t) := m.alloc fun i => m.block r i + m.block s i; m'.put t

/-- `subtract`, `include/component.hxx:246-259`: the negative, or the difference; both are new fields. -/
def subtract (m : Mem ι) (r : ℕ) : Mem ι :=
  match m.slot with
  | none => let (m', t) := m.alloc fun i => -m.block r i; m'.put t
  | some s => let (m', t) := m.alloc fun i => m.block s i - m.block r i; m'.put t

/-- `field(x, y, z) += a`: in place. -/
def increase [DecidableEq ι] (m : Mem ι) (r : ℕ) (i : ι) (a : ℝ) : Mem ι :=
  ⟨Function.update m.block r (Function.update (m.block r) i (m.block r i + a)), m.next, m.slot⟩

end Mem

/-- What one component does to the entry. -/
inductive Step (ι : Type) where
  /-- `EvolveDensity::transform`, `src/evolve_density.cxx:195-207`; with the value of the prefactor if `source_time_dependent`. -/
  | source (prefactor : Option ℝ)
  /-- `add(species["density_source"], f)` with a field the component has computed and may keep for its output, e.g. `include/simple_pump.hxx:38-40`,
  `include/amjuel_reaction.hxx:107-111`. -/
  | adds (f : ι → ℝ)
  /-- `subtract(species["density_source"], f)`. -/
  | subtracts (f : ι → ℝ)
  /-- One channel of `Recycling::transform`, `src/recycling.cxx:159-507`: the cells it visits with what it adds there. -/
  | recycles (l : List (ι × ℝ))

variable {ι : Type} [DecidableEq ι]

/-- One component; the second result is the field it keeps for the output (`final_source`, `pumping_sink`, …; for recycling its member `density_source`).
`src` is the member `source` of `evolve_density`. -/
def step (src : ℕ) (m : Mem ι) : Step ι → Mem ι × ℕ
  | .source (some p) =>
      -- `final_source = source * source_prefactor`; its storage is its own, so `allocate()` does nothing
      let (m1, r) := m.alloc fun i => m.block src i * p
      (m1.add r, r)
  | .source none =>
      -- `final_source = source; final_source.allocate();`
      let (m1, r) := m.alloc (m.block src)
      (m1.add r, r)
  | .adds f =>
      let (m1, r) := m.alloc f
      (m1.add r, r)
  | .subtracts f =>
      let (m1, r) := m.alloc f
      (m1.subtract r, r)
  | .recycles l =>
      -- `density_source = isSet ? getNonFinal<Field3D>(...) : 0.0`, then element by element, then `set`
      let (m1, r) := match m.slot with
        | some s => (m, s)
        | none => m.alloc fun _ => 0
      ((l.foldl (fun m q => m.increase r q.1 q.2) m1).put r, r)

/-- The components one after the other; the fields they keep, in the same order. -/
def run (src : ℕ) (m : Mem ι) : List (Step ι) → Mem ι × List ℕ
  | [] => (m, [])
  | s :: l =>
      let (m1, r) := step src m s
      let (m2, rs) := run src m1 l
      (m2, r :: rs)

/-- `Hermes::rhs`, `hermes-3.cxx:292-303`: the state is new, the members are kept. -/
def evaluation (src : ℕ) (m : Mem ι) (l : List (Step ι)) : Mem ι × List ℕ := run src ⟨m.block, m.next, none⟩ l

/-- Any number of evaluations. -/
def evaluations (src : ℕ) (m : Mem ι) : List (List (Step ι)) → Mem ι
  | [] => m
  | l :: ls => evaluations src (evaluation src m l).1 ls

end Hermes.Sharing
