import Verif.Model.Recycling
import Verif.Model.NeutralGrid
import Verif.Model.Rhs

/-!
# One evaluation of the right-hand side: from the state to the equations

`sheath_boundary` and `recycling` are modelled on a mesh of cells (`Model/Sheath.lean`, `Model/Recycling.lean`), the equations on
a grid (`Model/Rhs.lean`).  Here both are the same mesh, and the equations read the state which the components have filled:
`Hermes::rhs`, `hermes-3.cxx:292-303`, calls `transform` of all components and then `finally` with the same state
(`src/component_scheduler.cxx`, modelled in `Model/Scheduler.lean`).
-/

namespace Hermes

section
variable {nz : ℕ}

/-- The grid as `sheath_boundary`, `noflow_boundary` and `recycling` use it.  `iterateBndryLowerY`, `iterateBndryUpperY` visit the
ends of the lines that are not periodic; the outer edge is visited if `mesh->lastX()` (`src/recycling.cxx:306`), the inner one if
`mesh->firstX()` and the core is not periodic (lines 395, 396).  `is_pump` and `g_33` are not fields of `Grid`. -/
def Grid.targetMesh (g : Grid) (B : RhsOps nz) (is_pump g_33 : Fld (Cell nz)) : RMesh (Cell nz) where
  ym p := (p.1, p.2.1 - 1, p.2.2)
  yp p := (p.1, p.2.1 + 1, p.2.2)
  lower := g.endCells nz (fun i => g.firstY i && !B.periodicY i) g.ystart
  upper := g.endCells nz (fun i => g.lastY i && !B.periodicY i) g.yend
  J p := g.J p.1 p.2.1
  g22 p := B.g_22 p.1 p.2.1
  dx p := g.dx p.1 p.2.1
  dy p := g.dy p.1 p.2.1
  dz p := g.dz p.1 p.2.1
  xm p := (p.1 - 1, p.2)
  xp p := (p.1 + 1, p.2)
  sol := if g.lastX then (forRange g.ystart g.yend ×ˢ List.finRange nz).map fun p => (g.xend, p.1, p.2) else []
  pfr := if g.firstX && !B.periodicY g.xstart then (forRange g.ystart g.yend ×ˢ List.finRange nz).map fun p => (g.xstart, p.1, p.2) else []
  is_pump := is_pump
  g22up p := g.g22 p.1 p.2.1
  g33 := g_33

/-- `fromFieldAligned` of a field given cell by cell: `sheath_boundary` works in field-aligned coordinates and publishes
`fromFieldAligned(Ni)`, `fromFieldAligned(Vi)` (`src/sheath_boundary.cxx:491-504, 668-674`); `recycling` uses what is published. -/
def fromAligned (B : RhsOps nz) (f : Fld (Cell nz)) : Fld (Cell nz) := fun p => B.fromFA (asF3 f) p.1 p.2.1 p.2.2

/-- `get<Field3D>(state[...])` and `get<BoutReal>(state[...])` in `finally`, if the entry is set. -/
def readF3 (st : Store Key (Value (Cell nz))) (k : Key) : Option (F3 nz) := ((st.ent k).val.bind asField).map asF3
def readNumber (st : Store Key (Value (Cell nz))) (k : Key) : Option ℝ := (st.ent k).val.bind asReal

/-- `state["species"][n]` as the evolution equations see it. -/
def speciesIn (st : Store Key (Value (Cell nz))) (n : String) : SpeciesIn nz where
  AA := readNumber st (.sp n .AA)
  charge := readNumber st (.sp n .charge)
  density := readF3 st (.sp n .density)
  velocity := readF3 st (.sp n .velocity)
  momentum := readF3 st (.sp n .momentum)
  temperature := readF3 st (.sp n .temperature)
  pressure := readF3 st (.sp n .pressure)
  density_source := readF3 st (.sp n .density_source)
  energy_source := readF3 st (.sp n .energy_source)
  momentum_source := readF3 st (.sp n .momentum_source)
  low_n_coeff := readF3 st (.sp n (.other "low_n_coeff"))
  collision_frequency := readF3 st (.sp n .collision_frequency)
  particle_flow_ylow := readF3 st (.sp n (.other "particle_flow_ylow"))
  energy_flow_ylow := readF3 st (.sp n .energy_flow_ylow)
  momentum_flow_ylow := readF3 st (.sp n (.other "momentum_flow_ylow"))
  momentum_flux_ylow := readF3 st (.sp n (.other "momentum_flux_ylow"))

/-- `state["fields"]`, `state["fastest_wave"]`, `state["scale_timederivs"]`. -/
def fieldsIn (st : Store Key (Value (Cell nz))) : FieldsIn nz where
  phi := readF3 st (.top "fields:phi")
  Apar := readF3 st (.top "fields:Apar")
  Apar_flutter := readF3 st (.top "fields:Apar_flutter")
  fastest_wave := readF3 st (.top "fastest_wave")
  scale_timederivs := readF3 st (.top "scale_timederivs")

end
end Hermes
