import Verif.Model.ExBPoloidal
import Verif.Model.Species

/-!
# Right-hand sides: `finally` of `evolve_density`, `evolve_pressure` and `evolve_momentum`

`finally` only reads the state.  What it reads is given by the records below (`none`: not set); `get` of a value that is
not set throws.

Simplifications:
* `sqrt` of a negative number gives NaN in every cell that it reaches, which the check of `ddt` (`CHECKLEVEL >= 1`,
  e.g. `src/evolve_density.cxx:294-300`) turns into an exception; here the exception is thrown where the root is taken;
* the parallel operators are applied to the lines `(i, k)` of the field-aligned arrays for every column `i`, also those
  outside `xstart … xend`, where the code leaves zeros;
* `isSection("fields") and fields.isSet(x)` is `fields.isSet(x)`.
-/

namespace Hermes

/-- Functions of BOUT++ used by the right-hand sides, and the covariant metric component `g_22`.
`setBoundaryTo a b`: `a.setBoundaryTo(b)`; `divParK K f`: `FV::Div_par_K_Grad_par(K, f)`; `d4dz4`: `D4DZ4`;
`gradPar`, `divPar`: `Grad_par`, `Div_par`; `bracket f g`: `bracket(f, g, BRACKET_ARAKAWA)`;
`neumann`: `communicate` and `applyBoundary("neumann")`. -/
structure RhsOps (nz : ℕ) extends BoutOps nz where
  g_22 : ℤ → ℤ → ℝ
  setBoundaryTo : F3 nz → F3 nz → F3 nz
  divParK : F3 nz → F3 nz → F3 nz
  d4dz4 : F3 nz → F3 nz
  gradPar : F3 nz → F3 nz
  divPar : F3 nz → F3 nz
  bracket : F3 nz → F3 nz → F3 nz
  neumann : F3 nz → F3 nz

/-- `state["species"][name]`. -/
structure SpeciesIn (nz : ℕ) where
  AA : Option ℝ := none
  charge : Option ℝ := none
  density : Option (F3 nz) := none
  velocity : Option (F3 nz) := none
  momentum : Option (F3 nz) := none
  temperature : Option (F3 nz) := none
  pressure : Option (F3 nz) := none
  density_source : Option (F3 nz) := none
  energy_source : Option (F3 nz) := none
  momentum_source : Option (F3 nz) := none
  low_n_coeff : Option (F3 nz) := none
  collision_frequency : Option (F3 nz) := none
  particle_flow_ylow : Option (F3 nz) := none
  energy_flow_ylow : Option (F3 nz) := none
  momentum_flow_ylow : Option (F3 nz) := none
  momentum_flux_ylow : Option (F3 nz) := none

/-- `state["fields"]`, `state["fastest_wave"]` and `state["scale_timederivs"]`. -/
structure FieldsIn (nz : ℕ) where
  phi : Option (F3 nz) := none
  Apar : Option (F3 nz) := none
  Apar_flutter : Option (F3 nz) := none
  fastest_wave : Option (F3 nz) := none
  scale_timederivs : Option (F3 nz) := none

/-- `get` of a value that may not be set. -/
def need {α : Type} : Option α → Except Err α
  | some a => .ok a
  | none => .error .noValue

section
variable {nz : ℕ}

/-- `floor(f, lo)`. -/
noncomputable def floor3 (f : F3 nz) (lo : ℝ) : F3 nz := fun i j k => if f i j k < lo then lo else f i j k

/-- The line `(i, ·)` of the grid. -/
def Grid.line (g : Grid) (B : RhsOps nz) (i : ℤ) : Line where
  ystart := g.ystart
  yend := g.yend
  firstY := g.firstY i
  lastY := g.lastY i
  periodicY := B.periodicY i
  J := g.J i
  g22 := B.g_22 i
  dx := g.dx i
  dy := g.dy i
  dz := g.dz i

/-- Line `(i, k)` of a field. -/
def alongY (f : F3 nz) (i : ℤ) (k : Fin nz) : ℤ → ℝ := fun j => f i j k

/-- `FV::Div_par_mod<lim>(f, v, w, flow_ylow, fixflux)` in field-aligned coordinates, `include/div_ops.hxx:501-692`. -/
noncomputable def Grid.parMod (g : Grid) (B : RhsOps nz) (lim : Limiter) (f v w : F3 nz) (fixflux : Bool) (i : ℤ) (k : Fin nz) : Acc :=
  (g.line B i).divParMod lim (alongY (B.toFA f) i k) (alongY (B.toFA v) i k) (alongY (B.toFA w) i k) fixflux

/-- Its result and its `flow_ylow`. -/
noncomputable def Grid.divParMod3 (g : Grid) (B : RhsOps nz) (lim : Limiter) (f v w : F3 nz) (fixflux : Bool) : F3 nz :=
  B.fromFA fun i j k => (g.parMod B lim f v w fixflux i k).result j
noncomputable def Grid.divParModFlow3 (g : Grid) (B : RhsOps nz) (lim : Limiter) (f v w : F3 nz) (fixflux : Bool) : F3 nz :=
  B.fromFA fun i j k => (g.parMod B lim f v w fixflux i k).flow j

/-- `FV::Div_par_fvv<lim>(f, v, w, fixflux)`, `include/div_ops.hxx:126-276`. -/
noncomputable def Grid.divParFvv3 (g : Grid) (B : RhsOps nz) (lim : Limiter) (f v w : F3 nz) (fixflux : Bool) : F3 nz :=
  B.fromFA fun i j k => (g.line B i).divParFvv lim (alongY (B.toFA f) i k) (alongY (B.toFA v) i k) (alongY (B.toFA w) i k) fixflux j

/-- `FV::Div_par_fvv_heating(f, v, w, flow_ylow, fixflux)`, `include/div_ops.hxx:280-477`. -/
noncomputable def Grid.fvvHeating3 (g : Grid) (B : RhsOps nz) (lim : Limiter) (f v w : F3 nz) (fixflux : Bool) : F3 nz :=
  B.fromFA fun i j k =>
    ((g.line B i).fvvHeating lim (alongY (B.toFA f) i k) (alongY (B.toFA v) i k) (alongY (B.toFA w) i k) fixflux).result j

/-- `Div_par_K_Grad_par_mod(K, f, flow_ylow, bndry_flux)`, `src/div_ops.cxx:1534-1603`, without parallel slices. -/
noncomputable def Grid.conduction3 (g : Grid) (B : RhsOps nz) (K f : F3 nz) (bndry_flux : Bool) : F3 nz :=
  B.fromFA fun i j k => (g.line B i).divParKGradPar (alongY (B.toFA K) i k) (alongY (B.toFA f) i k) bndry_flux j

/-- `Div_n_g_bxGrad_f_B_XZ(n, g, f, bndry_flux)`, `src/div_ops.cxx:1376-1532`; the default of `bndry_flux` is `true`
(`include/div_ops.hxx:49-50`). -/
noncomputable def Grid.divNG [NeZero nz] (g : Grid) (B : RhsOps nz) (n v f : F3 nz) (bndry_flux : Bool := true) : F3 nz :=
  B.communicate (g.exbXZ n v f bndry_flux)

/-- `fastest_wave`, `src/evolve_density.cxx:239-246`, `src/evolve_pressure.cxx:251-257`, `src/evolve_momentum.cxx:101-108`. -/
noncomputable def waveSpeed (s : SpeciesIn nz) (f : FieldsIn nz) : Except Err (F3 nz) :=
  match f.fastest_wave with
  | some w => .ok w
  | none =>
    match s.temperature, s.AA with
    | some T, some AA =>
      open Classical in
      if ∃ i j k, T i j k / AA < 0 then .error .invalid else .ok fun i j k => Real.sqrt (T i j k / AA)
    | _, _ => .error .noValue

open Classical in
/-- ExB term: `Div_n_bxGrad_f_B_XPPM(n, phi, bndry_flux, poloidal_flows, true)` if the species is charged and the potential
is set, otherwise zero.  `src/evolve_density.cxx:218-228`, `src/evolve_pressure.cxx:234-244`, `src/evolve_momentum.cxx:113-124`. -/
noncomputable def exbOf [NeZero nz] (g : Grid) (B : RhsOps nz) (charged : Prop) (f : FieldsIn nz) (n : F3 nz)
    (bndry_flux poloidal_flows : Bool) : F3 nz :=
  match f.phi with
  | some phi => if charged then g.exbXPPM B.toBoutOps n phi bndry_flux poloidal_flows true else 0
  | none => 0

/-! ## `evolve_density` -/

/-- Options of `EvolveDensity`, `src/evolve_density.cxx:17-80`. -/
structure DensityOpts where
  bndry_flux : Bool := true
  poloidal_flows : Bool := true
  density_floor : ℝ
  pressure_floor : ℝ
  low_n_diffuse : Bool := false
  low_n_diffuse_perp : Bool := false
  low_p_diffuse_perp : Bool := false
  hyper_z : ℝ := -1
  charge : ℝ

/-- `EvolveDensity::finally`, `src/evolve_density.cxx:209-313`: `ddt(N)`.  `N₀` is the density of the solver. -/
noncomputable def densityRhs [NeZero nz] (o : DensityOpts) (g : Grid) (B : RhsOps nz) (lim : Limiter) (N₀ : F3 nz)
    (s : SpeciesIn nz) (f : FieldsIn nz) : Except Err (F3 nz) := do
  -- line 216
  let density ← need s.density
  let N := B.setBoundaryTo N₀ density
  -- lines 218-228
  let ddt := -exbOf g B (1e-5 < |o.charge|) f N o.bndry_flux o.poloidal_flows
  -- lines 230-258
  let ddt ← (match s.velocity with
    | none => .ok ddt
    | some V => do
      let w ← waveSpeed s f
      let ddt := ddt - g.divParMod3 B lim N V w true
      match f.Apar_flutter with
      | none => .ok ddt
      | some A => .ok (ddt - g.divNG B N V (-A)) : Except Err (F3 nz))
  -- lines 260-266
  let ddt ← (if o.low_n_diffuse then do
      let low_n_coeff ← need s.low_n_coeff
      .ok (ddt + B.divParK low_n_coeff N)
    else .ok ddt : Except Err (F3 nz))
  -- lines 268-271; `Div_Perp_Lap_FV_Index` does not use its last argument
  let ddt : F3 nz :=
    if o.low_n_diffuse_perp then
      ddt + g.perpLapIndex (fun i j k => o.density_floor / floor3 N (1e-3 * o.density_floor) i j k) N
    else ddt
  -- lines 273-276
  let ddt ← (if o.low_p_diffuse_perp then do
      let P ← need s.pressure
      .ok (ddt + g.perpLapIndex (fun i j k => o.pressure_floor / floor3 P (1e-3 * o.pressure_floor) i j k) N)
    else .ok ddt : Except Err (F3 nz))
  -- lines 278-281
  let ddt : F3 nz :=
    if 0 < o.hyper_z then ddt - fun i j k => o.hyper_z * ((g.dz i j) ^ 2) ^ 2 * B.d4dz4 N i j k else ddt
  -- lines 285-286
  let Sn ← need s.density_source
  let ddt := ddt + Sn
  -- lines 289-291
  match f.scale_timederivs with
  | none => .ok ddt
  | some sc => .ok (ddt * sc)

end
end Hermes
