import Verif.Props.Nuclei
import Verif.Props.AnomalousDiffusion
import Verif.Props.RecyclingExamples

/-!
# C87: what diffuses to the radial walls comes back

`anomalous_diffusion` takes particles across the outermost and the innermost flux surface of the grid and publishes the flow;
`recycling` turns the ions in this flow into neutrals at the outer edge and, unless the innermost surface is closed, at the inner
edge.  Together with the targets (C77) this closes the balance of nuclei of a whole simulation.
-/

namespace Hermes.RadialWalls
open Finset Hermes Hermes.Closures Hermes.Sheath Hermes.Recycling Hermes.PerpOps Hermes.Rhs Hermes.DensityEquation Hermes.Nuclei
open Hermes.NeutralGas hiding radialGain radialGain_zero
open Hermes.Anomalous
open Hermes.MomentumEquation (Relabels)

variable {nz : ℕ} [NeZero nz]

/-! ## What crosses the edges -/

/-- Particles that leave through the outer edge, and particles that come in there; `f` is the flow through the lower face of each cell. -/
noncomputable def outerLoss (g : Grid) (f : F3 nz) : ℝ := ∑ j ∈ Icc g.ystart g.yend, ∑ k, max (f (g.xend + 1) j k) 0
noncomputable def outerGain (g : Grid) (f : F3 nz) : ℝ := ∑ j ∈ Icc g.ystart g.yend, ∑ k, max (-f (g.xend + 1) j k) 0
/-- The same at the inner edge. -/
noncomputable def innerLoss (g : Grid) (f : F3 nz) : ℝ := ∑ j ∈ Icc g.ystart g.yend, ∑ k, max (-f g.xstart j k) 0
noncomputable def innerGain (g : Grid) (f : F3 nz) : ℝ := ∑ j ∈ Icc g.ystart g.yend, ∑ k, max (f g.xstart j k) 0

theorem max_parts (x : ℝ) : x = max x 0 - max (-x) 0 := by
  rcases le_total 0 x with h | h
  · rw [max_eq_left h, max_eq_right (by linarith), sub_zero]
  · rw [max_eq_right h, max_eq_left (by linarith)]; ring

theorem radialGain_parts (g : Grid) (p : PerpOut nz) :
    radialGain g p = outerGain g p.flow_xlow + (innerGain g p.flow_xlow - innerLoss g p.flow_xlow) - outerLoss g p.flow_xlow := by
  unfold radialGain outerGain innerGain innerLoss outerLoss
  simp only [← Finset.sum_sub_distrib, ← Finset.sum_add_distrib]
  refine Finset.sum_congr rfl fun j _ => Finset.sum_congr rfl fun k _ => ?_
  have a := max_parts (p.flow_xlow g.xstart j k)
  have b := max_parts (p.flow_xlow (g.xend + 1) j k)
  linarith

theorem outerLoss_nonneg (g : Grid) (f : F3 nz) : 0 ≤ outerLoss g f :=
  Finset.sum_nonneg fun _ _ => Finset.sum_nonneg fun _ _ => le_max_right _ _
theorem innerLoss_nonneg (g : Grid) (f : F3 nz) : 0 ≤ innerLoss g f :=
  Finset.sum_nonneg fun _ _ => Finset.sum_nonneg fun _ _ => le_max_right _ _

section
variable {g : Grid} {B : RhsOps nz} {pump g33 : Fld (Cell nz)}

/-- The cells at one edge. -/
abbrev edge (nz : ℕ) (g : Grid) (x : ℤ) : List (Cell nz) := (forRange g.ystart g.yend ×ˢ List.finRange nz).map fun p => ((x, p.1, p.2) : Cell nz)

theorem mem_edge {x i j : ℤ} {k : Fin nz} : ((i, j, k) : Cell nz) ∈ edge nz g x ↔ i = x ∧ g.ystart ≤ j ∧ j ≤ g.yend := by
  unfold edge
  rw [List.mem_map]
  constructor
  · rintro ⟨⟨a, b⟩, hm, e⟩
    simp only [Prod.mk.injEq] at e
    obtain ⟨rfl, rfl, rfl⟩ := e
    exact ⟨rfl, mem_forRange.1 (List.mem_product.1 hm).1⟩
  · rintro ⟨rfl, h⟩
    exact ⟨(j, k), List.mem_product.2 ⟨mem_forRange.2 h, List.mem_finRange k⟩, rfl⟩

theorem content_edge (hg : Regular g) {x : ℤ} (hx : g.xstart ≤ x ∧ x ≤ g.xend) (F : Cell nz → ℝ) :
    content g (asF3 fun p : Cell nz => if p ∈ edge nz g x then F p / volume g p.1 p.2.1 else 0)
      = ∑ j ∈ Icc g.ystart g.yend, ∑ k, F (x, j, k) := by
  unfold content
  rw [Finset.sum_eq_single x]
  · refine Finset.sum_congr rfl fun j hj => Finset.sum_congr rfl fun k _ => ?_
    have hv : volume g x j ≠ 0 := mul_ne_zero (mul_ne_zero (mul_ne_zero (hg.J_ne x j) (hg.dx_ne x j)) (hg.dy_ne x j)) (hg.dz_ne x j)
    show (if ((x, j, k) : Cell nz) ∈ edge nz g x then F (x, j, k) / volume g x j else 0) * volume g x j = _
    rw [if_pos (mem_edge.2 ⟨rfl, mem_Icc.1 hj⟩), div_mul_cancel₀ _ hv]
  · intro i _ hi
    refine Finset.sum_eq_zero fun j _ => Finset.sum_eq_zero fun k _ => ?_
    show (if ((i, j, k) : Cell nz) ∈ edge nz g x then F (i, j, k) / volume g i j else 0) * volume g i j = _
    rw [if_neg fun h => hi (mem_edge.1 h).1, zero_mul]
  · intro h
    exact absurd (mem_Icc.2 hx) h

/-! ## What one channel returns -/

/-- Neutrals that channel `ch` makes from the ions that reach the targets and the radial edges; `f` is the radial flow of the ions. -/
noncomputable def returned (g : Grid) (B : RhsOps nz) (m : RMesh (Cell nz)) (fl : RecycleFlags) (st : Store Key (Value (Cell nz))) (f : F3 nz)
    (ch : RecycleChannel) : ℝ :=
  (if fl.target_recycle then ch.target_multiplier * wallLoss m st ch.source else 0)
  + (if fl.sol_recycle && g.lastX then ch.sol_multiplier * outerLoss g f else 0)
  + (if fl.pfr_recycle && (g.firstX && !B.periodicY g.xstart) then ch.pfr_multiplier * innerLoss g f else 0)

theorem content_targets (hg : Regular g) {fl : RecycleFlags} {st : Store Key (Value (Cell nz))} {ch : RecycleChannel}
    (ho : Outward (g.targetMesh B pump g33) st ch.source) :
    content g (asF3 (gainD (g.targetMesh B pump g33) { fl with sol_recycle := false, pfr_recycle := false } st ch))
      = if fl.target_recycle then ch.target_multiplier * wallLoss (g.targetMesh B pump g33) st ch.source else 0 := by
  by_cases h : fl.target_recycle = true
  · rw [if_pos h, content_gainD hg (fl := { fl with sol_recycle := false, pfr_recycle := false }) h rfl rfl ho]
  · rw [if_neg h]
    have : gainD (g.targetMesh B pump g33) { fl with sol_recycle := false, pfr_recycle := false } st ch = 0 := by
      funext p
      unfold gainD
      simp only [h, false_and, if_false, add_zero, Bool.false_eq_true]
      rfl
    rw [this]
    exact content_zero g

theorem content_gainD_all (hg : Regular g) {fl : RecycleFlags} (hp : fl.neutral_pump = false) {st : Store Key (Value (Cell nz))} {ch : RecycleChannel}
    (ho : Outward (g.targetMesh B pump g33) st ch.source) :
    content g (asF3 (gainD (g.targetMesh B pump g33) fl st ch))
      = returned g B (g.targetMesh B pump g33) fl st (asF3 (fieldOf st ch.source particleFlowX)) ch := by
  set m := g.targetMesh B pump g33 with hm
  set f := asF3 (fieldOf st ch.source particleFlowX) with hf
  set b1 : Bool := fl.sol_recycle && g.lastX
  set b2 : Bool := fl.pfr_recycle && (g.firstX && !B.periodicY g.xstart)
  have hx : g.xstart ≤ g.xend := hg.x_nonempty
  have e : asF3 (gainD m fl st ch) = asF3 (gainD m { fl with sol_recycle := false, pfr_recycle := false } st ch)
      + asF3 (fun p : Cell nz => if p ∈ edge nz g g.xend then
          (if b1 then ch.sol_multiplier * max (f (p.1 + 1) p.2.1 p.2.2) 0 else 0) / volume g p.1 p.2.1 else 0)
      + asF3 (fun p : Cell nz => if p ∈ edge nz g g.xstart then
          (if b2 then ch.pfr_multiplier * max (-f p.1 p.2.1 p.2.2) 0 else 0) / volume g p.1 p.2.1 else 0) := by
    funext i j k
    show gainD m fl st ch (i, j, k) = gainD m { fl with sol_recycle := false, pfr_recycle := false } st ch (i, j, k) + (if _ then _ else _) + (if _ then _ else _)
    unfold gainD
    simp only [false_and, if_false, add_zero, Bool.false_eq_true]
    congr 1
    · congr 1
      have hmem : ((i, j, k) : Cell nz) ∈ m.sol ↔ g.lastX = true ∧ ((i, j, k) : Cell nz) ∈ edge nz g g.xend := by
        show _ ∈ (if g.lastX then _ else []) ↔ _
        split_ifs with h <;> simp [h, edge]
      by_cases h : fl.sol_recycle = true ∧ ((i, j, k) : Cell nz) ∈ m.sol
      · rw [if_pos h]
        obtain ⟨h1, h2⟩ := hmem.1 h.2
        rw [if_pos h2]
        have : b1 = true := by simp [b1, h.1, h1]
        rw [this]
        unfold solD pumping solFraction
        simp only [hp, and_false, Bool.false_eq_true, if_false, sub_zero, if_true]
        rfl
      · rw [if_neg h]
        by_cases h2 : ((i, j, k) : Cell nz) ∈ edge nz g g.xend
        · have : b1 = false := by
            by_contra hb
            have hb : b1 = true := by simpa using hb
            simp only [b1, Bool.and_eq_true] at hb
            exact h ⟨hb.1, hmem.2 ⟨hb.2, h2⟩⟩
          rw [if_pos h2, this]
          simp
        · rw [if_neg h2]
    · have hmem : ((i, j, k) : Cell nz) ∈ m.pfr ↔ (g.firstX && !B.periodicY g.xstart) = true ∧ ((i, j, k) : Cell nz) ∈ edge nz g g.xstart := by
        show _ ∈ (if g.firstX && !B.periodicY g.xstart then _ else []) ↔ _
        split_ifs with h <;> simp [h, edge]
      by_cases h : fl.pfr_recycle = true ∧ ((i, j, k) : Cell nz) ∈ m.pfr
      · rw [if_pos h]
        obtain ⟨h1, h2⟩ := hmem.1 h.2
        rw [if_pos h2]
        have : b2 = true := by simp only [b2, h.1, h1, Bool.and_self]
        rw [this]
        unfold pfrD pumping pfrFraction
        simp only [hp, and_false, Bool.false_eq_true, if_false, sub_zero, if_true]
        rfl
      · rw [if_neg h]
        by_cases h2 : ((i, j, k) : Cell nz) ∈ edge nz g g.xstart
        · have : b2 = false := by
            by_contra hb
            have hb : b2 = true := by simpa using hb
            simp only [b2, Bool.and_eq_true] at hb
            exact h ⟨hb.1, hmem.2 ⟨by simp only [Bool.and_eq_true]; exact hb.2, h2⟩⟩
          rw [if_pos h2, this]
          simp
        · rw [if_neg h2]
  rw [e, content_add, content_add, content_targets hg ho, content_edge hg ⟨hx, le_rfl⟩, content_edge hg ⟨le_rfl, hx⟩]
  unfold returned outerLoss innerLoss
  congr 1
  · congr 1
    change _ = if b1 then _ else _
    cases b1
    · simp
    · simp only [if_true, Finset.mul_sum]
  · change _ = if b2 then _ else _
    cases b2
    · simp
    · simp only [if_true, Finset.mul_sum]

/-- What recycling adds to the sources of species `n`, integrated. -/
theorem sourceOf_walls (hg : Regular g) (hy : g.ystart < g.yend) {fl : RecycleFlags} (hp : fl.neutral_pump = false)
    {channels : List RecycleChannel} {mem mem' : RecycleMem (Cell nz)} {st st' : Store Key (Value (Cell nz))}
    (hf : ∀ ch ∈ channels, HasFlows fl st ch) (hrun : recycling (g.targetMesh B pump g33) fl channels mem st = (.ok mem', st'))
    (hout : ∀ ch ∈ channels, Outward (g.targetMesh B pump g33) st ch.source) (n : String) :
    sourceOf g st' n = sourceOf g st n + (channels.map fun ch => if ch.dest = n then
      returned g B (g.targetMesh B pump g33) fl st (asF3 (fieldOf st ch.source particleFlowX)) ch else 0).sum := by
  set m := g.targetMesh B pump g33 with hm
  obtain ⟨a, -, -⟩ := recycling_sources (mesh_ok hy) sol_nodup pfr_nodup hf hrun
  unfold sourceOf
  have e : asF3 (fieldOf st' n .density_source) = asF3 (fieldOf st n .density_source)
      + asF3 (fun p => ((channels.map fun ch => (fun p => if ch.dest = n then gainD m fl st ch p else 0 : Fld (Cell nz))).map fun f => f p).sum) := by
    funext i j k
    show fieldOf st' n .density_source (i, j, k) = fieldOf st n .density_source (i, j, k) + _
    rw [a]
    simp only [asF3, List.map_map]
    rfl
  rw [e, content_add, content_list, List.map_map]
  congr 2
  refine List.map_congr_left fun ch hch => ?_
  show content g (asF3 fun p => if ch.dest = n then gainD m fl st ch p else 0) = _
  split_ifs with hd
  · exact content_gainD_all hg hp (hout ch hch)
  · exact content_zero g

/-! ## The balance of nuclei -/

/-- Sums over species and over channels. -/
theorem sum_over_species {S : List String} (hS : S.Nodup) {channels : List RecycleChannel} (hin : ∀ ch ∈ channels, ch.source ∈ S ∧ ch.dest ∈ S)
    (hone : (channels.map fun ch => ch.source).Nodup) {rate src loss : String → ℝ} {R W : RecycleChannel → ℝ}
    (hr : ∀ n ∈ S, rate n = src n + (channels.map fun ch => if ch.dest = n then R ch else 0).sum - loss n)
    (hl : ∀ ch ∈ channels, loss ch.source = W ch) (hz : ∀ n ∈ S, (∀ ch ∈ channels, ch.source ≠ n) → loss n = 0) (w : String → ℝ) :
    (S.map fun n => w n * rate n).sum = (S.map fun n => w n * src n).sum
      - (channels.map fun ch => w ch.source * W ch - w ch.dest * R ch).sum := by
  have losses : (S.map fun n => w n * loss n).sum = (channels.map fun ch => w ch.source * W ch).sum := by
    have e1 : (channels.map fun ch => w ch.source * W ch) = (channels.map fun ch => ch.source).map fun n => w n * loss n := by
      rw [List.map_map]
      refine List.map_congr_left fun ch hch => ?_
      show _ = w ch.source * loss ch.source
      rw [hl ch hch]
    rw [e1, ← List.sum_toFinset _ hS, ← List.sum_toFinset _ hone]
    refine (Finset.sum_subset ?_ ?_).symm
    · intro n hn
      obtain ⟨ch, hch, rfl⟩ := List.mem_map.1 (List.mem_toFinset.1 hn)
      exact List.mem_toFinset.2 (hin ch hch).1
    · intro n hn hn'
      rw [hz n (List.mem_toFinset.1 hn) fun ch hch e => hn' (List.mem_toFinset.2 (List.mem_map.2 ⟨ch, hch, e⟩)), mul_zero]
  have gains : ∀ l : List RecycleChannel, (∀ ch ∈ l, ch.dest ∈ S) →
      (S.map fun n => w n * (l.map fun ch => if ch.dest = n then R ch else 0).sum).sum = (l.map fun ch => w ch.dest * R ch).sum := by
    intro l hd
    induction l with
    | nil => simp
    | cons c l ih =>
      simp only [List.map_cons, List.sum_cons, mul_add]
      rw [List.sum_map_add, ih fun ch hch => hd ch (List.mem_cons_of_mem _ hch), sum_if_dest hS (hd c List.mem_cons_self)]
  have neg : ∀ {α : Type} (l : List α) (f : α → ℝ), (l.map fun x => -f x).sum = -(l.map f).sum := by
    intro α l f
    induction l with
    | nil => simp
    | cons x l ih => simp only [List.map_cons, List.sum_cons, ih]; ring
  have e : (S.map fun n => w n * rate n) = S.map fun n => w n * src n
      + w n * (channels.map fun ch => if ch.dest = n then R ch else 0).sum + -(w n * loss n) := by
    refine List.map_congr_left fun n hn => ?_
    rw [hr n hn]
    ring
  have e2 : (channels.map fun ch => w ch.source * W ch - w ch.dest * R ch) = channels.map fun ch => w ch.source * W ch + -(w ch.dest * R ch) :=
    List.map_congr_left fun ch _ => sub_eq_add_neg _ _
  rw [e, e2, List.sum_map_add, List.sum_map_add, List.sum_map_add, neg, neg, losses, gains channels fun ch hch => (hin ch hch).2]
  ring

/-- What `anomalous_diffusion` does to the particles of one species, in some state: it makes the source `p.source` and the flow `p.flow_xlow`; or the
species does not diffuse. -/
def Diffuses (g : Grid) (B : RhsOps nz) (p : PerpOut nz) : Prop :=
  p = PerpOut.zero ∨ ∃ (o : AnomalousOpts) (s : SpeciesIn nz) (r : AnomalousOut nz),
    (∀ i, g.xstart ≤ i ∧ i ≤ g.xend → ColumnClosed o g s i) ∧ anomalousDiffusion o g B.toBoutOps s = .ok r ∧ p = r.particles

theorem Diffuses.content (hg : Regular g) (hs : Separable g) (hA : KeepsAxi B.toBoutOps) {p : PerpOut nz} (h : Diffuses g B p) :
    content g p.source = radialGain g p := by
  rcases h with rfl | ⟨o, s, r, hc, hr, rfl⟩
  · rw [radialGain_zero]
    exact content_zero g
  · exact (anomalous_conserves hg hs hA hc hr).1

/-- Particles that enter through the radial edges: what comes from the core, or from the walls. -/
noncomputable def entering (g : Grid) (B : RhsOps nz) (f : F3 nz) : ℝ :=
  outerGain g f + if B.periodicY g.xstart then innerGain g f - innerLoss g f else innerGain g f

/-- One evaluation of the right-hand side with recycling at the targets and at both radial edges; `diff n` is the anomalous diffusion of the particles
of species `n`, `rate n` its `ddt(N)`. -/
structure Evaluation (g : Grid) (B : RhsOps nz) (m : RMesh (Cell nz)) (σ : ℤ → ℤ → Equiv.Perm (Fin nz)) (channels : List RecycleChannel) (S : List String)
    (diff : String → PerpOut nz) (st st' : Store Key (Value (Cell nz))) (rate : String → F3 nz) (input : String → ℝ) : Prop where
  /-- ions flow into the targets: `Nuclei.sheath_outward` says that they do after `sheath_boundary` -/
  outward : ∀ ch ∈ channels, Outward m st ch.source
  /-- recycling everywhere, no pump -/
  recycling : ∃ fl mem mem', fl.target_recycle = true ∧ fl.sol_recycle = true ∧ fl.pfr_recycle = true ∧ fl.neutral_pump = false ∧
    Hermes.recycling m fl channels mem st = (.ok mem', st')
  /-- every species is recycled once at most, and what is recycled is followed -/
  species : S.Nodup
  followed : ∀ ch ∈ channels, ch.source ∈ S ∧ ch.dest ∈ S
  once : (channels.map fun ch => ch.source).Nodup
  /-- diffusion; species that are not recycled do not diffuse, and the flows of the others are published -/
  diffusion : ∀ n ∈ S, Diffuses g B (diff n) ∧ ((∀ ch ∈ channels, ch.source ≠ n) → diff n = PerpOut.zero)
  published : ∀ ch ∈ channels, (vals st (.sp ch.source energyFlowX)).isSome ∧
    vals st (.sp ch.source particleFlowX) = some (.field fun p => (diff ch.source).flow_xlow p.1 p.2.1 p.2.2)
  /-- the equations; species that are not recycled do not flow through the targets -/
  equations : ∀ n ∈ S, ∃ loss, Evolved g B m σ st' n (rate n) (input n) loss ∧
    ((∃ ch ∈ channels, ch.source = n) → loss = wallLoss m st' n) ∧ ((∀ ch ∈ channels, ch.source ≠ n) → loss = 0)

section
variable {σ : ℤ → ℤ → Equiv.Perm (Fin nz)} {channels : List RecycleChannel} {S : List String} {diff : String → PerpOut nz}
  {st st' : Store Key (Value (Cell nz))} {rate : String → F3 nz} {input : String → ℝ}

/-- **C87.**  Balance of nuclei with walls all around.  For every state, geometry, diffusion coefficient and multiplier, and every way `w` of counting
nuclei: if the density sources before recycling are `ext` and the diffusion, the number of nuclei changes by `ext`, by the sources `input` of the gases and
by what enters through the radial edges, less what reaches the targets, the outer and the inner edge and is not returned there. -/
theorem Evaluation.balance (hg : Regular g) (hs : Separable g) (hy : g.ystart < g.yend) (hσ : Relabels B σ) (hB : Assumed g B) (hk : KeepsFaces g B)
    (hA : KeepsAxi B.toBoutOps) (h : Evaluation g B (g.targetMesh B pump g33) σ channels S diff st st' rate input) {w : String → ℝ}
    {ext : String → Fld (Cell nz)}
    (hext : (S.map fun n => w n * sourceOf g st n).sum
      = (S.map fun n => w n * content g (asF3 fun p => ext n p + (diff n).source p.1 p.2.1 p.2.2)).sum) :
    (S.map fun n => w n * content g (rate n)).sum
      = (S.map fun n => w n * (content g (asF3 (ext n)) + input n + entering g B (diff n).flow_xlow)).sum
        - (channels.map fun ch => (w ch.source - ch.target_multiplier * w ch.dest) * wallLoss (g.targetMesh B pump g33) st ch.source
            + (w ch.source - ch.sol_multiplier * w ch.dest) * outerLoss g (diff ch.source).flow_xlow
            + (if B.periodicY g.xstart then 0 else (w ch.source - ch.pfr_multiplier * w ch.dest) * innerLoss g (diff ch.source).flow_xlow)).sum := by
  set m := g.targetMesh B pump g33 with hm
  obtain ⟨fl, mem, mem', h0, h1, h2, h3, hrun⟩ := h.recycling
  have hflow : ∀ ch ∈ channels, asF3 (fieldOf st ch.source particleFlowX) = (diff ch.source).flow_xlow := by
    intro ch hch
    have := (h.published ch hch).2
    unfold fieldOf
    rw [this]
    rfl
  have hf : ∀ ch ∈ channels, HasFlows fl st ch := fun ch hch _ => ⟨by rw [(h.published ch hch).2]; rfl, (h.published ch hch).1⟩
  have hsrc := sourceOf_walls hg hy h3 hf hrun h.outward
  obtain ⟨-, -, keep⟩ := recycling_sources (mesh_ok hy) sol_nodup pfr_nodup hf hrun
  have hw : ∀ n, wallLoss m st' n = wallLoss m st n := fun n => wallLoss_congr fun v hv => keep _ fun ch _ => by
    simp only [List.mem_cons, List.not_mem_nil, or_false] at hv
    constructor <;> (intro e; have := (Key.sp.inj e).2; rcases hv with rfl | rfl <;> cases this)
  have hloss : ∀ n, ∃ loss, n ∈ S → Evolved g B m σ st' n (rate n) (input n) loss ∧
      ((∃ ch ∈ channels, ch.source = n) → loss = wallLoss m st' n) ∧ ((∀ ch ∈ channels, ch.source ≠ n) → loss = 0) := by
    intro n
    by_cases hn : n ∈ S
    · obtain ⟨l, hl⟩ := h.equations n hn
      exact ⟨l, fun _ => hl⟩
    · exact ⟨0, fun hh => absurd hh hn⟩
  choose loss hl using hloss
  -- what leaves through the radial edges
  set leaving : String → ℝ := fun n => outerLoss g (diff n).flow_xlow
    + if B.periodicY g.xstart then 0 else innerLoss g (diff n).flow_xlow with hleaving
  have hgain : ∀ n, radialGain g (diff n) = entering g B (diff n).flow_xlow - leaving n := by
    intro n
    rw [radialGain_parts, hleaving]
    unfold entering
    dsimp only
    split_ifs <;> ring
  have hzero : ∀ n ∈ S, (∀ ch ∈ channels, ch.source ≠ n) → leaving n = 0 := by
    intro n hn hz
    rw [hleaving]
    dsimp only
    rw [(h.diffusion n hn).2 hz]
    unfold outerLoss innerLoss PerpOut.zero
    simp
  have key := sum_over_species h.species h.followed h.once (rate := fun n => content g (rate n) - leaving n)
    (src := fun n => sourceOf g st n + input n) (loss := fun n => loss n + leaving n)
    (R := fun ch => returned g B m fl st (asF3 (fieldOf st ch.source particleFlowX)) ch)
    (W := fun ch => wallLoss m st ch.source + leaving ch.source)
    (fun n hn => by
      have a := (hl n hn).1.balance hg hs hσ hB hk
      have b := hsrc n
      linarith)
    (fun ch hch => by
      have a := (hl _ (h.followed ch hch).1).2.1 ⟨ch, hch, rfl⟩
      rw [a, hw])
    (fun n hn hz => by
      rw [(hl n hn).2.2 hz, hzero n hn hz, add_zero]) w
  -- sources
  have a1 : (S.map fun n => w n * (sourceOf g st n + input n)).sum
      = (S.map fun n => w n * (content g (asF3 (ext n)) + input n + entering g B (diff n).flow_xlow)).sum - (S.map fun n => w n * leaving n).sum := by
    have e1 : (S.map fun n => w n * (sourceOf g st n + input n)) = S.map fun n => w n * sourceOf g st n + w n * input n :=
      List.map_congr_left fun n _ => mul_add _ _ _
    have e2 : (S.map fun n => w n * (content g (asF3 (ext n)) + input n + entering g B (diff n).flow_xlow))
        = S.map fun n => w n * content g (asF3 fun p => ext n p + (diff n).source p.1 p.2.1 p.2.2) + w n * input n + w n * leaving n := by
      refine List.map_congr_left fun n hn => ?_
      have e3 : asF3 (fun p : Cell nz => ext n p + (diff n).source p.1 p.2.1 p.2.2) = asF3 (ext n) + (diff n).source := rfl
      rw [e3, content_add, (h.diffusion n hn).1.content hg hs hA, hgain]
      ring
    rw [e1, e2, List.sum_map_add, List.sum_map_add, List.sum_map_add, hext]
    ring
  have a2 : (S.map fun n => w n * (content g (rate n) - leaving n)).sum
      = (S.map fun n => w n * content g (rate n)).sum - (S.map fun n => w n * leaving n).sum := by
    have e1 : (S.map fun n => w n * content g (rate n)) = S.map fun n => w n * (content g (rate n) - leaving n) + w n * leaving n :=
      List.map_congr_left fun n _ => by ring
    rw [e1, List.sum_map_add]
    ring
  have a3 : (channels.map fun ch => w ch.source * (wallLoss m st ch.source + leaving ch.source)
        - w ch.dest * returned g B m fl st (asF3 (fieldOf st ch.source particleFlowX)) ch)
      = channels.map fun ch => (w ch.source - ch.target_multiplier * w ch.dest) * wallLoss m st ch.source
            + (w ch.source - ch.sol_multiplier * w ch.dest) * outerLoss g (diff ch.source).flow_xlow
            + (if B.periodicY g.xstart then 0 else (w ch.source - ch.pfr_multiplier * w ch.dest) * innerLoss g (diff ch.source).flow_xlow) := by
    refine List.map_congr_left fun ch hch => ?_
    rw [hflow ch hch, hleaving]
    unfold returned
    simp only [h0, h1, h2, hB.one.lastX, hB.one.firstX, Bool.true_and, if_true, Bool.and_true]
    by_cases hp : B.periodicY g.xstart = true
    · simp only [hp, if_true, Bool.not_true, Bool.false_eq_true, if_false]
      ring
    · simp only [Bool.not_eq_true] at hp
      simp only [hp, if_true, Bool.not_false, Bool.false_eq_true, if_false]
      ring
  rw [a1, a2, a3] at key
  linarith

/-- **C87.**  With complete recycling at the targets and at both radial edges the plasma keeps its nuclei: for every geometry, state, limiter, diffusion
coefficient and set of reactions, the number of nuclei of `E` changes by what the input file puts in and by what enters through the radial edges. -/
theorem walls_keep_nuclei_partial (hg : Regular g) (hs : Separable g) (hy : g.ystart < g.yend) (hσ : Relabels B σ) (hB : Assumed g B) (hk : KeepsFaces g B)
    (hA : KeepsAxi B.toBoutOps) (h : Evaluation g B (g.targetMesh B pump g33) σ channels S diff st st' rate input) {ext : String → Fld (Cell nz)} {E : String}
    (hr : FromReactions S st (fun n p => ext n p + (diff n).source p.1 p.2.1 p.2.2) E)
    (hfull : ∀ ch ∈ channels, Registry.nucleus ch.dest = Registry.nucleus ch.source ∧ ch.target_multiplier = 1 ∧ ch.sol_multiplier = 1 ∧
      ch.pfr_multiplier = 1) :
    (S.map fun n => if Registry.nucleus n = some E then content g (rate n) else 0).sum
      = (S.map fun n => if Registry.nucleus n = some E then content g (asF3 (ext n)) + input n + entering g B (diff n).flow_xlow else 0).sum := by
  have hb := h.balance hg hs hy hσ hB hk hA (w := weight E) (ext := ext) (sourceOf_reactions h.species hr)
  have z : (channels.map fun ch => (weight E ch.source - ch.target_multiplier * weight E ch.dest) * wallLoss (g.targetMesh B pump g33) st ch.source
      + (weight E ch.source - ch.sol_multiplier * weight E ch.dest) * outerLoss g (diff ch.source).flow_xlow
      + (if B.periodicY g.xstart then 0 else (weight E ch.source - ch.pfr_multiplier * weight E ch.dest) * innerLoss g (diff ch.source).flow_xlow)).sum = 0 := by
    refine List.sum_eq_zero fun x hx => ?_
    obtain ⟨ch, hch, rfl⟩ := List.mem_map.1 hx
    obtain ⟨a, b, c, d⟩ := hfull ch hch
    unfold weight
    rw [a, b, c, d]
    simp
  have e : ∀ f : String → ℝ, (S.map fun n => weight E n * f n) = S.map fun n => if Registry.nucleus n = some E then f n else 0 := by
    intro f
    refine List.map_congr_left fun n _ => ?_
    unfold weight
    split_ifs <;> ring
  rw [z, sub_zero, e, e] at hb
  exact hb

/-- **C87.**  Incomplete recycling at the walls never makes nuclei. -/
theorem walls_make_no_nuclei_partial (hg : Regular g) (hs : Separable g) (hp : Positive g) (hy : g.ystart < g.yend) (hσ : Relabels B σ) (hB : Assumed g B)
    (hk : KeepsFaces g B) (hA : KeepsAxi B.toBoutOps) (h : Evaluation g B (g.targetMesh B pump g33) σ channels S diff st st' rate input)
    {ext : String → Fld (Cell nz)} {E : String}
    (hr : FromReactions S st (fun n p => ext n p + (diff n).source p.1 p.2.1 p.2.2) E)
    (hfull : ∀ ch ∈ channels, Registry.nucleus ch.dest = Registry.nucleus ch.source ∧ ch.target_multiplier ≤ 1 ∧ ch.sol_multiplier ≤ 1 ∧
      ch.pfr_multiplier ≤ 1) :
    (S.map fun n => if Registry.nucleus n = some E then content g (rate n) else 0).sum
      ≤ (S.map fun n => if Registry.nucleus n = some E then content g (asF3 (ext n)) + input n + entering g B (diff n).flow_xlow else 0).sum := by
  have hb := h.balance hg hs hy hσ hB hk hA (w := weight E) (ext := ext) (sourceOf_reactions h.species hr)
  have z : 0 ≤ (channels.map fun ch => (weight E ch.source - ch.target_multiplier * weight E ch.dest) * wallLoss (g.targetMesh B pump g33) st ch.source
      + (weight E ch.source - ch.sol_multiplier * weight E ch.dest) * outerLoss g (diff ch.source).flow_xlow
      + (if B.periodicY g.xstart then 0 else (weight E ch.source - ch.pfr_multiplier * weight E ch.dest) * innerLoss g (diff ch.source).flow_xlow)).sum := by
    refine List.sum_nonneg fun x hx => ?_
    obtain ⟨ch, hch, rfl⟩ := List.mem_map.1 hx
    obtain ⟨a, b, c, d⟩ := hfull ch hch
    have one : ∀ q : ℝ, q ≤ 1 → 0 ≤ weight E ch.source - q * weight E ch.dest := by
      intro q hq
      unfold weight
      rw [a]
      split_ifs <;> linarith
    refine add_nonneg (add_nonneg (mul_nonneg (one _ b) (wallLoss_nonneg hp (h.outward ch hch))) (mul_nonneg (one _ c) (outerLoss_nonneg _ _))) ?_
    split_ifs
    · exact le_rfl
    · exact mul_nonneg (one _ d) (innerLoss_nonneg _ _)
  have e : ∀ f : String → ℝ, (S.map fun n => weight E n * f n) = S.map fun n => if Registry.nucleus n = some E then f n else 0 := by
    intro f
    refine List.map_congr_left fun n _ => ?_
    unfold weight
    split_ifs <;> ring
  rw [e, e] at hb
  linarith
end
end
end Hermes.RadialWalls
