import Verif.Props.ThermalForces

/-!
# C100: the energy of the work done by the thermal force

In Braginskii's equations the electrons pay for the work of the thermal force with heat.
-/

namespace Hermes.Collisions

variable {ι : Type}

/-- **C100.**  The thermal force changes the energy of all species together by its work on the relative motion: no species pays for it. -/
theorem thermal_force_energy (gradPar : Fld ι → Fld ι) (electron_ion ion_ion : Bool) (names : List String) (hn : names.Nodup) (w : World ι)
    (hu : SourcesUnread w.st) (hm : ∀ s, 0 ≤ mass w s) (after : Store Key (Fld ι))
    (h : SourceComponent.transform (thermalForce gradPar electron_ion ion_ion names) w = (.ok (), after)) (i : ι) :
    (names.map fun s => totalEnergyRate w after s i).sum =
      (if electron_ion = true ∧ "e" ∈ names then
        (names.map fun s => electronForce gradPar w s i * (velocity w s i - velocity w "e" i)).sum else 0) +
      if ion_ion = true then
        (names.map fun a => (names.map fun b => ionForce gradPar w a b i * (velocity w a i - velocity w b i)).sum).sum else 0 := by
  have only := (thermal_force_conserves_momentum gradPar electron_ion ion_ion names hn w hu after h).2
  have z : ∀ s v, v ≠ Var.momentum_source → gain w.st after s v i = 0 := fun s v hv => by
    unfold gain
    rw [only (.sp s v) (by intro t _ u hu' e; simp at hu'; subst hu'; cases e; exact hv rfl), sub_self]
  have each : ∀ s ∈ names, totalEnergyRate w after s i = velocity w s i * gain w.st after s Var.momentum_source i := fun s _ => by
    unfold totalEnergyRate
    rw [z s Var.energy_source (by decide), z s Var.density_source (by decide)]
    ring
  rw [List.map_congr_left each, List.map_congr_left fun s hs => by
    rw [thermal_force_on_each gradPar electron_ion ion_ion names hn w hu hm after h s hs i]]
  simp only [← List.sum_toFinset _ hn]
  simp only [mul_add, Finset.sum_add_distrib]
  congr 1
  · split_ifs with he
    · have he' : "e" ∈ names.toFinset := by simpa using he.2
      simp only [mul_sub, Finset.sum_sub_distrib]
      rw [show (∑ s ∈ names.toFinset, velocity w s i * if s = "e" then ∑ b ∈ names.toFinset, electronForce gradPar w b i else 0) =
          velocity w "e" i * ∑ b ∈ names.toFinset, electronForce gradPar w b i by
        rw [Finset.sum_eq_single "e" (fun b _ hb => by rw [if_neg hb, mul_zero]) (fun hb => absurd he' hb), if_pos rfl], Finset.mul_sum]
      congr 1 <;> exact Finset.sum_congr rfl fun s _ => mul_comm _ _
    · simp
  · split_ifs with hi
    · simp only [mul_sub, Finset.sum_sub_distrib, Finset.mul_sum]
      congr 1
      · exact Finset.sum_congr rfl fun s _ => Finset.sum_congr rfl fun b _ => mul_comm _ _
      · rw [Finset.sum_comm]
        exact Finset.sum_congr rfl fun s _ => Finset.sum_congr rfl fun b _ => mul_comm _ _
    · simp

/-- **C100.**  It keeps the energy if all species move together. -/
theorem thermal_force_energy_partial (gradPar : Fld ι → Fld ι) (electron_ion ion_ion : Bool) (names : List String) (hn : names.Nodup) (w : World ι)
    (hu : SourcesUnread w.st) (hm : ∀ s, 0 ≤ mass w s) (after : Store Key (Fld ι))
    (h : SourceComponent.transform (thermalForce gradPar electron_ion ion_ion names) w = (.ok (), after)) (i : ι)
    (hv : ∀ s ∈ names, ∀ t ∈ names, velocity w s i = velocity w t i) : (names.map fun s => totalEnergyRate w after s i).sum = 0 := by
  have zero : ∀ {l : List String} {f : String → ℝ}, (∀ s ∈ l, f s = 0) → (l.map f).sum = 0 := fun {l f} hf => by
    rw [List.map_congr_left hf]
    simp
  rw [thermal_force_energy gradPar electron_ion ion_ion names hn w hu hm after h i]
  have a : (if ion_ion = true then
        (names.map fun a => (names.map fun b => ionForce gradPar w a b i * (velocity w a i - velocity w b i)).sum).sum else 0) = 0 := by
    split_ifs
    · exact zero fun a ha => zero fun b hb => by rw [hv a ha b hb]; ring
    · rfl
  rw [a]
  split_ifs with he
  · rw [zero fun s hs => by rw [hv s hs "e" he.2]; ring, add_zero]
  · exact add_zero _

/-- Ions of charge one and electrons with the same density and temperature; the ions move, the electrons do not. -/
noncomputable def streaming (v : ℝ) : World Unit :=
  gas (fun _ => 1) (fun _ => 1) (fun s => if s = "d" then v else 0) (fun s => if s = "e" then 1 / 1836 else 2) (fun s => if s = "e" then some (-1) else some 1)

/-- **C100 fails.**  In a plasma with a current the thermal force makes energy out of nothing, or destroys it, depending on the direction of the current:
ions move with velocity `v` along the gradient 1 of the temperature. -/
theorem thermal_force_makes_energy (v : ℝ) :
    ∃ after, SourceComponent.transform (thermalForce (fun f => f) true true ["d", "e"]) (streaming v) = (.ok (), after) ∧
      (["d", "e"].map fun s => totalEnergyRate (streaming v) after s ()).sum = 0.71 * v := by
  obtain ⟨after, h⟩ := thermal_force_succeeds (fun f => f) true true ["d", "e"] (streaming v) gas_unread (fun s _ => ⟨_, rfl⟩) (fun s _ => ⟨_, rfl⟩)
    (fun s _ => ⟨_, rfl⟩)
  refine ⟨after, h, ?_⟩
  have md : mass (streaming v) "d" = 2 := by simp [mass, streaming, gas]
  have me : mass (streaming v) "e" = 1 / 1836 := by simp [mass, streaming, gas]
  have vd : velocity (streaming v) "d" () = v := by simp [velocity, streaming, gas]
  have ve : velocity (streaming v) "e" () = 0 := by simp [velocity, streaming, gas]
  have nd : density (streaming v) "d" () = 1 := by simp [density, streaming, gas]
  have zd : charge (streaming v) "d" = 1 := by simp [charge, streaming, gas]
  have te : temperatureField (streaming v) "e" () = 1 := by simp [temperatureField, temperature, streaming, gas]
  rw [thermal_force_energy _ _ _ _ (by decide) (streaming v) gas_unread (fun s => by
    show (0 : ℝ) ≤ if s = "e" then 1 / 1836 else 2
    split <;> norm_num) _ h]
  have f : ∀ a b, ionForce (fun f => f) (streaming v) a b () = 0 := fun a b => by
    unfold ionForce
    rw [if_neg]
    rintro ⟨-, -, -, -, h, -⟩
    have : mass (streaming v) a ≤ 2 := by
      show (if a = "e" then (1 / 1836 : ℝ) else 2) ≤ 2
      split <;> norm_num
    linarith
  simp [f, electronForce, vd, ve, nd, zd, te]

/-- The theorems before apply to this plasma. -/
example : SourcesUnread (streaming 0).st ∧ (∀ s ∈ ["d", "e"], ∀ t ∈ ["d", "e"], velocity (streaming 0) s () = velocity (streaming 0) t ()) :=
  ⟨gas_unread, by intro s _ t _; simp [velocity, streaming, gas]⟩

end Hermes.Collisions
