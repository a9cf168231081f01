import Verif.Props.Entropy
import Verif.Props.Reactions

/-!
# C101: charge exchange brings atoms and ions of an isotope together

Momentum and energy that flow between the atoms and the ions of one isotope, and the entropy made.
-/

namespace Hermes.CxEntropy
open Hermes Hermes.Reactions Hermes.Collisions Hermes.Entropy

variable {ι : Type}

/-- **C101.**  In one isotope the atoms get, per charge exchange, the momentum of an ion for that of an atom, and its energy seen from the atoms: `3/2 T_i` and
the kinetic energy of the relative motion, for `3/2 T_a`.  The ions get the same with the parts exchanged.  No particles are gained. -/
theorem exchanged (nm : Norms) (k : ℝ) (ng : Bool) {atom ion : String} (h : atom ≠ ion) (w : World ι) {r : ChargeExchange ι}
    (hr : chargeExchange nm k ng atom ion atom ion w = .ok r) (hu : SourcesUnread w.st) {after : Store Key (Fld ι)}
    (hrun : (cx nm k ng atom ion atom ion).transform w = (.ok (), after)) (i : ι) :
    let relative := velocity w ion i - velocity w atom i
    mass w ion = mass w atom ∧
    gain w.st after atom Var.density_source i = 0 ∧ gain w.st after ion Var.density_source i = 0 ∧
    gain w.st after atom Var.momentum_source i = r.R i * mass w atom * relative ∧
    (ng = false → gain w.st after ion Var.momentum_source i = - (r.R i * mass w atom * relative)) ∧
    gain w.st after atom Var.energy_source i = r.R i * (3 / 2 * (temperature w ion i - temperature w atom i) + 1 / 2 * mass w atom * relative ^ 2) ∧
    gain w.st after ion Var.energy_source i = r.R i * (3 / 2 * (temperature w atom i - temperature w ion i) + 1 / 2 * mass w atom * relative ^ 2) := by
  obtain ⟨Ta, Ti, na, ni, va1, vi1, va2, vi2, Aa, Ai, -, -, hva1, hvi1, hva2, hvi2, hA1, hA2, hA3, hA4, rfl,
    hall, hTa, hTi⟩ := chargeExchange_ok hr
  rw [hva1] at hva2
  rw [hvi1] at hvi2
  rw [hA1] at hA4
  cases hva2
  cases hvi2
  cases hA4
  intro relative
  have hk : KeysIn [atom, ion, atom, ion] [Var.density_source, Var.momentum_source, Var.energy_source, Var.collision_frequency]
      ((chargeExchangeOf nm k ng atom ion atom ion Ta Ti na ni va1 vi1 va1 vi1 Aa Aa).contribs) := by
    unfold chargeExchangeOf
    cases ng <;> simp
  obtain ⟨st', h1, -, h3⟩ := contributeAll_gain _ w.st _ _ hk (by simp) hu
  have : after = st' := by
    have e : (cx nm k ng atom ion atom ion).transform w = (.ok (), st') := by
      simp only [SourceComponent.transform, cx, hr, Except.map, h1]
    rw [hrun] at e
    cases e
    rfl
  subst this
  have v1 : velocity w atom i = va1 i := by simp [velocity, hva1]
  have v2 : velocity w ion i = vi1 i := by simp [velocity, hvi1]
  have t1 : temperature w atom i = Ta i := by simp [temperature, hTa]
  have t2 : temperature w ion i = Ti i := by simp [temperature, hTi]
  have m1 : mass w atom = Aa := by simp [mass, hA1]
  have m2 : mass w ion = Aa := by simp [mass, hA2]
  simp only [relative, h3, v1, v2, t1, t2, m1, m2]
  unfold chargeExchangeOf
  refine ⟨trivial, ?_, ?_, ?_, ?_, ?_, ?_⟩
  · cases ng <;> simp [h, h.symm]
  · cases ng <;> simp [h, h.symm]
  · cases ng <;> simp [h, h.symm] <;> ring
  · intro hng
    subst hng
    simp [h, h.symm]
    ring
  · cases ng <;> simp [h, h.symm] <;> ring
  · cases ng <;> simp [h, h.symm] <;> ring

/-- **C101.**  The entropy made by charge exchange of one isotope. -/
theorem entropy_of_exchange (nm : Norms) (k : ℝ) (ng : Bool) {atom ion : String} (h : atom ≠ ion) (w : World ι) {r : ChargeExchange ι}
    (hr : chargeExchange nm k ng atom ion atom ion w = .ok r) (hu : SourcesUnread w.st) {after : Store Key (Fld ι)}
    (hrun : (cx nm k ng atom ion atom ion).transform w = (.ok (), after)) (i : ι) (ha : 0 < temperature w atom i) (hi : 0 < temperature w ion i) :
    entropyRate w after [atom, ion] i =
      r.R i * (3 / 2 * (temperature w ion i - temperature w atom i) ^ 2 / (temperature w atom i * temperature w ion i)
        + 1 / 2 * mass w atom * (velocity w ion i - velocity w atom i) ^ 2 * (1 / temperature w atom i + 1 / temperature w ion i)) := by
  obtain ⟨-, -, -, -, -, e1, e2⟩ := exchanged nm k ng h w hr hu hrun i
  unfold entropyRate
  simp only [List.map_cons, List.map_nil, List.sum_cons, List.sum_nil, e1, e2]
  field_simp
  ring

/-- **C101.**  It is not negative, and zero only if atoms and ions have the same temperature and velocity. -/
theorem exchange_second_law (nm : Norms) (hN : 0 < nm.N) (hF : 0 < nm.Freq) {k : ℝ} (hk : 0 < k) (ng : Bool) {atom ion : String} (h : atom ≠ ion)
    (w : World ι) {r : ChargeExchange ι} (hr : chargeExchange nm k ng atom ion atom ion w = .ok r) (hu : SourcesUnread w.st) {after : Store Key (Fld ι)}
    (hrun : (cx nm k ng atom ion atom ion).transform w = (.ok (), after)) (i : ι) (ha : 0 < temperature w atom i) (hi : 0 < temperature w ion i)
    (hm : 0 < mass w atom) :
    0 ≤ entropyRate w after [atom, ion] i ∧
    (entropyRate w after [atom, ion] i = 0 → temperature w ion i = temperature w atom i ∧ velocity w ion i = velocity w atom i) := by
  have hR : 0 < r.R i := by
    obtain ⟨Ta, Ti, na, ni, va1, vi1, va2, vi2, Aa, Ai, -, -, -, -, -, -, -, -, -, -, rfl, -⟩ := chargeExchange_ok hr
    unfold chargeExchangeOf
    dsimp only
    have h1 : (0 : ℝ) < max (na i) 1e-5 := lt_max_of_lt_right (by norm_num)
    have h2 : (0 : ℝ) < max (ni i) 1e-5 := lt_max_of_lt_right (by norm_num)
    positivity
  rw [entropy_of_exchange nm k ng h w hr hu hrun i ha hi]
  have p : 0 ≤ 3 / 2 * (temperature w ion i - temperature w atom i) ^ 2 / (temperature w atom i * temperature w ion i) := by positivity
  have q : 0 ≤ 1 / 2 * mass w atom * (velocity w ion i - velocity w atom i) ^ 2 * (1 / temperature w atom i + 1 / temperature w ion i) := by positivity
  refine ⟨mul_nonneg hR.le (add_nonneg p q), fun z => ?_⟩
  have s := (mul_eq_zero.1 z).resolve_left hR.ne'
  have p0 : 3 / 2 * (temperature w ion i - temperature w atom i) ^ 2 / (temperature w atom i * temperature w ion i) = 0 := by linarith
  have q0 : 1 / 2 * mass w atom * (velocity w ion i - velocity w atom i) ^ 2 * (1 / temperature w atom i + 1 / temperature w ion i) = 0 := by linarith
  have tt : temperature w atom i * temperature w ion i ≠ 0 := (mul_pos ha hi).ne'
  have c1 : (1 / temperature w atom i + 1 / temperature w ion i) ≠ 0 := (by positivity : 0 < 1 / temperature w atom i + 1 / temperature w ion i).ne'
  constructor
  · have := (div_eq_zero_iff.1 p0).resolve_right tt
    have := (mul_eq_zero.1 this).resolve_left (by norm_num)
    have := pow_eq_zero_iff (two_ne_zero) |>.1 this
    linarith
  · have := (mul_eq_zero.1 q0).resolve_right c1
    have := (mul_eq_zero.1 this).resolve_left (by positivity)
    have := pow_eq_zero_iff (two_ne_zero) |>.1 this
    linarith

/-- The hypotheses are met: cold atoms and hot ions that move. -/
example : ∃ r after, chargeExchange ⟨100, 1e19, 1e6⟩ 1 false "d" "d+" "d" "d+" (demo (fun _ => 1) (fun s => if s = "d" then 1 else 3) fun s => if s = "d" then 0 else 1) = .ok r ∧
    (cx ⟨100, 1e19, 1e6⟩ 1 false "d" "d+" "d" "d+").transform (demo (fun _ => 1) (fun s => if s = "d" then 1 else 3) fun s => if s = "d" then 0 else 1) = (.ok (), after) ∧
    0 < entropyRate (demo (fun _ => 1) (fun s => if s = "d" then 1 else 3) fun s => if s = "d" then 0 else 1) after ["d", "d+"] 0 := by
  set w := demo (fun _ => 1) (fun s => if s = "d" then 1 else 3) fun s => if s = "d" then 0 else 1 with hw
  obtain ⟨r, hr⟩ := demo_cx ⟨100, 1e19, 1e6⟩ 1 false (fun _ => 1) (fun s => if s = "d" then 1 else 3) fun s => if s = "d" then 0 else 1
  have hrun := (cx_conserves ⟨100, 1e19, 1e6⟩ 1 "d" "d+" "d" "d+" (by decide) (by decide) (by decide) (by decide) (by simp) w r hr (demo_unread _ _ _) rfl rfl).1
  have T1 : temperature w "d" 0 = 1 := by simp [temperature, hw, demo]
  have T2 : temperature w "d+" 0 = 3 := by simp [temperature, hw, demo]
  have M : mass w "d" = 2 := by simp [mass, hw, demo]
  refine ⟨r, _, hr, Prod.ext hrun rfl, ?_⟩
  obtain ⟨a, b⟩ := exchange_second_law ⟨100, 1e19, 1e6⟩ (by norm_num) (by norm_num) one_pos false (by decide) w hr (demo_unread _ _ _) (Prod.ext hrun rfl) 0
    (by rw [T1]; norm_num) (by rw [T2]; norm_num) (by rw [M]; norm_num)
  refine lt_of_le_of_ne a fun e => ?_
  have := (b e.symm).1
  rw [T1, T2] at this
  norm_num at this

end Hermes.CxEntropy
