import Verif.Model.AmjuelData
import Verif.Lemmas.AmjuelCerts
import Mathlib.Analysis.Calculus.Deriv.Mul
import Mathlib.Analysis.Calculus.Deriv.Add

/-!
# Combinations of the AMJUEL fits that are positive

Checked by evaluation in the kernel, see `Lemmas/BoxPoly.lean`.
-/

namespace Hermes.AmjuelFits
open Hermes.BoxPoly Hermes.AmjuelData Hermes.AmjuelCerts

/-! ## Combinations of fits -/

def sub (p q : List (List ℤ)) : List (List ℤ) := add2 p (mul2 (-1) q)
/-- The fit with `c · 10⁻⁵` added. -/
def plus (c : ℤ) (p : List (List ℤ)) : List (List ℤ) := add2 p [[c * 10 ^ 25]]

theorem ev2_sub (p q : List (List ℤ)) (s t : ℝ) : ev2 (sub p q) s t = ev2 p s t - ev2 q s t := by
  unfold sub
  rw [ev2_add, ev2_mul]
  push_cast
  ring

theorem ev2_plus (c : ℤ) (p : List (List ℤ)) (s t : ℝ) : ev2 (plus c p) s t = ev2 p s t + c * 10 ^ 25 := by
  unfold plus
  rw [ev2_add]
  simp only [ev2, ev]
  push_cast
  ring

/-- Derivative by the first variable. -/
def dX : List (List ℤ) → List (List ℤ)
  | [] => []
  | _ :: p => match p with
    | [] => []
    | m :: q => add2 (m :: q) ([] :: dX (m :: q))

theorem hasDeriv_ev2 (p : List (List ℤ)) (s t : ℝ) : HasDerivAt (fun s => ev2 p s t) (ev2 (dX p) s t) s := by
  induction p with
  | nil => simpa [ev2, dX] using hasDerivAt_const s (0 : ℝ)
  | cons l p ih =>
    cases p with
    | nil =>
      have : (fun s => ev2 [l] s t) = fun _ => ev l t := by funext s; simp [ev2]
      rw [this]
      simpa [ev2, dX] using hasDerivAt_const s (ev l t)
    | cons m q =>
      have h := ((hasDerivAt_id s).mul ih).const_add (ev l t)
      have e : ev2 (dX (l :: m :: q)) s t = 1 * ev2 (m :: q) s t + id s * ev2 (dX (m :: q)) s t := by
        have z : ev2 ([] :: dX (m :: q)) s t = s * ev2 (dX (m :: q)) s t := by simp [ev2, ev]
        rw [dX, ev2_add, z, one_mul, id]
      rw [e]
      exact h

/-! ## The trees -/

section
set_option maxRecDepth 100000
theorem hIon_ok : checkOn 9 hIon (-2303) 11514 0 18422 (plus (-1381600) (mul2 (-1) hydIonisationRate)) = true := by decide +kernel
theorem hRec_ok : checkOn 9 hRec (-2303) 11514 0 18422 (plus (-1381600) (mul2 (-1) hydRecombinationRate)) = true := by decide +kernel
theorem hCold_ok : checkOn 9 hCold (-2303) 2303 0 18422 (sub hydRecombinationRate hydIonisationRate) = true := by decide +kernel
theorem hHot_ok : checkOn 9 hHot 693 8518 0 18422 (sub hydIonisationRate hydRecombinationRate) = true := by decide +kernel
theorem hCost_ok : checkOn 9 hCost (-2303) 11514 0 18422 (plus (-261014) (sub hydIonisationLoss hydIonisationRate)) = true := by decide +kernel
theorem hCostTop_ok : checkOn 9 hCostTop 2302 6909 0 18422 (plus 368800 (sub hydIonisationRate hydIonisationLoss)) = true := by decide +kernel
theorem hRadiates_ok : checkOn 9 hRadiates (-2303) 11514 0 18422 (plus (-179200) (sub hydRecombinationLoss hydRecombinationRate)) = true := by decide +kernel
theorem hRadiatesTop_ok : checkOn 9 hRadiatesTop (-2303) 4606 0 18422 (plus 317800 (sub hydRecombinationRate hydRecombinationLoss)) = true := by decide +kernel
theorem heCostTop_ok : checkOn 9 heCostTop 2302 6909 0 18422 (plus 380600 (sub heIonisationRate heIonisationLoss)) = true := by decide +kernel
theorem hRecFalls_ok : checkOn 9 hRecFalls (-2303) 11514 0 18422 (dX (mul2 (-1) hydRecombinationRate)) = true := by decide +kernel
theorem hIonRises_ok : checkOn 9 hIonRises (-2303) 6203 0 18422 (dX hydIonisationRate) = true := by decide +kernel
theorem heIonRises_ok : checkOn 9 heIonRises (-2303) 6903 0 18422 (dX heIonisationRate) = true := by decide +kernel
theorem heIon_ok : checkOn 9 heIon (-2303) 11514 0 18422 (plus (-1381600) (mul2 (-1) heIonisationRate)) = true := by decide +kernel
theorem heCold_ok : checkOn 9 heCold (-2303) 2303 0 18422 (sub heRecombinationRate heIonisationRate) = true := by decide +kernel
theorem heHot_ok : checkOn 9 heHot 1098 8113 0 18422 (sub heIonisationRate heRecombinationRate) = true := by decide +kernel
theorem heCost_ok : checkOn 9 heCost (-1205) 10416 0 18422 (plus (-320235) (sub heIonisationLoss heIonisationRate)) = true := by decide +kernel
theorem heCheap_ok : checkOn 9 heCheap (-2303) 1 18420 2 (plus 109860 (sub heIonisationRate heIonisationLoss)) = true := by decide +kernel
theorem heStops_ok : checkOn 9 heStops (-2303) 694 0 11513
    (plus (-1381600) (sub [heRecombinationRate.getD 0 []] heRecombinationRate)) = true := by decide +kernel
theorem heHuge_ok : checkOn 9 heHuge (-2303) 1 18420 2 (plus 930000 heRecombinationRate) = true := by decide +kernel
end

end Hermes.AmjuelFits
