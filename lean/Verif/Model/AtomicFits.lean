import Mathlib.Analysis.SpecialFunctions.Log.Basic

/-!
# The rate of ionisation of hydrogen used by the component `ionisation`

`src/radiation.cxx`, class `UpdatedRadiatedPower`.
-/

namespace Hermes

/-- The nine coefficients, `src/radiation.cxx:218-220`. -/
noncomputable def ionisationCoefs : List ℝ :=
  [-3.271397E1, 1.353656E1, -5.739329, 1.563155, -2.877056E-1, 3.482560e-2, -2.631976E-3, 1.119544E-4, -2.039150E-6]

/-- The loop of `src/radiation.cxx:222-225`: `lograte` is the running sum, the power starts at `i`. -/
noncomputable def ionisationLoop (L : ℝ) : List ℝ → ℕ → ℝ → ℝ
  | [], _, lograte => lograte
  | c :: cs, i, lograte => ionisationLoop L cs (i + 1) (lograte + c * L ^ i)

/-- `UpdatedRadiatedPower::ionisation(T)`, `src/radiation.cxx:212-230`, in m³/s, `T` in eV.  The logarithm of a negative number is not a
number and so is the result (`none`).  At zero the logarithm is minus infinity; every term of the sum but the first is then minus
infinity, because the signs of the coefficients alternate, and the result is zero. -/
noncomputable def hydrogenIonisation (T : ℝ) : Option ℝ :=
  if T < 0 then none
  else if T = 0 then some 0
  else some (Real.exp (ionisationLoop (Real.log T) ionisationCoefs 0 0) * 1.0E-6)

end Hermes
