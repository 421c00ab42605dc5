import Mathlib.Analysis.Real.Pi.Bounds
import Mathlib.Data.Real.Basic

/-!
# Model of the cosmological helper functions

`getRhoCrit`, `getMassDMParticle`, `getDelta` of `cosmic_profiles/common/python_routines.py`.

Exact arithmetic instead of floating point; `none` is ZeroDivisionError (the arguments are Python
numbers).
-/

namespace Verif.Cosmo

/-- Division of Python numbers. -/
noncomputable def pyDiv (x y : ℝ) : Option ℝ := if y = 0 then none else some (x / y)

/-- `getRhoCrit`, python_routines.py:196-206. -/
noncomputable def getRhoCrit : ℝ :=
  let G : ℝ := 6.674 * (10 ^ 29)⁻¹ / (3.086 * 10 ^ 16) ^ 3
  let H : ℝ := 100 / (3.086 * 10 ^ 19)
  let solarMass : ℝ := 2 * 10 ^ 30
  3 * H ^ 2 / (8 * Real.pi * G) / solarMass

/-- `getMassDMParticle`, python_routines.py:208-218. -/
noncomputable def getMassDMParticle (N : Nat) (L : ℝ) : Option ℝ :=
  (pyDiv L N).map fun a => getRhoCrit * a ^ 3

/-- `getDelta`, python_routines.py:220-237. -/
noncomputable def getDelta (z omegaM omegaL : ℝ) : Option ℝ :=
  (pyDiv (omegaM * (1 + z) ^ 3) (omegaM * (1 + z) ^ 3 + omegaL)).bind fun a =>
    let x := a - 1
    (pyDiv (18 * Real.pi ^ 2 + 82 * x - 39 * x ^ 2) (x + 1)).map fun b => b - 1

end Verif.Cosmo
