import Verif.Model.Binary64

/-!
# The central differences of `utils/general_toolbox.py` and `equations_of_state/eos_toolbox.py` in double precision

A double is the rational number it stands for, and every operation is rounded (`Verif.Binary64.fl`); results beyond the
largest double are not modelled.  The differentiated function takes and returns doubles and is otherwise arbitrary.  One
point is followed; what happens to the others is in `Verif.Model.CentralDiff` and `Verif.Model.EosToolbox`.
-/

namespace Verif.CentralDiff64
open Verif.Binary64

/-- `np.finfo(float).eps`. Used in general_toolbox.py:258. -/
def eps : ℚ := 1 / 2 ^ 52

/-- general_toolbox.py:254-258: the step with `relative=True`. -/
def relativeStep (size x : ℚ) : ℚ :=
  let h := fl (x * size)
  if h < eps then fl (2 * eps) else h

/-- general_toolbox.py:262-264; also eos_toolbox.py:96-100 (`y_temp[i] += delta` for the two steps, and the quotient). -/
def quotient (f : ℚ → ℚ) (x h : ℚ) : ℚ :=
  fl (fl (f (fl (x + h)) - f (fl (x - h))) / fl (2 * h))

/-- saft.py:505-506 `pressure` at one density: the derivative of the Helmholtz energy with the relative step 1e-6, times
`T`, the gas constant and the square of the density. -/
def pressure (A : ℚ → ℚ) (T R rho : ℚ) : ℚ :=
  fl (fl (fl (quotient A rho (relativeStep (fl (1 / 10 ^ 6)) rho) * T) * R) * fl (rho * rho))

/-- calc.py:3768 in `fugacity_test_1`: the derivative with respect to the pressure, with the absolute step 1e-5 whatever the
pressure. -/
def pressureDerivative (f : ℚ → ℚ) (P : ℚ) : ℚ := quotient f P (fl (1 / 10 ^ 5))

end Verif.CentralDiff64
