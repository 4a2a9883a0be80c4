import Verif.Model.Binary64

/-!
# The pressure of `equations_of_state/cubic/peng_robinson.py` in double precision

A double is the rational number it stands for, and every operation is rounded (`Verif.Binary64.fl`); results beyond the
largest double are not modelled.  The mixture parameters are the doubles in `eos_dict`.  One density is followed; the
operations on arrays are those on their elements.
-/

namespace Verif.Pressure64
open Verif.Binary64

/-- peng_robinson.py:225-227: the expression of the pressure, in the order of its operations; `rho**2` is `rho * rho` for
numpy. -/
def pressure (R T a b ρ : ℚ) : ℚ :=
  let repulsion := fl (fl (fl (R * T) * ρ) / fl (1 - fl (b * ρ)))
  let denominator := fl (fl (1 + fl (b * ρ)) + fl (fl (ρ * b) * fl (1 - fl (b * ρ))))
  let attraction := fl (fl (fl (ρ * ρ) * a) / denominator)
  fl (repulsion - attraction)

/-- calc.py:848-850 `pressure_spline_error` with this equation of state. -/
def splineError (R T a b Pset ρ : ℚ) : ℚ := fl (pressure R T a b ρ - Pset)

end Verif.Pressure64
