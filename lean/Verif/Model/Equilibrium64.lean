import Verif.Model.Binary64

/-!
# `calc_new_mole_fractions` and `equilibrium_objective` (`thermodynamics/calc.py`) in double precision

A double is the rational number it stands for, and every operation is rounded (`Verif.Binary64.fl`); results beyond the
largest double are not modelled.  Fugacity coefficients are finite and not zero; the checks of `phase` and of NaN are in
`Verif.Model.PhaseDensity`.  For the liquid the two coefficients change places.
-/

namespace Verif.Equilibrium64
open Verif Verif.Binary64

/-- calc.py:988, 991, 1034 and 1036: a mole fraction times the fugacity coefficient of its own phase divided by that of the
other phase. -/
def share (x own other : ℚ) : ℚ := fl (fl (x * own) / other)

/-- calc.py:1034 and 1036: the array of the shares. -/
def shares (x own other : List ℚ) : List ℚ := (x.zip (own.zip other)).map fun p => share p.1 p.2.1 p.2.2

/-- calc.py:975-993 in `calc_new_mole_fractions`: components that are absent stay absent. -/
def newFractions (x own other : List ℚ) : Except PyErr (List ℚ) := do
  checkFractions x
  pure ((x.zip (own.zip other)).map fun p => if p.1 ≠ 0 then share p.1 p.2.1 p.2.2 else 0)

/-- calc.py:1024-1038 in `equilibrium_objective`. -/
def objective (x own other : List ℚ) : Except PyErr ℚ := do
  checkFractions x
  pure (fl (npSum (shares x own other) - 1))

end Verif.Equilibrium64
