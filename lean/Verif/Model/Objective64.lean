import Verif.Model.Binary64

/-!
# The plain measures of `obj_function_form` and the penalty of `compute_obj` (`parameter_fitting/fit_functions.py`) in double precision

A double is the rational number it stands for, and every operation is rounded (`Verif.Binary64.fl`); results beyond the
largest double are not modelled.  All points can be compared and the references are not zero; the other cases, and the measures with
Boltzmann factors, are in `Verif.Model.Objective`.
-/

namespace Verif.Objective64
open Verif.Binary64

/-- An entry of each of the arrays `data_test`, `data0` and `weights`. fit_functions.py:511-518. -/
structure Point where
  test : ℚ
  ref : ℚ
  weight : ℚ

/-- fit_functions.py:578: the relative deviation of a point. -/
def dev (p : Point) : ℚ := fl (fl (p.test - p.ref) / p.ref)

/-- `data_tmp**2 * weight_tmp`; numpy squares an array by multiplying. fit_functions.py:591 and 594. -/
def squares (l : List Point) : List ℚ := l.map fun p => fl (fl (dev p * dev p) * p.weight)

/-- `np.abs(data_tmp) * weight_tmp`. fit_functions.py:605. -/
def sizes (l : List Point) : List ℚ := l.map fun p => fl (|dev p| * p.weight)

/-- `np.mean` of an array that is not empty. Used in fit_functions.py:591 and 605. -/
def mean (l : List ℚ) : ℚ := fl (npSum l / l.length)

/-- fit_functions.py:590-591: `average-squared-deviation`. -/
def average (l : List Point) : ℚ := mean (squares l)

/-- fit_functions.py:593-594: `sum-squared-deviation`. -/
def sumSquares (l : List Point) : ℚ := npSum (squares l)

/-- fit_functions.py:604-605: `percent-absolute-average-deviation`. -/
def percent (l : List Point) : ℚ := fl (mean (sizes l) * 100)

/-- fit_functions.py:478-486: what one parameter adds; the eighth power is the `pow` of the mathematical library, a parameter. -/
def penalty (pow8 : ℚ → ℚ) (p lo hi : ℚ) : ℚ :=
  if p < lo then pow8 (fl (1000 * fl (p - lo)))
  else if hi < p then pow8 (fl (1000 * fl (p - hi)))
  else 0

/-- fit_functions.py:478-486: the loop over the parameters with their bounds; adding nothing is adding zero. -/
def addPenalties (pow8 : ℚ → ℚ) (total : ℚ) (l : List (ℚ × ℚ × ℚ)) : ℚ :=
  l.foldl (fun s p => fl (s + penalty pow8 p.1 p.2.1 p.2.2)) total

end Verif.Objective64
