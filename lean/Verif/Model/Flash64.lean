import Verif.Model.Binary64

/-!
# The compositions in `calc_flash` (`thermodynamics/calc.py`) in double precision

A double is the rational number it stands for, and every operation is rounded (`Verif.Binary64.fl`); results beyond the
largest double are not modelled.  The ratios of the two components are different (equal ones divide by zero).  The loop around
these lines is in `Verif.Model.Flash`.
-/

namespace Verif.Flash64
open Verif.Binary64

/-- `np.sqrt(np.finfo(float).eps)`, which needs no rounding. Used in calc.py:3454. -/
def eps : ℚ := 1 / 2 ^ 26

/-- calc.py:3450-3458: the mole fractions of the liquid. -/
def liquidX (k : ℚ × ℚ) : ℚ × ℚ :=
  let x0 := fl (fl (1 - k.2) / fl (k.1 - k.2))
  let x1 := fl (1 - x0)
  if x0 < 0 then (eps, fl (1 - eps))
  else if x1 < 0 then (fl (1 - eps), eps)
  else (x0, x1)

/-- calc.py:3461-3469: the mole fractions of the vapour, divided by their sum unless it is one (the test at 3463 compares a
truth value with a small number and never raises). -/
def vaporY (k x : ℚ × ℚ) : ℚ × ℚ :=
  let y := (fl (k.1 * x.1), fl (k.2 * x.2))
  let s := npSum [y.1, y.2]
  if s ≠ 1 then (fl (y.1 / s), fl (y.2 / s)) else y

end Verif.Flash64
