import Verif.Model.Mixing64

/-!
# The parameters of a component of `equations_of_state/cubic/peng_robinson.py` in double precision

A double is the rational number it stands for, and every operation is rounded (`Verif.Binary64.fl`), also the constants in the
source; results beyond the largest double are not modelled.  The square `** 2` of a number is the `pow` of the mathematical
library, which is a parameter `sq`.
-/

namespace Verif.Component64
open Verif.Binary64 Verif.Mixing64

/-- peng_robinson.py:361-365: `kappa` from the acentric factor. -/
def kappa (sq : ℚ → ℚ) (ω : ℚ) : ℚ := fl (fl (fl 0.37464 + fl (fl 1.54226 * ω)) - fl (fl 0.26992 * sq ω))

/-- peng_robinson.py:368-370: `ai` from the critical temperature and pressure. -/
def ai (sq : ℚ → ℚ) (R Tc Pc : ℚ) : ℚ := fl (fl (fl 0.45723553 * sq (fl (R * Tc))) / Pc)

/-- peng_robinson.py:371-373: `bi` from the critical temperature and pressure. -/
def bi (R Tc Pc : ℚ) : ℚ := fl (fl 0.07779607 * fl (fl (R * Tc) / Pc))

/-- peng_robinson.py:146-148: `alpha` at a temperature. -/
def alpha (sq : ℚ → ℚ) (κ T Tc : ℚ) : ℚ := sq (fl (1 + fl (κ * fl (1 - flSqrt (fl (T / Tc))))))

variable {n : ℕ}

/-- peng_robinson.py:141-150 and 367-377: the arrays in `eos_dict` of a mixture whose library has `kappa`, `Tc` and `Pc`. -/
def par (sq : ℚ → ℚ) (R : ℚ) (κ Tc Pc : Fin n → ℚ) (k : Fin n → Fin n → ℚ) (T : ℚ) : Mixing64.Par n where
  ai := fun i => ai sq R (Tc i) (Pc i)
  bi := fun i => bi R (Tc i) (Pc i)
  alpha := fun i => alpha sq (κ i) T (Tc i)
  kij := k

end Verif.Component64
