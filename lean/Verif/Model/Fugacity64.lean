import Verif.Model.Mixing64

/-!
# `fugacity_coefficient` of `equations_of_state/cubic/peng_robinson.py` in double precision

A double is the rational number it stands for, and every operation is rounded (`Verif.Binary64.fl`); results beyond the
largest double are not modelled.  The square of `tmp_RT`, the logarithm and the exponential are those of the mathematical library,
parameters `sq`, `lg` and `ex`.
-/

namespace Verif.Fugacity64
open Verif.Binary64 Verif.Mixing64

variable {n : ℕ}

/-- peng_robinson.py:274-276: `Z`. -/
def compressibility (R T P ρ : ℚ) : ℚ := fl (P / fl (fl (R * T) * ρ))

/-- peng_robinson.py:277: `Ai`. -/
def ai (sq : ℚ → ℚ) (R T P : ℚ) (p : Par n) (i : Fin n) : ℚ := fl (fl (fl (p.ai i * p.alpha i) * P) / sq (fl (R * T)))

/-- peng_robinson.py:278: `Bi`. -/
def bi (R T P : ℚ) (p : Par n) (i : Fin n) : ℚ := fl (fl (p.bi i * P) / fl (R * T))

/-- peng_robinson.py:279: `B`. -/
def b (R T P : ℚ) (p : Par n) (x : Fin n → ℚ) : ℚ := fl (fl (bmix p x * P) / fl (R * T))

/-- peng_robinson.py:280: `A`. -/
def a (sq : ℚ → ℚ) (R T P : ℚ) (p : Par n) (x : Fin n → ℚ) : ℚ := fl (fl (amix p x * P) / sq (fl (R * T)))

/-- peng_robinson.py:282-283: `tmp1` from `A`, `B` and `Z`. -/
def tmp1 (lg : ℚ → ℚ) (a b z : ℚ) : ℚ :=
  fl (fl (a / fl (fl (2 * flSqrt 2) * b)) *
    lg (fl (fl (z + fl (fl (1 + flSqrt 2) * b)) / fl (z + fl (fl (1 - flSqrt 2) * b)))))

/-- peng_robinson.py:284: `tmp3` for one component. -/
def tmp3 (lg : ℚ → ℚ) (bi b z : ℚ) : ℚ := fl (fl (fl (bi * fl (z - 1)) / b) - lg (fl (z - b)))

/-- peng_robinson.py:289-292: `np.sum(xi * Aij)` for one component. -/
def attraction (sq : ℚ → ℚ) (R T P : ℚ) (p : Par n) (x : Fin n → ℚ) (i : Fin n) : ℚ :=
  npSum ((List.finRange n).map fun j => fl (x j * fl (flSqrt (fl (ai sq R T P p i * ai sq R T P p j)) * fl (1 - p.kij i j))))

/-- peng_robinson.py:292: `tmp2` for one component, from the sum. -/
def tmp2 (bi b s a : ℚ) : ℚ := fl (fl (bi / b) - fl (fl (2 * s) / a))

/-- peng_robinson.py:272-293: what `np.exp` is applied to. -/
def lnPhi (sq lg : ℚ → ℚ) (R T : ℚ) (p : Par n) (x : Fin n → ℚ) (P ρ : ℚ) (i : Fin n) : ℚ :=
  fl (fl (tmp1 lg (a sq R T P p x) (b R T P p x) (compressibility R T P ρ) *
        tmp2 (bi R T P p i) (b R T P p x) (attraction sq R T P p x i) (a sq R T P p x)) +
      tmp3 lg (bi R T P p i) (b R T P p x) (compressibility R T P ρ))

/-- peng_robinson.py:293: the fugacity coefficient. -/
def phi (sq lg ex : ℚ → ℚ) (R T : ℚ) (p : Par n) (x : Fin n → ℚ) (P ρ : ℚ) (i : Fin n) : ℚ := ex (lnPhi sq lg R T p x P ρ i)

end Verif.Fugacity64
