import Mathlib.Analysis.SpecialFunctions.Sqrt
import Verif.Basic.Np
import Verif.Model.PressureVolume

/-!
# `thermodynamics/calc.py:3272-3348` `hildebrand_solubility`

The pressure of the equation of state is a function of temperature and density.  The smoothing filter, the integral of the
interpolating spline and the straight line fitted to the last points are parameters.  The density is a number; log messages
are left out.
-/

namespace Verif.Hildebrand
open Verif Verif.PressureVolume

/-- What scipy and numpy provide. Used in calc.py:3333-3340. -/
structure Tools where
  /-- `gaussian_filter1d(·, sigma=0.1)` -/
  smooth : List ℝ → List ℝ
  /-- `InterpolatedUnivariateSpline(v, f, ext=1).integral(a, b)`; it raises when there are less than four points -/
  integral : List ℝ → List ℝ → ℝ → ℝ → Except PyErr ℝ
  /-- `np.polyfit(v, f, 1)`: slope and intercept -/
  line : List ℝ → List ℝ → ℝ × ℝ

/-- `l[-4:]`. Used in calc.py:3333-3340. -/
def lastFour (l : List ℝ) : List ℝ := l.drop (l.length - 4)

/-- calc.py:3326: `any(vlist != vlist2)`.  Arrays of different lengths give a single truth value, for which `any` raises
`TypeError` (recent versions of numpy raise `ValueError` at the comparison). The result is only logged. -/
def compare (v v2 : List ℝ) : Except PyErr Unit := if v.length = v2.length then .ok () else .error .typeError

/-- calc.py:3329: the integrand, `(∂P/∂T) / R - P / (R T)`. -/
noncomputable def integrand (R T dT : ℝ) (p1 p2 p : List ℝ) : Except PyErr (List ℝ) := do
  let d ← npZip (fun b a => (b - a) / (2 * dT) / R) p2 p1
  npZip (fun d p => d - p / (R * T)) d p

/-- calc.py:3333-3340: the residual energy. -/
noncomputable def energy (t : Tools) (R T tol rhol : ℝ) (v f : List ℝ) : Except PyErr ℝ := do
  match v.getLast?, f.getLast? with
  | some vl, some fl =>
    let i ← t.integral v f (1 / rhol) vl
    let u := -(R * T) * i
    if fl > tol then
      let sy := t.line (lastFour v) (lastFour f)
      .ok (u + -(R * T) * fl * (-sy.2 / sy.1 - vl) / 2)
    else .ok u
  | _, _ => .error .indexError

/-- calc.py:3342-3345 -/
noncomputable def parameter (u rhol : ℝ) : Except PyErr ℝ :=
  if 0 < u then .error .valueError else .ok (√(-u * rhol))

/-- calc.py:3272-3348.  `hasMax`: whether the options for the curves contain a maximum density too, then it is passed twice.
-/
noncomputable def hildebrand (t : Tools) (P : ℝ → ℝ → ℝ) (o : Opts ℝ) (hasMax : Bool) (eosMax R rhol T dT tol : ℝ) :
    Except PyErr ℝ :=
  if hasMax then .error .typeError
  else do
    let c1 ← arrays (P (T - dT)) o (some rhol) eosMax
    let c2 ← arrays (P (T + dT)) o (some rhol) eosMax
    let c ← arrays (P T) o (some rhol) eosMax
    compare c.1 c2.1
    let f ← integrand R T dT c1.2 c2.2 c.2
    let u ← energy t R T tol rhol c.1 (t.smooth f)
    parameter u rhol

end Verif.Hildebrand
