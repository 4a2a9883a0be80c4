import Verif.Basic.Np
import Mathlib.Algebra.Order.Field.Basic

/-!
# `despasito/utils/general_toolbox.py:218-266` `central_difference`

The differentiated function is an arbitrary function on arrays.  A scalar argument `x` behaves as
an array of one element (line 249 computes `x - np.array([x])` and discards it, but `np.append`
and the comprehension at 257-258 produce arrays anyway).
-/

namespace Verif.CentralDiff
open Verif

variable {K : Type} [Field K] [LinearOrder K]

/-- general_toolbox.py:254-260: the steps; with `relative` a step below the machine epsilon is
replaced by twice the epsilon, otherwise one common step. -/
def steps (eps stepSize : K) (relative : Bool) (x : List K) : List K :=
  if relative then (x.map (· * stepSize)).map (fun s => if s < eps then 2 * eps else s)
  else [stepSize]

/-- general_toolbox.py:218-266. -/
def centralDifference (eps : K) (x : List K) (func : List K → List K) (stepSize : K)
    (relative : Bool) : Except PyErr (List K) :=
  let step := steps eps stepSize relative x
  match npZip (· + ·) x step, npZip (· - ·) x step with
  | .ok up, .ok dn =>
    let y := func (up ++ dn)
    let lx := y.length / 2
    match npZip (· - ·) (y.take lx) (y.drop lx) with
    | .error e => .error e
    | .ok d => npZip (· / ·) d (step.map (2 * ·))
  | .error e, _ => .error e
  | _, .error e => .error e

end Verif.CentralDiff
