import Mathlib.Algebra.Order.Group.Defs
import Verif.Basic.Py

/-!
# Screening of density arguments

`_check_density`, which exists three times with the same body:
`despasito/equations_of_state/saft/saft.py:677-701`, `saft/gamma_mie.py:1516-1547` and
`saft/gamma_sw.py:926-956`.
-/

namespace Verif.CheckDensity

variable {K : Type}

/-- What can be handed over as density; `none` is NaN.  Lists are turned into arrays of the same
shape (nested lists of unequal lengths, which numpy rejects, are not modelled). Used in saft.py:677-701. -/
inductive DensArg (K : Type) where
  /-- a python or numpy number -/
  | scalar (x : Option K)
  /-- an array without dimensions, or `None` -/
  | zeroDim
  /-- a list or one-dimensional array -/
  | vec (l : List (Option K))
  /-- a two-dimensional array -/
  | mat (l : List (List (Option K)))

/-- saft.py:694-701: the three tests on the one-dimensional array. -/
def screen [Zero K] [LT K] [DecidableLT K] (l : List (Option K)) : Except PyErr (List (Option K)) :=
  if l.any (·.isNone) then .error .valueError
  else if l.length = 0 then .error .valueError
  else if l.any (fun x => match x with | some v => decide (v < 0) | none => false) then .error .valueError
  else .ok l

/-- saft.py:677-701 `_check_density` (and its two copies): a two-dimensional array is replaced by its
first row (IndexError when there is none); testing an array without dimensions raises TypeError. -/
def checkDensity [Zero K] [LT K] [DecidableLT K] : DensArg K → Except PyErr (List (Option K))
  | .scalar x => screen [x]
  | .zeroDim => .error .typeError
  | .vec l => screen l
  | .mat [] => .error .indexError
  | .mat (r :: _) => screen r

end Verif.CheckDensity
