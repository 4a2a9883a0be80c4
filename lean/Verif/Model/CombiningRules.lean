import Verif.Basic.Py
import Mathlib.Analysis.SpecialFunctions.Pow.Real

/-!
# `despasito/equations_of_state/combining_rule_types.py`

A group is a function from parameter name to value. `np.sqrt` of a negative number is NaN in the
code; it is `0` for `Real.sqrt`, so theorems about roots state the sign conditions they need.
-/

namespace Verif.CombiningRules
open Verif

noncomputable section

/-- Parameters of a group. Used in combining_rule_types.py:13-33. -/
abbrev Bead := String → ℝ

/-- combining_rule_types.py:13-33. -/
def mean (A B : Bead) (p : String) : ℝ := (A p + B p) / 2

/-- combining_rule_types.py:36-56. -/
def geometricMean (A B : Bead) (p : String) : ℝ := Real.sqrt (A p * B p)

/-- combining_rule_types.py:59-86. -/
def volumetricGeometricMean (A B : Bead) (p q : String) : ℝ :=
  Real.sqrt (A p * B p) * (Real.sqrt (A q ^ 3 * B q ^ 3) * 8 / (A q + B q) ^ 3)

/-- combining_rule_types.py:89-118. -/
def weightedMean (A B : Bead) (p q : String) : ℝ := (A p * A q + B p * B q) / (A q + B q)

/-- combining_rule_types.py:121-142. -/
def mieExponent (A B : Bead) (p : String) : ℝ := 3 + Real.sqrt ((A p - 3) * (B p - 3))

/-- combining_rule_types.py:145-177. -/
def squareWellBerthelot (A B : Bead) (p q r : String) : ℝ :=
  Real.sqrt (A p * B p) * (Real.sqrt (A q ^ 3 * B q ^ 3) * 8 / (A q + B q) ^ 3) *
    (Real.sqrt ((A r ^ 3 - 1) * (B r ^ 3 - 1)) / (weightedMean A B r q ^ 3 - 1))

end

/-- The `temperature` argument of `multipole`. Used in combining_rule_types.py:180-242. -/
inductive TempArg where
  | none | num | str
  deriving DecidableEq, Repr

/-- What `multipole` does: call the multipole fit with the given temperature, or use the geometric
mean. Used in combining_rule_types.py:180-242. -/
inductive MultipoleAction where
  | fit (temperature : TempArg) | analytical (temperature : TempArg) | geometric
  deriving DecidableEq, Repr

/-- combining_rule_types.py:180-242 `multipole` (with the optional package installed). -/
def multipole (temperature : TempArg) (mode : String) : Except PyErr MultipoleAction :=
  if temperature ≠ .str ∧ temperature = .none then
    if mode = "curve fit" then .ok (.fit temperature)
    else if mode = "analytical" then .ok (.analytical temperature)
    else .error .valueError
  else .ok .geometric

end Verif.CombiningRules
