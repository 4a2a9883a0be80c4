import Verif.Model.Saturation
import Verif.Model.CalcTypes
import Mathlib.Data.Real.Basic

/-!
# One row of a saturation calculation

`calculation_types.py:771-791` around `calc.py:238-351`.
-/

namespace Verif.SaturationRow
open Verif

/-- A row of `saturation_properties` for the only component (calculation_types.py:771-791 with calc.py:238-351): `curve` is the
isotherm, `num` the conversion of the results to the numbers of the table. -/
noncomputable def row (E : Saturation.Ext ℝ) (tol pconv : ℝ) (num : ℝ → ℚ)
    (curve : ℝ → Except PyErr (List ℝ × List ℝ)) (T : ℝ) : Except PyErr CalcTypes.Out :=
  CalcTypes.saturationJob (fun T =>
    match Saturation.saturation E tol pconv [1] ((curve T).map fun c => (c.1, c.2.map some)) with
    | .error e => .error e
    | .ok none => .ok (none, none, none)
    | .ok (some r) => .ok (some (num r.1), some (num r.2.1), some (num r.2.2))) T

end Verif.SaturationRow
