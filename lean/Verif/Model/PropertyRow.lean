import Verif.Model.CalcTypes
import Verif.Model.DensityReach
import Mathlib.Data.Real.Basic

/-!
# Rows of the calculations of liquid and vapour properties, of the solubility parameter and of the test of an equation of state

`calculation_types.py:899-915`, `1023-1039`, `1152-1168` and `1312-1365` around the densities of `calc.py:441-613` and `658-814`.
A point is a pressure and a temperature.  `curve` is the isotherm at a temperature, `iso` what the density functions see of the
arrays (spline, roots and extrema), `err` the error that the refinement solves for, and `num` the conversion of the results to the
numbers of the table.
-/

namespace Verif.PropertyRow
open Verif

/-- calc.py:441-613 and 658-814: the isotherm, whose exception is passed on, the subtraction of the set pressure, then the density
of the phase (`phase`). -/
noncomputable def density (curve : ℝ → Except PyErr (List ℝ × List ℝ)) (iso : ℝ × ℝ → List ℝ × List ℝ → PhaseDensity.Iso ℝ)
    (phase : PhaseDensity.Iso ℝ → Except PyErr (PhaseDensity.Res ℝ)) (x : ℝ × ℝ) : Except PyErr (PhaseDensity.Res ℝ) :=
  match curve x.2 with
  | .error e => .error e
  | .ok (vs, ps) => phase (iso x (vs, ps.map (· - x.1)))

/-- The density and flag of calc.py:441-613 and 658-814 as entries of the table. -/
noncomputable def entry (num : ℝ → ℚ) : PhaseDensity.Res ℝ → CalcTypes.Num × CalcTypes.Num
  | (ρ, f) => (ρ.map num, some (f : ℚ))

/-- A row of `liquid_properties` (calculation_types.py:899-915 with calc.py:936-942). -/
noncomputable def liquidRow (n : ℕ) (num : ℝ → ℚ) (curve : ℝ → Except PyErr (List ℝ × List ℝ))
    (iso : ℝ × ℝ → List ℝ × List ℝ → PhaseDensity.Iso ℝ) (err : ℝ × ℝ → ℝ → Except PyErr (Ext ℝ))
    (fug : ℝ × ℝ → Option ℝ → Except PyErr (List (Option ℝ))) (x : ℝ × ℝ) : Except PyErr CalcTypes.Out :=
  CalcTypes.propertyJob n (fun x =>
    match density curve iso (fun I => DensityReach.liquidDensity I (err x)) x with
    | .error e => .error e
    | .ok s =>
      match PhaseDensity.liquidFugacity (fug x) s with
      | .error e => .error e
      | .ok (φ, ρ, f) => .ok (φ.map (Option.map num), ρ.map num, some (f : ℚ))) x

/-- A row of `vapor_properties` (calculation_types.py:1023-1039 with calc.py:888-898). -/
noncomputable def vaporRow (n : ℕ) (num : ℝ → ℚ) (curve : ℝ → Except PyErr (List ℝ × List ℝ))
    (iso : ℝ × ℝ → List ℝ × List ℝ → PhaseDensity.Iso ℝ) (err : ℝ × ℝ → ℝ → Except PyErr (Ext ℝ))
    (fug : ℝ × ℝ → Option ℝ → Except PyErr (List (Option ℝ))) (x : ℝ × ℝ) : Except PyErr CalcTypes.Out :=
  CalcTypes.propertyJob n (fun x =>
    match density curve iso (fun I => DensityReach.vaporDensity I (err x)) x with
    | .error e => .error e
    | .ok s =>
      match PhaseDensity.vaporFugacity n (fug x) s with
      | .error e => .error e
      | .ok (φ, ρ, f) => .ok (φ.map (Option.map num), ρ.map num, some (f : ℚ))) x

/-- A row of `solubility_parameter` (calculation_types.py:1152-1168); `solub` is `hildebrand_solubility`. -/
noncomputable def solubilityRow (num : ℝ → ℚ) (curve : ℝ → Except PyErr (List ℝ × List ℝ))
    (iso : ℝ × ℝ → List ℝ × List ℝ → PhaseDensity.Iso ℝ) (err : ℝ × ℝ → ℝ → Except PyErr (Ext ℝ))
    (solub : CalcTypes.Num → ℝ × ℝ → Except PyErr CalcTypes.Num) (x : ℝ × ℝ) : Except PyErr CalcTypes.Out :=
  CalcTypes.solubilityJob
    (fun x => (density curve iso (fun I => DensityReach.liquidDensity I (err x)) x).map (entry num)) solub x

/-- A row of `verify_eos` (calculation_types.py:1312-1365). -/
noncomputable def verifyRow (num : ℝ → ℚ) (curve : ℝ → Except PyErr (List ℝ × List ℝ))
    (iso : ℝ × ℝ → List ℝ × List ℝ → PhaseDensity.Iso ℝ) (err : ℝ × ℝ → ℝ → Except PyErr (Ext ℝ))
    (tests : ℚ → ℝ × ℝ → Except PyErr (CalcTypes.Num × CalcTypes.Num × List CalcTypes.Num)) (x : ℝ × ℝ) :
    Except PyErr CalcTypes.Out :=
  CalcTypes.verifyJob
    (fun x => (density curve iso (fun I => DensityReach.vaporDensity I (err x)) x).map (entry num))
    (fun x => (density curve iso (fun I => DensityReach.liquidDensity I (err x)) x).map (entry num)) tests x

end Verif.PropertyRow
