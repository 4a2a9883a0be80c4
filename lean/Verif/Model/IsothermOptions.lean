import Verif.Model.PressureVolume
import Verif.Model.PengRobinson
import Verif.Model.SaftToolbox
import Verif.Model.SaftEnergy

/-!
# The options of the isotherm that are used when none are given

`calc.py:20-35` and the data classes `flash.py`, `liquid_density.py` and `saturation_properties.py`; the isotherm itself is in
`Model/PressureVolume.lean`.
-/

namespace Verif.IsothermOptions
open Verif

/-- calc.py:24-34: the defaults of `pressure_vs_volume_arrays`. -/
noncomputable def defaults : PressureVolume.Opts ℝ where
  minFrac := 1 / 500000
  inc := 5
  dv := 1e-4
  pmin := 100
  maxiter := 25
  multfactor := 2
  npts := 20
  maxLen := 1000000

/-- flash.py:94-98 and liquid_density.py:93-97: what these data classes hand over when fitting. -/
noncomputable def flash : PressureVolume.Opts ℝ := { defaults with minFrac := 1 / 300000, inc := 10, dv := 1e-4 }

/-- saturation_properties.py:99-103: what this data class hands over. -/
noncomputable def saturation : PressureVolume.Opts ℝ := { defaults with minFrac := 1 / 80000, inc := 10, dv := 1e-4 }

/-- calc.py:99-101 with peng_robinson.py:297-324: the isotherm of the cubic equation of state up to its default packing 0.9. -/
noncomputable def cubic {n : ℕ} (o : PressureVolume.Opts ℝ) (T : ℝ) (p : PengRobinson.Par n) (x : Fin n → ℝ) :
    Except PyErr (List ℝ × List ℝ) :=
  PressureVolume.arrays (PengRobinson.pressure SaftEnergy.R T p x) o none (PengRobinson.densityMax p x 0.9)

/-- calc.py:99-101 with gamma_sw.py:769-799 or gamma_mie.py:1162-1194 (`d` the sizes or the diameters): the isotherm of SAFT up
to its default packing 0.65, with the pressure as a function. -/
noncomputable def saft {n m : ℕ} (o : PressureVolume.Opts ℝ) (P : ℝ → ℝ) (g : Saft.Groups n m) (d : Fin m → Fin m → ℝ)
    (x : Fin n → ℝ) : Except PyErr (List ℝ × List ℝ) :=
  PressureVolume.arrays P o none
    (Saft.densityMax SaftEnergy.moleculePerNm3 (Saft.cmol2seg g x) (Saft.xskl g x) d 0.65)

end Verif.IsothermOptions
