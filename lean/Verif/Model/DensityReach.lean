import Verif.Model.SaftEnergy
import Verif.Model.SWTerms
import Verif.Model.MieTerms
import Verif.Model.PhaseDensity

/-!
# The densities at which the density searches ask SAFT for a pressure

`saft.py:566-592`, and the refinement of `calc.py:584-613` and `790-814` with an equation of state that can refuse a density.
`Model/PhaseDensity.lean` has the same searches with a pressure that is always a number.
-/

namespace Verif.DensityReach
open Verif Verif.PhaseDensity Verif.SaftEnergy Verif.Saft

variable {n m : ℕ}

/-- saft.py:566-592 `density_max`, for a composition of `len` entries; `source` is the function of the variant
(gamma_mie.py:1162-1194, gamma_sw.py:769-799). -/
def densityMax (n len : ℕ) (source : ℝ → ℝ) (maxpack : ℝ) : Except PyErr ℝ :=
  if len ≠ n then .error .valueError else .ok (source maxpack)

/-- The composition as the variants read it.  The length is tested before (saft.py:309-313); NaN is not modelled here and reads
as zero. -/
def fractions (xi : List (Option ℝ)) (i : Fin n) : ℝ := (xi[i.1]?.join).getD 0

/-- gamma_sw.py:556-593 `Amonomer`, the first residual contribution (gamma_sw.py:153). -/
noncomputable def swMonomer (M : ℝ) (P : SWTerms.SWell n m) : Contribution := fun ρs T xi =>
  match SWTerms.amonomer M P ρs T (fractions xi) with
  | .error e => .error e
  | .ok l => .ok (l.map .fin)

/-- gamma_mie.py:662-711 `Amonomer`, the first residual contribution (gamma_mie.py:209). -/
noncomputable def mieMonomer (M : ℝ) (P : MieTerms.Mie n m) : Contribution := fun ρs T xi =>
  match MieTerms.amonomer M P ρs T (fractions xi) with
  | .error e => .error e
  | .ok l => .ok (l.map .fin)

/-- calc.py:822-850 `pressure_spline_error` with the pressure of SAFT (saft.py:478-508, step size 1e-6); an array of one entry is
its entry. -/
noncomputable def splineError (E : Eos) (Pset T : ℝ) (xi : List (Option ℝ)) (ρ : ℝ) : Except PyErr (Ext ℝ) := do
  let p ← pressure E [ρ] T xi 1e-6
  match p with
  | v :: _ => .ok (Ext.sub v (.fin Pset))
  | [] => .error .indexError

/-- calc.py:584-613: the refinement in `calc_vapor_density`. -/
noncomputable def vaporRefine (I : Iso ℝ) (err : ℝ → Except PyErr (Ext ℝ)) (noOpt : Bool) (ρ : ℝ) : Except PyErr ℝ := do
  let lo := ρ * (99 / 100)
  let hi := if I.rhoMax < ρ * (101 / 100) then I.rhoMax else ρ * (101 / 100)
  let a ← err lo
  let b ← err hi
  if Ext.lt (Ext.mul a b) (.fin 0) then I.brentq lo hi
  else if I.firstP < 0 then .ok ρ
  else if noOpt then .ok ρ
  else I.lsq ρ I.feps I.rhoMax

/-- calc.py:408-621 `calc_vapor_density`. -/
noncomputable def vaporDensity (I : Iso ℝ) (err : ℝ → Except PyErr (Ext ℝ)) : Except PyErr (Res ℝ) := do
  let s ← vaporSeed I
  match s with
  | ((some ρ, f), noOpt) =>
    if f = 0 ∨ f = 2 then do
      let ρ' ← vaporRefine I err noOpt ρ
      .ok (some ρ', f)
    else .ok (some ρ, f)
  | ((none, f), _) => .ok (none, f)

/-- calc.py:790-814: the refinement in `calc_liquid_density`. -/
noncomputable def liquidRefine (I : Iso ℝ) (err : ℝ → Except PyErr (Ext ℝ)) (noOpt : Bool) (ρ : ℝ) : Except PyErr ℝ := do
  let lo := ρ * (99 / 100)
  let hi := ρ * (101 / 100)
  let a ← err lo
  let b ← err hi
  if Ext.lt (Ext.mul a b) (.fin 0) then I.brentq lo hi
  else if Ext.lt a (.fin 0) then .ok ρ
  else if noOpt then .ok ρ
  else I.lsq ρ I.feps I.rhoMax

/-- calc.py:624-819 `calc_liquid_density`. -/
noncomputable def liquidDensity (I : Iso ℝ) (err : ℝ → Except PyErr (Ext ℝ)) : Except PyErr (Res ℝ) := do
  let s ← liquidSeed I
  match s with
  | ((some ρ, f), noOpt) =>
    if f = 1 ∨ f = 2 then do
      let ρ' ← liquidRefine I err noOpt ρ
      .ok (some ρ', f)
    else .ok (some ρ, f)
  | ((none, f), _) => .ok (none, f)

end Verif.DensityReach
