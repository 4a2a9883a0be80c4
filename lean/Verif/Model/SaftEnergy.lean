import Mathlib.Analysis.SpecialFunctions.Log.Basic
import Mathlib.Analysis.SpecialFunctions.Pow.Real
import Verif.Basic.Ext
import Verif.Basic.Np
import Verif.Model.CheckDensity
import Verif.Model.CentralDiff
import Verif.Model.EosToolbox

/-!
# Helmholtz energy, pressure and fugacity coefficients of SAFT

`despasito/equations_of_state/saft/saft.py:287-393, 478-564`, `saft/Aideal.py` and
`eos_toolbox.py:43-133`.

The residual contributions and the association contribution are arbitrary functions of the densities, the temperature and
the composition.  Densities handed on are finite numbers; NaN in a composition is `none`; energies are numpy scalars.
-/

namespace Verif.SaftEnergy
open Verif

/-- constants.py:7-13. -/
noncomputable def kb : ℝ := 1.38064852e-23
/-- constants.py:9. -/
noncomputable def planck : ℝ := 6.62607004e-34
/-- constants.py:10. -/
noncomputable def Nav : ℝ := 6.02214086e23
/-- constants.py:11. -/
noncomputable def R : ℝ := 8.31446261815324
/-- constants.py:12. -/
noncomputable def moleculePerNm3 : ℝ := 6.02214086e-4
/-- constants.py:13. -/
noncomputable def m2nm : ℝ := 1e9
/-- `np.finfo(float).eps`. Used in Aideal.py:57-102. -/
noncomputable def eps : ℝ := 1 / 2 ^ 52

/-- `np.log`. Used in Aideal.py:86 and 92. -/
noncomputable def extLog : Ext ℝ → Ext ℝ
  | .fin x => if 0 < x then .fin (Real.log x) else if x = 0 then .ninf else .nan
  | .pinf => .pinf
  | .ninf => .nan
  | .nan => .nan

/-- `np.exp`. Used in saft.py:510-564. -/
noncomputable def extExp : Ext ℝ → Ext ℝ
  | .fin x => .fin (Real.exp x)
  | .pinf => .pinf
  | .ninf => .fin 0
  | .nan => .nan

/-- `np.sqrt`. Used in Aideal.py:87-91. -/
noncomputable def extSqrt : Ext ℝ → Ext ℝ
  | .fin x => if 0 ≤ x then .fin (Real.sqrt x) else .nan
  | .pinf => .pinf
  | .ninf => .nan
  | .nan => .nan

/-- `np.sum`. Used in Aideal.py:94 and 100. -/
noncomputable def extSum (l : List (Ext ℝ)) : Ext ℝ := l.foldl Ext.add (.fin 0)

/-! ## Ideal contribution -/

/-- Aideal.py:87-91: the wavelength of one component in nm. -/
noncomputable def broglie (T m : ℝ) : Ext ℝ :=
  extSqrt (Ext.div (.fin (planck * Nav * m2nm * (planck / kb * m2nm))) (.fin (2 * Real.pi * m * T)))

/-- Aideal.py:86 and 92: the logarithm for one component, at the number density `ρ2`. -/
noncomputable def logBroglie (T ρ2 x m : ℝ) : Ext ℝ :=
  extLog (Ext.mul (Ext.mul (broglie T m) (Ext.mul (broglie T m) (broglie T m))) (.fin (ρ2 * x)))

/-- Aideal.py:94 and 100: the sum over the components at one density. -/
noncomputable def idealSum (T ρ : ℝ) (xm : List (ℝ × ℝ)) : Ext ℝ :=
  extSum (xm.map fun q => Ext.mul (.fin q.1) (logBroglie T (ρ * moleculePerNm3) q.1 q.2))

/-- Aideal.py:57-102 `Abroglie`. -/
noncomputable def abroglie (rho : List ℝ) (T : ℝ) (xi massi : List ℝ) : Except PyErr (List (Ext ℝ)) := do
  let (xs, ms) ← EosToolbox.removeInsignificant eps xi massi
  let sums := rho.map fun ρ => idealSum T ρ (xs.zip ms)
  if extSum sums = .nan then .error .valueError
  else .ok (sums.map fun s => Ext.sub s (.fin 1))

/-- Aideal.py:17-54 `Aideal_contribution`. -/
noncomputable def idealContribution (rho : List ℝ) (T : ℝ) (xi massi : List ℝ) (method : String) :
    Except PyErr (List (Ext ℝ)) :=
  if method = "Abroglie" then abroglie rho T xi massi else .error .valueError

/-! ## The equation of state -/

/-- A contribution to the Helmholtz energy: densities, temperature, composition. Used in saft.py:320-321. -/
abbrev Contribution := List ℝ → ℝ → List (Option ℝ) → Except PyErr (List (Ext ℝ))

/-- The attributes used here: `number_of_components`, `massi`, `Aideal_method`, the residual contributions in their
order, and the association contribution if `flag_assoc`. Used in saft.py:287-326. -/
structure Eos where
  n : ℕ
  massi : List ℝ
  method : String
  res : List Contribution
  assoc : Option Contribution

/-- saft.py:677-701 `_check_density`, after which all entries are numbers. -/
noncomputable def density (rho : CheckDensity.DensArg ℝ) : Except PyErr (List ℝ) := do
  let l ← CheckDensity.checkDensity rho
  .ok (l.filterMap id)

/-- `Ares += …`, saft.py:321-324: an array of another length than the sum is refused unless it has one entry. -/
noncomputable def addTo (sum new : List (Ext ℝ)) : Except PyErr (List (Ext ℝ)) :=
  if new.length = sum.length ∨ new.length = 1 then npZip Ext.add sum new else .error .valueError

/-- saft.py:320-321: the loop over the contributions. -/
noncomputable def addAll (rho : List ℝ) (T : ℝ) (xi : List (Option ℝ)) :
    List Contribution → List (Ext ℝ) → Except PyErr (List (Ext ℝ))
  | [], s => .ok s
  | c :: r, s => do
    let new ← c rho T xi
    let t ← addTo s new
    addAll rho T xi r t

/-- saft.py:316: `x < 0` for one fraction, false for NaN. -/
noncomputable def negative : Option ℝ → Bool
  | some v => decide (v < 0)
  | none => false

/-- saft.py:287-326 `residual_helmholtz_energy` with an array of densities. -/
noncomputable def residual (E : Eos) (rho : List ℝ) (T : ℝ) (xi : List (Option ℝ)) : Except PyErr (List (Ext ℝ)) := do
  if xi.length ≠ E.n then .error .valueError
  let r ← density (.vec (rho.map some))
  if xi.any negative then .error .valueError
  let s ← addAll r T xi E.res (r.map fun _ => .fin 0)
  match E.assoc with
  | none => .ok s
  | some c => do
    let new ← c r T xi
    addTo s new

/-- saft.py:360-393 `Aideal`.  NaN in the composition is not removed and is found by the test at Aideal.py:94. -/
noncomputable def ideal (E : Eos) (rho : List ℝ) (T : ℝ) (xi : List (Option ℝ)) : Except PyErr (List (Ext ℝ)) := do
  if xi.length ≠ E.n then .error .valueError
  let r ← density (.vec (rho.map some))
  if E.method ≠ "Abroglie" ∨ xi.any (·.isNone) then .error .valueError
  idealContribution r T (xi.filterMap id) E.massi E.method

/-- saft.py:328-358 `helmholtz_energy`. -/
noncomputable def helmholtz (E : Eos) (rho : List ℝ) (T : ℝ) (xi : List (Option ℝ)) : Except PyErr (List (Ext ℝ)) := do
  if xi.length ≠ E.n then .error .valueError
  let r ← density (.vec (rho.map some))
  let a ← residual E r T xi
  let b ← ideal E r T xi
  npZip Ext.add a b

/-- saft.py:478-508 `pressure`, with `central_difference` (general_toolbox.py:254-266) written out because the function
it differentiates can raise.  The energies have one entry per density. -/
noncomputable def pressure (E : Eos) (rho : List ℝ) (T : ℝ) (xi : List (Option ℝ)) (stepSize : ℝ) :
    Except PyErr (List (Ext ℝ)) := do
  if xi.length ≠ E.n then .error .valueError
  let r ← density (.vec (rho.map some))
  let step := CentralDiff.steps eps stepSize true r
  let y ← helmholtz E (List.zipWith (· + ·) r step ++ List.zipWith (· - ·) r step) T xi
  let lx := y.length / 2
  let d ← npZip Ext.sub (y.take lx) (y.drop lx)
  let q ← npZip Ext.div d (step.map fun s => .fin (2 * s))
  npZip (fun v ρ => Ext.mul (Ext.mul (Ext.mul v (.fin T)) (.fin R)) (.fin (ρ ^ 2))) q r

/-! ## Fugacity coefficients -/

/-- eos_toolbox.py:107-133 `_partial_density_wrapper`: at a vanishing total density the fractions are NaN. -/
noncomputable def atDensities (func : List ℝ → ℝ → List (Option ℝ) → Except PyErr (List (Ext ℝ))) (T : ℝ) (rhoi : List ℝ) :
    Except PyErr (Ext ℝ) := do
  let ρ := rhoi.sum
  let a ← func [ρ] T (rhoi.map fun v => if ρ = 0 then none else some (v / ρ))
  match a with
  | v :: _ => .ok v
  | [] => .error .indexError

/-- eos_toolbox.py:80-83: the densities with the logarithm of one of them shifted; `exp(log v)` is `v`, also for zero
(`log` gives minus infinity, to which the shift is added in vain). -/
noncomputable def shifted (ρ : ℝ) (xi : List ℝ) (i : ℕ) (δ : ℝ) : List ℝ :=
  (xi.map (ρ * ·)).modify i (· * Real.exp δ)

/-- eos_toolbox.py:78-86: one component. -/
noncomputable def logPartial (func : List ℝ → ℝ → List (Option ℝ) → Except PyErr (List (Ext ℝ))) (ρ T dy : ℝ) (xi : List ℝ)
    (i : ℕ) (x : ℝ) : Except PyErr (Ext ℝ) :=
  if x ≠ 0 then do
    let a ← atDensities func T (shifted ρ xi i dy)
    let b ← atDensities func T (shifted ρ xi i (-dy))
    .ok (Ext.div (Ext.div (Ext.sub a b) (.fin (2 * dy))) (.fin (ρ * x)))
  else .ok (.fin eps)

/-- eos_toolbox.py:91-102: one component without the logarithm. -/
noncomputable def plainPartial (func : List ℝ → ℝ → List (Option ℝ) → Except PyErr (List (Ext ℝ))) (ρ T dy : ℝ) (xi : List ℝ)
    (i : ℕ) (x : ℝ) : Except PyErr (Ext ℝ) :=
  if x ≠ 0 then do
    let a ← atDensities func T ((xi.map (ρ * ·)).modify i fun v => if v ≠ 0 then v + dy else v)
    let b ← atDensities func T ((xi.map (ρ * ·)).modify i fun v => if v ≠ 0 then v - dy else v)
    .ok (Ext.div (Ext.sub a b) (.fin (2 * dy)))
  else .ok (.fin eps)

/-- eos_toolbox.py:43-104 `partial_density_central_difference` for fractions that are not negative. -/
noncomputable def partials (func : List ℝ → ℝ → List (Option ℝ) → Except PyErr (List (Ext ℝ))) (ρ T dy : ℝ) (xi : List ℝ)
    (log : Bool) : Except PyErr (List (Ext ℝ)) :=
  xi.zipIdx.mapM fun q => if log then logPartial func ρ T dy xi q.2 q.1 else plainPartial func ρ T dy xi q.2 q.1

/-- An argument of the fugacity coefficient: a number or an array. Used in saft.py:539-553. -/
inductive Arg where
  | num (x : ℝ)
  | arr (l : List ℝ)

/-- saft.py:539-553: arrays of one entry are numbers. -/
def Arg.scalar : Arg → Except PyErr ℝ
  | .num x => .ok x
  | .arr [x] => .ok x
  | .arr _ => .error .valueError

/-- saft.py:510-564 `fugacity_coefficient`; the argument `log_method` is not used. -/
noncomputable def fugacity (E : Eos) (P ρ : Arg) (xi : List ℝ) (T : Arg) (dy : ℝ) (_logMethod : Bool) :
    Except PyErr (List (Ext ℝ)) := do
  if xi.length ≠ E.n then .error .valueError
  let t ← T.scalar
  let ρ ← ρ.scalar
  let p ← P.scalar
  let r ← density (.scalar (some ρ))
  let logZ := extLog (Ext.div (.fin p) (.fin (ρ * t * R)))
  let a ← residual E r t (xi.map some)
  let d ← partials (residual E) ρ t dy xi true
  let e ← npZip Ext.add a (d.map (Ext.mul (.fin ρ)))
  .ok (e.map fun v => extExp (Ext.sub v logZ))

end Verif.SaftEnergy
