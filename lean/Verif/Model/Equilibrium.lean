import Verif.Model.BubbleDew
import Verif.Model.DewRange

/-!
# `despasito/thermodynamics/calc.py`: bubble and dew points put together

`Model/BubbleDew.lean` takes the search of the pressure range, the inner loop and the objective as parameters.  Here they
are those of `Model/PressureRange.lean`, `Model/DewRange.lean`, `Model/Composition.lean` and
`Model/PhaseDensity.lean`, so that what is left open are the fugacity coefficients, the saturation
pressures and the numerical procedures of scipy and numpy.

Simplifications: numbers are rationals.  A guess with NaN entries makes `pressure_vs_volume_arrays` raise `ValueError`
(calc.py:93-94).  The pressures returned by `Eos.pressure` in the objective are only logged and left out.
-/

namespace Verif.Equilibrium
open Verif Verif.CalcTypes Verif.BubbleDew Verif.PhaseDensity Verif.Composition

/-- Coefficients and flag of a phase at a temperature, a pressure and a composition, calc.py:853-898 and 901-942
`calc_vapor_fugacity_coefficient`, `calc_liquid_fugacity_coefficient`. -/
abbrev PhaseFug := ℚ → ℚ → List ℚ → Except PyErr (List (Option ℚ) × ℕ)

/-- What is left open. Used in calc.py:2977-3269. -/
structure Fluid where
  liquid : PhaseFug
  vapor : PhaseFug
  /-- `calc_saturation_properties`, as in `BubbleDew.Env` -/
  psat : ℚ → List ℚ → Except PyErr Num
  /-- `find_new_yi`, random compositions, bisection and least squares of the inner loop at a temperature, a pressure, for
  the given composition and its coefficients.  Its other entries are not used. -/
  procs : ℚ → ℚ → List ℚ → List (Option ℚ) → Composition.Env ℚ
  /-- extrema of the isotherm, random numbers, minimiser and storage of the search of the range at a temperature, for the
  given composition.  Its other entries are not used. -/
  range : ℚ → List ℚ → PressureRange.Env ℚ
  rangeOpts : PressureRange.Opts ℚ
  /-- the composition left in the module variable by the search of the range -/
  left : ℚ → List ℚ → Comp → Option ℚ → Option Comp
  solver : String → Num → ℚ → ℚ → Solver

/-- The environment of the inner loop of a bubble point, calc.py:2054 (defaults), 2118-2243. -/
def vaporEnv (F : Fluid) (T P : ℚ) (xi : List ℚ) (φl : List (Option ℚ)) (tol : Option ℚ) : Composition.Env ℚ :=
  { F.procs T P xi φl with
    fug := F.vapor T P
    objective := fun y => (objectiveVapor (F.vapor T P) xi φl y).map (·.1)
    maxiter := 50
    tol := tol.getD (1 / 1000000)
    tolTrivial := 1 / 20 }

/-- The environment of the inner loop of a dew point, calc.py:2248 (defaults), 2311-2406. -/
def liquidEnv (F : Fluid) (T P : ℚ) (yi : List ℚ) (φv : List (Option ℚ)) (tol : Option ℚ) : Composition.Env ℚ :=
  { F.procs T P yi φv with
    fug := F.liquid T P
    objective := fun x => (objectiveLiquid (F.liquid T P) yi φv x).map (·.1)
    maxiter := 20
    tol := tol.getD (1 / 1000000)
    tolTrivial := 1 / 20 }

/-- The numbers of an array without NaN. Used in calc.py:2905, 2963. -/
def numbers (c : Comp) : Except PyErr (List ℚ) :=
  match c.mapM id with
  | some l => .ok l
  | none => .error .valueError

/-- calc.py:2902-2906: the new vapour composition. -/
def bubbleInner (F : Fluid) (T : ℚ) (xi : List ℚ) (guess : Comp) (tol : Option ℚ) (P : ℚ) : Except PyErr Comp := do
  let (φl, _) ← F.liquid T P xi
  let y ← numbers guess
  let (ynew, _, _) ← vaporComposition (vaporEnv F T P xi φl tol) y xi φl
  .ok (ynew.map some)

/-- calc.py:2902, 2909-2913: the objective at a vapour composition. -/
def bubbleObj (F : Fluid) (T : ℚ) (xi : List ℚ) (c : Comp) (P : ℚ) : Except PyErr Num := do
  let (φl, _) ← F.liquid T P xi
  let y ← numbers c
  let (φv, _) ← F.vapor T P y
  let o ← equilibriumObjective .vapor xi φl φv
  .ok (some o)

/-- calc.py:2960-2964: the new liquid composition. -/
def dewInner (F : Fluid) (T : ℚ) (yi : List ℚ) (guess : Comp) (tol : Option ℚ) (P : ℚ) : Except PyErr Comp := do
  let (φv, _) ← F.vapor T P yi
  let x ← numbers guess
  let (xnew, _, _) ← liquidComposition (liquidEnv F T P yi φv tol) x yi φv
  .ok (xnew.map some)

/-- calc.py:2960, 2967-2971: the objective at a liquid composition. -/
def dewObj (F : Fluid) (T : ℚ) (yi : List ℚ) (c : Comp) (P : ℚ) : Except PyErr Num := do
  let (φv, _) ← F.vapor T P yi
  let x ← numbers c
  let (φl, _) ← F.liquid T P x
  let o ← equilibriumObjective .liquid yi φl φv
  .ok (some o)

/-- calc.py:3251-3252, 3104-3105: the flag of a phase. -/
def flagOf (f : PhaseFug) (T : ℚ) (c : Comp) (P : ℚ) : Except PyErr Num := do
  let x ← numbers c
  let (_, flag) ← f T P x
  .ok (some flag)

/-- What the callers see of the search of the range; NaN if nothing was found. calc.py:1586-1602, 2030-2051. -/
def rangeOut (r : Option (PressureRange.Range ℚ)) : Num × Num × Num :=
  match r with
  | some r => (some r.P0, some r.P1, r.guess)
  | none => (none, none, none)

/-- calc.py:1067-1602 `calc_Prange_xi` with the inner loop put in, as called in 3221-3223. -/
def bubbleRange (F : Fluid) (T : ℚ) (xi : List ℚ) (guess : Comp) (tol : Option ℚ) : Except PyErr (Num × Num × Num) := do
  let y ← numbers guess
  let E := { F.range T xi with
    xi := xi
    liq := fun P => F.liquid T P xi
    vap := fun y φl P => vaporComposition (vaporEnv F T P xi φl tol) y xi φl }
  let r ← PressureRange.search F.rangeOpts E y
  .ok (rangeOut r)

/-- calc.py:1605-2051 `calc_Prange_yi` with the inner loop put in, as called in 3074-3076. -/
def dewRange (F : Fluid) (T : ℚ) (yi : List ℚ) (guess : Comp) (tol : Option ℚ) : Except PyErr (Num × Num × Num) := do
  let x ← numbers guess
  let E := { F.range T yi with
    xi := yi
    liq := fun P => F.vapor T P yi
    vap := fun x φv P => liquidComposition (liquidEnv F T P yi φv tol) x yi φv }
  let r ← DewRange.search F.rangeOpts E x
  .ok (rangeOut r)

/-- calc.py:3125-3269: everything a bubble point calls. -/
def bubbleEnv (F : Fluid) : BubbleDew.Env where
  psat := F.psat
  prange := fun T xi g tol => (bubbleRange F T xi g tol, F.left T xi g tol)
  inner := fun T xi g tol P => (bubbleInner F T xi g tol P, none)
  objAt := bubbleObj F
  flagGiven := fun T xi P => flagOf F.liquid T (xi.map some) P
  flagSought := flagOf F.vapor
  solver := F.solver

/-- calc.py:2977-3122: everything a dew point calls. -/
def dewEnv (F : Fluid) : BubbleDew.Env where
  psat := F.psat
  prange := fun T yi g tol => (dewRange F T yi g tol, F.left T yi g tol)
  inner := fun T yi g tol P => (dewInner F T yi g tol P, none)
  objAt := dewObj F
  flagGiven := fun T yi P => flagOf F.vapor T (yi.map some) P
  flagSought := flagOf F.liquid
  solver := F.solver

/-- calc.py:3125-3269 `calc_bubble_pressure`. -/
def bubblePoint (F : Fluid) (Pset : ℚ) (method : String) (Pguess : Option ℚ) (T : ℚ) (xi : List ℚ) :
    M BubbleDew.State BubbleDew.Result :=
  calcPoint (bubbleEnv F) raoultVapor Pset method Pguess T xi

/-- calc.py:2977-3122 `calc_dew_pressure`. -/
def dewPoint (F : Fluid) (Pset : ℚ) (method : String) (Pguess : Option ℚ) (T : ℚ) (yi : List ℚ) :
    M BubbleDew.State BubbleDew.Result :=
  calcPoint (dewEnv F) raoultLiquid Pset method Pguess T yi

end Verif.Equilibrium
