import Mathlib.Algebra.Field.Defs
import Mathlib.Order.Defs.LinearOrder
import Mathlib.Tactic.NormNum
import Verif.Basic.Py

/-!
# Density of a phase from the isotherm, and its fugacity coefficients

`despasito/thermodynamics/calc.py`: `calc_vapor_density`, `calc_liquid_density`,
`calc_vapor_fugacity_coefficient`, `calc_liquid_fugacity_coefficient`, `calc_new_mole_fractions`
and `equilibrium_objective`.

The isotherm (arrays, spline, its roots and extrema) and the numerical solvers are parameters.
NaN is `none`.  The log messages are left out.
-/

namespace Verif.PhaseDensity

variable {K : Type} [Field K] [LinearOrder K]

/-- What the density functions see of an isotherm at a pressure (calc.py:441-443 and 658-660):
whether a root is NaN, the roots and the extrema (at most two) of the spline of `P(v) - P`, the
spline, `1/vlist[-1]`, `min(Plist) + P`, `Plist[0]` (all after subtraction of `P`), the extrapolated
root `vroot`, the densest packing, the difference between the pressure of the equation of state and
`P` as a function of density, the set pressure, and the solvers: `lsq guess lo hi` for
`scipy.optimize.least_squares`, which may raise, and `brentq lo hi`. -/
structure Iso (K : Type) where
  nanRoot : Bool
  roots : List K
  extrema : List K
  spline : K → K
  endDensity : K
  minP : K
  firstP : K
  vroot : K
  rhoFirst : K
  rhoMax : K
  err : K → K
  P : K
  feps : K
  lsq : K → K → K → Except PyErr K
  brentq : K → K → Except PyErr K

/-- Density and flag; `none` is a NaN density. Used in calc.py:489-503, 551-565 and 714-728. -/
abbrev Res (K : Type) := Option K × ℕ

/-- calc.py:489-503, 551-565 and 714-728: least squares from the extrapolated root, bounded by the last
root; any exception, also the one of indexing an empty list of roots, gives flag 4. -/
def lastRoot (I : Iso K) : Res K :=
  match I.roots.getLast? with
  | none => (none, 4)
  | some r =>
    match I.lsq (1 / I.vroot) I.feps (1 / (11 / 10 * r)) with
    | .ok x => (some x, 0)
    | .error _ => (none, 4)

/-- calc.py:530 and 769: the test whether the root lies above the last extremum in pressure;
`extrema` is sorted, so its maximum is the last element. -/
def aboveExtremum (I : Iso K) (r : K) : Bool :=
  match I.extrema.getLast? with
  | none => false
  | some e => decide (I.spline e + I.P < I.spline r + I.P)

/-- calc.py:522-542 and 761-783: one root.  With exactly one extremum, not below the root in
pressure, no branch assigns a flag. -/
def oneRoot (I : Iso K) (r : K) : Except PyErr (Res K) :=
  if I.extrema.length = 0 then .ok (some (1 / r), 2)
  else if aboveExtremum I r then .ok (some (1 / r), 1)
  else if I.extrema.length > 1 then .ok (some (1 / r), 0)
  else .error .unboundLocal

/-- calc.py:447-582 in `calc_vapor_density`: density estimate, flag and `flag_NoOpt`. -/
def vaporSeed (I : Iso K) : Except PyErr (Res K × Bool) :=
  if I.nanRoot then .ok ((none, 3), false)
  else match I.roots with
    | [] =>
      if I.spline I.endDensity < 0 then
        match I.lsq I.rhoFirst I.feps I.rhoMax with
        | .ok x => .ok ((some x, if I.extrema.length = 0 then 2 else 1), true)
        | .error _ => .ok ((none, 3), true)
      else if 0 < I.minP then .ok (lastRoot I, false)
      else .ok ((none, 3), false)
    | [r] => do
      let s ← oneRoot I r
      .ok (s, false)
    | [r, _] =>
      if I.spline r + I.P < 0 then .ok ((some (1 / r), 1), false)
      else .ok (lastRoot I, false)
    | _ :: _ :: r :: _ => .ok ((some (1 / r), 0), false)

/-- calc.py:584-613 in `calc_vapor_density`: refinement with the equation of state. -/
def vaporRefine (I : Iso K) (noOpt : Bool) (ρ : K) : Except PyErr K :=
  let lo := ρ * (99 / 100)
  let hi := if I.rhoMax < ρ * (101 / 100) then I.rhoMax else ρ * (101 / 100)
  if I.err lo * I.err hi < 0 then I.brentq lo hi
  else if I.firstP < 0 then .ok ρ
  else if noOpt then .ok ρ
  else I.lsq ρ I.feps I.rhoMax

/-- calc.py:408-621 `calc_vapor_density`. -/
def vaporDensity (I : Iso K) : Except PyErr (Res K) := do
  let s ← vaporSeed I
  match s with
  | ((some ρ, f), noOpt) =>
    if f = 0 ∨ f = 2 then do
      let ρ' ← vaporRefine I noOpt ρ
      .ok (some ρ', f)
    else .ok (some ρ, f)
  | ((none, f), _) => .ok (none, f)

/-- calc.py:663-788 in `calc_liquid_density`: without a root the spline value is only tested for being
non-zero. -/
def liquidSeed (I : Iso K) : Except PyErr (Res K × Bool) :=
  if I.nanRoot then .ok ((none, 3), false)
  else match I.roots with
    | [] =>
      if I.spline I.endDensity ≠ 0 then
        match I.lsq ((I.rhoFirst + I.rhoMax) / 2) I.rhoFirst I.rhoMax with
        | .ok x => .ok ((some x, if I.extrema.length = 0 then 2 else 1), true)
        | .error _ => .ok ((none, 3), true)
      else if 0 < I.minP then .ok (lastRoot I, false)
      else .ok ((none, 3), false)
    | [r] => do
      let s ← oneRoot I r
      .ok (s, false)
    | [r, _] => .ok ((some (1 / r), 1), false)
    | r :: _ :: _ :: _ => .ok ((some (1 / r), 1), false)

/-- calc.py:790-814 in `calc_liquid_density`: refinement with the equation of state. -/
def liquidRefine (I : Iso K) (noOpt : Bool) (ρ : K) : Except PyErr K :=
  let lo := ρ * (99 / 100)
  let hi := ρ * (101 / 100)
  if I.err lo * I.err hi < 0 then I.brentq lo hi
  else if I.err lo < 0 then .ok ρ
  else if noOpt then .ok ρ
  else I.lsq ρ I.feps I.rhoMax

/-- calc.py:624-819 `calc_liquid_density`. -/
def liquidDensity (I : Iso K) : Except PyErr (Res K) := do
  let s ← liquidSeed I
  match s with
  | ((some ρ, f), noOpt) =>
    if f = 1 ∨ f = 2 then do
      let ρ' ← liquidRefine I noOpt ρ
      .ok (some ρ', f)
    else .ok (some ρ, f)
  | ((none, f), _) => .ok (none, f)

/-- calc.py:886-898 in `calc_vapor_fugacity_coefficient`: coefficients, density and flag from the
density and flag; `fug` is the fugacity coefficient of the equation of state, which gets a NaN density
as `none`. -/
def vaporFugacity (n : ℕ) (fug : Option K → Except PyErr (List (Option K))) (s : Res K) :
    Except PyErr (List (Option K) × Option K × ℕ) :=
  if s.2 = 4 then .ok (List.replicate n (some 1), some 0, 4)
  else if s.2 = 3 then .ok ([none, none], s.1, 3)
  else do
    let φ ← fug s.1
    .ok (φ, s.1, s.2)

/-- calc.py:936-942 in `calc_liquid_fugacity_coefficient`. -/
def liquidFugacity (fug : Option K → Except PyErr (List (Option K))) (s : Res K) :
    Except PyErr (List (Option K) × Option K × ℕ) :=
  if s.2 = 3 then .ok ([none, none], s.1, 3)
  else do
    let φ ← fug s.1
    .ok (φ, s.1, s.2)

/-- The `phase` argument of calc.py:945 and 996. -/
inductive Phase where
  | vapor
  | liquid
  | other
deriving DecidableEq

/-- calc.py:986-991: one entry; both loops run only over the non-zero entries. -/
def newFraction (ph : Phase) (x φl φv : K) : K :=
  if x ≠ 0 then
    match ph with
    | .vapor => x * φl / φv
    | _ => x * φv / φl
  else 0

/-- calc.py:945-993 `calc_new_mole_fractions` for fugacity coefficients given for every component. -/
def newMoleFractions (ph : Phase) (x : List K) (φl φv : List (Option K)) : Except PyErr (List K) :=
  if ph = .other then .error .valueError
  else if x.sum ≠ 1 then .error .valueError
  else if φv.any (·.isNone) then .error .valueError
  else if φl.any (·.isNone) then .error .valueError
  else .ok ((x.zip (φl.zip φv)).map fun p => newFraction ph p.1 (p.2.1.getD 0) (p.2.2.getD 0))

/-- calc.py:996-1038 `equilibrium_objective`, for non-zero fugacity coefficients (so that no NaN
arises which `nansum` would skip). -/
def equilibriumObjective (ph : Phase) (x : List K) (φl φv : List (Option K)) : Except PyErr K :=
  if ph = .other then .error .valueError
  else if x.sum ≠ 1 then .error .valueError
  else if φv.any (·.isNone) then .error .valueError
  else if φl.any (·.isNone) then .error .valueError
  else .ok (((x.zip (φl.zip φv)).map fun p =>
    match ph with
    | .vapor => p.1 * p.2.1.getD 0 / p.2.2.getD 0
    | _ => p.1 * p.2.2.getD 0 / p.2.1.getD 0).sum - 1)

end Verif.PhaseDensity
