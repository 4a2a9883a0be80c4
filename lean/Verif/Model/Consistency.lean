import Mathlib.Analysis.SpecialFunctions.Log.Basic
import Verif.Basic.Np

/-!
# `thermodynamics/calc.py:3681-3900`: consistency tests of an equation of state, activity coefficients

The fugacity coefficients are an arbitrary procedure of pressure, density, composition and temperature that may raise;
their values are positive where the theorems use logarithms.  Numbers are exact and finite: divisions by zero, which give
infinities or NaN in numpy, are excluded by hypotheses of the theorems or stated in the comments.
-/

namespace Verif.Consistency
open Verif

/-- `Eos.fugacity_coefficient(P, rho, xi, T)`. Used in calc.py:3681-3728. -/
abbrev Phi := ℝ → ℝ → List ℝ → ℝ → Except PyErr (List ℝ)

/-- An argument that may be an array of conditions. Used in calc.py:3704-3706. -/
inductive Cond where
  | one (x : ℝ)
  | many (l : List ℝ)

/-- A composition or an array of compositions. Used in calc.py:3704. -/
inductive Compo where
  | one (x : List ℝ)
  | many (l : List (List ℝ))

/-- A result: a number, or an array with one entry for every condition. Used in calc.py:3681-3728. -/
inductive Val where
  | one (x : ℝ)
  | many (l : List ℝ)

/-- `gtb.isiterable` of an argument. Used in calc.py:3704-3706. -/
def Cond.isArray : Cond → Bool
  | .one _ => false
  | .many _ => true

/-- calc.py:3704 `gtb.isiterable(xi[0])`; an empty composition raises `IndexError`. -/
def Compo.isArray : Compo → Except PyErr Bool
  | .one [] => .error .indexError
  | .many [] => .error .indexError
  | .one _ => .ok false
  | .many _ => .ok true

/-- `np.sum(xi * np.log(phi))`. Used in calc.py:3681-3728. -/
noncomputable def weighted (x φ : List ℝ) : Except PyErr ℝ := do
  let t ← npZip (fun x f => x * Real.log f) x φ
  .ok t.sum

/-- `np.sum(xi * np.log(phi))` for an array of compositions: the sum goes over all of them.
Used in calc.py:3681-3728. -/
noncomputable def weightedAll (xs : List (List ℝ)) (φ : List ℝ) : Except PyErr ℝ := do
  let t ← xs.mapM fun x => weighted x φ
  .ok t.sum

/-- Only one of the arguments is an array, or none (calc.py:3704-3706). -/
def arrays (P T rho : Cond) (xi : Compo) : Except PyErr ℕ := do
  let b ← xi.isArray
  .ok (P.isArray.toNat + T.isArray.toNat + b.toNat + rho.isArray.toNat)

/-- calc.py:3681-3728 `mixture_fugacity_coefficient`.  The remaining combinations are excluded by the first test. -/
noncomputable def mixture (φ : Phi) (P T : Cond) (xi : Compo) (rho : Cond) : Except PyErr Val := do
  let k ← arrays P T rho xi
  if 1 < k then .error .valueError
  else
    match P, T, xi, rho with
    | .many ps, .one t, .one x, .one r => do
      let l ← ps.mapM fun p => do weighted x (← φ p r x t)
      .ok (.many l)
    | .one p, .many ts, .one x, .one r => do
      let l ← ts.mapM fun t => do weighted x (← φ p r x t)
      .ok (.many l)
    | .one p, .one t, .many xs, .one r => do
      let l ← xs.mapM fun x => do weightedAll xs (← φ p r x t)
      .ok (.many l)
    | .one p, .one t, .one x, .many rs => do
      let l ← rs.mapM fun r => do weighted x (← φ p r x t)
      .ok (.many l)
    | .one p, .one t, .one x, .one r => do
      let v ← weighted x (← φ p r x t)
      .ok (.one v)
    | _, _, _, _ => .error .valueError

/-- calc.py:3731-3771 `fugacity_test_1` with numbers for all conditions (others raise `ValueError`, 3758-3760).  The
difference quotient of `central_difference` with an absolute step (general_toolbox.py:260-264) is written out; the result
is an array of one entry.  `R` is `constants.R`. -/
noncomputable def test1 (R : ℝ) (φ : Phi) (P T : ℝ) (xi : List ℝ) (rho step : ℝ) : Except PyErr ℝ := do
  let y ← mixture φ (.many [P + step, P - step]) (.one T) (.one xi) (.one rho)
  match y with
  | .many [a, b] => .ok ((a - b) / (2 * step) - (P / (rho * T * R) - 1) / P)
  | _ => .error .other

/-- calc.py:3835-3853, one value of `N`: the logarithms of the coefficients with the amount of the first component
changed. -/
noncomputable def shiftedLog (φ : Phi) (n n0 P rho : ℝ) (xi : List ℝ) (T : ℝ) : Except PyErr (List ℝ) :=
  match xi.map (· * n0) with
  | [] => .error .indexError
  | a :: rest =>
    if a + (n - n0) < 0 then .error .valueError
    else do
      let ni := (a + (n - n0)) :: rest
      let l ← φ P rho (ni.map (· / ni.sum)) T
      .ok (l.map Real.log)

/-- calc.py:3774-3832 `fugacity_test_2` with numbers for all conditions. -/
noncomputable def test2 (φ : Phi) (P T : ℝ) (xi : List ℝ) (rho step n0 : ℝ) : Except PyErr ℝ :=
  if n0 ≤ step then .error .valueError
  else do
    let a ← shiftedLog φ (n0 + step) n0 P rho xi T
    let b ← shiftedLog φ (n0 - step) n0 P rho xi T
    let y := a ++ b
    let lx := y.length / 2
    let d ← npZip (· - ·) (y.take lx) (y.drop lx)
    let t ← npZip (fun x v => x * (v / (2 * step))) xi d
    .ok (t.sum * 2 * step)

/-- calc.py:3856-3900 `activity_coefficient`: `psat i` is the saturation pressure of the pure component `i`, which must not
be NaN or zero here, and no fraction of the liquid is zero. -/
noncomputable def activity (psat : ℕ → Except PyErr ℝ) (P : ℝ) (xi yi : List ℝ) : Except PyErr (List ℝ × List ℝ) := do
  let ps ← (List.range xi.length).mapM psat
  let d ← npZip (· * ·) ps xi
  let g ← npZip (fun y d => y * P / d) yi d
  .ok (g, ps)

end Verif.Consistency
