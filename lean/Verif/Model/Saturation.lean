import Mathlib.Algebra.Field.Defs
import Mathlib.Order.Defs.LinearOrder
import Verif.Basic.Py

/-!
# `despasito/thermodynamics/calc.py:155-194, 238-405`: saturation of a pure component

Numbers are elements of a linearly ordered field, `none` is NaN.  scipy's splines, its bounded scalar
minimiser and its density refinement are parameters, and so are the two fugacity calculations at the end
whose results only reach a log message.
-/

namespace Verif.Saturation
open Verif

variable {K : Type} [Field K] [LinearOrder K]

/-- What scipy says about a curve: the roots of the cubic spline, the roots of the derivative of the
quartic one, and integrals of the quartic one. Used in calc.py:155-194. -/
structure Spline (K : Type) where
  roots : List K
  extrema : List K
  integral : K → K → K

/-- calc.py:155-194 `pressure_vs_volume_spline`.  The Gaussian filter has width 0.01 points, for which
scipy's kernel has one entry, so it changes nothing.  The roots are `none` for `[nan]`. -/
structure Fit (K : Type) where
  roots : Option (List K)
  extrema : List K
  integral : K → K → K

/-- calc.py:155-194. -/
def fit (scipy : List K → List (Option K) → Spline K) (vs : List K) (ps : List (Option K)) : Fit K :=
  let s := scipy vs ps
  { roots := if ps.any Option.isNone then none else some s.roots
    extrema := s.extrema.take 2
    integral := s.integral }

/-- `l[-4:]`. calc.py:389-390. -/
def lastFour (l : List K) : List K := l.drop (l.length - 4)

/-- `np.polyfit(xs, ys, 1)`: slope and intercept of the least squares line; exact arithmetic.
calc.py:389-390. -/
def line (xs ys : List K) : K × K :=
  let n : K := (xs.length : ℕ)
  let sx := xs.sum
  let sy := ys.sum
  let sxx := (xs.map fun x => x * x).sum
  let sxy := (List.zipWith (· * ·) xs ys).sum
  let slope := (n * sxy - sx * sy) / (n * sxx - sx * sx)
  (slope, (sy - slope * sx) / n)

/-- The volume at which the line through the last four points is zero; `none` for a level line.
Used in calc.py:354-405. -/
def tailRoot (vs ps : List K) : Option K :=
  let l := line (lastFour vs) (lastFour ps)
  if l.1 = 0 then none else some (-l.2 / l.1)

/-- calc.py:354-405 `objective_saturation_pressure`; `none` is a value that is not finite. -/
def objective (scipy : List K → List (Option K) → Spline K) (vs ps : List K) (shift : K) :
    Except PyErr (Option K) :=
  let f := fit scipy vs (ps.map fun p => some (p - shift))
  match f.roots with
  | some (r0 :: r1 :: r2 :: _) => .ok (some ((f.integral r0 r1 + f.integral r1 r2) ^ 2))
  | some [r0, r1] =>
    match vs.getLast?, ps.getLast? with
    | some vl, some pl =>
      match tailRoot vs (ps.map (· - shift)) with
      | none => .ok none
      | some v =>
        .ok (some ((f.integral r0 r1 + (f.integral r1 vl + (pl - shift) * (v - vl) / 2)) ^ 2))
    | _, _ => .error .indexError
  | _ => .error .valueError

/-- calc.py:296 `np.argwhere(np.diff(Plist) > 0)[0][0]`. -/
def firstRise : List K → Option ℕ
  | a :: b :: r => if a < b then some 0 else (firstRise (b :: r)).map (· + 1)
  | _ => none

/-- `np.argmax` and the value there: the first largest entry. Used in calc.py:296-299. -/
def argmax : List K → Option (ℕ × K)
  | [] => none
  | a :: r =>
    match argmax r with
    | none => some (0, a)
    | some (i, m) => if a < m then some (i + 1, m) else some (0, a)

/-- `np.amin`. Used in calc.py:296-299. -/
def amin : List K → Option K
  | [] => none
  | a :: r =>
    match amin r with
    | none => some a
    | some m => some (min a m)

/-- calc.py:296-299: the bounds of the search. -/
def bounds (pconv : K) (ps : List K) : Except PyErr (K × K) :=
  match firstRise ps with
  | none => .error .indexError
  | some i =>
    match argmax (ps.drop i) with
    | none => .error .valueError
    | some (j, m) =>
      match amin ((ps.drop i).take j) with
      | none => .error .valueError
      | some lo => .ok (max pconv lo, m)

/-- External calls. Used in calc.py:313-337. -/
structure Ext (K : Type) where
  scipy : List K → List (Option K) → Spline K
  /-- `spo.minimize_scalar(.., bounds=(lo, hi), method="bounded").x` -/
  minScalar : (K → Except PyErr (Option K)) → K → K → Except PyErr K
  /-- `spo.minimize(pressure_spline_error, 1 / v, bounds=[(1 / (100 v), 1 / (1.1 root))]).x` at a
  pressure, with `v` and the last root. -/
  density : K → K → K → Except PyErr K
  /-- calc.py:347-349: fugacity coefficients of both phases at the result, for a log message. -/
  check : Option K → Except PyErr Unit
  /-- `np.finfo(float).eps` -/
  eps : K

/-- calc.py:276-286: exactly one component may be present.  When another one has less than 10 %, the
message is made with `Eos.beads[ind]` where `ind` is an array, which is a `TypeError`. -/
def checkPure (xi : List K) : Except PyErr Unit :=
  if (xi.filter (· ≠ 0)).length = 1 then .ok ()
  else if (xi.filter fun x => 1 < 10 * x).length = 1 then .error .typeError
  else .error .valueError

/-- calc.py:313-337: pressure, liquid and vapour density at the minimum `p` found. -/
def accept (E : Ext K) (tol : K) (vs ps : List K) (p : K) : Except PyErr (Option (K × K × K)) :=
  match objective E.scipy vs ps p with
  | .error e => .error e
  | .ok o =>
    if o.any (· < tol) then
      match (fit E.scipy vs (ps.map fun q => some (q - p))).roots with
      | some [r0, r1] =>
        match tailRoot vs (ps.map (· - p)) with
        | none => .error .other
        | some v =>
          match E.density p (if v < 0 then E.eps else v) r1 with
          | .error e => .error e
          | .ok ρ => .ok (some (p, 1 / r0, 1 / (1 / ρ)))
      | some (r0 :: _ :: r2 :: _) => .ok (some (p, 1 / r0, 1 / r2))
      | _ => .error .indexError
    else .ok none

/-- calc.py:288-345: the result without the last two calls; `none` for three times NaN. -/
def search (E : Ext K) (tol pconv : K) (vs : List K) (ps : List (Option K)) :
    Except PyErr (Option (K × K × K)) :=
  if (fit E.scipy vs ps).extrema.length < 2 ∨ (fit E.scipy vs ps).roots = none then .ok none
  else
    let qs := ps.filterMap id
    match bounds pconv qs with
    | .error e => .error e
    | .ok (lo, hi) =>
      match E.minScalar (objective E.scipy vs qs) lo hi with
      | .error e => .error e
      | .ok p => accept E tol vs qs p

/-- calc.py:238-351 `calc_saturation_properties`: saturation pressure, liquid density, vapour density. -/
def saturation (E : Ext K) (tol pconv : K) (xi : List K)
    (curve : Except PyErr (List K × List (Option K))) : Except PyErr (Option (K × K × K)) :=
  match checkPure xi with
  | .error e => .error e
  | .ok _ =>
    match curve with
    | .error e => .error e
    | .ok (vs, ps) =>
      match search E tol pconv vs ps with
      | .error e => .error e
      | .ok r =>
        match E.check (r.map (·.1)) with
        | .error e => .error e
        | .ok _ => .ok r

end Verif.Saturation
