import Mathlib.Algebra.Order.Floor.Defs
import Mathlib.Algebra.Field.Defs
import Verif.Basic.Py

/-!
# `despasito/thermodynamics/calc.py:21-152` `pressure_vs_volume_arrays`

Floating point numbers are elements of a linearly ordered field with a ceiling function.  The pressure
of the equation of state acts on every density of an array separately, so it is a function `P` of one
density.  The check for NaN mole fractions and the log messages are left out.
-/

namespace Verif.PressureVolume
open Verif

variable {K : Type} [Field K] [LinearOrder K]

/-- The options of calc.py:25-35. -/
structure Opts (K : Type) where
  minFrac : K
  inc : K
  dv : K
  pmin : K
  maxiter : ℕ
  multfactor : K
  npts : ℕ
  maxLen : ℕ

/-- `np.arange(a, b, s)`: `ceil((b - a) / s)` numbers starting with `a`. Used in calc.py:118-124. -/
def arange [FloorSemiring K] (a b s : K) : List K :=
  (List.range ⌈(b - a) / s⌉₊).map fun (i : ℕ) => a + (i : K) * s

/-- calc.py:99-104: the maximum density; `0` counts as not given. -/
def chosenMax (given : Option K) (eosMax : K) : K :=
  match given with
  | some m => if m = 0 then eosMax else m
  | none => eosMax

/-- calc.py:119-120: the differences of consecutive specific volumes. -/
def vspace (r : List K) : List K := List.zipWith (fun a b => 1 / a - 1 / b) r r.tail

/-- calc.py:122: `np.where(vspace > max_volume_increment)[0]`. -/
def whereBig (dv : K) (vs : List K) : List ℕ := (vs.zipIdx.filter fun p => dv < p.1).map (·.2)

/-- calc.py:118-124: the part of the densities up to the last large step is replaced by an even grid in
the volume.  The largest entry of an empty array is a `ValueError`. -/
def regrid [FloorSemiring K] (minrho dv : K) (r : List K) : Except PyErr (List K) :=
  if (vspace r).isEmpty then .error .valueError
  else
    match (whereBig dv (vspace r)).getLast? with
    | none => .ok r
    | some k =>
      match r[k + 1]? with
      | none => .error .indexError
      | some q =>
        .ok (((arange (1 / q) (1 / minrho) dv).reverse.map (1 / ·)) ++ r.drop (k + 2))

/-- calc.py:106-133: the densities before the extension to low pressures, in increasing order. -/
def base [FloorSemiring K] (o : Opts K) (rmax : K) : Except PyErr (List K) :=
  if rmax > 100000 then .error .valueError
  else if rmax - rmax * o.minFrac < o.inc then .error .valueError
  else
    match regrid (rmax * o.minFrac) o.dv (arange (rmax * o.minFrac) rmax o.inc) with
    | .error e => .error e
    | .ok r => if r.length > o.maxLen then .error .valueError else .ok r

/-- calc.py:140-143: one extension, `np.linspace(rho0 / 2, rho0, npts)[:-1]` in front. -/
def extendOnce (npts : ℕ) : List K → List K
  | [] => []
  | q :: r => (List.range (npts - 1)).map (fun (i : ℕ) => q / 2 + (i : K) * ((q - q / 2) / ((npts : K) - 1))) ++ q :: r

/-- calc.py:138-145: at most `maxiter` extensions while the pressure at the lowest density is above the
wanted one. -/
def extend (P : K → K) (pmin : K) (npts : ℕ) : ℕ → List K → List K
  | 0, r => r
  | n + 1, r =>
    match r with
    | [] => []
    | q :: r' => if P q > pmin then extend P pmin npts n (extendOnce npts (q :: r')) else q :: r'

/-- calc.py:21-152: specific volumes and pressures. -/
def arrays [FloorSemiring K] (P : K → K) (o : Opts K) (given : Option K) (eosMax : K) :
    Except PyErr (List K × List K) :=
  match base o (chosenMax given eosMax) with
  | .error e => .error e
  | .ok r =>
    let r' := (extend P o.pmin o.npts o.maxiter r).reverse
    .ok (r'.map (1 / ·), r'.map P)

end Verif.PressureVolume
