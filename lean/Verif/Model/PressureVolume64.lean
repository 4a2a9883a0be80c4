import Verif.Model.Binary64
import Verif.Model.PressureVolume

/-!
# `despasito/thermodynamics/calc.py:21-152` `pressure_vs_volume_arrays` in double precision

The same steps as in `Model/PressureVolume.lean`, with every result rounded as the machine rounds it.  Doubles are the rational
numbers they stand for; overflow is left out.  The pressure is a function `P` of one density.
-/

namespace Verif.PressureVolume64
open Verif Verif.Binary64 Verif.PressureVolume

/-- Entry `i` of `np.arange(a, _, s)`: numpy computes the second entry, takes its difference to the first one as the step, and
multiplies. Used in calc.py:118-124. -/
def entry (a s : ℚ) : ℕ → ℚ
  | 0 => a
  | 1 => fl (a + s)
  | i + 2 => fl (a + fl (((i + 2 : ℕ) : ℚ) * fl (fl (a + s) - a)))

/-- `np.arange(a, b, s)` of doubles. Used in calc.py:118-124. -/
def arange (a b s : ℚ) : List ℚ := (List.range ⌈fl (fl (b - a) / s)⌉₊).map (entry a s)

/-- calc.py:120: the differences of consecutive specific volumes. -/
def vspace (r : List ℚ) : List ℚ := List.zipWith (fun a b => fl (fl (1 / a) - fl (1 / b))) r r.tail

/-- calc.py:119-124: the part of the densities up to the last large step is replaced by an even grid in the volume. -/
def regrid (minrho dv : ℚ) (r : List ℚ) : Except PyErr (List ℚ) :=
  if (vspace r).isEmpty then .error .valueError
  else
    match (whereBig dv (vspace r)).getLast? with
    | none => .ok r
    | some k =>
      match r[k + 1]? with
      | none => .error .indexError
      | some q =>
        .ok (((arange (fl (1 / q)) (fl (1 / minrho)) dv).reverse.map fun v => fl (1 / v)) ++ r.drop (k + 2))

/-- calc.py:106-133: the densities before the extension to low pressures, in increasing order. -/
def base (o : Opts ℚ) (rmax : ℚ) : Except PyErr (List ℚ) :=
  let minrho := fl (rmax * o.minFrac)
  if rmax > 100000 then .error .valueError
  else if fl (rmax - minrho) < o.inc then .error .valueError
  else
    match regrid minrho o.dv (arange minrho rmax o.inc) with
    | .error e => .error e
    | .ok r => if r.length > o.maxLen then .error .valueError else .ok r

/-- Entry `i` of `np.linspace(q / 2, q, npts)`, which multiplies the index by the rounded step. Used in calc.py:140. -/
def point (npts : ℕ) (q : ℚ) (i : ℕ) : ℚ := fl (fl ((i : ℚ) * fl (fl (q - fl (q / 2)) / ((npts : ℚ) - 1))) + fl (q / 2))

/-- calc.py:140-143: one extension, `np.linspace(rho0 / 2, rho0, npts)[:-1]` in front. -/
def extendOnce (npts : ℕ) : List ℚ → List ℚ
  | [] => []
  | q :: r => (List.range (npts - 1)).map (point npts q) ++ q :: r

/-- calc.py:138-145: at most `maxiter` extensions while the pressure at the lowest density is above the wanted one. -/
def extend (P : ℚ → ℚ) (pmin : ℚ) (npts : ℕ) : ℕ → List ℚ → List ℚ
  | 0, r => r
  | n + 1, r =>
    match r with
    | [] => []
    | q :: r' => if P q > pmin then extend P pmin npts n (extendOnce npts (q :: r')) else q :: r'

/-- calc.py:21-152: specific volumes and pressures. -/
def arrays (P : ℚ → ℚ) (o : Opts ℚ) (given : Option ℚ) (eosMax : ℚ) : Except PyErr (List ℚ × List ℚ) :=
  match base o (chosenMax given eosMax) with
  | .error e => .error e
  | .ok r =>
    let r' := (extend P o.pmin o.npts o.maxiter r).reverse
    .ok (r'.map fun ρ => fl (1 / ρ), r'.map P)

end Verif.PressureVolume64
