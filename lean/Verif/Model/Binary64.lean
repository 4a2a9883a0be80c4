import Verif.Basic.Py
import Mathlib.Data.Int.Log
import Mathlib.Data.Rat.Floor

/-!
# Double precision, and the test of `calc_new_mole_fractions` and `equilibrium_objective` that mole
fractions add up to one (`thermodynamics/calc.py`)

Here numbers are rounded as the machine rounds them.  A double is the rational number it stands for;
results beyond the largest double do not occur for mole fractions and are not modelled, and neither
are infinities and NaN.
-/

namespace Verif.Binary64

/-- Round to the nearest integer, halves to the even one.
For the arithmetic in calc.py:975-976 and 1024-1025; a definition of the IEEE standard, not of the code. -/
def rnd (q : ℚ) : ℤ :=
  let f := ⌊q⌋
  if q - f < 1 / 2 then f
  else if 1 / 2 < q - f then f + 1
  else if f % 2 = 0 then f else f + 1

/-- The exponent of the last place of the doubles around `q`: 53 significant digits, and never finer
than the spacing of the subnormal numbers. For calc.py:975-976 and 1024-1025. -/
def lastPlace (q : ℚ) : ℤ := max (Int.log 2 |q| - 52) (-1074)

/-- The double nearest to `q`: every literal of the input, and every sum, product or quotient of two
doubles, is rounded like this. For calc.py:975-976 and 1024-1025. -/
def fl (q : ℚ) : ℚ := if q = 0 then 0 else rnd (q / 2 ^ lastPlace q) * 2 ^ lastPlace q

/-- numpy's `sum` of fewer than eight numbers, from left to right (also the tail of longer sums).
Called in calc.py:975 and 1024. -/
def seqSum (s : ℚ) (l : List ℚ) : ℚ := l.foldl (fun s x => fl (s + x)) s

/-- numpy's `sum` of at least eight numbers: accumulator `j` of eight, over `m` full blocks.
Called in calc.py:975 and 1024. -/
def accum (l : List ℚ) (m j : ℕ) : ℚ :=
  (List.range (m - 1)).foldl (fun s i => fl (s + l.getD (8 * (i + 1) + j) 0)) (l.getD j 0)

/-- `np.sum` of a one-dimensional array of doubles (the routine splits arrays of more than 128 numbers
first; that is left out). Used in calc.py:975-976 and 1024-1025. -/
def npSum (l : List ℚ) : ℚ :=
  if l.length < 8 then seqSum 0 l
  else
    let m := l.length / 8
    let r := accum l m
    let res := fl (fl (fl (r 0 + r 1) + fl (r 2 + r 3)) + fl (fl (r 4 + r 5) + fl (r 6 + r 7)))
    seqSum res (l.drop (8 * m))

/-- calc.py:975-976 and 1024-1025: the mole fractions are refused unless their sum is one, compared
without a tolerance. -/
def checkFractions (x : List ℚ) : Except PyErr Unit :=
  if npSum x ≠ 1 then .error .valueError else .ok ()

end Verif.Binary64
