import Verif.Basic.Py
import Mathlib.Data.List.Sort
import Mathlib.Data.List.Dedup

/-!
# Points for plots

`thermodynamics/calc.py:1041-1064` `_clean_plot_data`.  Numbers are exact; NaN is `none`.
-/

namespace Verif.PlotData
open Verif

variable {K V : Type} [LinearOrder K]

/-- calc.py:1061: `np.sort(np.array(list(set(x_old))))` without the NaN, which `np.sort` puts at the end. -/
def sortedSet (x : List (Option K)) : List K := (x.filterMap id).dedup.insertionSort (· ≤ ·)

/-- calc.py:1062: the entry of `y_old` at the first place where `x_old` equals `x`. -/
def pick (x : List (Option K)) (y : List V) (v : K) : Except PyErr V :=
  match x.findIdx? (· == some v) with
  | none => .error .indexError
  | some i => match y[i]? with
    | none => .error .indexError
    | some w => .ok w

/-- calc.py:1041-1064 `_clean_plot_data`.  NaN differs from every entry, so that no place is found for it. -/
def clean (x : List (Option K)) (y : List V) : Except PyErr (List K × List V) := do
  let ys ← (sortedSet x).mapM (pick x y)
  if none ∈ x then .error .indexError else .ok (sortedSet x, ys)

end Verif.PlotData
