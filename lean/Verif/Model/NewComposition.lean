import Verif.Model.Composition

/-!
# `despasito/thermodynamics/calc.py:2409-2638, 2704-2795`: new guesses for the composition of a binary phase

The objective function (`objective_find_yi`, `objective_find_xi`) is a parameter from a mole fraction to its value (`none` for NaN)
and flag.  The Akima spline of scipy is represented by the roots of its derivative and by the sign of its
curvature.
-/

namespace Verif.NewComposition
open Verif

variable {K : Type} [Field K] [LinearOrder K]

/-- Objective and flag of a first mole fraction. Used in calc.py:2593-2622. -/
abbrev Obj (K : Type) := K → Except PyErr (Option K × ℕ)

/-- One bound with its objective and flag. Used in calc.py:2596-2615. -/
structure End (K : Type) where
  b : K
  obj : Option K
  flag : ℕ

/-- A comparison with NaN is false. Used in calc.py:2596-2615. -/
def ltO (a b : Option K) : Bool :=
  match a, b with
  | some x, some y => decide (x < y)
  | _, _ => false

/-- calc.py:2596-2615: one bisection: new ends and the flag `flag_high_vapor`. -/
def bisect (tol : K) (e0 e1 : End K) (high : Bool) (m : End K) : Except PyErr (End K × End K × Bool) :=
  if !high then
    if e0.flag = m.flag then
      if m.flag = 0 ∧ ltO (some (1 / tol)) m.obj then .ok (e0, m, true) else .ok (m, e1, false)
    else if e1.flag = m.flag then
      if m.flag = 0 ∧ ltO (some (1 / tol)) m.obj then .ok (e1, m, true) else .ok (e0, m, false)
    else .error .indexError
  else if ltO m.obj e0.obj then .ok (m, e1, true) else .ok (e0, m, true)

/-- calc.py:2593-2622: the iterations. -/
def bracketLoop (obj : Obj K) (tol : K) : ℕ → End K → End K → Bool → Except PyErr (End K × End K)
  | 0, e0, e1, _ => .ok (e0, e1)
  | n + 1, e0, e1, high => do
    let y := (e0.b + e1.b) / 2
    let (o, f) ← obj y
    let (e0', e1', high') ← bisect tol e0 e1 high ⟨y, o, f⟩
    if |e1'.b - e0'.b| < tol then .ok (e0', e1') else bracketLoop obj tol n e0' e1' high'

/-- calc.py:2624-2630: the end that is returned.  The smaller objective is looked up with `==`, which finds nothing if
one of them is NaN. -/
def chooseEnd (e0 e1 : End K) : Except PyErr (End K) :=
  if e0.flag = 0 ∧ e1.flag ≠ 0 then .ok e0
  else if e0.flag ≠ 0 ∧ e1.flag = 0 then .ok e1
  else
    match e0.obj, e1.obj with
    | some a, some b => if a ≤ b then .ok e0 else .ok e1
    | _, _ => .error .indexError

/-- calc.py:2531-2638 `bracket_bounding_yi` for two bounds. -/
def bracket (obj : Obj K) (b0 b1 tol : K) (maxiter : ℕ) : Except PyErr (List K × ℕ) := do
  let (o0, f0) ← obj b0
  let (o1, f1) ← obj b1
  if f0 = f1 then .ok ([b1, 1 - b1], f1)
  else
    let (e0, e1) ← bracketLoop obj tol maxiter ⟨b0, o0, f0⟩ ⟨b1, o1, f1⟩ false
    let e ← chooseEnd e0 e1
    if maxiter = 0 then .error .unboundLocal
    else .ok ([e.b, 1 - e.b], e.flag)

/-- Roots of the derivative of the spline and curvature there. Used in calc.py:2468-2484, 2761-2775. -/
structure Spline (K : Type) where
  roots : List K
  curv : K → K

/-- `min(l)` of python: `none` for the empty list. Used in calc.py:2488, 2511 and 2778. -/
def minL : List K → Option K
  | [] => none
  | a :: r => some (r.foldl min a)

/-- The first position of the smallest value of `f`, `np.where(v == min(v))[0][0]`, as an element.
Used in calc.py:2492-2517. -/
def argmin {α : Type} (f : α → K) : List α → Option α
  | [] => none
  | a :: r => some (r.foldl (fun m x => if f x < f m then x else m) a)

/-- The list without the first position of the smallest value of `f`. Used in calc.py:2409-2528. -/
def dropArgmin (f : K → K) (l : List K) : List K :=
  match minL (l.map f) with
  | none => l
  | some m => l.eraseIdx (l.findIdx fun x => decide (f x = m))

/-- calc.py:2448-2466, 2741-2759: the grid with objectives, NaN removed. -/
def valid (obj : Obj K) : List K → Except PyErr (List (K × K))
  | [] => .ok []
  | y :: r => do
    let (o, _) ← obj y
    let t ← valid obj r
    match o with
    | none => .ok t
    | some v => .ok ((y, v) :: t)

/-- calc.py:2468-2484, 2761-2775: minima among several stationary points, with the ends of the grid where the objective decreases towards
them. -/
def minima (S : Spline K) (g : List (K × K)) : List K :=
  let inner := S.roots.filter fun r => decide (0 < S.curv r)
  let first := match g with
    | (y, v) :: (_, w) :: _ => if v < w then [y] else []
    | _ => []
  let last := match g.reverse with
    | (y, v) :: (_, w) :: _ => if v < w then [y] else []
    | _ => []
  first ++ inner ++ last

/-- calc.py:2497-2507: a candidate with objective and flag; see `notLiquid` about NaN. -/
def evalAt (obj : Obj K) (y : K) : Except PyErr (K × K × ℕ) := do
  let (o, f) ← obj y
  match o with
  | none => .error .indexError
  | some v => .ok (y, v, f)

/-- calc.py:2492-2517: among several remaining minima of a vapour the one with the lowest objective that is not a liquid, or with the
lowest objective if all are.  NaN objectives, with which python's `min` depends on the order, are refused. -/
def notLiquid (obj : Obj K) (l : List K) : Except PyErr (List K) :=
  if 1 < l.length then do
    let e ← l.mapM (evalAt obj)
    let nl := e.filter fun p => decide (p.2.2 ≠ 1)
    let pick := if nl.isEmpty then e else nl
    match argmin (fun p => p.2.1) pick with
    | none => .error .indexError
    | some p => .ok [p.1]
  else .ok l

/-- calc.py:2409-2528 `find_new_yi` (`vap = true`) and 2704-2795 `find_new_xi` (`vap = false`) with the first
mole fraction `feed` of the other phase.  The spline needs two points.  A zero `feed` makes all
distances infinite in numpy and all zero here, and the first minimum is discarded in both. -/
def findNew (vap : Bool) (obj : Obj K) (grid : List K) (spline : List (K × K) → Spline K) (feed : K) :
    Except PyErr (Option (List K)) := do
  let g ← valid obj grid
  match g with
  | [] => .ok none
  | [_] => .error .valueError
  | _ =>
    let S := spline g
    let mins ← (if 1 < S.roots.length then
      let ms := minima S g
      if ms = [] then .error .valueError
      else
        let rest := dropArgmin (fun y => |y - feed| / feed) ms
        if vap then notLiquid obj rest else .ok rest
      else .ok S.roots)
    match mins with
    | y :: _ => .ok (some [y, 1 - y])
    | [] =>
      match argmin (fun p => |p.2|) g with
      | none => .error .indexError
      | some p => .ok (some [p.1, 1 - p.1])

end Verif.NewComposition
