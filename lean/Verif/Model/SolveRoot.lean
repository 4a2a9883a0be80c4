import Verif.Basic.Py

/-!
# `despasito/utils/general_toolbox.py:11-215` `solve_root`: selection of the solver

Everything up to the call of scipy is modelled: which exception is raised, or which scipy solver is
called with which guess and which bounds.  The numerical solver itself is external.  The `options`
dictionary only passes tolerances to scipy and is not modelled.
-/

namespace Verif.SolveRoot
open Verif

/-- Method names; `other` is any string that is not in the list at general_toolbox.py:40-59. -/
inductive Meth where
  | brentq | leastSquares | tnc | lbfgsb | slsqp | hybr | lm | linearmixing | diagbroyden
  | excitingmixing | krylov | dfSane | anderson | hybrBroyden1 | hybrBroyden2 | broyden1
  | broyden2 | bisect
  | other (s : String)
  deriving DecidableEq, Repr

/-- The initial guess: `None`, a number, or an array of `n` numbers. Used in general_toolbox.py:112-205. -/
inductive Guess where
  | none | scalar | vec (n : Nat)
  deriving DecidableEq, Repr

/-- `np.size(x0)`; note `np.size(None) = 1`. Used in general_toolbox.py:88-90. -/
def Guess.size : Guess → Nat
  | .none => 1
  | .scalar => 1
  | .vec n => n

/-- One element of the `bounds` argument: `None`, a number, or a sequence. Used in general_toolbox.py:92-93. -/
inductive Item (ν : Type) where
  | none
  | num (v : ν)
  | seq (l : List (Option ν))
  deriving DecidableEq, Repr

/-- The `bounds` argument: `None`, or a sequence of items; `mutable` is false for a python tuple.
Used in general_toolbox.py:92-93. -/
inductive Bounds (ν : Type) where
  | none
  | seq (mutable : Bool) (items : List (Item ν))
  deriving DecidableEq, Repr

/-- A row of `bounds` once it has been normalised to a sequence of rows
(general_toolbox.py:92-93). -/
inductive Row (ν : Type) where
  | none
  | num (v : ν)
  | row (l : List (Item ν))
  deriving DecidableEq, Repr

/-- `isiterable` of an item, general_toolbox.py:269-294. -/
def Item.isiterable {ν : Type} : Item ν → Bool
  | .seq _ => true
  | _ => false

/-- An `Option` number as an item. Used in general_toolbox.py:67-78. -/
def Item.ofOption {ν : Type} : Option ν → Item ν
  | Option.none => .none
  | some v => .num v

/-- Reading an item as a row of nested bounds. Used in general_toolbox.py:92-93. -/
def Item.toRow {ν : Type} : Item ν → Row ν
  | .none => .none
  | .num v => .num v
  | .seq l => .row (l.map Item.ofOption)

/-- What is handed to scipy: the solver, the guess and the bounds (`none` when no bounds argument is
passed to the solver). Used in general_toolbox.py:112-205. -/
structure Call (ν : Type) where
  solver : Meth
  guess : Guess
  bounds : Option (List (List (Item ν)))
  deriving DecidableEq, Repr

/-- general_toolbox.py:67-78: methods that are replaced when no guess is given. -/
def replacedWithoutGuess (m : Meth) : Bool :=
  m ∈ [.broyden1, .broyden2, .anderson, .hybr, .lm, .linearmixing, .diagbroyden, .excitingmixing,
    .krylov, .dfSane]

/-- general_toolbox.py:88, 95, 208: the bracketing methods. -/
def isBracket (m : Meth) : Bool := m ∈ [.brentq, .bisect]

/-- general_toolbox.py:40-60. -/
def whitelisted : Meth → Bool
  | .other _ => false
  | _ => true

/-- general_toolbox.py:92-93: `if not isiterable(bounds[0]): bounds = [bounds]`.
`None[0]` is a `TypeError`, `[][0]` an `IndexError`. The result carries whether item assignment
works. -/
def normalise {ν : Type} : Bounds ν → Except PyErr (Bool × List (Row ν))
  | .none => .error .typeError
  | .seq _ [] => .error .indexError
  | .seq mu (i :: r) =>
    if i.isiterable then .ok (mu, (i :: r).map Item.toRow) else .ok (true, [.row (i :: r)])

/-- general_toolbox.py:105-110: the loop that checks each row and stores it back as a tuple. -/
def checkRows {ν : Type} (mu : Bool) : List (Row ν) → Except PyErr (List (List (Item ν)))
  | [] => .ok []
  | .none :: _ => .error .typeError
  | .num _ :: _ => .error .typeError
  | .row l :: r =>
    if l.length ≠ 2 then .error .valueError
    else if mu = false then .error .typeError
    else match checkRows mu r with
      | .error e => .error e
      | .ok rs => .ok (l :: rs)

/-- general_toolbox.py:112-205: dispatch.  `hybr_broyden1/2` have no branch, so that `sol` is unbound
at line 209.  The minimisers only receive bounds when there are exactly two rows. -/
def dispatch {ν : Type} (m : Meth) (x0 : Guess) (rows : List (List (Item ν))) :
    Except PyErr (Call ν) :=
  match m with
  | .broyden1 | .broyden2 | .anderson | .hybr | .lm | .linearmixing | .diagbroyden
  | .excitingmixing | .krylov | .dfSane => .ok ⟨m, x0, none⟩
  | .tnc | .lbfgsb | .slsqp => .ok ⟨m, x0, if rows.length = 2 then some rows else none⟩
  | .brentq | .bisect => .ok ⟨m, x0, some rows⟩
  | .leastSquares => .ok ⟨m, x0, some rows⟩
  | .hybrBroyden1 | .hybrBroyden2 | .other _ => .error .unboundLocal

/-- general_toolbox.py:67-86: replacement when the guess is missing. -/
def replaceGuess {ν : Type} (m : Meth) (x0 : Guess) (b : Bounds ν) : Except PyErr Meth :=
  if x0 = .none ∧ replacedWithoutGuess m = true then
    match b with
    | .none => .error .valueError
    | .seq _ _ => .ok .bisect
  else .ok m

/-- general_toolbox.py:88-90: bracketing methods are replaced for vector problems. -/
def replaceVector (m : Meth) (x0 : Guess) : Meth :=
  if x0.size > 1 ∧ isBracket m = true then .leastSquares else m

/-- general_toolbox.py:95-103: the test `x is None` is applied to whole rows. -/
def replaceBounds {ν : Type} [DecidableEq ν] (m : Meth) (x0 : Guess) (rows : List (Row ν)) :
    Except PyErr Meth :=
  if (rows.any (fun r => r = Row.none)) = true ∧ isBracket m = true then
    if x0 = .none then .error .valueError else .ok .hybr
  else .ok m

/-- general_toolbox.py:11-205 `solve_root`, up to the call of scipy. -/
def solveRoot {ν : Type} [DecidableEq ν] (m : Meth) (x0 : Guess) (b : Bounds ν) :
    Except PyErr (Call ν) :=
  if whitelisted m = false then .error .valueError
  else
    match replaceGuess m x0 b with
    | .error e => .error e
    | .ok m1 =>
      let m2 := replaceVector m1 x0
      match normalise b with
      | .error e => .error e
      | .ok (mu, rows) =>
        match replaceBounds m2 x0 rows with
        | .error e => .error e
        | .ok m3 =>
          match checkRows mu rows with
          | .error e => .error e
          | .ok rs => dispatch m3 x0 rs

end Verif.SolveRoot
