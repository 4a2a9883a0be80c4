import Verif.Basic.Py
import Mathlib.Algebra.Ring.Defs
import Mathlib.Order.Defs.LinearOrder

/-!
# `despasito/equations_of_state/eos_toolbox.py`: library helpers
-/

namespace Verif.EosToolbox
open Verif

/-! ## `remove_insignificant_components`, eos_toolbox.py:10-40 -/

/-- eos_toolbox.py:30-36: the loop, at position `i` of `xi_old`; the index set is the set of
positions with `xi < eps`. A mass that does not exist is an `IndexError`. -/
def removeLoop {K : Type} [LinearOrder K] (eps : K) (massi : List K) :
    Nat → List K → Except PyErr (List K × List K)
  | _, [] => .ok ([], [])
  | i, x :: r =>
    if x < eps then removeLoop eps massi (i + 1) r
    else match massi[i]? with
      | none => .error .indexError
      | some m =>
        match removeLoop eps massi (i + 1) r with
        | .error e => .error e
        | .ok (xs, ms) => .ok (x :: xs, m :: ms)

/-- eos_toolbox.py:10-40. -/
def removeInsignificant {K : Type} [LinearOrder K] (eps : K) (xi massi : List K) :
    Except PyErr (List K × List K) := removeLoop eps massi 0 xi

/-! ## `calc_massi`, eos_toolbox.py:136-167 -/

/-- eos_toolbox.py:159-165: mass of one molecule. `lib` is the group library, `PyDict` of parameters
per group. -/
def massRow {β K : Type} [DecidableEq β] [Semiring K] (lib : PyDict β (PyDict String K)) :
    List β → List K → Except PyErr K
  | [], _ => .ok 0
  | b :: bs, row =>
    match lib.get? b with
    | none => .error .keyError
    | some d =>
      match d.get? "mass" with
      | none => .error .valueError
      | some m =>
        match row with
        | [] => .error .indexError
        | c :: cs =>
          match massRow lib bs cs with
          | .error e => .error e
          | .ok s => .ok (c * m + s)

/-- eos_toolbox.py:159-167. -/
def calcMassi {β K : Type} [DecidableEq β] [Semiring K] (lib : PyDict β (PyDict String K))
    (beads : List β) : List (List K) → Except PyErr (List K)
  | [] => .ok []
  | row :: rows =>
    match massRow lib beads row with
    | .error e => .error e
    | .ok m =>
      match calcMassi lib beads rows with
      | .error e => .error e
      | .ok ms => .ok (m :: ms)

/-! ## `extract_property`, eos_toolbox.py:170-208 -/

/-- eos_toolbox.py:198-208. -/
def extractProperty {β K : Type} [DecidableEq β] (prop : String)
    (lib : PyDict β (PyDict String K)) (default : Option K) : List β → Except PyErr (List K)
  | [] => .ok []
  | b :: bs =>
    match lib.get? b with
    | none => .error .keyError
    | some d =>
      match d.get? prop, default with
      | some v, _ =>
        match extractProperty prop lib default bs with
        | .error e => .error e
        | .ok vs => .ok (v :: vs)
      | none, some v =>
        match extractProperty prop lib default bs with
        | .error e => .error e
        | .ok vs => .ok (v :: vs)
      | none, none => .error .valueError

/-! ## `check_bead_parameters`, eos_toolbox.py:211-249

The outer dictionary is copied but the parameter dictionaries of the groups are shared with the
caller, so the function returns the caller's library after the call as well. -/

/-- eos_toolbox.py:236-247: defaults of one group. Result: the group's dictionary after the loop
(also after an exception), and the exception if any. -/
def fillBead {K : Type} : List (String × Option K) → PyDict String K →
    PyDict String K × Option PyErr
  | [], d => (d, none)
  | (p, dflt) :: r, d =>
    if d.contains p then fillBead r d
    else match dflt with
      | some v => fillBead r (d.set p v)
      | none => (d, some .valueError)

/-- eos_toolbox.py:233-247: the loop over the groups; groups after a failing one are untouched. -/
def fillLib {β K : Type} (defaults : List (String × Option K)) :
    List (β × PyDict String K) → List (β × PyDict String K) × Option PyErr
  | [] => ([], none)
  | (b, d) :: r =>
    match fillBead defaults d with
    | (d', some e) => ((b, d') :: r, some e)
    | (d', none) =>
      let rest := fillLib defaults r
      ((b, d') :: rest.1, rest.2)

/-- eos_toolbox.py:211-249. First component: the library of the caller after the call. -/
def checkBeadParameters {β K : Type} (lib : PyDict β (PyDict String K))
    (defaults : PyDict String (Option K)) :
    PyDict β (PyDict String K) × Except PyErr (PyDict β (PyDict String K)) :=
  match fillLib defaults.entries lib.entries with
  | (l, none) => (⟨l⟩, .ok ⟨l⟩)
  | (l, some e) => (⟨l⟩, .error e)

end Verif.EosToolbox
