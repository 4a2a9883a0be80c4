import Verif.Basic.Py

/-!
# `despasito/equations_of_state/eos_toolbox.py:252-319` `cross_interaction_from_dict`

The group library is a partial function from group and parameter to value, the cross library a
partial function from two groups and a parameter (the nested `.get` calls of lines 290-293), the
combining rule (`combining_rules`, lines 365-409) an arbitrary function that returns a list of
(parameter, value) pairs or raises.  Matrices are functions of parameter, row and column.
-/

namespace Verif.CrossInteraction
open Verif

/-- The arguments of the function. Used in eos_toolbox.py:281-288. -/
structure Input (β κ ν : Type) where
  beads : List β
  /-- the keys of `combining_dict` -/
  keys : List κ
  self : β → κ → Option ν
  cross : β → β → κ → Option ν
  rule : κ → β → β → Except PyErr (List (κ × ν))
  /-- what is raised when the rule fails: the `ValueError` of lines 305-313, unless building its
  message fails -/
  onFail : κ → PyErr := fun _ => .valueError

variable {β κ ν : Type} [DecidableEq κ]

/-- Matrices by parameter. Used in eos_toolbox.py:281-288. -/
abbrev Mats (κ ν : Type) := κ → Nat → Nat → ν

/-- `output[key][i, j] = v`. Used in eos_toolbox.py:314-316. -/
def setM (M : Mats κ ν) (key : κ) (i j : Nat) (v : ν) : Mats κ ν :=
  fun key' i' j' => if key' = key ∧ i' = i ∧ j' = j then v else M key' i' j'

/-- eos_toolbox.py:281-288: zero matrices with the self parameters on the diagonal; a missing
self parameter is a `KeyError`. -/
def initDiag [Zero ν] (inp : Input β κ ν) : Except PyErr (Mats κ ν) :=
  if inp.keys.all (fun key => inp.beads.all (fun b => (inp.self b key).isSome)) then
    .ok fun key i j =>
      if key ∈ inp.keys ∧ i = j then ((inp.beads[i]?).bind (inp.self · key)).getD 0 else 0
  else .error .keyError

/-- eos_toolbox.py:314-316: all values returned by the rule are stored symmetrically; a parameter
without matrix is a `KeyError`. -/
def storeAll (keys : List κ) (i j : Nat) : List (κ × ν) → Mats κ ν → Except PyErr (Mats κ ν)
  | [], M => .ok M
  | (k2, v2) :: r, M =>
    if k2 ∈ keys then storeAll keys i j r (setM (setM M k2 i j v2) k2 j i v2)
    else .error .keyError

/-- eos_toolbox.py:293-317: one parameter of one pair. -/
def pairStep (inp : Input β κ ν) (i j : Nat) (bi bj : β) (key : κ) (M : Mats κ ν) :
    Except PyErr (Mats κ ν) :=
  match inp.cross bi bj key with
  | some v => .ok (setM (setM M key i j v) key j i v)
  | none =>
    match inp.cross bj bi key with
    | some v => .ok (setM (setM M key i j v) key j i v)
    | none =>
      match inp.rule key bi bj with
      | .error _ => .error (inp.onFail key)
      | .ok l =>
        match storeAll inp.keys i j l M with
        | .error e => .error e
        | .ok M' => .ok (setM M' key j i (M' key i j))

/-- The loop over the triples (pair with `j > i`, parameter) in the order of lines 288-291.
Used in eos_toolbox.py:252-319. -/
def triples (inp : Input β κ ν) : List (Nat × Nat × κ) :=
  (List.range inp.beads.length).flatMap fun i =>
    ((List.range inp.beads.length).filter (fun j => decide (j > i))).flatMap fun j =>
      inp.keys.map fun key => (i, j, key)

/-- One step of the loop. eos_toolbox.py:290-317. -/
def tripleStep (inp : Input β κ ν) (M : Mats κ ν) (t : Nat × Nat × κ) : Except PyErr (Mats κ ν) :=
  match inp.beads[t.1]?, inp.beads[t.2.1]? with
  | some bi, some bj => pairStep inp t.1 t.2.1 bi bj t.2.2 M
  | _, _ => .error .indexError

/-- The whole loop. Used in eos_toolbox.py:252-319. -/
def loop (inp : Input β κ ν) : List (Nat × Nat × κ) → Mats κ ν → Except PyErr (Mats κ ν)
  | [], M => .ok M
  | t :: r, M =>
    match tripleStep inp M t with
    | .error e => .error e
    | .ok M' => loop inp r M'

/-- eos_toolbox.py:252-319. -/
def crossInteraction [Zero ν] (inp : Input β κ ν) : Except PyErr (Mats κ ν) :=
  match initDiag inp with
  | .error e => .error e
  | .ok M => loop inp (triples inp) M

end Verif.CrossInteraction
